/-
Specification vocabulary for lattice bases. A basis is a 3x3 matrix with the basis vectors
in its columns.
-/
import Mathlib.Algebra.Order.Field.Basic
import Mathlib.Algebra.Order.Group.Unbundled.Abs

namespace Phono3py.Spec

section
variable {K : Type _} [Field K]

/-- Product of the basis vectors `i` and `j`. -/
def colDot (L : Fin 3 → Fin 3 → K) (i j : Fin 3) : K :=
  L 0 i * L 0 j + L 1 i * L 1 j + L 2 i * L 2 j

/-- The combination of the basis vectors with integer coefficients `n`. -/
def latticeVector (L : Fin 3 → Fin 3 → K) (n : Fin 3 → Int) : Fin 3 → K :=
  fun i => L i 0 * (n 0 : K) + L i 1 * (n 1 : K) + L i 2 * (n 2 : K)

/-- Two bases generate the same lattice. -/
def SameLattice (L L' : Fin 3 → Fin 3 → K) : Prop :=
  ∀ v : Fin 3 → K, (∃ n, latticeVector L n = v) ↔ (∃ n, latticeVector L' n = v)

/-- Signed volume `a · (b × c)` of the cell. -/
def cellVolume (L : Fin 3 → Fin 3 → K) : K :=
  L 0 0 * (L 1 1 * L 2 2 - L 2 1 * L 1 2) + L 1 0 * (L 2 1 * L 0 2 - L 0 1 * L 2 2) +
    L 2 0 * (L 0 1 * L 1 2 - L 1 1 * L 0 2)

variable [LinearOrder K]

/-- The conditions of a Niggli cell (International Tables A, 9.2.2), each with the tolerance
`eps`. `A = a·a`, `B = b·b`, `C = c·c`, `ξ = 2 b·c`, `η = 2 a·c`, `ζ = 2 a·b`. -/
structure NiggliCell (eps A B C ξ η ζ : K) : Prop where
  a_le_b : A ≤ B + eps
  b_le_c : B ≤ C + eps
  a_eq_b : |A - B| ≤ eps → |ξ| ≤ |η| + eps
  b_eq_c : |B - C| ≤ eps → |η| ≤ |ζ| + eps
  /-- all angles acute, or none -/
  signs : (eps < ξ ∧ eps < η ∧ eps < ζ) ∨ (ξ ≤ eps ∧ η ≤ eps ∧ ζ ≤ eps)
  xi : |ξ| ≤ B + eps
  xi_pos : |B - ξ| ≤ eps → ζ - eps ≤ 2 * η
  xi_neg : |B + ξ| ≤ eps → -eps ≤ ζ
  eta : |η| ≤ A + eps
  eta_pos : |A - η| ≤ eps → ζ - eps ≤ 2 * ξ
  eta_neg : |A + η| ≤ eps → -eps ≤ ζ
  zeta : |ζ| ≤ A + eps
  zeta_pos : |A - ζ| ≤ eps → η - eps ≤ 2 * ξ
  zeta_neg : |A + ζ| ≤ eps → -eps ≤ η
  diag : -eps ≤ ξ + η + ζ + A + B
  diag_eq : |ξ + η + ζ + A + B| ≤ eps → 2 * (A + η) + ζ ≤ eps

/-- `NiggliCell` for a basis. -/
def IsNiggli (eps : K) (L : Fin 3 → Fin 3 → K) : Prop :=
  NiggliCell eps (colDot L 0 0) (colDot L 1 1) (colDot L 2 2)
    (2 * colDot L 1 2) (2 * colDot L 0 2) (2 * colDot L 0 1)

/-- Minkowski reduced up to the tolerance `eps` on squared lengths: `a`, `b`, `c` in order of
length; adding or subtracting `a` does not shorten `b` or `c`, nor does adding or
subtracting `b` shorten `c`, nor does any `± a ± b` shorten `c`. -/
structure MinkowskiReduced (eps : K) (L : Fin 3 → Fin 3 → K) : Prop where
  a_le_b : colDot L 0 0 ≤ colDot L 1 1 + eps
  b_le_c : colDot L 1 1 ≤ colDot L 2 2 + eps
  b_a : 2 * |colDot L 0 1| ≤ colDot L 0 0 + eps
  c_a : 2 * |colDot L 0 2| ≤ colDot L 0 0 + eps
  c_b : 2 * |colDot L 1 2| ≤ colDot L 1 1 + eps
  c_ab : ∀ s t : K, (s = 1 ∨ s = -1) → (t = 1 ∨ t = -1) →
    colDot L 2 2 ≤ colDot L 2 2 + colDot L 0 0 + colDot L 1 1 +
      2 * (s * colDot L 0 2) + 2 * (t * colDot L 1 2) + 2 * (s * t * colDot L 0 1) + eps

end

end Phono3py.Spec
