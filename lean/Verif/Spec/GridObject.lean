/-
Specification vocabulary for grids given by a matrix. Wave vectors are in reduced coordinates of
the primitive reciprocal lattice.
-/
import Verif.Spec.BZGrid

namespace Phono3py.Spec

section
variable {K : Type _} [Field K]

/-- `M q` for an integer matrix. -/
def intApply (M : M3) (q : Fin 3 → K) : Fin 3 → K :=
  fun i => (M.e i 0 : K) * q 0 + (M.e i 1 : K) * q 1 + (M.e i 2 : K) * q 2

/-- `q` belongs to the grid of the matrix `A` shifted by half of the microzone vectors selected by
`S`: `A q = n + S / 2` with integers `n`. For `A = diag(m)` this is `q_i = (n_i + S_i / 2) / m_i`. -/
def OnGrid (A : M3) (S : V3) (q : Fin 3 → K) : Prop :=
  ∀ i, ∃ n : Int, intApply A q i = (n : K) + (S.e i : K) / 2

/-- Two wave vectors differ by a reciprocal lattice vector. -/
def EquivalentQ (q q' : Fin 3 → K) : Prop := ∀ i, ∃ m : Int, q i = q' i + (m : K)

/-- The operation `R`, acting on reduced coordinates of wave vectors, carries the grid of the
matrix `A` with shift `S` to itself. -/
def KeepsGrid (K : Type _) [Field K] (A : M3) (S : V3) (R : M3) : Prop :=
  ∀ q : Fin 3 → K, OnGrid A S q → OnGrid A S (intApply R q)

end

end Phono3py.Spec
