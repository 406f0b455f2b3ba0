/- Lattice Fourier sums of third-order force constants. -/
import Mathlib.Algebra.Order.Field.Basic
import Mathlib.Algebra.BigOperators.Group.Finset.Basic
import Mathlib.Data.Fintype.Basic
import Verif.Model.Complex
import Verif.Spec.Array

namespace Phono3py.Spec

section
variable {K : Type _} [Field K] [LinearOrder K] [IsStrictOrderedRing K]

/-- Place of element `(i, j, k, a, b, c)` in a row-major array of shape `(*, n, n, 3, 3, 3)`. -/
def fc3At (n : Nat) (i : Int) (j k a b c : Nat) : Int :=
  ((((i * n + j) * n + k) * 3 + a) * 3 + b) * 3 + c

/-- Complex conjugate. -/
def conj (z : Cplx K) : Cplx K := ⟨z.re, -z.im⟩

/-- `q . r`. -/
def dot (q r : Fin 3 → K) : K := ∑ x, q x * r x

/-- The mean of `e(q . r)` over a list of `count` equivalent vectors starting at `start`. -/
def meanPhase (e : K → Cplx K) (q : Fin 3 → K) (vecs : Int → Fin 3 → K) (count : Nat)
    (start : Int) : Cplx K :=
  (∑ x ∈ Finset.range count, e (dot q (vecs (start + x)))).scale (1 / count)

/-- Sum over the supercell atoms `j` of class `J` and `k` of class `L`. -/
def classSum (n : Nat) (cls : Nat → Int) (J L : Int) (f : Nat → Nat → Cplx K) : Cplx K :=
  ∑ j ∈ Finset.range n, ∑ k ∈ Finset.range n, if cls j = J ∧ cls k = L then f j k else 0

end
end Phono3py.Spec
