/-
Specification vocabulary for fc3 made without the C library.
-/
import Verif.Spec.Fc3Solve

namespace Phono3py.Spec

/-- `S` is an inverse of the 3x3 matrix `R`. -/
def InverseOf {K : Type _} [Field K] (R S : Nat → Nat → K) : Prop :=
  ∀ a < 3, ∀ b < 3, ∑ k ∈ Finset.range 3, R a k * S k b = if a = b then 1 else 0

end Phono3py.Spec
