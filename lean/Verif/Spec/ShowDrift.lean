import Verif.Spec.Fc3
import Mathlib.Algebra.Order.AbsoluteValue.Basic

/-!
# The largest drift
-/

namespace Phono3py.Spec

/-- `p` is the largest sum of `f` over the atoms of leg `s`, with the directions at which it is found;
zero with the letters `xxx` when all are zero. -/
structure LargestDrift {K : Type} [Field K] [LinearOrder K] (n : Nat) (s : Fin 3) (f : Legs → K)
    (p : K × Nat × Nat × Nat) : Prop where
  bound : ∀ x, Legs.Valid n x → |drift n s f x| ≤ |p.1|
  attained : p = (0, 0, 0, 0) ∨
    ∃ x, Legs.Valid n x ∧ drift n s f x = p.1 ∧ ((x 0).2, (x 1).2, (x 2).2) = p.2

/-- The first two letters exchanged. -/
def exchangeLetters {K : Type} (p : K × Nat × Nat × Nat) : K × Nat × Nat × Nat :=
  (p.1, p.2.2.1, p.2.1, p.2.2.2)

end Phono3py.Spec
