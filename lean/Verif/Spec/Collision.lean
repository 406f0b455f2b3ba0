/-
Specification vocabulary for collision matrices.
-/
import Verif.Spec.Array
import Mathlib.Algebra.Group.Action.Defs
import Mathlib.Algebra.BigOperators.Group.Finset.Basic

namespace Phono3py.Spec

/-- Position in an array of shape `(n0, n1, n2, n3, n4, n5)`. -/
def at6 (n1 n2 n3 n4 n5 a b c d e f : Nat) : Nat :=
  ((((a * n1 + b) * n2 + c) * n3 + d) * n4 + e) * n5 + f

/-- The table `rot` of shape `(numRot, numGp)` lists the action of the finite group `G` on the
grid points: row `l` belongs to the operation `op l`. -/
def TableOf {G : Type _} [Group G] (numGp : Nat) {numRot : Nat} [MulAction G (Fin numGp)]
    (op : Fin numRot ≃ G) (rot : Int → Int) : Prop :=
  ∀ (l : Fin numRot) (n : Fin numGp),
    rot ((((l : Nat) * numGp + (n : Nat) : Nat)) : Int) = (((op l • n : Fin numGp) : Nat) : Int)

/-- The points `ir` lie in different stars. -/
def DifferentStars (G : Type _) [Group G] {numGp numIr : Nat} [MulAction G (Fin numGp)]
    (ir : Fin numIr → Fin numGp) : Prop :=
  ∀ k k' : Fin numIr, (∃ g : G, g • ir k = ir k') → k = k'

end Phono3py.Spec
