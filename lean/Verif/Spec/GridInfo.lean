/-
Specification vocabulary for grid points and weights of a run.
-/
import Verif.Spec.RotatePoints

namespace Phono3py.Spec

open Classical in
/-- Number of grid points that the rotations carry the point of address `a` to. -/
noncomputable def starSize (G : List M3) (D PS a : V3) : Nat :=
  (List.range (D.x * D.y * D.z).toNat).countP fun (k : Nat) =>
    decide (SymEquiv G D PS a (gridAddressFromIndex k D))

/-- Every point of the grid is carried by the rotations to exactly one of the listed points. -/
def EachOnce (G : List M3) (D PS : V3) (bz : BZGridOut) (points : List Int) : Prop :=
  ∀ a : V3, ∃ j : Nat, (∃ p, points[j]? = some p ∧ SymEquiv G D PS a (bz.addresses p)) ∧
    ∀ (j' : Nat) p, points[j']? = some p → SymEquiv G D PS a (bz.addresses p) → j' = j

end Phono3py.Spec
