import Verif.Model.ConvertForces

/-!
# Specification of C162
-/

namespace Phono3py

/-- The FORCE_SETS that phonopy should get: for every displacement its atom, its displacement and
the forces calculated for it. -/
def wantedSets {V K : Type} (shownD shown : V → V) (natom : Nat) (ds : List (Disp1 V K))
    (forces : List (List V)) : ForceSets V :=
  .type1 natom (List.zipWith
    (fun d f => ⟨d.number + 1, shownD d.displacement, f.map shown⟩) ds forces)

end Phono3py
