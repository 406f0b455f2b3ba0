import Verif.Model.YamlDatasets

/-!
# Specification of C163
-/

namespace Phono3py

/-- The dataset was made for a supercell with `natom` atoms. -/
def MadeFor {A B C : Type} (natom : Option Nat) : StoredSet A B C → Prop
  | .pairs n _ => n = natom
  | .singles n _ => n = natom
  | .all _ => True

/-- The dataset is one for fc2: it has no pairs. -/
def NoPairs {A B C : Type} : StoredSet A B C → Prop
  | .pairs _ _ => False
  | _ => True

/-- The dataset is one for fc3 with pairs. -/
def HasPairs {A B C : Type} : StoredSet A B C → Prop
  | .pairs _ _ => True
  | _ => False

end Phono3py
