/-
What a user expects of the cells in a run.
-/
import Verif.Model.InitRun

namespace Phono3py.InitRun

variable {K X M : Type}

/-- A cell with its lengths in another unit: one old unit is `d` new units. -/
def InUnit [Mul K] (d : K) (c c' : Cell K X) : Prop :=
  c'.rest = c.rest ∧ ∀ i j, c'.lattice i j = c.lattice i j * d

/-- Making supercells does not depend on the unit of length. -/
def UnitFree [Mul K] (t : CellTools K X M) : Prop :=
  ∀ c c' m d, InUnit d c c' → InUnit d (t.build c m) (t.build c' m)

/-- Atoms of primitive cells do not depend on the unit of length. -/
def NumbersUnitFree [Mul K] (t : CellTools K X M) : Prop :=
  ∀ c c' m d, InUnit d c c' → t.numbers c' m = t.numbers c m

/-- A yaml file agrees with its own unit cell: supercells, if there are any, are those made from the
unit cell with the matrices, all in the unit of the file. -/
def OwnCells (t : CellTools K X M) (unitcell : Cell K X) (m : M) (y : YamlCells K X M) : Prop :=
  (∀ c, y.supercell = some c → c = t.build unitcell m) ∧
    ∀ c, y.phononSupercell = some c → ∃ mp, y.phononMatrix = some mp ∧ c = t.build unitcell mp

end Phono3py.InitRun
