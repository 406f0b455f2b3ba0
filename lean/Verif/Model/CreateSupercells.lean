import Verif.Model.Dataset
import Mathlib.Algebra.Order.Ring.Rat

/-!
# Runs that make supercells with displacements

`create_supercells_with_displacements` of `phono3py/cui/phono3py_script.py`, `create_phono3py_supercells` of
`phono3py/cui/create_supercells.py`, and the two generating methods of `phono3py/api_phono3py.py`.

The generators of displacements (symmetry-adapted and random), symfc's estimate of the number of
supercells, the construction of supercells and of displaced cells are parameters.
-/

namespace Phono3py

/-- Values of `is_plusminus` (`phono3py/api_phono3py.py:1231`). -/
inductive PlusMinus where
  | auto
  | yes
  | no
  deriving DecidableEq

/-- Values of `number_of_snapshots` other than `None` (`phono3py/api_phono3py.py:1233`). -/
inductive Snapshots where
  | auto
  | number (n : Int)
  deriving DecidableEq

/-- Calculator interfaces told apart by the default distance
(`phono3py/interface/calculator.py:57-65`). -/
inductive CalcKind where
  | qe
  | abinit
  | turbomole
  | crystal
  | other
  deriving DecidableEq

/-- `get_default_displacement_distance`, `phono3py/interface/calculator.py:57-65`. -/
def defaultDistance : CalcKind → ℚ
  | .qe => 6 / 100
  | .abinit => 6 / 100
  | .turbomole => 6 / 100
  | .crystal => 3 / 100
  | .other => 3 / 100

/-- The settings such a run goes by (`phono3py/cui/create_supercells.py:66-103`); `M` are supercell
matrices. -/
structure DispOptions (M : Type) where
  /-- `-d`. -/
  create : Bool
  /-- `--rd`. -/
  rd : Option Snapshots
  /-- `--rd-fc2`. -/
  rdFc2 : Option Snapshots
  /-- `--pm`. -/
  pm : PlusMinus
  /-- `--pm-fc2`. -/
  pmFc2 : PlusMinus
  /-- `--nodiag` not given. -/
  diagonal : Bool
  /-- `--amplitude`. -/
  distance : Option ℚ
  /-- `--cutoff-pair`. -/
  cutoff : Option ℚ
  /-- `--random-seed`. -/
  seed : Option Int
  /-- `--dim-fc2`. -/
  phononMatrix : Option M

/-- Cells `C`, datasets `D` and displaced cells `X` as made by phonopy and phono3py
(`phono3py/api_phono3py.py:1314-1352`, 1422-1453, 2424-2496). -/
structure DispMakers (M C D X : Type) where
  /-- The supercell. -/
  supercell : C
  /-- `get_supercell` of the unit cell and a matrix. -/
  phononSupercell : M → C
  /-- `get_third_order_displacements` and `direction_to_displacement`. -/
  pairs : C → PlusMinus → Bool → ℚ → Option ℚ → D
  /-- `get_least_displacements` and `directions_to_displacement_dataset`. -/
  singles : C → PlusMinus → Bool → ℚ → D
  /-- `get_random_displacements_dataset`: number, cell, distance, both signs, seed. -/
  random : Int → C → ℚ → Bool → Option Int → D
  /-- `estimate_numbers_of_supercells(orders=[3])[3]` with cutoff. -/
  estimate3 : C → Option ℚ → Int
  /-- `estimate_numbers_of_supercells(orders=[2])[2]`. -/
  estimate2 : C → Int
  /-- Displaced cells of a dataset, with gaps at excluded pairs. -/
  moved : C → D → List (Option X)
  /-- Displaced cells for fc2. -/
  movedFc2 : C → D → List X

section
variable {M C D X : Type}

/-- `number_of_snapshots is not None and (number_of_snapshots == "auto" or number_of_snapshots > 0)`
(`phono3py/api_phono3py.py:1314-1316`, 1422-1424). -/
def wantsRandom : Option Snapshots → Bool
  | none => false
  | some .auto => true
  | some (.number n) => decide (0 < n)

/-- `_number_of_snapshots` (`phono3py/api_phono3py.py:1317-1331`, 1425-1435). -/
def snapshotCount (estimate : Int) : Option Snapshots → Int
  | some (.number n) => n
  | _ => estimate * 2

/-- The seed handed on (`phono3py/api_phono3py.py:2687-2692`). -/
def usableSeed : Option Int → Option Int
  | none => none
  | some s => if 0 ≤ s ∧ s < 2 ^ 32 then some s else none

/-- `self._phonon_supercell` (`phono3py/api_phono3py.py:2391-2407`). -/
def phononCell (g : DispMakers M C D X) : Option M → C
  | none => g.supercell
  | some m => g.phononSupercell m

/-- `generate_fc2_displacements`, `phono3py/api_phono3py.py:1360-1454`; the number of snapshots is
estimated for `self._supercell`. -/
def makeFc2 (g : DispMakers M C D X) (matrix : Option M) (distance : ℚ) (pm : PlusMinus)
    (diagonal : Bool) (rd : Option Snapshots) (seed : Option Int) : D :=
  if wantsRandom rd then
    g.random (snapshotCount (g.estimate2 g.supercell) rd) (phononCell g matrix) distance
      (pm == .yes) (usableSeed seed)
  else g.singles (phononCell g matrix) pm diagonal distance

/-- The dataset for fc3 of `generate_displacements`, `phono3py/api_phono3py.py:1309-1352`. -/
def makeFc3 (g : DispMakers M C D X) (distance : ℚ) (cutoff : Option ℚ) (pm : PlusMinus)
    (diagonal : Bool) (rd : Option Snapshots) (seed : Option Int) : D :=
  if wantsRandom rd then
    g.random (snapshotCount (g.estimate3 g.supercell cutoff) rd) g.supercell distance (pm == .yes)
      (usableSeed seed)
  else g.pairs g.supercell pm diagonal distance cutoff

/-- What a run leaves behind: the datasets in `phono3py_disp.yaml` and the supercell files
(`phono3py/cui/create_supercells.py:118-160`, `phono3py/interface/phono3py_yaml.py:344-363`). -/
structure DispWritten (D X : Type) where
  /-- Displacements for fc3. -/
  dataset : D
  /-- Displacements for fc2. -/
  phononDataset : Option D
  /-- Numbered supercell files for fc3. -/
  fc3Files : List (Nat × X)
  /-- Numbered supercell files for fc2. -/
  fc2Files : List (Nat × X)

/-- `cell_info["phonon_supercell_matrix"]`, `phono3py/cui/phono3py_script.py:355-359`. -/
def matrixInForce (o : DispOptions M) (yaml : Option M) : Option M :=
  match o.phononMatrix with
  | some m => some m
  | none => yaml

/-- Whether a setting is true in Python (`phono3py/cui/create_supercells.py:93-96`). -/
def truthySnapshots : Option Snapshots → Bool
  | none => false
  | some .auto => true
  | some (.number n) => decide (n ≠ 0)

/-- The dataset for fc2 when `generate_displacements` has returned and after the call that may follow
(`phono3py/api_phono3py.py:1355-1358`, `phono3py/cui/create_supercells.py:84-103`). -/
def runFc2 (g : DispMakers M C D X) (o : DispOptions M) (matrix : Option M) (distance : ℚ) :
    Option D :=
  if truthySnapshots o.rdFc2 || o.phononMatrix.isSome then
    some (makeFc2 g matrix distance o.pmFc2 false o.rdFc2 o.seed)
  else if matrix.isSome then some (makeFc2 g matrix distance o.pm false none none)
  else none

/-- `create_phono3py_supercells`, `phono3py/cui/create_supercells.py:50-181`. -/
def createSupercells (g : DispMakers M C D X) (kind : CalcKind) (o : DispOptions M)
    (yaml : Option M) : DispWritten D X :=
  let distance := o.distance.getD (defaultDistance kind)
  let matrix := matrixInForce o yaml
  let dataset := makeFc3 g distance o.cutoff o.pm o.diagonal o.rd o.seed
  let phononDataset := runFc2 g o matrix distance
  { dataset := dataset
    phononDataset := phononDataset
    fc3Files := supercellFiles (g.moved g.supercell dataset)
    fc2Files := if matrix.isSome then
        supercellFiles (((phononDataset.map (g.movedFc2 (phononCell g matrix))).getD []).map some)
      else [] }

/-- `create_supercells_with_displacements`, `phono3py/cui/phono3py_script.py:538-588`: nothing happens
without one of three options. -/
def displacementRun (g : DispMakers M C D X) (kind : CalcKind) (o : DispOptions M)
    (yaml : Option M) : Option (DispWritten D X) :=
  if o.create || o.rd.isSome || o.rdFc2.isSome then some (createSupercells g kind o yaml) else none

end
end Phono3py
