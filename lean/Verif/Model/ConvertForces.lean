import Verif.Model.CreateForceSets

/-!
# Model of `phono3py --cfs` and `phono3py --fs2f2`

`cui/create_force_sets.py:185-259`. FORCES_FC3 and FORCES_FC2 are those of `Model/CreateForceSets`.
The writer and the reader of phonopy's FORCE_SETS are not in this repository; a file is modelled by
the values read back from its digits. Paths, messages and the choice of the name of the yaml file
are not modelled; the yaml file is given by the values read from it.
-/

namespace Phono3py

/-- One displacement of a type-1 FORCE_SETS: the number of the atom counted from one, the
displacement and the forces on all atoms (as written by `write_FORCE_SETS` called at
cui/create_force_sets.py:249). -/
structure SetEntry (V : Type) where
  atom : Nat
  displacement : V
  forces : List V

/-- Content of FORCE_SETS (cui/create_force_sets.py:187 and 249): single displacements, or the
displacements and forces of all atoms for every supercell. -/
inductive ForceSets (V : Type) where
  | type1 (natom : Nat) (entries : List (SetEntry V))
  | type2 (displacements forces : List (List V))

/-- Entries of FORCE_SETS for the single displacements; a missing key `forces` raises
(call at cui/create_force_sets.py:249). `shownD` and `shown` give the values read back from the
printed digits of displacements and forces. -/
def setEntries {V K : Type} (shownD shown : V → V) : List (Disp1 V K) → Option (List (SetEntry V))
  | [] => some []
  | d :: ds =>
    d.forces.bind fun f =>
      (setEntries shownD shown ds).map fun r =>
        ⟨d.number + 1, shownD d.displacement, f.map shown⟩ :: r

/-- `write_FORCE_SETS(dataset)` of phonopy for a type-1 dataset
(called at cui/create_force_sets.py:249). -/
def writeForceSets {V K : Type} (shownD shown : V → V) (ds : DispDataset V K) :
    Option (ForceSets V) :=
  (setEntries shownD shown ds.first).map (.type1 ds.natom)

/-- `parse_FORCE_SETS` of phonopy (called at cui/create_force_sets.py:189). The entries have no
ids and no second atoms. -/
def parseForceSets {V K : Type} : ForceSets V → AnyDataset V K
  | .type1 natom es =>
    .type1 ⟨natom, [], none,
      es.map fun e => ⟨0, e.atom - 1, e.displacement, some e.forces, none, []⟩⟩
  | .type2 us fs => .type2 ⟨some us, some fs, none⟩

/-- What `--cfs` reads from phono3py_disp.yaml (cui/create_force_sets.py:229-236). -/
structure CfsYaml (S V K : Type) where
  dataset : Option (AnyDataset V K)
  matrix : Option S
  phononDataset : Option (AnyDataset V K)
  phononMatrix : Option S

/-- How `--cfs` ends: FORCE_SETS is written, the forces file is said to be readable by phonopy
(cui/create_force_sets.py:254-259), or an error (cui/create_force_sets.py:222-246). -/
inductive CfsOutcome (V : Type) where
  | written (f : ForceSets V)
  | readable
  | failed

/-- Whether the file has a line with numbers (phono3py/file_IO.py:1691-1697). -/
def hasNumbers {V : Type} : List (ForceLine V) → Bool
  | [] => false
  | .row _ :: _ => true
  | _ :: ls => hasNumbers ls

/-- `get_length_of_first_line(f) == 3` (phono3py/file_IO.py:1684-1700). Rows of a type-2 file have
six numbers. A file without numbers raises. -/
def firstLineOfThree {V : Type} : ForceFile V → Option Bool
  | .lines l => if hasNumbers l then some true else none
  | .sets _ fs => if fs.any (fun f => !f.isEmpty) then some false else none

/-- The choice of the file of forces (cui/create_force_sets.py:212-215). -/
def cfsFile {S V : Type} (dimFc2 : Option S) (fc3 fc2 : Option (ForceFile V)) :
    Option (ForceFile V) :=
  match dimFc2 with
  | some _ => fc2
  | none => fc3

/-- The choice of the displacements and the supercell matrix (cui/create_force_sets.py:230-235). -/
def cfsDataset {S V K : Type} (dimFc2 : Option S) (y : CfsYaml S V K) :
    Option (AnyDataset V K) × Option S :=
  match dimFc2 with
  | none => (y.dataset, y.matrix)
  | some _ => (y.phononDataset, y.phononMatrix)

/-- The check of the supercell matrix (cui/create_force_sets.py:237). -/
def matrixBad {S : Type} [DecidableEq S] (dimFc2 matrix : Option S) : Bool :=
  match matrix with
  | none => true
  | some m =>
    match dimFc2 with
    | none => false
    | some d => decide (d ≠ m)

/-- `parse_FORCES_FC2` and `write_FORCE_SETS` on the copied dataset
(cui/create_force_sets.py:248-249). The return value of the parser is dropped. No dataset and a
type-2 dataset have no key `natom` and raise. -/
def cfsWrite {V K : Type} (shownD shown : V → V) (ds : Option (AnyDataset V K))
    (l : List (ForceLine V)) : CfsOutcome V :=
  match ds with
  | some (.type1 d) =>
    match writeForceSets shownD shown (parseForcesFc2 none d l).1 with
    | some f => .written f
    | none => .failed
  | _ => .failed

/-- `create_FORCE_SETS_from_FORCES_FCx` (cui/create_force_sets.py:202-259). `dimFc2` is the matrix
of `--dim-fc2`; `fc3` and `fc2` are the files FORCES_FC3 and FORCES_FC2 if they exist. -/
def convertToForceSets {S V K : Type} [DecidableEq S] (shownD shown : V → V) (dimFc2 : Option S)
    (y : CfsYaml S V K) (fc3 fc2 : Option (ForceFile V)) : CfsOutcome V :=
  match cfsFile dimFc2 fc3 fc2 with
  | none => .failed
  | some f =>
    match firstLineOfThree f with
    | none => .failed
    | some false => .readable
    | some true =>
      if matrixBad dimFc2 (cfsDataset dimFc2 y).2 then .failed
      else
        match f with
        | .lines l => cfsWrite shownD shown (cfsDataset dimFc2 y).1 l
        | .sets _ _ => .failed

/-- Whether the printing of the yaml lines returns (interface/phono3py_yaml.py:472-474): it needs
the key `first_atoms` and a first displacement. -/
def linesPrinted {V K : Type} : AnyDataset V K → Bool
  | .type1 d => !d.first.isEmpty
  | .type2 _ => false

/-- `write_FORCES_FC2` without given forces (phono3py/file_IO.py:191-222). -/
def writeStoredFc2 {V K : Type} (shown : V → V) : AnyDataset V K → Option (ForceFile V)
  | .type1 d => (fc2Lines shown none 0 d.first).map .lines
  | .type2 d => d.forces.map fun fs => .sets d.displacements (fs.map fun f => f.map shown)

/-- `create_FORCES_FC2_from_FORCE_SETS` (cui/create_force_sets.py:185-199): the file written and
whether the command ended without an error. -/
def convertToForcesFc2 {V K : Type} (shown : V → V) (log : Bool) (f : ForceSets V) :
    Option (ForceFile V) × Bool :=
  let ds : AnyDataset V K := parseForceSets f
  match writeStoredFc2 shown ds with
  | none => (none, false)
  | some g => (some g, if log then linesPrinted ds else true)

end Phono3py
