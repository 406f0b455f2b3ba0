import Verif.Model.LoadForces

/-!
# Model of the keys under which phono3py.yaml holds the datasets for fc3 and fc2

`interface/phono3py_yaml.py`: `_displacements_yaml_lines`, `displacements_yaml_lines_type1` (its
choice of the key), `_parse_dataset`, `_parse_fc3_dataset`. The contents of a dataset of pairs are
the subject of `Model/Phono3pyYaml` (C135); here contents are values of any type, `A` for pairs, `B`
for single displacements and `C` for displacements of all atoms. The numbers of atoms are not in
these blocks; they come from the cells. The base class is in phonopy: its
`_displacements_yaml_lines_2types` writes nothing for `None`, and `_get_dataset` reads the block
under the key with its prefix.
-/

namespace Phono3py

/-- A dataset held by the object (phono3py/api_phono3py.py:606-651): displacement pairs, single
displacements without the key `second_atoms`, or displacements of all atoms. The first two have the
key `natom`. -/
inductive StoredSet (A B C : Type) where
  | pairs (natom : Option Nat) (a : A)
  | singles (natom : Option Nat) (b : B)
  | all (c : C)
deriving DecidableEq

/-- The keys of the file (interface/phono3py_yaml.py:474-477, 154-157 and 177). -/
inductive DatasetKey where
  | displacementPairs
  | displacements
  | phononDisplacements
deriving DecidableEq

/-- A block of the file (interface/phono3py_yaml.py:177-183 and 472-498). -/
inductive DatasetBlock (A B C : Type) where
  | pairs (a : A)
  | singles (b : B)
  | all (c : C)

/-- The part of a yaml file about datasets: its keys in the order in which they were written, and
the numbers of atoms of the supercell and, when the key `phonon_supercell_matrix` exists, of the
supercell for fc2 (interface/phono3py_yaml.py:118-131). -/
structure DatasetYaml (A B C : Type) where
  blocks : List (DatasetKey × DatasetBlock A B C)
  natom : Nat
  pnatom : Option Nat

/-- The lines of one dataset (interface/phono3py_yaml.py:472-477; the key of displacements of all
atoms is made by phonopy with the prefix). `phonon` says that the prefix is `phonon_`; pairs have no
prefix. -/
def datasetLines {A B C : Type} (phonon : Bool) :
    StoredSet A B C → DatasetKey × DatasetBlock A B C
  | .pairs _ a => (.displacementPairs, .pairs a)
  | .singles _ b => (if phonon then .phononDisplacements else .displacements, .singles b)
  | .all c => (if phonon then .phononDisplacements else .displacements, .all c)

/-- `_displacements_yaml_lines` (interface/phono3py_yaml.py:344-363) with the cells written at
lines 304-319. -/
def saveDatasets {A B C : Type} (natom : Nat) (pnatom : Option Nat)
    (dataset phononDataset : Option (StoredSet A B C)) : DatasetYaml A B C :=
  ⟨phononDataset.toList.map (datasetLines true) ++ dataset.toList.map (datasetLines false),
    natom, pnatom⟩

/-- `self._yaml[key]`: of several equal keys the last is kept by the yaml parser
(interface/phono3py_yaml.py:99 and 178). -/
def blockAt {A B C : Type} (y : DatasetYaml A B C) (k : DatasetKey) : Option (DatasetBlock A B C) :=
  ((y.blocks.filter (fun b => decide (b.1 = k))).getLast?).map (fun b => b.2)

/-- A block with the number of atoms of a cell (`_get_dataset` of phonopy, called at
interface/phono3py_yaml.py:159-163 and 194; interface/phono3py_yaml.py:196-219 for pairs). -/
def withNatom {A B C : Type} (natom : Option Nat) : DatasetBlock A B C → StoredSet A B C
  | .pairs a => .pairs natom a
  | .singles b => .singles natom b
  | .all c => .all c

/-- `_parse_dataset` (interface/phono3py_yaml.py:131-163). -/
def loadPhononSet {A B C : Type} (y : DatasetYaml A B C) : Option (StoredSet A B C) :=
  if y.pnatom.isSome && (blockAt y .phononDisplacements).isNone &&
      (blockAt y .displacements).isSome then
    (blockAt y .displacements).map (withNatom y.pnatom)
  else (blockAt y .phononDisplacements).map (withNatom y.pnatom)

/-- `_parse_fc3_dataset` (interface/phono3py_yaml.py:165-194). -/
def loadFc3Set {A B C : Type} (y : DatasetYaml A B C) : Option (StoredSet A B C) :=
  match blockAt y .displacementPairs with
  | some b => some (withNatom (some y.natom) b)
  | none => (blockAt y .displacements).map (withNatom (some y.natom))

end Phono3py
