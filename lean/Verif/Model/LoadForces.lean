/-!
# Where force constants come from

Model of the choice of sources in `phono3py.load` and the `phono3py-load` command
(`phono3py/cui/load.py`, `phono3py/cui/phono3py_script.py`) and in the `phono3py` command
(`phono3py/cui/create_force_constants.py`).

Simplifications: force constants `F2`, `F3` and datasets `D` are opaque; the directory is a function
from names to contents; messages are left out; the machine-learning potential is not used. `none`
as the value of a function is an exception or an exit with an error.
-/

namespace Phono3py

/-- Contents of a file in the working directory: force constants, forces that hold their own
displacements (type 2), or forces for a given dataset (type 1), read by `parse_FORCES_FC3` or
`parse_FORCES_FC2` (cui/create_force_constants.py:433-471, file_IO.py:330-356). `broken` is a file
that cannot be read. -/
inductive SourceFile (F2 F3 D : Type) where
  | fc2 (v : F2)
  | fc3 (v : F3)
  | forces2 (d : D)
  | forces1 (fill : D → Option D)
  | broken

/-- The working directory, in which the names `fc3.hdf5`, `FORCES_FC3`, ... are looked up
(cui/load.py:507-557, 647-670). -/
abbrev Directory (F2 F3 D : Type) := String → Option (SourceFile F2 F3 D)

/-- Argument `forces_fc3_filename` of `load`: one name or a sequence of names
(cui/load.py:76-77, 199-206). -/
inductive ForcesArg where
  | name (f : String)
  | sequence (fs : List String)

/-- Contents of a phono3py.yaml that matter: the two datasets and whether it has a supercell for
fc2 (cui/create_force_constants.py:772-781). -/
structure YamlSource (D : Type) where
  dataset : Option D
  phononDataset : Option D
  phononSupercell : Bool

/-- What is known about datasets and force constants: whether a dataset has forces
(phonon3/dataset.py:118-124), the number of atoms stored in it, conversion of units
(cui/create_force_constants.py:729-759; `none` without a calculator), whether the shape of force
constants agrees with the supercell (cui/load.py:647-670), the numbers of atoms of the supercells,
whether there is a supercell matrix for fc2, and the solvers, which may raise. -/
structure LoadEnv (F2 F3 D : Type) where
  hasForces : D → Bool
  natomOf : D → Option Nat
  convert : Option (D → D)
  fc2Fits : F2 → Bool
  fc3Fits : F3 → Bool
  natom : Nat
  pnatom : Nat
  phononMatrix : Bool
  solve3 : D → Option (F2 × F3)
  solve2 : D → Option F2

/-- The `Phono3py` object: force constants and datasets (cui/load.py:323-385). -/
structure Loaded (F2 F3 D : Type) where
  fc3 : Option F3
  fc2 : Option F2
  dataset : Option D
  phononDataset : Option D

/-- Arguments of `load` about force constants (cui/load.py:76-80, 85). -/
structure LoadArgs where
  fc3 : Option String
  fc2 : Option String
  forcesFc3 : Option ForcesArg
  forcesFc2 : Option ForcesArg
  produce : Bool

section
variable {F2 F3 D : Type}

/-- `_extract_dataset_from_ph3py_yaml` (cui/create_force_constants.py:772-781). -/
def extractDataset (forFc3 : Bool) (y : YamlSource D) : Option D :=
  if !y.phononSupercell || forFc3 then y.dataset else y.phononDataset

/-- `_read_FORCES_FC3_or_FC2` (cui/create_force_constants.py:433-471). The outer `none` is an
exception: a sequence is no path, and forces of type 1 need a dataset. A missing file gives
`None`. -/
def readForcesFile (dir : Directory F2 F3 D) (d : Option D) (f : ForcesArg) : Option (Option D) :=
  match f with
  | .sequence _ => none
  | .name n =>
    match dir n with
    | none => some none
    | some (.forces2 v) => some (some v)
    | some (.forces1 fill) => (d.bind fill).map some
    | some _ => none

/-- `parse_forces` (cui/create_force_constants.py:219-307), without the overwriting of the cutoff,
which is `overwriteCutoff` in `Verif.Model.PairCutoff`. -/
def parseForces (e : LoadEnv F2 F3 D) (dir : Directory F2 F3 D) (forFc3 : Bool)
    (yaml : Option (YamlSource D)) (file : Option ForcesArg) : Option D :=
  let n := if forFc3 then e.natom else e.pnatom
  let d := yaml.bind (extractDataset forFc3)
  (match file with
    | none => some d
    | some f =>
      match d with
      | none => readForcesFile dir none f
      | some x => if e.hasForces x then some (some x) else readForcesFile dir (some x) f).bind
  fun (d' : Option D) => d'.bind fun x =>
    let x' := match e.convert with
      | none => x
      | some c => c x
    match e.natomOf x' with
    | none => some x'
    | some m => if m = n then some x' else none

/-- `_select_and_load_dataset` (cui/load.py:507-557); the inner `none` is `None`. -/
def selectDataset (e : LoadEnv F2 F3 D) (dir : Directory F2 F3 D) (yaml : Option (YamlSource D))
    (arg : Option ForcesArg) : Option (Option D) :=
  let stored := yaml.bind (fun y => y.dataset)
  match stored, (match arg with
      | some f => some f
      | none => if (dir "FORCES_FC3").isSome then some (.name "FORCES_FC3") else none) with
  | some d, some f =>
    if e.hasForces d then (parseForces e dir true yaml none).map some
    else (parseForces e dir true yaml (some f)).map some
  | some _, none => (parseForces e dir true yaml none).map some
  | none, some f => (parseForces e dir true yaml (some f)).map some
  | none, none => some none

/-- `_select_and_load_phonon_dataset` (cui/load.py:574-621). -/
def selectPhononDataset (e : LoadEnv F2 F3 D) (dir : Directory F2 F3 D)
    (yaml : Option (YamlSource D)) (arg : Option ForcesArg) : Option (Option D) :=
  let stored := yaml.bind (fun y => y.phononDataset)
  let file : Option ForcesArg :=
    if e.phononMatrix then
      match arg with
      | some f => some f
      | none => if (dir "FORCES_FC2").isSome then some (.name "FORCES_FC2") else none
    else none
  match stored, file with
  | some d, some f =>
    if e.hasForces d then (parseForces e dir false yaml none).map some
    else (parseForces e dir false yaml (some f)).map some
  | some _, none => (parseForces e dir false yaml none).map some
  | none, some f => (parseForces e dir false yaml (some f)).map some
  | none, none => some none

/-- `_load_fc3` with the shape check (cui/load.py:387-396, 489-504, 663-670); the inner `none` means
that nothing is read. -/
def loadFc3 (e : LoadEnv F2 F3 D) (dir : Directory F2 F3 D) (arg : Option String) :
    Option (Option F3) :=
  match arg, dir "fc3.hdf5" with
  | none, none => some none
  | _, _ =>
    match dir (arg.getD "fc3.hdf5") with
    | some (.fc3 v) => if e.fc3Fits v then some (some v) else none
    | _ => none

/-- `_load_fc2` with the shape check (cui/load.py:398-400, 560-571, 647-652, 663-670). -/
def loadFc2 (e : LoadEnv F2 F3 D) (dir : Directory F2 F3 D) (arg : Option String) :
    Option (Option F2) :=
  match arg, dir "fc2.hdf5" with
  | none, none => some none
  | _, _ =>
    match dir (arg.getD "fc2.hdf5") with
    | some (.fc2 v) => if e.fc2Fits v then some (some v) else none
    | _ => none

/-- The call of `produce_fc3` in `compute_force_constants_from_datasets` (cui/load.py:463-469) with
`produce_fc3` (api_phono3py.py:1486-1526) for one calculator for both orders. -/
def computeFc3 (e : LoadEnv F2 F3 D) (s : Loaded F2 F3 D) : Option (Loaded F2 F3 D) :=
  match s.fc3, s.dataset with
  | none, some d =>
    if e.hasForces d then
      (e.solve3 d).map fun (r : F2 × F3) =>
        { s with
          fc3 := some r.2
          fc2 := match s.fc2 with
            | some v => some v
            | none => if e.phononMatrix then none else some r.1 }
    else some s
  | _, _ => some s

/-- `forces_in_dataset` of a dataset that may be `None` (cui/load.py:470-482). -/
def LoadEnv.usable (e : LoadEnv F2 F3 D) : Option D → Bool
  | none => false
  | some x => e.hasForces x

/-- The call of `produce_fc2` in `compute_force_constants_from_datasets` (cui/load.py:474-486) with
`produce_fc2` (api_phono3py.py:1552-1586); `existed` is `exist_fc2`. -/
def computeFc2 (e : LoadEnv F2 F3 D) (existed : Bool) (s : Loaded F2 F3 D) :
    Option (Loaded F2 F3 D) :=
  if existed then some s
  else if (!e.phononMatrix && e.usable s.dataset) ||
      (e.phononMatrix && e.usable s.phononDataset) then
    match (match s.phononDataset with
      | none => s.dataset
      | some d => some d) with
    | none => none
    | some d =>
      if e.hasForces d then (e.solve2 d).map fun (v : F2) => { s with fc2 := some v } else none
  else some s

/-- `compute_force_constants_from_datasets` (cui/load.py:437-486). -/
def computeForceConstants (e : LoadEnv F2 F3 D) (s : Loaded F2 F3 D) : Option (Loaded F2 F3 D) :=
  (computeFc3 e s).bind (computeFc2 e s.fc2.isSome)

/-- `load` after the object was made (cui/load.py:346-385), without machine-learning potentials. -/
def loadPhono3py (e : LoadEnv F2 F3 D) (dir : Directory F2 F3 D) (yaml : Option (YamlSource D))
    (a : LoadArgs) : Option (Loaded F2 F3 D) :=
  (loadFc3 e dir a.fc3).bind fun fc3 =>
  (loadFc2 e dir a.fc2).bind fun fc2 =>
  (selectDataset e dir yaml a.forcesFc3).bind fun ds =>
  (selectPhononDataset e dir yaml a.forcesFc2).bind fun pds =>
    let s : Loaded F2 F3 D := ⟨fc3, fc2, ds, pds⟩
    if a.produce then computeForceConstants e s else some s

/-! ### The `phono3py-load` command -/

/-- Steps that change the working directory: opening a file for writing removes its contents
(`h5py.File(filename, "w")`, file_IO.py:323, 384), writing puts the new ones. -/
inductive DirStep (F2 F3 D : Type) where
  | truncate (name : String)
  | put (name : String) (c : SourceFile F2 F3 D)

/-- One step (file_IO.py:323-327, 384-399). -/
def dirStep (dir : Directory F2 F3 D) : DirStep F2 F3 D → Directory F2 F3 D
  | .truncate n => fun m => if m = n then some .broken else dir m
  | .put n c => fun m => if m = n then some c else dir m

/-- Several steps (file_IO.py:323-327, 384-399). -/
def dirSteps (dir : Directory F2 F3 D) (l : List (DirStep F2 F3 D)) : Directory F2 F3 D :=
  l.foldl dirStep dir

/-- `_store_force_constants` of the `phono3py-load` command (cui/phono3py_script.py:591-676), called
with a new object whose force constants are `None` (lines 1217-1220), so that `read_fc3` and
`read_fc2` are false. `cut` is `cutoff_fc3_by_zero` at `--cutoff-fc3`, if given. The value is the
force constants that are used and the steps on the working directory. -/
def storeForceConstants (e : LoadEnv F2 F3 D) (dir : Directory F2 F3 D) (ds pds : Option D)
    (cut : Option (F3 → F3)) : Option (F3 × F2 × List (DirStep F2 F3 D)) :=
  (loadFc3 e dir none).bind fun fc3 =>
  (loadFc2 e dir none).bind fun fc2 =>
  (computeForceConstants e ⟨fc3, fc2, ds, pds⟩).bind fun (s : Loaded F2 F3 D) =>
  match s.fc3, s.fc2 with
  | some v3, some v2 =>
    let w3 := match cut with
      | none => v3
      | some c => c v3
    some (w3, v2,
      [.truncate "fc3.hdf5", .put "fc3.hdf5" (.fc3 w3),
        .truncate "fc2.hdf5", .put "fc2.hdf5" (.fc2 v2)])
  | _, _ => none

/-- Runs of the `phono3py-load` command one after the other in one directory, with or without
`--cutoff-fc3` (cui/phono3py_script.py:591-676). A run that exits with an error changes nothing. -/
def loadRuns (e : LoadEnv F2 F3 D) (ds pds : Option D) :
    Directory F2 F3 D → List (Option (F3 → F3)) → Directory F2 F3 D
  | dir, [] => dir
  | dir, cut :: rest =>
    loadRuns e ds pds
      (match storeForceConstants e dir ds pds cut with
        | none => dir
        | some r => dirSteps dir r.2.2) rest

/-! ### The `phono3py` command -/

/-- Settings that `create_phono3py_force_constants` looks at
(cui/create_force_constants.py:122-130, 196-203). -/
structure FcSettings where
  jointDos : Bool
  isotope : Bool
  bterta : Bool
  lbte : Bool
  readGamma : Bool
  readPp : Bool
  writePhonon : Bool
  constantPp : Bool
  readFc3 : Bool
  readFc2 : Bool

/-- The condition under which fc3 is not needed (cui/create_force_constants.py:122-130). -/
def FcSettings.skipsFc3 (s : FcSettings) : Bool :=
  s.jointDos || (s.isotope && !(s.bterta || s.lbte)) || s.readGamma || s.readPp ||
    (!s.bterta && s.writePhonon) || s.constantPp

/-- `_read_dataset_fc2` (cui/create_force_constants.py:679-717); `RuntimeError` of `parse_forces`
ends the program. -/
def readDatasetFc2 (e : LoadEnv F2 F3 D) (dir : Directory F2 F3 D) (yaml : Option (YamlSource D))
    (s : Loaded F2 F3 D) : Option (Loaded F2 F3 D) :=
  if e.phononMatrix then
    (parseForces e dir false yaml (some (.name "FORCES_FC2"))).map fun (d : D) =>
      { s with phononDataset := some d }
  else
    match s.dataset with
    | some _ => none
    | none => (parseForces e dir false yaml (some (.name "FORCES_FC3"))).map fun (d : D) =>
      { s with dataset := some d }

/-- `create_phono3py_force_constants` (cui/create_force_constants.py:96-216) for an object without
force constants and datasets, without a cutoff. `calculator` is the local variable `fc_calculator`,
which is assigned only where fc3 is made or read (lines 133-135): using it before is an
`UnboundLocalError`. The value is the object and the steps on the working directory. -/
def createForceConstants (e : LoadEnv F2 F3 D) (dir : Directory F2 F3 D)
    (yaml : Option (YamlSource D)) (c : FcSettings) (cut : Option (F3 → F3)) :
    Option (Loaded F2 F3 D × List (DirStep F2 F3 D)) :=
  let empty : Loaded F2 F3 D := ⟨none, none, none, none⟩
  let first : Option (Loaded F2 F3 D × List (DirStep F2 F3 D) × Option Unit) :=
    if c.skipsFc3 then some (empty, [], none)
    else if c.readFc3 then
      match dir "fc3.hdf5" with
      | some (.fc3 v) =>
        if e.fc3Fits v then
          some ({ empty with fc3 := some (match cut with | none => v | some f => f v) }, [], some ())
        else none
      | _ => none
    else
      (parseForces e dir true yaml (some (.name "FORCES_FC3"))).bind fun (d : D) =>
      (e.solve3 d).map fun (r : F2 × F3) =>
        let v := match cut with | none => r.2 | some f => f r.2
        ({ empty with
            dataset := some d
            fc3 := some v
            fc2 := if e.phononMatrix then none else some r.1 },
          [.truncate "fc3.hdf5", .put "fc3.hdf5" (.fc3 v)], some ())
  first.bind fun (r : Loaded F2 F3 D × List (DirStep F2 F3 D) × Option Unit) =>
    if c.readFc2 then
      match dir "fc2.hdf5" with
      | some (.fc2 v) => if e.fc2Fits v then some ({ r.1 with fc2 := some v }, r.2.1) else none
      | _ => none
    else
      (if r.1.dataset.isNone || e.phononMatrix then readDatasetFc2 e dir yaml r.1
        else some r.1).bind fun (s : Loaded F2 F3 D) =>
      r.2.2.bind fun (_ : Unit) =>
      (match s.phononDataset with
        | none => s.dataset
        | some d => some d).bind fun (d : D) =>
      if e.hasForces d then
        (e.solve2 d).map fun (v : F2) =>
          ({ s with fc2 := some v },
            r.2.1 ++ [DirStep.truncate "fc2.hdf5", DirStep.put "fc2.hdf5" (.fc2 v)])
      else none

end

end Phono3py
