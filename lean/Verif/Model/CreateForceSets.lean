import Verif.Model.ApiData
import Mathlib.Algebra.Group.Defs

/-!
# Collecting forces of calculators

Model of `phono3py/cui/create_force_sets.py`: what `phono3py --cf3`, `--cf3-file`, `--cf2`, `--cfz`,
`--cfz-fc2` and `--sp` write, given the displacement datasets of phono3py_disp.yaml and the output
files of a calculator.

The parsers of the calculator output (`get_calc_dataset` of phonopy and the one for wien2k) and the
two comparisons of atomic positions are parameters. `none` as the value of a function is an
exception or `sys.exit(1)`. Messages are not modelled. `write_FORCE_SETS` of phonopy, which writes
type-2 datasets, is represented by the displacements and forces handed to it.
-/

namespace Phono3py

/-- What a parser of calculator output returns (cui/create_force_sets.py:293-300): the keys
`forces`, `supercell_energies` and `points`. -/
structure CalcDataset (V K P : Type) where
  forces : List (List V)
  energies : Option (List K)
  points : Option P

/-- The functions outside phono3py and the file system (cui/create_force_sets.py:284-304, 369-412):
which files exist, the lines of a file, `get_calc_dataset`, `get_fc3_calc_dataset_wien2k`, and the
two comparisons of positions, which give `true` when the positions differ. -/
structure CalcReaders (M F V K P : Type) where
  fileExists : F → Bool
  names : F → List F
  parse : Option M → Nat → List F → CalcDataset V K P
  isWien2k : Option M → Bool
  parseWien2k : List F → AnyDataset V K → CalcDataset V K P
  displacedDiffer : AnyDataset V K → P → List F → Bool
  perfectDiffers : P → Bool

/-- The settings used (cui/create_force_sets.py:69-182). An option that was not given is `none`. -/
structure CollectSettings (M F : Type) where
  calculator : Option M
  forcesFc3 : Option (List F)
  forcesFc3File : Option F
  forcesFc2 : Option (List F)
  subtract : Option F
  subtractFc2 : Option F
  saveParams : Bool

/-- The part of phono3py_disp.yaml used (cui/create_force_sets.py:104-107). -/
structure DispYaml (M V K : Type) where
  calculator : Option M
  dataset : Option (AnyDataset V K)
  phononDataset : Option (AnyDataset V K)

/-- Truth value of an option with a list of files (cui/create_force_sets.py:114, 129). -/
def givenFiles {F : Type} (files : Option (List F)) : Bool :=
  match files with
  | some (_ :: _) => true
  | _ => false

/-- The condition `settings.create_forces_fc3 or settings.create_forces_fc3_file`
(cui/create_force_sets.py:114, 148, 166). -/
def wantsFc3 {M F : Type} (s : CollectSettings M F) : Bool :=
  givenFiles s.forcesFc3 || s.forcesFc3File.isSome

/-- Number of displacements of an fc2 dataset and of atoms (cui/create_force_sets.py:274-281). -/
def countsFc2 {V K : Type} (ds : AnyDataset V K) : Option (Nat × Nat) :=
  match ds with
  | .type1 d => some (d.first.length, d.natom)
  | .type2 d =>
    match d.displacements with
    | some (u :: us) => some ((u :: us).length, u.length)
    | _ => none

/-- Number of displacements of an fc3 dataset that need a calculation and of atoms
(cui/create_force_sets.py:357-368). -/
def countsFc3 {V K : Type} (ds : AnyDataset V K) : Option (Nat × Nat) :=
  match ds with
  | .type1 d =>
    some (d.first.length + (d.first.map (fun d1 =>
      (d1.second.filter (fun d2 => d2.included.getD true)).length)).sum, d.natom)
  | .type2 d =>
    match d.displacements with
    | some (u :: us) => some ((u :: us).length, u.length)
    | _ => none

/-- `for fs in force_sets: fs -= force_set_zero` (cui/create_force_sets.py:331-332, 436-437).
Arrays with different numbers of rows fail; numpy also accepts a single row. -/
def subtractForces {V : Type} [Sub V] (zero : List V) : List (List V) → Option (List (List V))
  | [] => some []
  | fs :: rest =>
    if fs.length = zero.length then
      (subtractForces zero rest).map fun r => List.zipWith (fun a b => a - b) fs zero :: r
    else none

/-- The residual forces of the perfect supercell and their subtraction
(cui/create_force_sets.py:306-332 and 414-437). The comparison of positions comes before or after
taking the first array of forces; both raise. -/
def subtractResidual {M F V K P : Type} [Sub V] (r : CalcReaders M F V K P) (mode : Option M)
    (natom : Nat) (file : Option F) (c : CalcDataset V K P) : Option (CalcDataset V K P) :=
  match file with
  | none => some c
  | some f =>
    if r.fileExists f then
      let z := r.parse mode natom [f]
      match z.forces with
      | [] => none
      | zero :: _ =>
        if z.points.any r.perfectDiffers then none
        else (subtractForces zero c.forces).map fun fs => { c with forces := fs }
    else none

/-- `_get_force_sets_fc2` (cui/create_force_sets.py:262-345). The argument `interface_mode` is
overwritten at line 270 by the calculator of the settings. -/
def forceSetsFc2 {M F V K P : Type} [Sub V] (r : CalcReaders M F V K P) (s : CollectSettings M F)
    (ds : AnyDataset V K) : Option (CalcDataset V K P) :=
  let mode : Option M := s.calculator
  (countsFc2 ds).bind fun counts =>
    let files := s.forcesFc2.getD []
    if files.all r.fileExists then
      if (r.parse mode counts.2 files).points.any (fun p => r.displacedDiffer ds p files) then none
      else
        subtractResidual r mode counts.2
          (if s.subtractFc2.isSome then s.subtractFc2 else s.subtract)
          (r.parse mode counts.2 files)
    else none

/-- The list of file names with fc3 forces (cui/create_force_sets.py:370-375). -/
def fc3FileNames {M F V K P : Type} (r : CalcReaders M F V K P) (s : CollectSettings M F) :
    Option (List F) :=
  match s.forcesFc3File with
  | some f => if r.fileExists f then some (r.names f) else none
  | none => some (s.forcesFc3.getD [])

/-- The test `"first_atoms" in disp_dataset` (cui/create_force_sets.py:384). -/
def hasFirstAtoms {V K : Type} (ds : AnyDataset V K) : Bool :=
  match ds with
  | .type1 _ => true
  | .type2 _ => false

/-- The parser called for fc3 forces (cui/create_force_sets.py:389-404). -/
def parseFc3 {M F V K P : Type} (r : CalcReaders M F V K P) (ds : AnyDataset V K)
    (mode : Option M) (natom : Nat) (files : List F) : CalcDataset V K P :=
  if r.isWien2k mode then r.parseWien2k files ds else r.parse mode natom files

/-- `_get_force_sets_fc3` (cui/create_force_sets.py:348-449). For a type-1 dataset and a wrong
number of files the list of forces is empty; the variable `force_sets` is then undefined, so that
`--cfz` raises. -/
def forceSetsFc3 {M F V K P : Type} [Sub V] (r : CalcReaders M F V K P) (s : CollectSettings M F)
    (ds : AnyDataset V K) (mode : Option M) : Option (CalcDataset V K P) :=
  (countsFc3 ds).bind fun counts =>
    (fc3FileNames r s).bind fun files =>
      if files.all r.fileExists then
        if hasFirstAtoms ds && decide (counts.1 ≠ files.length) then
          if s.subtract.isSome then none else some ⟨[], none, none⟩
        else
          if (parseFc3 r ds mode counts.2 files).points.any
              (fun p => r.displacedDiffer ds p files) then none
          else subtractResidual r mode counts.2 s.subtract (parseFc3 r ds mode counts.2 files)
      else none

/-! ### Writing -/

/-- Content of FORCES_FC3 or FORCES_FC2 (phono3py/file_IO.py:191-254): the lines for a type-1
dataset, the displacements and forces handed to `write_FORCE_SETS` for a type-2 dataset. -/
inductive ForceFile (V : Type) where
  | lines (l : List (ForceLine V))
  | sets (displacements : Option (List (List V))) (forces : List (List V))

/-- `write_FORCES_FC3` with given forces (phono3py/file_IO.py:225-254). An exception in the writer
leaves an incomplete file in the code; here it is `none`. -/
def writeFc3 {V K : Type} [Zero V] (shown : V → V) (ds : AnyDataset V K)
    (forces : List (List V)) : Option (ForceFile V) :=
  match ds with
  | .type1 d => (writeForcesFc3 shown d (some forces)).map .lines
  | .type2 d =>
    match d.forces with
    | some old => some (.sets d.displacements old)
    | none => some (.sets d.displacements forces)

/-- The loop of `write_FORCES_FC2` with given forces (phono3py/file_IO.py:203-213): the lines
written and whether the loop came to its end. When the forces run out the two comment lines have
been written. -/
def fc2Written {V K : Type} (shown : V → V) (forces : List (List V)) :
    Nat → List (Disp1 V K) → List (ForceLine V) × Bool
  | _, [] => ([], true)
  | i, d :: ds =>
    match forces[i]? with
    | none => ([.file (i + 1), .moved (d.number + 1) d.displacement], false)
    | some fs =>
      let rest := fc2Written shown forces (i + 1) ds
      (.file (i + 1) :: .moved (d.number + 1) d.displacement ::
        (fs.map (fun f => ForceLine.row (shown f)) ++ rest.1), rest.2)

/-- `write_FORCES_FC2` with given forces (phono3py/file_IO.py:191-222): the content of the file and
whether the function returned. After an exception the file holds what was written before. -/
def writeFc2 {V K : Type} (shown : V → V) (ds : AnyDataset V K)
    (forces : List (List V)) : ForceFile V × Bool :=
  match ds with
  | .type1 d => ((.lines (fc2Written shown forces 0 d.first).1), (fc2Written shown forces 0 d.first).2)
  | .type2 d =>
    match d.forces with
    | some old => (.sets d.displacements old, true)
    | none => (.sets d.displacements forces, true)

/-! ### phono3py_params.yaml -/

/-- Energy of a supercell if the calculator gave energies; too few fail
(cui/create_force_sets.py:462-465). The outer `none` is the exception. -/
def energyAt {K : Type} (energies : Option (List K)) (old : Option K) (i : Nat) :
    Option (Option K) :=
  match energies with
  | none => some old
  | some es => es[i]?.map some

/-- The loop over `second_atoms` (cui/create_force_sets.py:466-473); `count` runs over the
included ones. -/
def storeSecond {V K P : Type} (c : CalcDataset V K P) :
    Nat → List (Disp2 V K) → Option (List (Disp2 V K) × Nat)
  | count, [] => some ([], count)
  | count, d :: ds =>
    if d.included.getD true then
      c.forces[count]?.bind fun f =>
        (energyAt c.energies d.energy count).bind fun e =>
          (storeSecond c (count + 1) ds).map fun r =>
            ({ d with forces := some f, energy := e } :: r.1, r.2)
    else (storeSecond c count ds).map fun r => (d :: r.1, r.2)

/-- The loop over `first_atoms` (cui/create_force_sets.py:460-473). -/
def storeFirst {V K P : Type} (c : CalcDataset V K P) :
    Nat → Nat → List (Disp1 V K) → Option (List (Disp1 V K))
  | _, _, [] => some []
  | i, count, d :: ds =>
    c.forces[i]?.bind fun f =>
      (energyAt c.energies d.energy i).bind fun e =>
        (storeSecond c count d.second).bind fun s =>
          (storeFirst c (i + 1) s.2 ds).map fun r =>
            { d with forces := some f, energy := e, second := s.1 } :: r

/-- The branch for type-2 datasets (cui/create_force_sets.py:475-488 and 499-513). The energies are
required, and displacements are cut to the number of force arrays. -/
def storeType2 {V K P : Type} (c : CalcDataset V K P) (d : DispDataset2 V K) :
    Option (DispDataset2 V K) :=
  c.energies.bind fun es =>
    d.displacements.map fun us =>
      { displacements := some (if c.forces.length ≠ us.length then us.take c.forces.length else us)
        forces := some c.forces
        energies := some es }

/-- The fc3 part of `_set_forces_and_nac_params` (cui/create_force_sets.py:459-488). -/
def storeFc3 {V K P : Type} (c : CalcDataset V K P) (ds : AnyDataset V K) :
    Option (AnyDataset V K) :=
  match ds with
  | .type1 d => (storeFirst c 0 d.first.length d.first).map fun l => .type1 { d with first := l }
  | .type2 d => (storeType2 c d).map .type2

/-- The loop over `first_atoms` of the fc2 dataset (cui/create_force_sets.py:492-497). -/
def storeFirstFc2 {V K P : Type} (c : CalcDataset V K P) :
    Nat → List (Disp1 V K) → Option (List (Disp1 V K))
  | _, [] => some []
  | i, d :: ds =>
    c.forces[i]?.bind fun f =>
      (energyAt c.energies d.energy i).bind fun e =>
        (storeFirstFc2 c (i + 1) ds).map fun r => { d with forces := some f, energy := e } :: r

/-- The fc2 part of `_set_forces_and_nac_params` (cui/create_force_sets.py:490-513). -/
def storeFc2 {V K P : Type} (c : CalcDataset V K P) (ds : AnyDataset V K) :
    Option (AnyDataset V K) :=
  match ds with
  | .type1 d => (storeFirstFc2 c 0 d.first).map fun l => .type1 { d with first := l }
  | .type2 d => (storeType2 c d).map .type2

/-! ### The command -/

/-- Files written by the command (cui/create_force_sets.py:146-182). The datasets of
phono3py_params.yaml are those handed to its writer. -/
structure Collected (V K : Type) where
  forcesFc3 : Option (ForceFile V) := none
  forcesFc2 : Option (ForceFile V) := none
  params : Option (Option (AnyDataset V K) × Option (AnyDataset V K)) := none

/-- Collection of the fc3 forces and the check that there are some
(cui/create_force_sets.py:114-127). The inner `none` means that they are not asked for. -/
def collectFc3 {M F V K P : Type} [Sub V] (r : CalcReaders M F V K P) (s : CollectSettings M F)
    (y : DispYaml M V K) : Option (Option (AnyDataset V K × CalcDataset V K P)) :=
  let mode := if y.calculator.isSome then y.calculator else s.calculator
  if wantsFc3 s then
    y.dataset.bind fun ds =>
      (forceSetsFc3 r s ds mode).bind fun c =>
        if c.forces.isEmpty then none else some (some (ds, c))
  else some none

/-- Collection of the fc2 forces and the check that there are some
(cui/create_force_sets.py:129-144). -/
def collectFc2 {M F V K P : Type} [Sub V] (r : CalcReaders M F V K P) (s : CollectSettings M F)
    (y : DispYaml M V K) : Option (Option (AnyDataset V K × CalcDataset V K P)) :=
  if givenFiles s.forcesFc2 then
    y.phononDataset.bind fun ds =>
      (forceSetsFc2 r s ds).bind fun c =>
        if c.forces.isEmpty then none else some (some (ds, c))
  else some none

/-- `create_FORCES_FC3_and_FORCES_FC2` (cui/create_force_sets.py:69-182): the files written and
whether the command ended without an error. -/
def createForces {M F V K P : Type} [Zero V] [Sub V] (shown : V → V) (r : CalcReaders M F V K P)
    (s : CollectSettings M F) (y : DispYaml M V K) : Collected V K × Bool :=
  match collectFc3 r s y with
  | none => ({}, false)
  | some c3 =>
    match collectFc2 r s y with
    | none => ({}, false)
    | some c2 =>
      if s.saveParams then
        match c3 with
        | none => ({}, false)
        | some (ds, c) =>
          match storeFc3 c ds with
          | none => ({}, false)
          | some ds' =>
            match c2 with
            | none => ({ params := some (some ds', y.phononDataset) }, true)
            | some (pds, pc) =>
              match storeFc2 pc pds with
              | none => ({}, false)
              | some pds' => ({ params := some (some ds', some pds') }, true)
      else
        match c3 with
        | none =>
          match c2 with
          | none => ({}, true)
          | some (pds, pc) =>
            ({ forcesFc2 := some (writeFc2 shown pds pc.forces).1 }, (writeFc2 shown pds pc.forces).2)
        | some (ds, c) =>
          match writeFc3 shown ds c.forces with
          | none => ({}, false)
          | some file =>
            match c2 with
            | none => ({ forcesFc3 := some file }, true)
            | some (pds, pc) =>
              ({ forcesFc3 := some file, forcesFc2 := some (writeFc2 shown pds pc.forces).1 },
                (writeFc2 shown pds pc.forces).2)

end Phono3py
