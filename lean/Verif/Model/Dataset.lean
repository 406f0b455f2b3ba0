import Mathlib.Algebra.Group.Defs

/-!
# Displacement datasets, supercells and force files

Model of `phono3py/phonon3/displacement_fc3.py` (conversion of directions to displacements, ids,
duplicates), `phono3py/phonon3/dataset.py`, the dataset part of `phono3py/api_phono3py.py`
(supercells, displacements, forces, energies) and the readers and writers of FORCES_FC2 and
FORCES_FC3 in `phono3py/file_IO.py`.

A direction (three integers) is an element of `D`, a displacement or a force vector an element of
`V`, a length or an energy an element of `K`. Dictionaries become structures, a key that may be
absent an `Option` field. Python exceptions are `none`.
-/

namespace Phono3py

/-- One entry of `second_atoms` in the value of `get_third_order_displacements`
(displacement_fc3.py:160-167): the second atom, its distance from the first atom, and the
directions in which it is displaced. -/
structure DirSecond (D K : Type) where
  number : Nat
  distance : K
  directions : List D

/-- One entry of the value of `get_third_order_displacements` (displacement_fc3.py:160-167). -/
structure DirFirst (D K : Type) where
  number : Nat
  direction : D
  second : List (DirSecond D K)

/-- One entry of `second_atoms` of a type-1 dataset (displacement_fc3.py:108-116, together with
the keys `forces` and `supercell_energy` added later, api_phono3py.py:2614-2618). The key
`direction` is not modelled. -/
structure Disp2 (V K : Type) where
  id : Nat
  number : Nat
  displacement : V
  pairDistance : K
  included : Option Bool
  forces : Option (List V)
  energy : Option K

/-- One entry of `first_atoms` of a type-1 dataset (displacement_fc3.py:119-127). -/
structure Disp1 (V K : Type) where
  id : Nat
  number : Nat
  displacement : V
  forces : Option (List V)
  energy : Option K
  second : List (Disp2 V K)

/-- A type-1 dataset (displacement_fc3.py:85-128). An absent key `duplicates` is the empty
list. -/
structure DispDataset (V K : Type) where
  natom : Nat
  duplicates : List (Nat × Nat)
  cutoff : Option K
  first : List (Disp1 V K)

/-! ### Duplicated supercells -/

/-- An element of `direction_sets[(n1, n2)]` together with the element of `pair_idx[(n1, n2)]` at
the same position (displacement_fc3.py:346-348). The code keeps two lists that grow together. -/
structure PairDir (D : Type) where
  first : D
  second : D
  id : Nat
  deriving DecidableEq

/-- The dictionaries `direction_sets` and `pair_idx` (displacement_fc3.py:331-333). -/
abbrev DirSets (D : Type) := Nat → Nat → Option (List (PairDir D))

/-- Body of the loop over `second_atoms` (displacement_fc3.py:341-349). -/
def addPairDirs {D K : Type} (n1 : Nat) (d1 : D) (s : DirSets D × Nat) (p : DirSecond D K) :
    DirSets D × Nat :=
  let old : List (PairDir D) := (s.1 n1 p.number).getD []
  let new : List (PairDir D) := p.directions.mapIdx (fun i d2 => ⟨d1, d2, s.2 + i⟩)
  (fun a b => if a = n1 ∧ b = p.number then some (old ++ new) else s.1 a b,
    s.2 + p.directions.length)

/-- The first loop of `_find_duplicates` (displacement_fc3.py:331-349). -/
def collectDirSets {D K : Type} (ds : List (DirFirst D K)) : DirSets D × Nat :=
  ds.foldl (fun s f => f.second.foldl (addPairDirs f.number f.direction) s)
    ((fun _ _ => none), ds.length + 1)

/-- The pairs `(n1, n2)` in the order of the two nested loops at displacement_fc3.py:353-356 and
369-372. -/
def pairKeys {D K : Type} (ds : List (DirFirst D K)) : List (Nat × Nat) :=
  ds.flatMap (fun f => f.second.map (fun s => (f.number, s.number)))

/-- `_compare` (displacement_fc3.py:382-391). Indexing an empty two-dimensional array with six
columns fails. -/
def compareFlipped {D : Type} [AddGroup D] [DecidableEq D] (dset1 dset2 : List (PairDir D)) :
    Option (List (Nat × Nat)) :=
  if dset2 = [] then none
  else
    let dups : List (Nat × Nat) := dset1.flatMap (fun d1 =>
      (dset2.filter (fun e => decide (e.second - d1.first = 0 ∧ e.first - d1.second = 0))).map
        (fun e => (e.id, d1.id)))
    some (dups.filter (fun p => decide (p.2 < p.1)))

/-- `_compare_opposite` (displacement_fc3.py:394-402). -/
def compareOpposite {D : Type} [AddGroup D] [DecidableEq D] (dset1 : List (PairDir D)) :
    Option (List (Nat × Nat)) :=
  if dset1 = [] then none
  else
    let dups : List (Nat × Nat) := dset1.flatMap (fun d1 =>
      (dset1.filter (fun e => decide (e.second + d1.first = 0 ∧ e.first + d1.second = 0))).map
        (fun e => (e.id, 0)))
    some (dups.filter (fun p => decide (p.2 < p.1)))

/-- Body of the second loop of `_find_duplicates` (displacement_fc3.py:357-366); the state holds
`done` and the duplicates found. -/
def flippedStep {D : Type} [AddGroup D] [DecidableEq D] (sets : DirSets D)
    (s : Option (List (Nat × Nat) × List (Nat × Nat))) (k : Nat × Nat) :
    Option (List (Nat × Nat) × List (Nat × Nat)) :=
  s.bind fun s =>
    match sets k.2 k.1 with
    | none => some s
    | some back =>
      if k.1 < k.2 ∧ (k.2, k.1) ∉ s.1 then
        (sets k.1 k.2).bind fun here =>
          (compareFlipped here back).map fun l => (s.1 ++ [(k.2, k.1)], s.2 ++ l)
      else some s

/-- Body of the third loop of `_find_duplicates` (displacement_fc3.py:373-377). -/
def oppositeStep {D : Type} [AddGroup D] [DecidableEq D] (sets : DirSets D)
    (s : Option (List Nat × List (Nat × Nat))) (k : Nat × Nat) :
    Option (List Nat × List (Nat × Nat)) :=
  s.bind fun s =>
    if k.1 = k.2 ∧ k.1 ∉ s.1 then
      (sets k.1 k.1).bind fun here =>
        (compareOpposite here).map fun l => (s.1 ++ [k.1], s.2 ++ l)
    else some s

/-- `_find_duplicates` (displacement_fc3.py:330-379). -/
def findDuplicates {D K : Type} [AddGroup D] [DecidableEq D] (ds : List (DirFirst D K)) :
    Option (List (Nat × Nat)) :=
  let sets := (collectDirSets ds).1
  ((pairKeys ds).foldl (flippedStep sets) (some ([], []))).bind fun s =>
    ((pairKeys ds).foldl (oppositeStep sets) (some ([], s.2))).map fun t => t.2

/-! ### From directions to displacements -/

/-- The loop over `directions` (displacement_fc3.py:104-118); `c` is `d3_count`. -/
def stampDirections {D V K : Type} (cart : D → V) (number : Nat) (distance : K)
    (included : Option Bool) : Nat → List D → List (Disp2 V K)
  | _, [] => []
  | c, d :: ds =>
    ⟨c, number, cart d, distance, included, none, none⟩ ::
      stampDirections cart number distance included (c + 1) ds

/-- The loop over `second_atoms` (displacement_fc3.py:100-118). The key `included` is present only
with a cutoff. -/
def stampSecond {D V K : Type} [LT K] [DecidableLT K] (cart : D → V) (cutoff : Option K) :
    Nat → List (DirSecond D K) → List (Disp2 V K)
  | _, [] => []
  | c, s :: ss =>
    stampDirections cart s.number s.distance (cutoff.map (fun r => decide (s.distance < r))) c
        s.directions ++
      stampSecond cart cutoff (c + s.directions.length) ss

/-- The loop over the first atoms (displacement_fc3.py:94-127); `i` is the enumeration index and
`c` is `d3_count`. -/
def stampFirst {D V K : Type} [LT K] [DecidableLT K] (cart : D → V) (cutoff : Option K) :
    Nat → Nat → List (DirFirst D K) → List (Disp1 V K)
  | _, _, [] => []
  | i, c, f :: fs =>
    ⟨i + 1, f.number, cart f.direction, none, none, stampSecond cart cutoff c f.second⟩ ::
      stampFirst cart cutoff (i + 1) (c + (f.second.map (fun s => s.directions.length)).sum) fs

/-- `direction_to_displacement` (displacement_fc3.py:49-130). `cart` maps a direction to the
Cartesian displacement of the requested length (lines 97-98 and 105-107). -/
def directionToDisplacement {D V K : Type} [AddGroup D] [DecidableEq D] [LT K] [DecidableLT K]
    (cart : D → V) (natom : Nat) (cutoff : Option K) (ds : List (DirFirst D K)) :
    Option (DispDataset V K) :=
  (findDuplicates ds).map fun dups =>
    ⟨natom, dups, cutoff, stampFirst cart cutoff 0 (ds.length + 1) ds⟩

/-! ### Supercells with displacements -/

/-- Positions after displacing one atom, `positions[number] += displacement`
(api_phono3py.py:2449, 2482, 2483). -/
def moveAtom {V : Type} [Add V] (pos : Nat → V) (n : Nat) (d : V) : Nat → V :=
  fun k => if k = n then pos k + d else pos k

/-- The type-1 branch of `_build_phonon_supercells_with_displacements`
(api_phono3py.py:2446-2458). A cell is its array of positions; `supercell.positions` returns a new
array at every access. -/
def buildFirst {V K : Type} [Add V] (pos : Nat → V) (ds : DispDataset V K) : List (Nat → V) :=
  ds.first.map (fun d1 => moveAtom pos d1.number d1.displacement)

/-- `_build_supercells_with_displacements` for a type-1 dataset (api_phono3py.py:2462-2496). -/
def buildSupercells {V K : Type} [Add V] (pos : Nat → V) (ds : DispDataset V K) :
    List (Option (Nat → V)) :=
  (buildFirst pos ds).map some ++
    ds.first.flatMap (fun d1 => d1.second.map (fun d2 =>
      if d2.included.getD true then
        some (moveAtom (moveAtom pos d1.number d1.displacement) d2.number d2.displacement)
      else none))

/-- Numbering of the supercell files (cui/create_supercells.py:113-118): the pairs of file number
and cell handed to the writer. -/
def supercellFiles {C : Type} (cells : List (Option C)) : List (Nat × C) :=
  (cells.zipIdx).filterMap (fun p => p.1.map (fun c => (p.2 + 1, c)))

/-! ### Arrays of displacements and forces -/

/-- A row of the array `displacements` with one atom set (dataset.py:79, 92, 93). -/
def setAtom {V : Type} (row : Nat → V) (n : Nat) (d : V) : Nat → V :=
  fun k => if k = n then d else row k

/-- The rows of all pairs before selection (dataset.py:85-97). -/
def pairRows {V K : Type} [Zero V] (ds : DispDataset V K) : List (Bool × (Nat → V) × Option (List V)) :=
  ds.first.flatMap (fun d1 => d1.second.map (fun d2 =>
    (d2.included.getD true,
      setAtom (setAtom (fun _ => 0) d1.number d1.displacement) d2.number d2.displacement,
      d2.forces)))

/-- The rows of all displacements before selection (dataset.py:77-97). -/
def allRows {V K : Type} [Zero V] (ds : DispDataset V K) : List (Bool × (Nat → V) × Option (List V)) :=
  ds.first.map (fun d1 => (true, setAtom (fun _ => 0) d1.number d1.displacement, d1.forces)) ++
    pairRows ds

/-- `get_displacements_and_forces_fc3` for a type-1 dataset (dataset.py:67-106). The forces are
the second component; `none` inside is the value `None`, an outer `none` the failed assertion at
line 103. A row of forces that is absent is the row of zeros. -/
def displacementsAndForces {V K : Type} [Zero V] (ds : DispDataset V K) :
    Option (List (Nat → V) × Option (List (List V))) :=
  let rows := allRows ds
  let kept := rows.filter (fun r => r.1)
  let forcesCount := (rows.filter (fun r => r.2.2.isSome)).length
  if forcesCount = 0 then some (kept.map (fun r => r.2.1), none)
  else if forcesCount = rows.length then
    some (kept.map (fun r => r.2.1),
      some (kept.map (fun r => r.2.2.getD (List.replicate ds.natom 0))))
  else none

/-- The getter of `Phono3py.displacements` for a type-1 dataset (api_phono3py.py:857-873). -/
def displacementsGetter {V K : Type} [Zero V] (ds : DispDataset V K) : List (Nat → V) :=
  ds.first.map (fun d1 => setAtom (fun _ => 0) d1.number d1.displacement) ++
    ds.first.flatMap (fun d1 => d1.second.map (fun d2 =>
      setAtom (fun _ => 0) d2.number d2.displacement))

/-! ### Assigning and reading forces and energies -/

/-- The loop over first atoms in `_set_forces_energies` for forces (api_phono3py.py:2604-2610);
the second component is what is left of the values. `values[count]` beyond the end fails. -/
def setFirstForces {V K : Type} : List (Disp1 V K) → List (List V) →
    Option (List (Disp1 V K) × List (List V))
  | [], vs => some ([], vs)
  | _ :: _, [] => none
  | d :: ds, v :: vs =>
    (setFirstForces ds vs).map fun r => ({ d with forces := some v } :: r.1, r.2)

/-- The inner loop over second atoms in `_set_forces_energies` (api_phono3py.py:2612-2619). -/
def setSecondForces {V K : Type} : List (Disp2 V K) → List (List V) →
    Option (List (Disp2 V K) × List (List V))
  | [], vs => some ([], vs)
  | _ :: _, [] => none
  | d :: ds, v :: vs =>
    (setSecondForces ds vs).map fun r => ({ d with forces := some v } :: r.1, r.2)

/-- The outer loop at api_phono3py.py:2611. -/
def setPairForces {V K : Type} : List (Disp1 V K) → List (List V) →
    Option (List (Disp1 V K) × List (List V))
  | [], vs => some ([], vs)
  | d :: ds, vs =>
    (setSecondForces d.second vs).bind fun r =>
      (setPairForces ds r.2).map fun t => ({ d with second := r.1 } :: t.1, t.2)

/-- `_set_forces_energies` with target `forces` on a type-1 dataset (api_phono3py.py:2603-2619).
Values left over are ignored. A failure leaves the dataset partly assigned in the code; here it is
`none`. -/
def setForces {V K : Type} (ds : DispDataset V K) (vs : List (List V)) :
    Option (DispDataset V K) :=
  (setFirstForces ds.first vs).bind fun r =>
    (setPairForces r.1 r.2).map fun t => { ds with first := t.1 }

/-- Assigning `values[count] = disp["forces"]` for a list of entries; a missing key fails, and so
does an array whose number of atoms differs (api_phono3py.py:2590-2596). A single row is also
accepted, since numpy repeats it. -/
def gatherForces {V : Type} (natom : Nat) : List (Option (List V)) → Option (List (List V))
  | [] => some []
  | f :: fs =>
    f.bind fun v =>
      if v.length = natom then (gatherForces natom fs).map (fun r => v :: r)
      else if v.length = 1 then
        (gatherForces natom fs).map (fun r => (List.replicate natom v).flatten :: r)
      else none

/-- The forces of all entries in the order of the two loops (api_phono3py.py:2590-2596). -/
def storedForces {V K : Type} (ds : DispDataset V K) : List (Option (List V)) :=
  ds.first.map (fun d1 => d1.forces) ++
    ds.first.flatMap (fun d1 => d1.second.map (fun d2 => d2.forces))

/-- `_get_forces_energies` with target `forces` on a type-1 dataset (api_phono3py.py:2568-2597,
dataset.py:118-124). The inner `none` is the value `None`; an outer `none` an exception (also for
an empty `first_atoms`, whose element 0 is inspected). -/
def getForces {V K : Type} (natom : Nat) (ds : DispDataset V K) :
    Option (Option (List (List V))) :=
  match ds.first with
  | [] => none
  | d :: _ =>
    match d.forces with
    | none => some none
    | some _ => (gatherForces natom (storedForces ds)).map some

/-- `_set_phonon_forces_energies` with target `forces` on a type-1 dataset
(api_phono3py.py:2657-2660): `zip` stops at the shorter of the two lists. -/
def setPhononForces {V K : Type} (ds : DispDataset V K) (vs : List (List V)) : DispDataset V K :=
  { ds with
    first := (ds.first.zip vs).map (fun p => { p.1 with forces := some p.2 }) ++
      ds.first.drop vs.length }

/-- `_get_phonon_forces_energies` with target `forces` on a type-1 dataset
(api_phono3py.py:2638-2649). -/
def getPhononForces {V K : Type} (ds : DispDataset V K) : Option (List (List V)) :=
  let values := ds.first.filterMap (fun d => d.forces)
  if values = [] then none else some values

/-- A type-2 dataset (docstring of `Phono3py.dataset`, api_phono3py.py:606-613): displacements,
forces and energies of all supercells. -/
structure DispDataset2 (V K : Type) where
  displacements : Option (List (List V))
  forces : Option (List (List V))
  energies : Option (List K)

/-- The setter of displacements on a type-2 dataset or no dataset (api_phono3py.py:882-892), for
arrays with three components per atom. -/
def setDisplacements2 {V K : Type} (natom : Nat) (ds : DispDataset2 V K) (vs : List (List V)) :
    Option (DispDataset2 V K) :=
  if ∀ v ∈ vs, v.length = natom then some { ds with displacements := some vs } else none

/-- `_set_forces_energies` with target `forces` on a type-2 dataset (api_phono3py.py:2620-2623): no
shape is checked. -/
def setForces2 {V K : Type} (ds : DispDataset2 V K) (vs : List (List V)) :
    Option (DispDataset2 V K) :=
  if ds.displacements.isSome ∨ ds.forces.isSome then some { ds with forces := some vs } else none

/-- `_set_forces_energies` with target `supercell_energies` on a type-2 dataset
(api_phono3py.py:2620-2623). -/
def setEnergies2 {V K : Type} (ds : DispDataset2 V K) (es : List K) : Option (DispDataset2 V K) :=
  if ds.displacements.isSome ∨ ds.forces.isSome then some { ds with energies := some es } else none

/-- `_get_forces_energies` with target `forces` on a type-2 dataset (api_phono3py.py:2568-2574). -/
def getForces2 {V K : Type} (ds : DispDataset2 V K) : Option (List (List V)) :=
  if ds.forces.isSome then ds.forces else none

/-- `_get_forces_energies` with target `supercell_energies` on a type-2 dataset
(api_phono3py.py:2568-2574): nothing is returned unless forces are present. -/
def getEnergies2 {V K : Type} (ds : DispDataset2 V K) : Option (List K) :=
  if ds.forces.isSome then ds.energies else none

/-- `_set_phonon_forces_energies` with target `forces` on a type-2 dataset
(api_phono3py.py:2663-2676), with the shape check. -/
def setPhononForces2 {V K : Type} (natom : Nat) (ds : DispDataset2 V K) (vs : List (List V)) :
    Option (DispDataset2 V K) :=
  match ds.displacements with
  | none => none
  | some disps =>
    if vs.length = disps.length ∧ ∀ v ∈ vs, v.length = natom then some { ds with forces := some vs }
    else none

/-! ### FORCES_FC2 and FORCES_FC3 -/

/-- A line of a force file: the comment lines `# File:` and `# atom displacement`, an empty line,
or a line with one force vector (phono3py/file_IO.py:205, 279 and 1763-1777). -/
inductive ForceLine (V : Type) where
  | file (n : Nat)
  | moved (atom : Nat) (d : V)
  | blank
  | row (f : V)

/-- The loop of `write_FORCES_FC2` for a type-1 dataset (file_IO.py:204-213); `i` is the
enumeration index. `shown` is the value read back from the printed digits (`%15.10f`). -/
def fc2Lines {V K : Type} (shown : V → V) (given : Option (List (List V))) :
    Nat → List (Disp1 V K) → Option (List (ForceLine V))
  | _, [] => some []
  | i, d :: ds =>
    (match d.forces, given with
      | some f, none => some f
      | _, some g => g[i]?
      | none, none => none).bind fun fs =>
    (fc2Lines shown given (i + 1) ds).map fun rest =>
      .file (i + 1) :: .moved (d.number + 1) d.displacement ::
        (fs.map (fun f => ForceLine.row (shown f)) ++ rest)

/-- The inner loop of `_write_FORCES_FC3_typeI` (file_IO.py:277-300); `count` and `fileCount` are
the two running counters. -/
def fc3SecondLines {V K : Type} [Zero V] (shown : V → V) (given : Option (List (List V)))
    (natom : Nat) (d1 : Disp1 V K) : Nat → Nat → List (Disp2 V K) → Option (List (ForceLine V) × Nat × Nat)
  | count, fileCount, [] => some ([], count, fileCount)
  | count, fileCount, d :: ds =>
    let head : List (ForceLine V) :=
      [.file (count + 1), .moved (d1.number + 1) d1.displacement,
        .moved (d.number + 1) d.displacement]
    if d.included.getD true then
      (match d.forces, given with
        | some f, none => some f
        | _, some g => g[fileCount]?
        | none, none => none).bind fun fs =>
      (fc3SecondLines shown given natom d1 (count + 1) (fileCount + 1) ds).map fun (r : List (ForceLine V) × Nat × Nat) =>
        (head ++ fs.map (fun f => ForceLine.row (shown f)) ++ r.1, r.2)
    else
      (fc3SecondLines shown given natom d1 (count + 1) fileCount ds).map fun (r : List (ForceLine V) × Nat × Nat) =>
        (head ++ List.replicate natom (ForceLine.row (shown 0)) ++ r.1, r.2)

/-- The outer loop of `_write_FORCES_FC3_typeI` (file_IO.py:275). -/
def fc3PairLines {V K : Type} [Zero V] (shown : V → V) (given : Option (List (List V)))
    (natom : Nat) : Nat → Nat → List (Disp1 V K) → Option (List (ForceLine V))
  | _, _, [] => some []
  | count, fileCount, d :: ds =>
    (fc3SecondLines shown given natom d count fileCount d.second).bind fun r =>
      (fc3PairLines shown given natom r.2.1 r.2.2 ds).map fun rest => r.1 ++ rest

/-- `_write_FORCES_FC3_typeI` (file_IO.py:257-300). -/
def writeForcesFc3 {V K : Type} [Zero V] (shown : V → V) (ds : DispDataset V K)
    (given : Option (List (List V))) : Option (List (ForceLine V)) :=
  (fc2Lines shown given 0 ds.first).bind fun l =>
    (fc3PairLines shown given ds.natom ds.first.length ds.first.length ds.first).map fun m => l ++ m

/-- `_parse_force_lines` (file_IO.py:1763-1777): the forces read (`none` when there were too few
lines) and the lines left in the file. `acc` is the list `forces`. -/
def parseForceLines {V : Type} (natom : Nat) : List V → List (ForceLine V) →
    Option (List V) × List (ForceLine V)
  | acc, [] => (if acc.length = natom then some acc else none, [])
  | acc, .row f :: ls =>
    if (acc ++ [f]).length = natom then (some (acc ++ [f]), ls)
    else parseForceLines natom (acc ++ [f]) ls
  | acc, _ :: ls => parseForceLines natom acc ls

/-- The reading loop of `parse_FORCES_FC2` and `parse_FORCES_FC3` (file_IO.py:1614-1619 and
1642-1647): `n` blocks of forces, `none` as soon as a block is short. -/
def parseBlocks {V : Type} (natom : Nat) : Nat → List (ForceLine V) → Option (List (List V))
  | 0, _ => some []
  | n + 1, ls =>
    (parseForceLines natom [] ls).1.bind fun f =>
      (parseBlocks natom n (parseForceLines natom [] ls).2).map fun r => f :: r

/-- `parse_FORCES_FC3` with `use_loadtxt=False` (file_IO.py:1628-1660): the dataset with the forces
stored; `none` is the RuntimeError. `factor` is the optional unit conversion. -/
def parseForcesFc3 {V K : Type} (factor : Option (V → V)) (ds : DispDataset V K)
    (file : List (ForceLine V)) : Option (DispDataset V K) :=
  let numDisp := ds.first.length + (ds.first.map (fun d => d.second.length)).sum
  (parseBlocks ds.natom numDisp file).bind fun fs =>
    setForces ds (fs.map (fun f => f.map (factor.getD id)))

/-- What `parse_FORCES_FC2` gives back (file_IO.py:1608-1625): the dataset after the call and
whether the call returned `[]` (too few lines) instead of `None`. No exception is raised. -/
def parseForcesFc2 {V K : Type} (factor : Option (V → V)) (ds : DispDataset V K)
    (file : List (ForceLine V)) : DispDataset V K × Bool :=
  match parseBlocks ds.natom ds.first.length file with
  | none => (ds, true)
  | some fs =>
    match setFirstForces ds.first (fs.map (fun f => f.map (factor.getD id))) with
    | none => (ds, true)
    | some r => ({ ds with first := r.1 }, false)

/-- `_read_FORCES_FC3_or_FC2` for a type-1 FORCES_FC2 (cui/create_force_constants.py:461-471):
the return value of the parser is dropped and the dataset is returned. -/
def readForcesFc2 {V K : Type} (ds : DispDataset V K) (file : List (ForceLine V)) :
    Option (DispDataset V K) :=
  some (parseForcesFc2 none ds file).1

end Phono3py
