import Verif.Model.Dataset

/-!
# Displacements and forces in phono3py.yaml

Model of the part of `phono3py/interface/phono3py_yaml.py` that writes a type-1 dataset into
phono3py.yaml (`displacements_yaml_lines_type1` and its helpers) and reads it back
(`Phono3pyYamlLoader._parse_fc3_dataset` and its helpers).

A file is its tree of keys and values; the text of the YAML and its parser are not modelled.
Numbers are printed with a fixed number of digits: `r16` is what comes back from a vector printed
with `%19.16f`, `r8` what comes back from a number printed with `%.8f`. A key that may be absent is
an `Option`. `none` as the value of a function is an exception.
-/

namespace Phono3py

/-- One entry of `second_atoms` with the keys that a dataset may lack
(interface/phono3py_yaml.py:231-279, 546-600). -/
structure KeyedSecond (V K : Type) where
  id : Option Nat
  number : Nat
  displacement : V
  pairDistance : Option K
  included : Option Bool
  forces : Option (List V)
  energy : Option K

/-- One entry of `first_atoms` with the keys that a dataset may lack
(interface/phono3py_yaml.py:186-221, 464-499). -/
structure KeyedFirst (V K : Type) where
  id : Option Nat
  number : Nat
  displacement : V
  forces : Option (List V)
  energy : Option K
  second : List (KeyedSecond V K)

/-- A type-1 dataset with `second_atoms` (interface/phono3py_yaml.py:186-221, 456-540). An absent
key `duplicates` is the empty list. -/
structure KeyedDataset (V K : Type) where
  natom : Nat
  duplicates : List (Nat × Nat)
  cutoff : Option K
  first : List (KeyedFirst V K)

/-- One item of `paired_with` in the file (interface/phono3py_yaml.py:555-598). -/
structure YamlPair (V K : Type) where
  atom : Nat
  pairDistance : Option K
  included : Option Bool
  displacement : Option V
  displacementId : Option Nat
  displacements : Option (List V)
  displacementIds : Option (List Nat)
  forces : Option (List V)
  energy : Option K

/-- One item of `displacement_pairs` in the file (interface/phono3py_yaml.py:472-498). -/
structure YamlFirst (V K : Type) where
  atom : Nat
  displacement : V
  displacementId : Option Nat
  forces : Option (List V)
  energy : Option K
  pairedWith : List (YamlPair V K)

/-- The blocks `displacement_pairs` and `displacement_pair_info` of the file
(interface/phono3py_yaml.py:466-543). -/
structure YamlDataset (V K : Type) where
  pairs : List (YamlFirst V K)
  cutoff : Option K
  singles : Nat
  pairCount : Nat
  pairsInCutoff : Option Nat
  duplicates : List (Nat × Nat)

/-! ### Writing -/

/-- `np.unique(numbers)` (interface/phono3py_yaml.py:552): the distinct values in increasing
order. -/
def uniqueNumbers (ns : List Nat) : List Nat :=
  (List.range (ns.foldr max 0 + 1)).filter (fun i => decide (i ∈ ns))

/-- `assert dataset2[j]["id"] == disp2_id` when the key is present
(interface/phono3py_yaml.py:475-476, 566-567, 593-594). -/
def idAccepted (id : Option Nat) (count : Nat) : Bool :=
  match id with
  | none => true
  | some i => decide (i = count)

/-- The loop over the members of a group with forces (interface/phono3py_yaml.py:556-580): one item
per displacement. The key `included` is not written. -/
def saveWithForces {V K : Type} (r16 : V → V) (r8 : K → K) (atom : Nat) :
    Nat → List (KeyedSecond V K) → Option (List (YamlPair V K))
  | _, [] => some []
  | c, d :: ds =>
    d.pairDistance.bind fun dist =>
      if idAccepted d.id (c + 1) then
        d.forces.bind fun fs =>
          (saveWithForces r16 r8 atom (c + 1) ds).map fun rest =>
            { atom := atom + 1
              pairDistance := some (r8 dist)
              included := none
              displacement := some (r16 d.displacement)
              displacementId := some (c + 1)
              displacements := none
              displacementIds := none
              forces := some (fs.map r16)
              energy := d.energy.map r8 } :: rest
      else none

/-- The loop over the members of a group without forces (interface/phono3py_yaml.py:590-595): the
displacements and their ids. -/
def saveDisplacements {V K : Type} (r16 : V → V) :
    Nat → List (KeyedSecond V K) → Option (List V × List Nat)
  | _, [] => some ([], [])
  | c, d :: ds =>
    if idAccepted d.id (c + 1) then
      (saveDisplacements r16 (c + 1) ds).map fun r =>
        (r16 d.displacement :: r.1, (c + 1) :: r.2)
    else none

/-- One pass of the loop over `unique_numbers` (interface/phono3py_yaml.py:553-598), for the
members of `dataset2` with this atom. -/
def saveGroup {V K : Type} (r16 : V → V) (r8 : K → K) (withForces : Bool) (atom c : Nat)
    (g : List (KeyedSecond V K)) : Option (List (YamlPair V K)) :=
  match g with
  | [] => none
  | d :: _ =>
    if withForces && d.forces.isSome then saveWithForces r16 r8 atom c g
    else
      d.pairDistance.bind fun dist =>
        (saveDisplacements r16 c g).map fun r =>
          [{ atom := atom + 1
             pairDistance := some (r8 dist)
             included := d.included
             displacement := none
             displacementId := none
             displacements := some r.1
             displacementIds := some r.2
             forces := none
             energy := none }]

/-- The loop over `unique_numbers` (interface/phono3py_yaml.py:553-600). -/
def saveGroups {V K : Type} (r16 : V → V) (r8 : K → K) (withForces : Bool)
    (l : List (KeyedSecond V K)) : Nat → List Nat → Option (List (YamlPair V K) × Nat)
  | c, [] => some ([], c)
  | c, n :: ns =>
    let g := l.filter (fun d => decide (d.number = n))
    (saveGroup r16 r8 withForces n c g).bind fun items =>
      (saveGroups r16 r8 withForces l (c + g.length) ns).map fun r => (items ++ r.1, r.2)

/-- `_second_displacements_yaml_lines` (interface/phono3py_yaml.py:546-600). -/
def saveSecond {V K : Type} (r16 : V → V) (r8 : K → K) (withForces : Bool) (c : Nat)
    (l : List (KeyedSecond V K)) : Option (List (YamlPair V K) × Nat) :=
  saveGroups r16 r8 withForces l c (uniqueNumbers (l.map (fun d => d.number)))

/-- The loop over `first_atoms` (interface/phono3py_yaml.py:470-498); `i` is the enumeration index
and `c` is `id_offset`. -/
def saveFirst {V K : Type} (r16 : V → V) (r8 : K → K) (withForces : Bool) :
    Nat → Nat → List (KeyedFirst V K) → Option (List (YamlFirst V K))
  | _, _, [] => some []
  | i, c, d :: ds =>
    if idAccepted d.id (i + 1) then
      (saveSecond r16 r8 withForces c d.second).bind fun s =>
        (saveFirst r16 r8 withForces (i + 1) s.2 ds).map fun rest =>
          { atom := d.number + 1
            displacement := r16 d.displacement
            displacementId := some (i + 1)
            forces := if withForces then d.forces.map (fun fs => fs.map r16) else none
            energy := if withForces && d.forces.isSome then d.energy.map r8 else none
            pairedWith := s.1 } :: rest
    else none

/-- `displacements_yaml_lines_type1` for a dataset with `second_atoms`
(interface/phono3py_yaml.py:456-505), with `_displacements_yaml_lines_type1_info`
(interface/phono3py_yaml.py:508-543). An empty `first_atoms` fails at element 0. -/
def saveDataset {V K : Type} (r16 : V → V) (r8 : K → K) (withForces : Bool)
    (ds : KeyedDataset V K) : Option (YamlDataset V K) :=
  if ds.first = [] then none
  else
    (saveFirst r16 r8 withForces 0 ds.first.length ds.first).map fun ps =>
      let seconds := ds.first.flatMap (fun d => d.second)
      { pairs := ps
        cutoff := ds.cutoff.map r8
        singles := ds.first.length
        pairCount := seconds.length
        pairsInCutoff := ds.cutoff.map
          (fun _ => (seconds.filter (fun d => d.included.getD true)).length)
        duplicates := ds.duplicates }

/-! ### Reading -/

/-- `_parse_fc3_dataset_type1_with_forces` (interface/phono3py_yaml.py:223-248). The key `included`
is not read. -/
def loadWithForces {V K : Type} (c : Nat) (p : YamlPair V K) (fs : List V) :
    Option (List (KeyedSecond V K) × Nat) :=
  p.displacement.bind fun u =>
    if idAccepted p.displacementId (c + 1) then
      some ([{ id := p.displacementId
               number := p.atom - 1
               displacement := u
               pairDistance := p.pairDistance
               included := none
               forces := some fs
               energy := p.energy }], c + 1)
    else none

/-- The loop over `zip(d2["displacement_ids"], disps)` (interface/phono3py_yaml.py:275-281). -/
def stampIds {V K : Type} : Nat → List Nat → List (KeyedSecond V K) →
    Option (List (KeyedSecond V K) × Nat)
  | c, [], ds => some (ds, c)
  | c, _ :: _, [] => some ([], c)
  | c, i :: is, d :: ds =>
    if c + 1 = i then
      (stampIds (c + 1) is ds).map fun r => ({ d with id := some i } :: r.1, r.2)
    else none

/-- `_parse_fc3_dataset_type1_without_forces` (interface/phono3py_yaml.py:250-286). -/
def loadWithoutForces {V K : Type} (c : Nat) (p : YamlPair V K) :
    Option (List (KeyedSecond V K) × Nat) :=
  p.displacements.bind fun us =>
    let disps : List (KeyedSecond V K) := us.map (fun u =>
      { id := none
        number := p.atom - 1
        displacement := u
        pairDistance := p.pairDistance
        included := p.included
        forces := none
        energy := none })
    match p.displacementIds with
    | some ids => stampIds c ids disps
    | none => some (disps, c + disps.length)

/-- The loop over `paired_with` (interface/phono3py_yaml.py:210-218). -/
def loadPairs {V K : Type} : Nat → List (YamlPair V K) → Option (List (KeyedSecond V K) × Nat)
  | c, [] => some ([], c)
  | c, p :: ps =>
    (match p.forces with
      | some fs => loadWithForces c p fs
      | none => loadWithoutForces c p).bind fun (s : List (KeyedSecond V K) × Nat) =>
    (loadPairs s.2 ps).map fun (r : List (KeyedSecond V K) × Nat) => (s.1 ++ r.1, r.2)

/-- The loop over `displacement_pairs` (interface/phono3py_yaml.py:190-219). A `paired_with`
without items is null in YAML, which the loop at line 210 cannot iterate over. -/
def loadFirst {V K : Type} : Nat → Nat → List (YamlFirst V K) → Option (List (KeyedFirst V K))
  | _, _, [] => some []
  | i, c, p :: ps =>
    if idAccepted p.displacementId (i + 1) then
      if p.pairedWith = [] then none
      else
        (loadPairs c p.pairedWith).bind fun s =>
          (loadFirst (i + 1) s.2 ps).map fun rest =>
            { id := p.displacementId
              number := p.atom - 1
              displacement := p.displacement
              forces := p.forces
              energy := p.energy
              second := s.1 } :: rest
    else none

/-- `_parse_fc3_dataset` for a type-1 dataset (interface/phono3py_yaml.py:162-221); `natom` is
`len(self._data.supercell)`. An absent `displacement_pairs` is the empty list, for which element 0
does not exist. -/
def loadDataset {V K : Type} (natom : Nat) (y : YamlDataset V K) : Option (KeyedDataset V K) :=
  if y.pairs = [] then none
  else
    (loadFirst 0 y.pairs.length y.pairs).map fun ds =>
      { natom := natom
        duplicates := y.duplicates
        cutoff := y.cutoff
        first := ds }

/-- A dataset made by `direction_to_displacement` as a dictionary
(displacement_fc3.py:85-128): all keys are present except those that are optional there. -/
def keyedDataset {V K : Type} (ds : DispDataset V K) : KeyedDataset V K :=
  { natom := ds.natom
    duplicates := ds.duplicates
    cutoff := ds.cutoff
    first := ds.first.map (fun d1 =>
      { id := some d1.id
        number := d1.number
        displacement := d1.displacement
        forces := d1.forces
        energy := d1.energy
        second := d1.second.map (fun d2 =>
          { id := some d2.id
            number := d2.number
            displacement := d2.displacement
            pairDistance := some d2.pairDistance
            included := d2.included
            forces := d2.forces
            energy := d2.energy }) }) }

end Phono3py
