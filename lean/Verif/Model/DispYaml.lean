/-
`disp_fc3.yaml` and `disp_fc2.yaml`: `write_disp_fc3_yaml`, `write_disp_fc2_yaml`, `parse_disp_fc3_yaml` and
`parse_disp_fc2_yaml` (phono3py/file_IO.py:58-186, 1537-1605).
-/
import Verif.Model.Kaccum

namespace Phono3py

/-- One second displacement of a dataset with pairs: `number`, `displacement`, `pair_distance`, `included` (absent:
`none`) and `id`, as used in phono3py/file_IO.py:84-89 and 111-149. -/
structure PairSecond (K : Type) where
  number : Nat
  displacement : Fin 3 → K
  distance : K
  included : Option Bool
  id : Nat

/-- One first displacement with its second ones, phono3py/file_IO.py:99-110. -/
structure PairFirst (K : Type) where
  number : Nat
  displacement : Fin 3 → K
  seconds : List (PairSecond K)

/-- A dataset with pairs of displacements, phono3py/file_IO.py:69-98. -/
structure PairDataset (K : Type) where
  natom : Nat
  cutoff : Option K
  firsts : List (PairFirst K)

/-- An entry of `second_atoms` in the file, phono3py/file_IO.py:128-149. -/
structure FileSecond (K : Type) where
  number : Nat
  distance : K
  included : Option Bool
  displacements : List (Fin 3 → K)
  ids : List Nat

/-- An entry of `first_atoms` in the file, phono3py/file_IO.py:102-110. -/
structure FileFirst (K : Type) where
  number : Nat
  displacement : Fin 3 → K
  id : Nat
  seconds : List (FileSecond K)

/-- The file without the cell, phono3py/file_IO.py:69-151. -/
structure DispFile (K : Type) where
  natom : Nat
  numFirst : Nat
  cutoff : Option K
  numSecond : Nat
  numCreated : Nat
  firsts : List (FileFirst K)

/-- What `parse_disp_fc3_yaml` gives for a second displacement: there is no `id`, phono3py/file_IO.py:1588-1595. -/
structure ParsedSecond (K : Type) where
  number : Nat
  displacement : Fin 3 → K
  distance : K
  included : Option Bool

/-- What `parse_disp_fc3_yaml` gives for a first displacement, phono3py/file_IO.py:1584-1598. -/
structure ParsedFirst (K : Type) where
  number : Nat
  displacement : Fin 3 → K
  seconds : List (ParsedSecond K)

/-- What `parse_disp_fc3_yaml` gives, phono3py/file_IO.py:1577-1599. -/
structure ParsedDataset (K : Type) where
  natom : Nat
  cutoff : Option K
  firsts : List (ParsedFirst K)

section
variable {K : Type}

/-- `num_disp_files`, phono3py/file_IO.py:79-89. -/
def numDispFiles (d : PairDataset K) : Nat :=
  (d.firsts.map fun f => 1 + (f.seconds.filter fun s => s.included.getD true).length).sum

/-- The checks of `id` in one group, phono3py/file_IO.py:136-140. The counter after the group, or failure:
`AssertionError`. -/
def checkIds (count : Nat) (l : List (PairSecond K)) : Option Nat :=
  match l with
  | [] => some count
  | s :: l => if s.id = count + 1 then checkIds (count + 1) l else none

/-- `included` of the atom before and of this one, phono3py/file_IO.py:124-125. -/
def keptIncluded (before now : Option Bool) : Option Bool :=
  match now with
  | some b => some b
  | none => before

/-- The loop over the distinct second atoms (`npUnique`, 112-115), phono3py/file_IO.py:116-149. `included` keeps its value for the next atom.
`r16` is the number read from `%20.16f` and `r6` that from `%f`. -/
def writeSeconds (r16 r6 : K → K) (all : List (PairSecond K)) (count : Nat) (included : Option Bool) :
    List Nat → Option (Nat × List (FileSecond K))
  | [] => some (count, [])
  | a :: atoms =>
    match all.filter (fun s => s.number = a) with
    | [] => none
    | s :: l =>
      let inc := keptIncluded included s.included
      match checkIds count (s :: l) with
      | none => none
      | some c =>
        match writeSeconds r16 r6 all c inc atoms with
        | none => none
        | some (c', es) =>
          some (c', { number := s.number + 1, distance := r6 s.distance, included := inc,
                      displacements := (s :: l).map fun t i => r16 (t.displacement i),
                      ids := (s :: l).map (·.id) } :: es)

/-- The loop over first displacements, phono3py/file_IO.py:96-149. -/
def writeFirsts (r16 r6 : K → K) (count1 count2 : Nat) :
    List (PairFirst K) → Option (List (FileFirst K))
  | [] => some []
  | f :: fs =>
    match writeSeconds r16 r6 f.seconds count2 none (npUnique (f.seconds.map (·.number))) with
    | none => none
    | some (c, es) =>
      match writeFirsts r16 r6 (count1 + 1) c fs with
      | none => none
      | some r =>
        some ({ number := f.number + 1, displacement := fun i => r16 (f.displacement i),
                id := count1 + 1, seconds := es } :: r)

/-- `write_disp_fc3_yaml`, phono3py/file_IO.py:58-155: the file and the returned numbers. `duplicates` (93-96, not read
again) and the cell are left out. Failure: `AssertionError`. -/
def writeDispFc3 (r16 r6 : K → K) (d : PairDataset K) : Option (DispFile K × Nat × Nat) :=
  let numSecond := (d.firsts.map fun f => f.seconds.length).sum
  match writeFirsts r16 r6 0 d.firsts.length d.firsts with
  | none => none
  | some fs =>
    some ({ natom := d.natom, numFirst := d.firsts.length, cutoff := d.cutoff.map r6,
            numSecond := numSecond, numCreated := numDispFiles d, firsts := fs },
      d.firsts.length + numSecond, numDispFiles d)

/-- `parse_disp_fc3_yaml`, phono3py/file_IO.py:1566-1605, without the cell. The keys `included` and `distance` are those
of the entry. Failure: `TypeError`, since yaml gives `None` for a key without entries. -/
def parseDispFc3 (f : DispFile K) : Option (ParsedDataset K) :=
  if f.firsts.isEmpty || f.firsts.any (fun a => a.seconds.isEmpty) then none
  else some
    { natom := f.natom
      cutoff := f.cutoff
      firsts := f.firsts.map fun a =>
        { number := a.number - 1
          displacement := a.displacement
          seconds := a.seconds.flatMap fun s => s.displacements.map fun u =>
            { number := s.number - 1, displacement := u, distance := s.distance, included := s.included } } }

end
end Phono3py
