import Mathlib.Data.List.Basic

/-!
# Second atoms up to symmetry

Model of `get_least_orbits` and `_get_orbits` in `phono3py/phonon3/displacement_fc3.py`. A position
is an element of `P`, `turn` applies a site-symmetry operation about the central atom, and `near`
says that two positions agree up to a lattice vector and the tolerance.
-/

namespace Phono3py

/-- Body of the loop over operations in `_get_orbits` (displacement_fc3.py:310-320). The state holds
the variable `pos` and the list `mapping`. The inner loop assigns `pos` again, so that it is left at
the atom found, or at the last atom when none is found. -/
def orbitStep {P R : Type} (near : P → P → Bool) (turn : R → P → P) (positions : List P)
    (s : P × List Nat) (r : R) : P × List Nat :=
  match positions.findIdx? (fun q => near q (turn r s.1)) with
  | some i => (positions.getD i s.1, s.2 ++ [i])
  | none => (positions.getLastD s.1, s.2)

/-- One row of `_get_orbits` (displacement_fc3.py:308-326); `none` is the ValueError. -/
def orbitRow {P R : Type} (near : P → P → Bool) (turn : R → P → P) (positions : List P)
    (rots : List R) (pos : P) : Option (List Nat) :=
  let mapping := (rots.foldl (orbitStep near turn positions) (pos, [])).2
  if mapping.length < rots.length then none else some mapping

/-- `_get_orbits` (displacement_fc3.py:300-328). -/
def getOrbits {P R : Type} (near : P → P → Bool) (turn : R → P → P) (positions : List P)
    (rots : List R) : Option (List (List Nat)) :=
  positions.mapM (orbitRow near turn positions rots)

/-- Body of the loop over `orbits` in `get_least_orbits` (displacement_fc3.py:277-280): the distinct
elements of the row in increasing order. -/
def relabelRow (n : Nat) (mapping : Nat → Nat) (row : Nat × List Nat) : Nat → Nat :=
  ((List.range n).filter (fun k => decide (k ∈ row.2))).foldl
    (fun m num => if m row.1 < m num then fun k => if k = num then m row.1 else m k else m) mapping

/-- The array `mapping` at the end of `get_least_orbits` (displacement_fc3.py:275-280). -/
def orbitLabels (n : Nat) (orbits : List (List Nat)) : Nat → Nat :=
  ((orbits.zipIdx).map (fun p => (p.2, p.1))).foldl (relabelRow n) id

/-- `get_least_orbits` (displacement_fc3.py:272-282): the distinct labels in increasing order. -/
def leastOrbits {P R : Type} (near : P → P → Bool) (turn : R → P → P) (positions : List P)
    (rots : List R) : Option (List Nat) :=
  (getOrbits near turn positions rots).map fun orbits =>
    let n := positions.length
    (List.range n).filter (fun v => (List.range n).any (fun k => orbitLabels n orbits k == v))

end Phono3py
