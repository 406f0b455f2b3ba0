import Verif.Model.Phono3pyYaml
import Mathlib.Order.Defs.LinearOrder

/-!
# The cutoff of pair distances when fc3 is made

Model of the option `--cutoff-pair` where force constants are made
(`phono3py/cui/create_force_constants.py`) and of its use in `phono3py/phonon3/fc3.py`.
-/

namespace Phono3py

section
variable {V K : Type} [LinearOrder K]

/-- The end of `parse_forces` (cui/create_force_constants.py:297-305). `cutoff` is `None` also for
the value 0, which is false in Python. -/
def overwriteCutoff (cutoff : Option K) (ds : KeyedDataset V K) : KeyedDataset V K :=
  match cutoff with
  | none => ds
  | some c =>
    match ds.cutoff with
    | none => { ds with cutoff := some c }
    | some d => if c < d then { ds with cutoff := some c } else ds

/-- The test of one second displacement in `_get_fc3_done` (phonon3/fc3.py:808-820). The inner value
says whether the pair is taken, the outer `none` is the `AssertionError` of line 818, where `near`
compares the stored with the computed distance. -/
def pairTaken (near : K → K → Bool) (dist : Nat → Nat → K) (cutoff : Option K) (first : Nat)
    (d2 : KeyedSecond V K) : Option Bool :=
  match d2.included with
  | some b => some b
  | none =>
    match cutoff with
    | none => some false
    | some c =>
      if (match d2.pairDistance with
          | none => true
          | some x => near (dist first d2.number) x) then
        some (decide (dist first d2.number < c))
      else none

/-- `least_second_atom_nums` of one first displacement in `_get_fc3_done` before `np.unique`
(phonon3/fc3.py:807-820). -/
def leastSecondAtoms (near : K → K → Bool) (dist : Nat → Nat → K) (cutoff : Option K)
    (d1 : KeyedFirst V K) : Option (List Nat) :=
  d1.second.foldl (fun (acc : Option (List Nat)) d2 =>
    acc.bind fun l => (pairTaken near dist cutoff d1.number d2).map fun b =>
      if b then l ++ [d2.number] else l) (some [])

end
end Phono3py
