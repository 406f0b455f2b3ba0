/-
Smearing widths and files of `Phono3py.run_real_self_energy` (phono3py/api_phono3py.py:1752-1855).
-/
import Mathlib.Algebra.Field.Rat
import Verif.Model.Bands

namespace Phono3py

/-- An element of the sequence given to the setter `sigmas` of `Phono3py`: a Python number (`float`, `int` or
`numpy.float64`), `None`, or anything else, such as `numpy.int64` or a string
(phono3py/api_phono3py.py:383-398). -/
inductive SigmaElement (K : Type) where
  | number (x : K)
  | missing
  | other

/-- The setter `sigmas`, phono3py/api_phono3py.py:393-398, for a sequence. -/
def sigmasSetter {K : Type} (l : List (SigmaElement K)) : List (Option K) :=
  l.filterMap fun
    | .number x => some (some x)
    | .missing => some none
    | .other => none

/-- `_epsilons`, phono3py/api_phono3py.py:1815-1823. Failure: `IndexError`. -/
def shiftEpsilons {K : Type} (given : Option (List (Option K))) (sigmas : List (Option K)) :
    Option (Option (List (Option K))) :=
  match given with
  | some e => some (some e)
  | none =>
    match sigmas with
    | [] => none
    | [none] => some none
    | none :: rest => some (some rest)
    | l => some (some l)

/-- One file: hdf5 with the values of all selected bands at all temperatures (phono3py/file_IO.py:604-656), or text with
the average of a group of bands at one temperature (569-601), at one frequency point. Grid points and
temperatures are given by their positions, the width by its value in the name. -/
inductive ShiftFile (K : Type) where
  | hdf5 (gp : Nat) (epsilon : K) (bands : List Nat) (values : List (List K))
  | text (gp : Nat) (epsilon : K) (temp : Nat) (bands : List Nat) (value : K)
deriving DecidableEq

section
variable {K : Type} [Field K]

/-- `_epsilons` in `get_real_self_energy`, phono3py/phonon3/real_self_energy.py:543-548, with the setter `epsilon`
(193-198) and its default 0.05 (72). -/
def usedEpsilons (epsilons : Option (List (Option K))) : List K :=
  (epsilons.getD [none]).map fun e => e.getD (5 / 100)

/-- The hdf5 files, phono3py/phonon3/real_self_energy.py:596-664. `value epsilon temp gp` are the values of all selected
bands (C96). -/
def shiftHdf5 (epsilons : Option (List (Option K))) (numGp numTemp : Nat) (groups : List (List Nat))
    (value : K → Nat → Nat → List K) : List (ShiftFile K) :=
  (List.range numGp).flatMap fun gp => (usedEpsilons epsilons).map fun e =>
    .hdf5 gp e groups.flatten ((List.range numTemp).map fun t => value e t gp)

/-- `write_real_self_energy_at_grid_point`, phono3py/file_IO.py:569-601. Failures: a width `None` in a comparison (583),
no frequency points (598). -/
def shiftText (gp : Nat) (epsilon : Option K) (temp : Nat) (atBands : Bool) (g : List Nat × K) :
    Option (ShiftFile K) :=
  match epsilon with
  | none => none
  | some e => if atBands then none else some (.text gp e temp g.1 g.2)

/-- `write_real_self_energy`, phono3py/phonon3/real_self_energy.py:671-713. The array has one part for each width. -/
def shiftTexts (epsilons : Option (List (Option K))) (numGp numTemp : Nat) (groups : List (List Nat))
    (atBands : Bool) (array : List (Nat → Nat → List K)) : Option (List (ShiftFile K)) :=
  let eps : List (Option K) := epsilons.getD [some (5 / 100)]
  ((List.zip eps array).flatMap fun ea => (List.range numTemp).flatMap fun t =>
    (List.range numGp).flatMap fun gp => (writtenGroups groups (ea.2 t gp)).map fun g =>
      (gp, ea.1, t, g)).mapM fun x => shiftText x.1 x.2.1 x.2.2.1 atBands x.2.2.2

/-- `run_real_self_energy`, phono3py/api_phono3py.py:1752-1855: the returned array (a part for each width) and the files.
Failures as above. -/
def shiftRun (given : Option (List (Option K))) (sigmas : List (Option K)) (numGp numTemp : Nat)
    (groups : List (List Nat)) (atBands writeTxt writeHdf5 : Bool) (value : K → Nat → Nat → List K) :
    Option (List (Nat → Nat → List K) × List (ShiftFile K)) := do
  let eps ← shiftEpsilons given sigmas
  let array := (usedEpsilons eps).map value
  let h := if writeHdf5 then shiftHdf5 eps numGp numTemp groups value else []
  let t ← if writeTxt then shiftTexts eps numGp numTemp groups atBands array else some []
  some (array, h ++ t)

end
end Phono3py
