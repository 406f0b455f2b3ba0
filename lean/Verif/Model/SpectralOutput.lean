/-
Output of the spectral-function calculation, phono3py/phonon3/spectral_function.py:118-172, and the
name of the file with real parts of self-energies, phono3py/file_IO.py:604-637.
-/
import Mathlib.Algebra.Field.Rat
import Verif.Model.Bands
import Verif.Model.FileName

namespace Phono3py

/-- One file written: a text file for a group of bands at one temperature (with the group's
average at one frequency point), or an hdf5 file (with the values of all bands at all
temperatures and the data set `band_index`). Sigmas, temperatures and grid points are given by
their positions (phono3py/phonon3/spectral_function.py:118-172). -/
inductive SpfFile (K : Type _) where
  | text (gp sigma temp : Nat) (bands : List Nat) (value : K)
  | hdf5 (gp sigma : Nat) (bandIndex : List Nat) (values : List (List K))
deriving DecidableEq

/-- The local variables of `run_spectral_function` that matter: whether `filename` is bound, the
current `bi`, and the files written so far (phono3py/phonon3/spectral_function.py:118-172). -/
structure SpfVars (K : Type _) where
  filename : Bool
  bi : Option (List Nat)
  files : List (SpfFile K)

section
variable {K : Type _} [Field K]

/-- The body of the loop over band groups, phono3py/phonon3/spectral_function.py:134-153. `none` is
the `UnboundLocalError` of line 153. -/
def spfGroup (writeTxt : Bool) (logLevel : Nat) (gp sigma temp : Nat) (v : SpfVars K)
    (group : List Nat × K) : Option (SpfVars K) :=
  let v := { v with bi := some group.1 }
  let v := if writeTxt then
      { v with filename := true, files := v.files ++ [.text gp sigma temp group.1 group.2] } else v
  if logLevel ≠ 0 ∧ !v.filename then none else some v

/-- The body of the loop over sigmas, phono3py/phonon3/spectral_function.py:131-172. `values temp` are
the values of all selected bands at that temperature (one frequency point). -/
def spfSigma (writeTxt writeHdf5 : Bool) (logLevel : Nat) (groups : List (List Nat))
    (numTemp : Nat) (values : Nat → Nat → Nat → List K) (gp : Nat) (v : SpfVars K) (sigma : Nat) :
    Option (SpfVars K) :=
  Option.bind ((List.range numTemp).foldlM (fun v temp =>
      (writtenGroups groups (values sigma temp gp)).foldlM
        (spfGroup writeTxt logLevel gp sigma temp) v) v) fun v =>
    let after : Option (SpfVars K) :=
      if writeHdf5 then
        match v.bi with
        | none => none
        | some bi => some { v with
            filename := true
            files := v.files ++ [.hdf5 gp sigma bi
              ((List.range numTemp).map fun temp => values sigma temp gp)] }
      else some v
    Option.bind after fun v => if logLevel ≠ 0 ∧ !v.filename then none else some v

/-- `run_spectral_function`, phono3py/phonon3/spectral_function.py:129-174: the files written, or `none`
when an exception is raised. -/
def spfOutput (writeTxt writeHdf5 : Bool) (logLevel : Nat) (groups : List (List Nat))
    (numGp numSigma numTemp : Nat) (values : Nat → Nat → Nat → List K) : Option (List (SpfFile K)) :=
  ((List.range numGp).foldlM (fun v gp =>
    (List.range numSigma).foldlM (spfSigma writeTxt writeHdf5 logLevel groups numTemp values gp) v)
    (⟨false, none, []⟩ : SpfVars K)).map SpfVars.files

end

/-- Name of the file of `write_real_self_energy_to_hdf5`, phono3py/file_IO.py:628-637, for a smearing
width above `1e-5`; the other branch prints the width in exponential notation and is given by
`expForm`. The argument `filename` is not used. -/
def deltasName (mesh : Nat × Nat × Nat) (gridPoint : Nat) (epsilon : ℚ) (expForm : ℚ → List Char)
    (_filename : Option (List Char)) : List Char :=
  "deltas".toList ++ filenameSuffix { mesh := mesh, gridPoint := some gridPoint } ++
    (if epsilon > 1 / 100000 then "-e".toList ++ delZeros epsilon
      else "-e".toList ++ expForm epsilon) ++ ".hdf5".toList

end Phono3py
