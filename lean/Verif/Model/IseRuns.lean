/-
`get_imag_self_energy` (phono3py/phonon3/imag_self_energy.py) as a sequence of calls of one
`ImagSelfEnergy` object, and where the contributions of triplets are put.
-/
import Verif.Model.IseObject

namespace Phono3py

section
variable {P K S G Z A V : Type}

/-- `run_ise_at_frequency_points_batch`, phono3py/phonon3/imag_self_energy.py:1059-1071, for the batches
of frequency points given; one list of values, over temperatures, for each batch. -/
def iseBatches (env : IseEnv P K S G Z A V) (cls : Option Nat) (temperatures : List K) :
    List (List K) → IseObject P K S G Z V → Option (IseObject P K S G Z V × List (List V))
  | [], s => some (s, [])
  | b :: batches, s => do
    let s ← iseCall env s (.setFrequencyPoints (some b))
    let s ← iseCall env s (.runIntegrationWeights cls)
    let v ← gammaTemperatures env temperatures s
    let r ← iseBatches env cls temperatures batches v.1
    some (r.1, v.2 :: r.2)

/-- `_get_imag_self_energy_at_sigma`, phono3py/phonon3/imag_self_energy.py:873-915: at the band
frequencies there is one list of values, over temperatures. -/
def iseAtSigma (env : IseEnv P K S G Z A V) (cls : Option Nat) (temperatures : List K)
    (batches : Option (List (List K))) (s : IseObject P K S G Z V) :
    Option (IseObject P K S G Z V × List (List V)) :=
  match batches with
  | none => do
    let s ← iseCall env s (.runIntegrationWeights cls)
    let v ← gammaTemperatures env temperatures s
    some (v.1, [v.2])
  | some batches => iseBatches env cls temperatures batches s

/-- The loop over smearing widths of `_get_imag_self_energy_at_gp`,
phono3py/phonon3/imag_self_energy.py:826-847. -/
def iseAtSigmas (env : IseEnv P K S G Z A V) (cls : Option Nat) (temperatures : List K)
    (batches : Option (List (List K))) :
    List (Option K) → IseObject P K S G Z V →
      Option (IseObject P K S G Z V × List (List (List V)))
  | [], s => some (s, [])
  | sigma :: sigmas, s => do
    let s ← iseCall env s (.setSigma sigma none)
    let v ← iseAtSigma env cls temperatures batches s
    let r ← iseAtSigmas env cls temperatures batches sigmas v.1
    some (r.1, v.2 :: r.2)

/-- The loop over grid points of `get_imag_self_energy`,
phono3py/phonon3/imag_self_energy.py:718-765. -/
def iseAtGridPoints (env : IseEnv P K S G Z A V) (cls : Option Nat) (temperatures : List K)
    (batches : Option (List (List K))) (sigmas : List (Option K)) :
    List P → IseObject P K S G Z V →
      Option (IseObject P K S G Z V × List (List (List (List V))))
  | [], s => some (s, [])
  | p :: ps, s => do
    let s ← iseCall env s (.setGridPoint (some p))
    let s ← iseCall env s (.runInteraction true)
    let v ← iseAtSigmas env cls temperatures batches sigmas s
    let r ← iseAtGridPoints env cls temperatures batches sigmas ps v.1
    some (r.1, v.2 :: r.2)

end

/-! ### Contributions of triplets -/

section
variable {D : Type}

/-- `detailed_gamma_at_gp[k] = value`, phono3py/phonon3/imag_self_energy.py:900: the first axis has
`numSigmas` elements, the value is stored for all elements of the second axis (temperatures).
Failure: `IndexError`. -/
def storeRow (numSigmas k : Nat) (value : D) (a : Nat → Nat → D) : Option (Nat → Nat → D) :=
  if k < numSigmas then some fun j t => if j = k then value else a j t else none

/-- The loop over temperatures at band frequencies for smearing width `j`,
phono3py/phonon3/imag_self_energy.py:893-900; `d j k` is `ise.detailed_imag_self_energy` after `run` at
smearing width `j` and temperature `k`. -/
def storeAtBands (numSigmas numTemperatures : Nat) (d : Nat → Nat → D) (j : Nat)
    (a : Nat → Nat → D) : Option (Nat → Nat → D) :=
  (List.range numTemperatures).foldlM (fun a k => storeRow numSigmas k (d j k) a) a

/-- `detailed_gamma_at_gp[j][ll, fpts_batch] = value` for all temperatures and batches of frequency
points, phono3py/phonon3/imag_self_energy.py:886-889, 1066-1071; `d j k` has one entry per frequency
point, and all frequency points are in one batch (C29). -/
def storeAtPoints (numTemperatures : Nat) (d : Nat → Nat → D) (j : Nat) (a : Nat → Nat → D) :
    Nat → Nat → D :=
  fun i t => if i = j ∧ t < numTemperatures then d j t else a i t

/-- What is stored for smearing width `j` (phono3py/phonon3/imag_self_energy.py:891-915). -/
def storeDetail (atBands : Bool) (numSigmas numTemperatures : Nat) (d : Nat → Nat → D) (j : Nat)
    (a : Nat → Nat → D) : Option (Nat → Nat → D) :=
  if atBands then storeAtBands numSigmas numTemperatures d j a
  else some (storeAtPoints numTemperatures d j a)

/-- The loop over smearing widths at one grid point, phono3py/phonon3/imag_self_energy.py:826-870: the
array at the end and the array `detailed_gamma_at_gp[j]` written to the file of each smearing width.
The elements of `detailed_gamma` appended in the loop are one array object. -/
def storeSigmas (atBands : Bool) (numSigmas numTemperatures : Nat) (d : Nat → Nat → D) :
    List Nat → (Nat → Nat → D) → Option ((Nat → Nat → D) × List (Nat → D))
  | [], a => some (a, [])
  | j :: js, a => do
    let a ← storeDetail atBands numSigmas numTemperatures d j a
    let r ← storeSigmas atBands numSigmas numTemperatures d js a
    some (r.1, a j :: r.2)

/-- `detailed_gamma` and the written arrays after `_get_imag_self_energy_at_gp` for all grid points
(phono3py/phonon3/imag_self_energy.py:713-770, 793-870): `ds` are the results of the grid points,
`zero` the initial contents. One element is appended for each smearing width. -/
def storeGridPoints (atBands : Bool) (numSigmas numTemperatures : Nat) (zero : D) :
    List (Nat → Nat → D) → Option (List (Nat → Nat → D) × List (List (Nat → D)))
  | [] => some ([], [])
  | d :: ds => do
    let r ← storeSigmas atBands numSigmas numTemperatures d (List.range numSigmas) fun _ _ => zero
    let q ← storeGridPoints atBands numSigmas numTemperatures zero ds
    some (List.replicate numSigmas r.1 ++ q.1, r.2 :: q.2)

end
end Phono3py
