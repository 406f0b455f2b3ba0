/-
Python side of the self-energy calculation: phono3py/phonon3/imag_self_energy.py. `numpy` arrays
along the band axis are functions of the position; `degenerate_sets` belongs to phonopy and its
result is a parameter.
-/
import Mathlib.Algebra.Order.Field.Basic
import Verif.Model.SelfEnergy

namespace Phono3py

/-- `np.arange(a, b)` (phono3py/phonon3/imag_self_energy.py:1081-1083). -/
def arange (a b : Int) : List Int := (List.range (b - a).toNat).map fun (i : Nat) => a + i

/-- `get_freq_points_batches`, phono3py/phonon3/imag_self_energy.py:1074-1084; `none` is the
`ZeroDivisionError`. -/
def freqPointsBatches (tot : Nat) (nelems : Option Int) : Option (List (List Int)) :=
  let n := nelems.getD 10
  if n = 0 then none
  else
    let nbatch := (tot : Int).fdiv n
    let batches := (List.range nbatch.toNat).map fun (i : Nat) => arange (i * n) ((i + 1) * n)
    some (if (tot : Int).fmod n > 0 then batches ++ [arange (n * nbatch) tot] else batches)

section
variable {K : Type _} [Field K]

/-- `bi_set`, phono3py/phonon3/imag_self_energy.py:1015-1018. -/
def positions (bands dset : List Nat) : List Nat :=
  (List.range bands.length).filter fun i => dset.contains (bands.getD i 0)

/-- One round of the loop of `average_by_degeneracy`,
phono3py/phonon3/imag_self_energy.py:1014-1023. -/
def averageSet (bands : List Nat) (ise : Nat → K) (se : Nat → K) (dset : List Nat) : Nat → K :=
  let biSet := positions bands dset
  biSet.foldl (fun (se : Nat → K) i => fun k =>
    if k = i then (biSet.map ise).sum / biSet.length else se k) se

/-- `average_by_degeneracy` for one row of values, phono3py/phonon3/imag_self_energy.py:1010-1024;
`degSets` is the result of phonopy's `degenerate_sets`. Two-dimensional input is treated row by
row. -/
def averageByDegeneracy (degSets : List (List Nat)) (bands : List Nat) (ise : Nat → K) :
    Nat → K :=
  degSets.foldl (averageSet bands ise) fun _ => 0

/-- The assignments `gamma[j, ll, i, :, fpts_batch] = ise.imag_self_energy` over all batches,
phono3py/phonon3/imag_self_energy.py:1059-1069, for one grid point, sigma and temperature:
`run pts p` is the row of values over bands computed at position `p` of a run with the
frequency points `pts`; `gamma k b` is band `b` at frequency point `k`. -/
def runFreqBatches (batches : List (List Int)) (points : Int → K)
    (run : List K → Nat → Nat → K) (gamma : Int → Nat → K) : Int → Nat → K :=
  batches.foldl (fun gamma batch =>
    runWrites gamma (batch.zipIdx.map fun kp => (kp.1, run (batch.map points) kp.2))) gamma

/-- `Phono3py._set_band_indices`, phono3py/api_phono3py.py:744-750: the flattened band indices. -/
def flattenBands (groups : List (List Nat)) : List Nat := groups.flatten

/-- `pos`, phono3py/phonon3/imag_self_energy.py:990-992. -/
def groupPos (groups : List (List Nat)) (i : Nat) : Nat :=
  (List.range i).foldl (fun pos j => pos + (groups.getD j []).length) 0

/-- The values handed to the writer at one frequency, phono3py/phonon3/imag_self_energy.py:989-999:
for every group its bands and its average. -/
def writtenGroups (groups : List (List Nat)) (ise : List K) : List (List Nat × K) :=
  groups.zipIdx.map fun bi =>
    (bi.1, ((ise.drop (groupPos groups bi.2)).take bi.1.length).sum / bi.1.length)

variable [LinearOrder K] [IsStrictOrderedRing K]

/-- State of an `ImagSelfEnergy` object that frequency-point runs do not change
(phono3py/phonon3/imag_self_energy.py:78-87). -/
structure IseState (K : Type _) where
  bose : K → K → K
  numTriplets : Nat
  numBand : Nat
  strength : Int → K
  frequencies : Int → K
  triplets : Nat → Fin 3 → Int
  weights : Nat → Int
  temperature : K
  cutoff : K
  bands : List Nat
  degSets : List (List Nat)
  unitConversion : K

/-- `ImagSelfEnergy.run` and `imag_self_energy` with the frequency points `points`,
phono3py/phonon3/imag_self_energy.py:119-130, 159-165 and 426-446: row `p` over bands. `g` are the
integration weights and flags computed for these points. -/
def runAtPoints (s : IseState K) (g : (Int → K) × (Int → Bool)) (points : List K) (p : Nat) :
    Nat → K :=
  averageByDegeneracy s.degSets s.bands fun b =>
    iseWithG s.bose s.numTriplets s.bands.length s.numBand s.strength s.frequencies s.triplets
      s.weights g.1 g.2 s.temperature s.cutoff points.length p b * s.unitConversion

/-- `_run_py_with_band_indices_with_g`, phono3py/phonon3/imag_self_energy.py:486-523, without the
factor `unit_conversion`: `_ise_thm_with_band_indices` for a positive temperature and
`_ise_thm_with_band_indices_0K` otherwise. -/
def isePy (bose : K → K → K) (numTriplets numBand : Nat) (strength : Nat → Nat → Nat → Nat → K)
    (frequencies : Int → Nat → K) (triplets : Nat → Fin 3 → Int) (weights : Nat → Int)
    (g : Nat → Nat → Nat → Nat → Nat → K) (T cutoff : K) (b : Nat) : K :=
  let occ := fun f => bose (if f > cutoff then f else 1) T
  (List.range numTriplets).foldl (fun s i =>
    (List.range numBand).foldl (fun s j =>
      (List.range numBand).foldl (fun s k =>
        if T > 0 then
          let f1 := frequencies (triplets i 1) j
          let f2 := frequencies (triplets i 2) k
          if f1 > cutoff ∧ f2 > cutoff then
            s + ((occ f1 + occ f2 + 1) * g 0 i b j k + (occ f1 - occ f2) * g 1 i b j k) *
              strength i b j k * weights i
          else s
        else s + g 0 i b j k * strength i b j k * weights i) s) s) 0

/-- `ImagSelfEnergy.run_integration_weights`, phono3py/phonon3/imag_self_energy.py:157-158: the
slab of the other class is set to zero; `slab` is the number of elements of one slab. -/
def selectClass (cls : Option Nat) (slab : Nat) (g : Int → K) : Int → K :=
  match cls with
  | some 1 => fun p => if 0 ≤ p ∧ p < slab then 0 else g p
  | some 2 => fun p => if (slab : Int) ≤ p ∧ p < 2 * slab then 0 else g p
  | _ => g

end
end Phono3py
