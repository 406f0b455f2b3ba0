/-
The numerical routines behind an `ImagSelfEnergy` object, as modelled in other files, put together
as an `IseEnv`.
-/
import Verif.Model.IseObject
import Verif.Model.InteractionPy
import Verif.Model.SelfEnergyPy
import Verif.Model.IntegrationWeight
import Verif.Model.Bands

namespace Phono3py

/-- Data of the `Interaction` object (`o`, and per grid point `triplets`, `numTriplets`, `weights` of
phono3py/phonon3/interaction.py:653-658) and of the grid that the routines read. `degSets p` is the
result of phonopy's `degenerate_sets` for the frequencies at `p`; the frequencies and eigenvectors
are complete and do not change. -/
structure IseCode (K : Type) where
  o : InteractionObject K
  bose : K → K → K
  gaussian : K → K → K
  eps : K
  g0 : Fin 3 → K
  relative : Fin 24 → Fin 4 → V3
  bz : BZGridOut
  dense : Bool
  triplets : Int → Nat → Fin 3 → Int
  numTriplets : Int → Nat
  weights : Int → Nat → Int
  degSets : Int → List (List Nat)
  bands : List Nat
  unit : K

section
variable {K : Type} [Field K] [LinearOrder K]

/-- Number of elements of the array of strengths for one triplet
(phono3py/phonon3/interaction.py:191-193). -/
def IseCode.block (c : IseCode K) : Nat :=
  c.o.numBand0 * c.o.crystal.numBand * c.o.crystal.numBand

/-- The array `_interaction_strength` in C order after `Interaction.run` in C,
phono3py/phonon3/interaction.py:181-204. -/
def IseCode.strengths (c : IseCode K) (p : Int) (z : Option (Int → Bool)) : Int → K := fun q =>
  let i := (q / (c.block : Int)).toNat
  let r := q % (c.block : Int)
  match c.o.constant with
  | none => (interactionRunC c.o (c.triplets p)
      (z.map fun z i r => z ((i : Int) * c.block + r))).strength i r
  | some x => x / ((c.o.D.x * c.o.D.y * c.o.D.z : Int) : K)

/-- `f_points`, phono3py/phonon3/imag_self_energy.py:141-145. -/
def IseCode.points (c : IseCode K) (q : Int) (f : Option (List K)) (i : Nat) : K :=
  match f with
  | none => c.o.frequencies (q * c.o.crystal.numBand + c.o.crystal.bandIndices i)
  | some f => f.getD i 0

/-- Number of `f_points` (phono3py/phonon3/imag_self_energy.py:141-145). -/
def IseCode.numPoints (c : IseCode K) (f : Option (List K)) : Nat :=
  match f with
  | none => c.o.numBand0
  | some f => f.length

/-- `get_triplets_integration_weights` with the arrays of two slabs,
phono3py/phonon3/triplets.py:148-231 (C): the number of elements of a slab, the weights, and the
flags. -/
def IseCode.weightsAt (c : IseCode K) (p q : Int) (f : Option (List K)) (sigma cutoff : Option K) :
    (Nat × (Int → K)) × (Int → Bool) :=
  let st := if sigma.getD 0 = 0 then
      tplStores c.eps c.g0 (c.points q f) (c.numPoints f) c.relative (c.triplets p)
        (c.numTriplets p) c.bz c.o.D c.dense c.o.frequencies c.o.crystal.numBand c.o.frequencies
        c.o.crystal.numBand 2
    else
      sigmaStores c.gaussian (sigma.getD 0) (cutoff.getD (-1)) (c.points q f) (c.numPoints f)
        (c.triplets p) (c.numTriplets p) c.o.frequencies c.o.crystal.numBand 2
  ((c.numTriplets p * c.numPoints f * c.o.crystal.numBand * c.o.crystal.numBand,
    runWrites (fun _ => 0) st.1), runWrites (fun _ => false) st.2)

/-- `_imag_self_energy` after `_run_c_with_band_indices_with_g` (one row) or
`_run_c_with_frequency_points_with_g` (one row per frequency point),
phono3py/phonon3/imag_self_energy.py:376-396 and 426-446. Elements outside the array are 0. -/
def IseCode.resultAt (c : IseCode K) (p : Int) (v : Int → K) (g : Nat × (Int → K))
    (z : Option (Int → Bool)) (f : Option (List K)) (t : K) : Nat → Nat → K := fun x b =>
  if b < c.o.numBand0 then
    match f with
    | none =>
      if x = 0 then cIse c.bose (c.numTriplets p) c.o.numBand0 c.o.crystal.numBand v c.o.frequencies
        (c.triplets p) (c.weights p) g.2 z t c.o.crystal.cutoff c.unit b
      else 0
    | some f =>
      if x < f.length then cIseAt c.bose (c.numTriplets p) c.o.numBand0 c.o.crystal.numBand f.length
        v c.o.frequencies (c.triplets p) (c.weights p) g.2 (z.getD fun _ => false) t c.o.crystal.cutoff
        c.unit x b
      else 0
  else 0

/-- `averaged_interaction`, phono3py/phonon3/interaction.py:516-527, for selected band `b`. -/
def IseCode.averages (c : IseCode K) (p : Int) (v : Int → K) (b : Nat) : K :=
  (sumLoop (c.numTriplets p) fun i => (c.weights p i : K) *
    sumLoop c.o.crystal.numBand fun k => sumLoop c.o.crystal.numBand fun l =>
      v ((((i * c.o.numBand0 + b) * c.o.crystal.numBand + k) * c.o.crystal.numBand + l : Nat) : Int))
    / ((c.o.crystal.numBand * c.o.crystal.numBand : Nat) : K)

/-- `set_averaged_pp_interaction`, phono3py/phonon3/imag_self_energy.py:308-317: the array in C
order. -/
def IseCode.fromAverages (c : IseCode K) (a : Nat → K) : Int → K := fun q =>
  let n := c.o.crystal.numBand * c.o.crystal.numBand
  a ((q / (n : Int)).toNat % c.o.numBand0) / ((c.o.D.x * c.o.D.y * c.o.D.z : Int) : K)

/-- The routines called by an `ImagSelfEnergy` object (phono3py/phonon3/imag_self_energy.py:105-374). -/
def IseCode.env [IsStrictOrderedRing K] (c : IseCode K) :
    IseEnv Int K (Int → K) (Nat × (Int → K)) (Int → Bool) (Nat → K) (Nat → Nat → K) where
  strengths := c.strengths
  weights := c.weightsAt
  eventClass := fun n g => (g.1, selectClass (some (n + 1)) g.1 g.2)
  fromAverages := fun _ => c.fromAverages
  averages := c.averages
  result := c.resultAt
  degenerate := fun p v x => averageByDegeneracy (c.degSets p) c.bands (v x)

end
end Phono3py
