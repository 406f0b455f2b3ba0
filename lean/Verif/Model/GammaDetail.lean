/-
Files of triplet contributions to linewidths written during a run in the relaxation time
approximation (option `write_gamma_detail`, `--write-gamma-detail`).
-/
import Verif.Model.IseRoutines
import Verif.Model.SelfEnergy

namespace Phono3py

/-! ### Attributes -/

section
variable {P K S G Z A V E : Type}

/-- `self._gamma_detail_at_q` after the loop over smearing widths, phono3py/conductivity/rta.py:287-314:
a new array for every width, whose element `k` is the array of contributions (triplets, selected bands)
at temperature number `k`. `rows` are the results for the widths, in the order of the loop. -/
def detailAttribute (detail : V → Nat → Nat → E) (rows : List (List V))
    (old : Option (List (Nat → Nat → E))) : Option (List (Nat → Nat → E)) :=
  rows.foldl (fun _ row => some (row.map detail)) old

/-- Whether `self._pp.get_interaction_strength()` is an array in phono3py/conductivity/rta.py:291-296:
`known` tells whether the `Interaction` object held strengths before; strengths from averages
(phono3py/conductivity/rta.py:270-273) are not given to it (phono3py/phonon3/imag_self_energy.py:300-317),
those read from a file are (319-324). -/
def strengthsShown (o : GammaOptions P K S Z A) (known : Bool) : Bool :=
  o.readPP || !o.useAverages || known

/-- The part of `_run_at_grid_point` that fills `_gamma[:, :, i]` and `_gamma_detail_at_q`,
phono3py/conductivity/rta.py:203-223: nothing is calculated with linewidths read from files unless
averaged strengths are used. Failure: `None` has no attribute `shape` (294). Simplification: a known array
of strengths is taken to have the shape for this grid point. -/
def rtaDetailPoint [DecidableEq Z] (env : IseEnv P K S G Z A V) (o : GammaOptions P K S Z A)
    (detail : V → Nat → Nat → E) (known readGamma : Bool) (p : P) (s : IseObject P K S G Z V) (ave : A)
    (old : Option (List (Nat → Nat → E))) :
    Option (IseObject P K S G Z V × List (List V) × Option (List (Nat → Nat → E))) :=
  if readGamma && !o.useAverages then some (s, [], old)
  else if o.sigmas.isEmpty || strengthsShown o known then do
    let r ← rtaGridPoint env o p s ave
    some (r.1, r.2.2, detailAttribute detail r.2.2 old)
  else none

/-! ### Files -/

/-- The array `gamma_detail` of a file, one element for each temperature
(phono3py/conductivity/utils.py:370-400): for all selected bands, or for one of them. -/
inductive DetailArray (E : Type)
  | all (a : List (Nat → Nat → E))
  | one (a : List (Nat → E))

/-- What `write_gamma_detail_to_hdf5` stores, phono3py/file_IO.py:1352-1403. Arrays of triplets (with their
weights) are named by their grid point; `bandIndex` counts from 0. -/
structure DetailFile (P K E : Type) where
  gridPoint : P
  bandIndex : Option Nat
  sigma : Option K
  sigmaCutoff : Option K
  temperatures : List K
  detail : Option (DetailArray E)
  triplets : Option P
  allTriplets : Option P

/-- The files of one smearing width and selected bands, phono3py/conductivity/utils.py:386-400. Failure:
`None` is not subscriptable. -/
def detailBandFiles (o : GammaOptions P K S Z A) (bands : List Nat) (triplets : Option P) (p : P)
    (a : Option (List (Nat → Nat → E))) (sigma : Option K) : Option (List (DetailFile P K E)) :=
  bands.zipIdx.mapM fun x => a.map fun a =>
    ⟨p, some x.1, sigma, o.sigmaCutoff, o.temperatures,
      some (.one (a.map fun d i => d i x.2)), triplets, none⟩

/-- `ConductivityRTAWriter.write_gamma_detail`, phono3py/conductivity/utils.py:348-400: `a` is
`get_gamma_detail_at_q()`, `triplets` those the `Interaction` object holds. -/
def writeGammaDetail (o : GammaOptions P K S Z A) (bands : List Nat) (allBands : Bool)
    (triplets : Option P) (p : P) (a : Option (List (Nat → Nat → E))) :
    Option (List (DetailFile P K E)) :=
  if allBands then
    some (o.sigmas.map fun sigma =>
      ⟨p, none, sigma, o.sigmaCutoff, o.temperatures, a.map .all, triplets, some p⟩)
  else
    (o.sigmas.mapM (detailBandFiles o bands triplets p a)).map List.flatten

/-- The loop `for i in br` with `write_gamma_detail`, phono3py/conductivity/rta.py:1077-1103: linewidths of
the grid points and the files in the order they are written. -/
def rtaDetailRun [DecidableEq Z] (env : IseEnv P K S G Z A V) (o : GammaOptions P K S Z A)
    (detail : V → Nat → Nat → E) (known readGamma : Bool) (bands : List Nat) (allBands : Bool) :
    List (P × A) → IseObject P K S G Z V → Option (List (Nat → Nat → E)) →
      Option (List (List (List V)) × List (DetailFile P K E))
  | [], _, _ => some ([], [])
  | p :: ps, s, old => do
    let r ← rtaDetailPoint env o detail known readGamma p.1 s p.2 old
    let f ← writeGammaDetail o bands allBands r.1.ppTriplets p.1 r.2.2
    let q ← rtaDetailRun env o detail known readGamma bands allBands ps r.1 r.2.2
    some (r.2.1 :: q.1, f ++ q.2)

end

/-! ### The routine with details -/

section
variable {K : Type} [Field K] [LinearOrder K]

/-- Results with details: `_detailed_imag_self_energy`, `_ise_N`, `_ise_U` and `_imag_self_energy`
(phono3py/phonon3/imag_self_energy.py:421-424). -/
structure DetailedResult (K : Type) where
  detailed : Int → K
  normal : Nat → K
  umklapp : Nat → K
  total : Nat → K

/-- The results after `_run_c_detailed_with_band_indices_with_g`,
phono3py/phonon3/imag_self_energy.py:112-119 and 398-424. Elements outside the arrays are 0. Only band
frequencies are modelled here: the conductivity classes give no frequency points. -/
def IseCode.detailedAt (c : IseCode K) (addresses : Int → V3) (p : Int) (v : Int → K)
    (g : Nat × (Int → K)) (z : Option (Int → Bool)) (_f : Option (List K)) (t : K) : DetailedResult K :=
  let r := detailedWithG c.bose (c.numTriplets p) c.o.numBand0 c.o.crystal.numBand v c.o.frequencies
    (c.triplets p) (c.weights p) addresses g.2 (z.getD fun _ => false) t c.o.crystal.cutoff (fun _ => 0)
  { detailed := fun q => r.detailed q * c.unit
    normal := fun b => if b < c.o.numBand0 then r.normal b * c.unit else 0
    umklapp := fun b => if b < c.o.numBand0 then r.umklapp b * c.unit else 0
    total := fun b => if b < c.o.numBand0 then r.normal b * c.unit + r.umklapp b * c.unit else 0 }

/-- The routines of an `ImagSelfEnergy` object with `with_detail=True`. `degenerate` stands for
`imag_self_energy` (phono3py/phonon3/imag_self_energy.py:159-165) and `get_imag_self_energy_N_and_U` (177-191),
which average over degenerate bands, and `detailed_imag_self_energy` (193-196), which does not. -/
def IseCode.detailEnv [IsStrictOrderedRing K] (c : IseCode K) (addresses : Int → V3) :
    IseEnv Int K (Int → K) (Nat × (Int → K)) (Int → Bool) (Nat → K) (DetailedResult K) :=
  { strengths := c.strengths
    weights := c.weightsAt
    eventClass := fun n g => (g.1, selectClass (some (n + 1)) g.1 g.2)
    fromAverages := fun _ => c.fromAverages
    averages := c.averages
    result := c.detailedAt addresses
    degenerate := fun p r =>
      { detailed := r.detailed
        normal := averageByDegeneracy (c.degSets p) c.bands r.normal
        umklapp := averageByDegeneracy (c.degSets p) c.bands r.umklapp
        total := averageByDegeneracy (c.degSets p) c.bands r.total } }

/-- The array in C order seen as triplets, selected bands and pairs of bands
(phono3py/phonon3/imag_self_energy.py:335-337). -/
def IseCode.detailEntry (c : IseCode K) (r : DetailedResult K) (i b : Nat) : Nat → Nat → K := fun k l =>
  r.detailed (((((i * c.o.numBand0 + b) * c.o.crystal.numBand + k) * c.o.crystal.numBand + l : Nat)) : Int)

end
end Phono3py
