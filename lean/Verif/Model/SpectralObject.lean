/-
The object `SpectralFunction` (phono3py/phonon3/spectral_function.py) as an iterator over grid points that fills its
arrays with one `ImagSelfEnergy` object for each grid point.
-/
import Verif.Model.IseRuns
import Verif.Model.RealSelfEnergy

namespace Phono3py

/-- Arguments of `SpectralFunction`, phono3py/phonon3/spectral_function.py:180-212. `batches` are the frequency points
in batches (phono3py/phonon3/imag_self_energy.py:1046-1051; C29), `frequency p k` the frequency of the `k`-th selected
band at grid point `p`. -/
structure SpfSettings (P K : Type) where
  gridPoints : List P
  sigmas : List (Option K)
  temperatures : List K
  batches : List (List K)
  numBands : Nat
  frequency : P → Nat → K
  pi : K

/-- The arrays `half_linewidths`, `shifts` and `spectral_functions` with axes for smearing width, temperature, grid
point and band; the entries are lists over frequency points (phono3py/phonon3/spectral_function.py:262-275). -/
structure SpfArrays (K : Type) where
  gammas : Nat → Nat → Nat → Nat → List K
  deltas : Nat → Nat → Nat → Nat → List K
  spectral : Nat → Nat → Nat → Nat → List K

/-- `_gp_index` and the arrays, phono3py/phonon3/spectral_function.py:208-212. -/
structure SpfObject (K : Type) where
  index : Option Nat
  arrays : Option (SpfArrays K)

/-- Assignment to the entries of one smearing width, temperature and grid point
(phono3py/phonon3/spectral_function.py:309-336, 361-363). -/
def spfStore {K : Type} (a : Nat → Nat → Nat → Nat → List K) (j t i : Nat) (row : Nat → List K) :
    Nat → Nat → Nat → Nat → List K :=
  fun j' t' i' => if j' = j ∧ t' = t ∧ i' = i then row else a j' t' i'

section
variable {P K S G Z A : Type} [Field K] [LinearOrder K]

/-- `frequency_points` (phono3py/phonon3/spectral_function.py:374-391). -/
def SpfSettings.points (o : SpfSettings P K) : List K := o.batches.flatten

/-- `SpectralFunction.__iter__`, phono3py/phonon3/spectral_function.py:220-224, 292-307: new arrays of zeros. -/
def spfPrepare (o : SpfSettings P K) : SpfObject K :=
  let zeros := fun (_ _ _ _ : Nat) => List.replicate o.points.length (0 : K)
  ⟨some 0, some ⟨zeros, zeros, zeros⟩⟩

/-- The values of all batches at temperature number `t` as one list over frequency points for each band
(`gamma[j, ll, i, :, fpts_batch] = ...`, phono3py/phonon3/imag_self_energy.py:1069). -/
def spfRow (values : List (List (List (Nat → K)))) (t : Nat) : Nat → List K :=
  fun k => (values.flatMap fun batch => batch.getD t []).map fun v => v k

/-- `_run_gamma`, phono3py/phonon3/spectral_function.py:309-323, stores for all temperatures. -/
def spfGamma (o : SpfSettings P K) (values : List (List (List (Nat → K)))) (i j : Nat)
    (a : SpfArrays K) : SpfArrays K :=
  (List.range o.temperatures.length).foldl
    (fun a t => { a with gammas := spfStore a.gammas j t i (spfRow values t) }) a

/-- Shifts of all bands, phono3py/phonon3/spectral_function.py:330-335. -/
def spfShifts (o : SpfSettings P K) (gammas : Nat → List K) : Option (List (List K)) :=
  (List.range o.numBands).mapM fun k => runDelta o.pi (gammas k) o.points

/-- `_run_delta`, phono3py/phonon3/spectral_function.py:325-336. -/
def spfDelta (o : SpfSettings P K) (i j : Nat) (a : SpfArrays K) : Option (SpfArrays K) :=
  (List.range o.temperatures.length).foldlM (fun a t =>
    (spfShifts o (a.gammas j t i)).map fun d =>
      { a with deltas := spfStore a.deltas j t i fun k => d.getD k [] }) a

/-- `_get_spectral_function`, phono3py/phonon3/spectral_function.py:365-372, for all frequency points. -/
def spfValues (o : SpfSettings P K) (freq : K) (gammas deltas : List K) : List K :=
  (List.zip o.points (List.zip gammas deltas)).map fun x => spectralValue o.pi freq x.1 x.2.1 x.2.2

/-- `_run_spectral_function`, phono3py/phonon3/spectral_function.py:338-363. -/
def spfSpectral (o : SpfSettings P K) (p : P) (i j : Nat) (a : SpfArrays K) : SpfArrays K :=
  (List.range o.temperatures.length).foldl (fun a t =>
    { a with spectral := spfStore a.spectral j t i fun k =>
        spfValues o (o.frequency p k) (a.gammas j t i k) (a.deltas j t i k) }) a

/-- The loop over smearing widths in `__next__`, phono3py/phonon3/spectral_function.py:254-257. -/
def spfWidths (env : IseEnv P K S G Z A (List (Nat → K))) (o : SpfSettings P K) (p : P) (i : Nat) :
    Nat → List (Option K) → IseObject P K S G Z (List (Nat → K)) → SpfArrays K → Option (SpfArrays K)
  | _, [], _, a => some a
  | j, sigma :: sigmas, s, a => do
    let s ← iseCall env s (.setSigma sigma none)
    let v ← iseBatches env none o.temperatures o.batches s
    let a ← spfDelta o i j (spfGamma o v.2 i j a)
    spfWidths env o p i (j + 1) sigmas v.1 (spfSpectral o p i j a)

/-- `SpectralFunction.__next__`, phono3py/phonon3/spectral_function.py:226-260. `pp` is the grid point at which the
`Interaction` object stands. The second component is the grid point returned, `none` is `StopIteration`. Failures: no
`__iter__` before, refused frequency points. -/
def spfNext (env : IseEnv P K S G Z A (List (Nat → K))) (o : SpfSettings P K) (pp : Option P)
    (s : SpfObject K) : Option (SpfObject K × Option P) := do
  let i ← s.index
  let a ← s.arrays
  match o.gridPoints[i]? with
  | none => some (s, none)
  | some p => do
    let ise ← iseCall env (iseNew pp) (.setGridPoint (some p))
    let ise ← iseCall env ise (.runInteraction true)
    let a ← spfWidths env o p i 0 o.sigmas ise a
    some (⟨some (i + 1), some a⟩, some p)

/-- Calls of `__next__`, one for each element of the list (phono3py/phonon3/spectral_function.py:226-260), the
`Interaction` object being used in other ways in between. -/
def spfNexts (env : IseEnv P K S G Z A (List (Nat → K))) (o : SpfSettings P K) :
    List (Option P) → SpfObject K → Option (SpfObject K × List (Option P))
  | [], s => some (s, [])
  | pp :: pps, s => do
    let r ← spfNext env o pp s
    let q ← spfNexts env o pps r.1
    some (q.1, r.2 :: q.2)

end
end Phono3py
