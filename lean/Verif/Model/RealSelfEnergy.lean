/-
Real part of the self-energy and spectral function: c/real_self_energy.c,
phono3py/phonon3/real_self_energy.py and phono3py/phonon3/spectral_function.py. `double` is an
ordered field `K`; the Bose-Einstein function and the number pi are arbitrary parameters.
-/
import Mathlib.Algebra.Order.Field.Basic
import Mathlib.Algebra.Order.Floor.Semiring
import Verif.Model.Writes
import Verif.Model.SelfEnergy
import Verif.Model.Bands

namespace Phono3py

section
variable {K : Type _} [Field K] [LinearOrder K] [IsStrictOrderedRing K]

/-- The bracket of `sum_real_self_energy_at_band`, c/real_self_energy.c:173-197. A zero
denominator, which needs `epsilon == 0`, is NaN or infinite in C and counts as zero here. -/
def rsePair (n1 n2 fpoint w1 w2 epsilon : K) : K :=
  let f1 := fpoint + w1 + w2
  let f2 := fpoint - w1 - w2
  let f3 := fpoint - w1 + w2
  let f4 := fpoint + w1 - w2;
  -(n1 + n2 + 1) * f1 / (f1 * f1 + epsilon * epsilon) +
    (n1 + n2 + 1) * f2 / (f2 * f2 + epsilon * epsilon) -
    (n1 - n2) * f3 / (f3 * f3 + epsilon * epsilon) +
    (n1 - n2) * f4 / (f4 * f4 + epsilon * epsilon)

/-- The bracket of `sum_real_self_energy_at_band_0K`, c/real_self_energy.c:218-221. -/
def rsePair0K (fpoint w1 w2 epsilon : K) : K :=
  let f1 := fpoint + w1 + w2
  let f2 := fpoint - w1 - w2;
  -1 * f1 / (f1 * f1 + epsilon * epsilon) + 1 * f2 / (f2 * f2 + epsilon * epsilon)

/-- `sum_real_self_energy_at_band`, c/real_self_energy.c:157-204. -/
def sumRse (bose : K → K → K) (numBand : Nat) (fc3NormalSquared : Int → K) (fpoint : K)
    (freqs1 freqs2 : Int → K) (epsilon temperature cutoff : K) : K :=
  (List.range numBand).foldl (fun (shift : K) (i : Nat) =>
    if freqs1 i > cutoff then
      let n1 := bose (freqs1 i) temperature
      (List.range numBand).foldl (fun (shift : K) (j : Nat) =>
        if freqs2 j > cutoff then
          let n2 := bose (freqs2 j) temperature
          shift + rsePair n1 n2 fpoint (freqs1 i) (freqs2 j) epsilon *
            fc3NormalSquared ((i * numBand + j : Nat) : Int)
        else shift) shift
    else shift) 0

/-- `sum_real_self_energy_at_band_0K`, c/real_self_energy.c:206-228. -/
def sumRse0K (numBand : Nat) (fc3NormalSquared : Int → K) (fpoint : K)
    (freqs1 freqs2 : Int → K) (epsilon cutoff : K) : K :=
  (List.range numBand).foldl (fun (shift : K) (i : Nat) =>
    if freqs1 i > cutoff then
      (List.range numBand).foldl (fun (shift : K) (j : Nat) =>
        if freqs2 j > cutoff then
          shift + rsePair0K fpoint (freqs1 i) (freqs2 j) epsilon *
            fc3NormalSquared ((i * numBand + j : Nat) : Int)
        else shift) shift
    else shift) 0

/-- What the functions of c/real_self_energy.c read: the interaction strengths of the triplets of
one grid point (`data` of shape `(numTriplets, numBand0, numBand, numBand)`), the frequencies of
the grid, the triplets, their weights, and the numbers. -/
structure RseArgs (K : Type _) where
  bose : K → K → K
  numTriplets : Nat
  numBand0 : Nat
  numBand : Nat
  strength : Int → K
  frequencies : Int → K
  triplets : Nat → Fin 3 → Int
  weights : Nat → Int
  bandIndices : Nat → Nat
  epsilon : K
  temperature : K
  unitConversion : K
  cutoff : K

/-- Pointer arithmetic with a signed offset (c/real_self_energy.c:136-147). -/
def offsetBy {α : Type _} (a : Int → α) (n : Int) : Int → α := fun k => a (n + k)

/-- `get_real_self_energy_at_band`, c/real_self_energy.c:112-155. The OpenMP reduction adds the
terms in an unspecified order; the model adds them in order. -/
def rseAtBand (a : RseArgs K) (bandIndex : Nat) (fpoint : K) : K :=
  (List.range a.numTriplets).foldl (fun (shift : K) (i : Nat) =>
    let gp1 := a.triplets i 1
    let gp2 := a.triplets i 2
    let data := shiftBy a.strength (i * a.numBand0 * a.numBand * a.numBand +
      bandIndex * a.numBand * a.numBand)
    if a.temperature > 0 then
      shift + sumRse a.bose a.numBand data fpoint (offsetBy a.frequencies (gp1 * a.numBand))
        (offsetBy a.frequencies (gp2 * a.numBand)) a.epsilon a.temperature a.cutoff *
        a.weights i * a.unitConversion
    else
      shift + sumRse0K a.numBand data fpoint (offsetBy a.frequencies (gp1 * a.numBand))
        (offsetBy a.frequencies (gp2 * a.numBand)) a.epsilon a.cutoff *
        a.weights i * a.unitConversion) 0

/-- `rse_get_real_self_energy_at_bands`, c/real_self_energy.c:61-86; `init` is the array before
the call. -/
def rseAtBands (a : RseArgs K) (init : Int → K) : Int → K :=
  let gp0 := a.triplets 0 0
  runWrites init (loop a.numBand0 fun i =>
    let fpoint := a.frequencies (gp0 * a.numBand + a.bandIndices i)
    [((i : Int), if fpoint < a.cutoff then 0 else rseAtBand a i fpoint)])

/-- `rse_get_real_self_energy_at_frequency_point`, c/real_self_energy.c:88-110. -/
def rseAtFrequencyPoint (a : RseArgs K) (frequencyPoint : K) (init : Int → K) : Int → K :=
  runWrites init (loop a.numBand0 fun i =>
    [((i : Int), if frequencyPoint < a.cutoff then 0 else rseAtBand a i frequencyPoint)])

/-- `_real_self_energies_at_bands`,
phono3py/phonon3/real_self_energy.py:309-344; `freqs m b` is `freqs[m, b]`. -/
def rsePyAtTriplet (bose : K → K → K) (numBand : Nat) (fpoint : K) (freqs : Fin 3 → Nat → K)
    (interaction : Nat → Nat → K) (weight : Int) (epsilon temperature cutoff : K) : K :=
  if fpoint < cutoff then 0
  else
    (List.range numBand).foldl (fun (s : K) (j : Nat) =>
      (List.range numBand).foldl (fun (s : K) (k : Nat) =>
        if fpoint < cutoff then s
        else if freqs 1 j > cutoff ∧ freqs 2 k > cutoff then
          let n2 := bose (freqs 1 j) temperature
          let n3 := bose (freqs 2 k) temperature
          let f1 := fpoint + freqs 1 j + freqs 2 k
          let f2 := fpoint - freqs 1 j - freqs 2 k
          let f3 := fpoint - freqs 1 j + freqs 2 k
          let f4 := fpoint + freqs 1 j - freqs 2 k
          let d := 0 - (n2 + n3 + 1) * f1 / (f1 ^ 2 + epsilon ^ 2)
          let d := d + (n2 + n3 + 1) * f2 / (f2 ^ 2 + epsilon ^ 2)
          let d := d - (n2 - n3) * f3 / (f3 ^ 2 + epsilon ^ 2)
          let d := d + (n2 - n3) * f4 / (f4 ^ 2 + epsilon ^ 2)
          s + d * interaction j k * weight
        else s) s) 0

/-- `_real_self_energies_at_bands_0K`, phono3py/phonon3/real_self_energy.py:346-368. -/
def rsePyAtTriplet0K (numBand : Nat) (fpoint : K) (freqs : Fin 3 → Nat → K)
    (interaction : Nat → Nat → K) (weight : Int) (epsilon cutoff : K) : K :=
  if fpoint < cutoff then 0
  else
    (List.range numBand).foldl (fun (s : K) (j : Nat) =>
      (List.range numBand).foldl (fun (s : K) (k : Nat) =>
        if freqs 1 j > cutoff ∧ freqs 2 k > cutoff then
          let f1 := fpoint + freqs 1 j + freqs 2 k
          let f2 := fpoint - freqs 1 j - freqs 2 k
          let d := 0 - 1 * f1 / (f1 ^ 2 + epsilon ^ 2)
          let d := d + 1 * f2 / (f2 ^ 2 + epsilon ^ 2)
          s + d * interaction j k * weight
        else s) s) 0

/-- `_run_py_with_band_indices` (`fpoint = none`) and `_run_py_with_frequency_points` at one
frequency point, phono3py/phonon3/real_self_energy.py:249-264 and 287-307: element `j`. Arrays with several axes
are read at the flat position of the element. -/
def rsePy (a : RseArgs K) (fpoint : Option K) (j : Nat) : K :=
  (List.range a.numTriplets).foldl (fun (s : K) (i : Nat) =>
    let freqs : Fin 3 → Nat → K := fun m b => a.frequencies (a.triplets i m * a.numBand + b)
    let interaction : Nat → Nat → K := fun k l =>
      a.strength ((((i * a.numBand0 + j) * a.numBand + k) * a.numBand + l : Nat) : Int)
    let f := fpoint.getD (freqs 0 (a.bandIndices j))
    if a.temperature > 0 then
      s + rsePyAtTriplet a.bose a.numBand f freqs interaction (a.weights i) a.epsilon
        a.temperature a.cutoff
    else
      s + rsePyAtTriplet0K a.numBand f freqs interaction (a.weights i) a.epsilon a.cutoff) 0 *
    a.unitConversion

/-- What `Interaction.run` yields at one grid point, as far as `RealSelfEnergy` reads it
(`run_interaction`, phono3py/phonon3/real_self_energy.py:135-141); `degSets` is phonopy's
`degenerate_sets` of the frequencies at the grid point. -/
structure PpAt (K : Type _) where
  numTriplets : Nat
  strength : Int → K
  triplets : Nat → Fin 3 → Int
  weights : Nat → Int
  degSets : List (List Nat)

/-- The parts of the calculation that do not depend on the grid point (phono3py/phonon3/real_self_energy.py:74-118,
135-141). -/
structure RseSystem (K : Type _) where
  bose : K → K → K
  numBand : Nat
  frequencies : Int → K
  bands : List Nat
  unitConversion : K
  cutoff : K
  ppAt : Int → PpAt K

/-- A `RealSelfEnergy` object, phono3py/phonon3/real_self_energy.py:74-118: the settable parts and the stored
interaction. -/
structure RseObj (K : Type _) where
  epsilon : K
  temperature : K
  gridPoint : Option Int
  pp : Option (PpAt K)
  frequencyPoints : Option (List K)

/-- The setter `grid_point`, phono3py/phonon3/real_self_energy.py:174-182: selects the triplets and forgets the interaction strength. -/
def RseObj.setGridPoint (o : RseObj K) (gp : Int) : RseObj K :=
  { o with gridPoint := some gp, pp := none }

/-- The setter `epsilon`, phono3py/phonon3/real_self_energy.py:193-198; `default_epsilon` (line 72) is 0.05. -/
def RseObj.setEpsilon (o : RseObj K) (e : Option K) : RseObj K :=
  { o with epsilon := e.getD (5 / 100) }

/-- `run_interaction`, phono3py/phonon3/real_self_energy.py:135-141; without a grid point the interaction object has no triplets to work on. -/
def RseObj.runInteraction (s : RseSystem K) (o : RseObj K) : Option (RseObj K) :=
  o.gridPoint.map fun gp => { o with pp := some (s.ppAt gp) }

/-- The arguments handed to the C functions, phono3py/phonon3/real_self_energy.py:233-247, 266-285. -/
def RseObj.args (s : RseSystem K) (o : RseObj K) (p : PpAt K) : RseArgs K :=
  { bose := s.bose, numTriplets := p.numTriplets, numBand0 := s.bands.length,
    numBand := s.numBand, strength := p.strength, frequencies := s.frequencies,
    triplets := p.triplets, weights := p.weights, bandIndices := fun i => s.bands.getD i 0,
    epsilon := o.epsilon, temperature := o.temperature, unitConversion := s.unitConversion,
    cutoff := s.cutoff }

/-- `run` and the property `real_self_energy`, phono3py/phonon3/real_self_energy.py:120-133, 143-167 and
266-285: the object afterwards and the averaged values,
one row for every frequency point, or one row when there are none. -/
def RseObj.run (s : RseSystem K) (o : RseObj K) : Option (RseObj K × List (Nat → K)) :=
  Option.bind (match o.pp with | some _ => some o | none => o.runInteraction s) fun o =>
    o.pp.map fun p =>
      (o, match o.frequencyPoints with
        | none => [averageByDegeneracy p.degSets s.bands fun b =>
            rseAtBands (o.args s p) (fun _ => 0) (b : Nat)]
        | some pts => pts.map fun f => averageByDegeneracy p.degSets s.bands fun b =>
            rseAtFrequencyPoint (o.args s p) f (fun _ => 0) (b : Nat))

/-- Assignment to `all_deltas[i, k, j]`, phono3py/phonon3/real_self_energy.py:629. -/
def updDelta {α : Type _} (a : Nat → Nat → Nat → α) (i k j : Nat) (x : α) : Nat → Nat → Nat → α :=
  fun i' k' j' => if i' = i ∧ k' = k ∧ j' = j then x else a i' k' j'

/-- The loops of `get_real_self_energy`, phono3py/phonon3/real_self_energy.py:543-550, 557 and 596-629, without
printing and writing. `init` is the array of zeros. -/
def getRealSelfEnergy (s : RseSystem K) (gridPoints : List Int) (temperatures : List K)
    (epsilons : Option (List K)) (frequencyPoints : Option (List K)) (init : List (Nat → K)) :
    Option (Nat → Nat → Nat → List (Nat → K)) :=
  let eps : List (Option K) := match epsilons with | none => [none] | some l => l.map some
  let fst : RseObj K := ⟨5 / 100, 300, none, none, frequencyPoints⟩
  (gridPoints.zipIdx.foldlM (fun (st : RseObj K × (Nat → Nat → Nat → List (Nat → K))) gj =>
    Option.bind ((st.1.setGridPoint gj.1).runInteraction s) fun o =>
      eps.zipIdx.foldlM (fun (st : RseObj K × (Nat → Nat → Nat → List (Nat → K))) ei =>
        temperatures.zipIdx.foldlM
          (fun (st : RseObj K × (Nat → Nat → Nat → List (Nat → K))) tk =>
            (({ st.1 with temperature := tk.1 } : RseObj K).run s).map fun r =>
              (r.1, updDelta st.2 ei.2 tk.2 gj.2 r.2)) (st.1.setEpsilon ei.1, st.2)) (o, st.2))
    (fst, fun _ _ _ => init)).map Prod.snd

/-- `-im_part[::-1]` followed by `im_part[1:]`,
phono3py/phonon3/real_self_energy.py:466-467. -/
def expandOdd (x : List K) : List K := x.reverse.map (fun v => -v) ++ x.tail

/-- `np.subtract(f[1:], f[:-1])`, phono3py/phonon3/real_self_energy.py:459. -/
def differences (f : List K) : List K := List.zipWith (fun a b => a - b) f.tail f

/-- `ImagToReal.__init__` and `_expand_bubble_im_part`, phono3py/phonon3/real_self_energy.py:374-401, 455-469: `none` is an exception, or, for a single
frequency point, the NaN of `np.mean([])`. The result is the expanded values, the expanded
frequency points and the interval. -/
def expandBubble (imPart frequencyPoints : List K) : Option (List K × List K × K) :=
  match frequencyPoints with
  | [] => none
  | f0 :: _ =>
    if |f0| > 1 / 100000000 then none
    else
      let allDf := differences frequencyPoints
      if allDf = [] then none
      else
        let df := allDf.sum / allDf.length
        if allDf.any (fun d => decide (|d - df| > 1 / 1000000)) then none
        else some (expandOdd imPart, expandOdd frequencyPoints, df)

/-- `(a / b).sum()`, phono3py/phonon3/real_self_energy.py:434, 450. -/
def quotientSum (a b : List K) : K := (List.zipWith (fun x y => x / y) a b).sum

/-- `_pick_one`, phono3py/phonon3/real_self_energy.py:422-437: pairs of real part and frequency point. -/
def pickOne (pi : K) (im fpts : List K) (df : K) : List (K × K) :=
  let coef := df / pi
  let iZero := (im.length - 1) / 2
  ((List.range im.length).filter fun i => !decide (i < iZero)).map fun i =>
    let fpoint := fpts.getD i 0
    let freqs := (fpts.map fun f => f - fpoint).set i 1
    ((quotientSum im freqs - im.getD i 0) * coef, fpoint)

/-- `_half_shift`, phono3py/phonon3/real_self_energy.py:439-453. -/
def halfShift (pi : K) (im fpts : List K) (df : K) : List (K × K) :=
  let coef := df / pi
  let iZero := (im.length - 1) / 2
  ((List.range im.length).filter fun i => !decide (i < iZero)).map fun i =>
    let fpoint := fpts.getD i 0 + df / 2
    (quotientSum im (fpts.map fun f => f - fpoint) * coef, fpoint)

/-- `imag_to_real`, phono3py/phonon3/real_self_energy.py:716-720. -/
def imagToReal (pi : K) (imPart frequencyPoints : List K) : Option (List (K × K)) :=
  (expandBubble imPart frequencyPoints).map fun e => pickOne pi e.1 e.2.1 e.2.2

/-- The inner part of `SpectralFunction._run_delta`, phono3py/phonon3/spectral_function.py:330-336: the shifts of one band, or `none` when an
exception is raised, which includes the assertion on the frequency points. -/
def runDelta (pi : K) (gammas frequencyPoints : List K) : Option (List K) :=
  Option.bind (imagToReal pi gammas frequencyPoints) fun r =>
    if (List.zipWith (fun a b => decide (|a - b| < 1 / 100000000)) frequencyPoints
        (r.map Prod.snd)).all id
    then some (r.map fun p => -p.1) else none

/-- One element of `SpectralFunction._get_spectral_function`, phono3py/phonon3/spectral_function.py:365-372. -/
def spectralValue (pi freq fpoint gamma delta : K) : K :=
  let num := 4 * freq ^ 2 * gamma / pi
  let denom := (fpoint ^ 2 - freq ^ 2 - 2 * freq * delta) ^ 2 + (2 * freq * gamma) ^ 2
  if denom > 0 then num / denom else 0

/-- `SpectralFunction._run_delta` and `_run_spectral_function`, phono3py/phonon3/spectral_function.py:325-363, for one
band: spectral function
from the half linewidths at the frequency points. -/
def spectralAtBand (pi freq : K) (gammas frequencyPoints : List K) : Option (List K) :=
  (runDelta pi gammas frequencyPoints).map fun deltas =>
    (List.zip frequencyPoints (List.zip gammas deltas)).map fun p =>
      spectralValue pi freq p.1 p.2.1 p.2.2

/-- `get_frequency_points` without given points, phono3py/phonon3/imag_self_energy.py:931-947:
the upper end of the range. -/
def fMax (maxFreq : K) (sigmas : List (Option K)) : K :=
  let vals := sigmas.filterMap id
  (match vals with
    | [] => maxFreq * 2
    | v :: vs => maxFreq * 2 + vs.foldl max v * 4) * (1005 / 1000)

/-- `np.linspace(0, fmax, n)`: `n` points, both ends included; for `n = 1` only the start
(phono3py/phonon3/imag_self_energy.py:961-965). -/
def linspace0 (fmax : K) (n : Nat) : List K :=
  (List.range n).map fun (i : Nat) => (i : K) * (fmax / ((n - 1 : Nat) : K))

/-- `_sample_frequency_points` without a step, phono3py/phonon3/imag_self_energy.py:954-967. -/
def sampleFrequencyPoints (fmax : K) (num : Option Nat) : List K := linspace0 fmax (num.getD 201)

/-- `np.arange(0, fmax, step)` for a positive step: `ceil(fmax / step)` points (numpy's rule for
the length), the `i`-th being `i * step` (phono3py/phonon3/imag_self_energy.py:959). -/
def arange0 [FloorSemiring K] (fmax step : K) : List K :=
  (List.range ⌈fmax / step⌉₊).map fun (i : Nat) => (i : K) * step

/-- `get_frequency_points` with `_sample_frequency_points`,
phono3py/phonon3/imag_self_energy.py:931-967. -/
def getFrequencyPoints [FloorSemiring K] (maxFreq : K) (sigmas : List (Option K))
    (given : Option (List K)) (step : Option K) (num : Option Nat) : List K :=
  match given with
  | some points => points
  | none =>
    match num, step with
    | none, some st => arange0 (fMax maxFreq sigmas) st
    | n, _ => sampleFrequencyPoints (fMax maxFreq sigmas) n

end
end Phono3py
