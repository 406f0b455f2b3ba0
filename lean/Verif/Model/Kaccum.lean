/-
Spectra and accumulation of mode properties: phono3py/other/kaccum.py,
phono3py/other/tetrahedron_method.py and the C function it calls.
-/
import Mathlib.Data.List.Dedup
import Mathlib.Data.List.Sort
import Verif.Model.IntegrationWeight

namespace Phono3py

section
variable {K : Type _} [Field K] [LinearOrder K]

/-- `ph3py_get_thm_integration_weights_at_grid_points`, c/phono3py.c:650-703: the stores to `iw`
in the order of the loops. `isI` is `function = 'I'`, `irgp` is `gp2irgp_map`. -/
def gridWeightStores (eps : K) (isI : Bool) (frequencyPoints : Nat → K)
    (numFreq numBand numGp : Nat) (rel : Fin 24 → Fin 4 → V3) (D : V3) (gridPoints : Nat → Int)
    (bz : BZGridOut) (dense : Bool) (frequencies : Int → K) (irgp : Int → Int) :
    List (Int × K) :=
  loop numGp fun i =>
    let vertices : Fin 24 → Fin 4 → Int := fun j k =>
      neighborGridPoint bz D dense (gridPoints i) (rel j k)
    loop numBand fun bi =>
      let freqVertices : Fin 24 → Fin 4 → K := fun j k =>
        frequencies (irgp (vertices j k) * numBand + bi)
      (List.range numFreq).map fun j =>
        (((i * numFreq * numBand + j * numBand + bi : Nat) : Int),
          thmIntegrationWeight eps isI (frequencyPoints j) freqVertices)

/-- `np.unique` for a list of grid points (phono3py/other/kaccum.py:182). -/
def npUnique (l : List Nat) : List Nat := l.dedup.insertionSort (· ≤ ·)

/-- `KappaDOSTHM._get_bzgp2irgp_map`, phono3py/other/kaccum.py:156-189. `none` stands for the failed
assertion, an index beyond `ir_grid_map` or a missing key. -/
def bzgp2irgpMap (bzg2grg irGridMap irGridPoints : List Nat) : Option (List Nat) :=
  if npUnique irGridMap = irGridPoints then
    bzg2grg.mapM fun grgp =>
      (irGridMap[grgp]?).bind fun g =>
        if g ∈ npUnique irGridMap then some ((npUnique irGridMap).idxOf g) else none
  else none

/-- `np.linspace(start, stop, num)` (phono3py/other/kaccum.py:100). -/
def npLinspace (start stop : K) (num : Nat) : List K :=
  (List.range num).map fun (i : Nat) =>
    if num = 1 then start else start + (i : K) * ((stop - start) / ((num - 1 : Nat) : K))

/-- `min(values)`, `none` is the `ValueError` for no values (phono3py/other/kaccum.py:97). -/
def pyMin : List K → Option K
  | [] => none
  | x :: l => some (l.foldl (fun m y => if y < m then y else m) x)

/-- `max(values)` (phono3py/other/kaccum.py:98). -/
def pyMax : List K → Option K
  | [] => none
  | x :: l => some (l.foldl (fun m y => if m < y then y else m) x)

/-- Inputs of `KappaDOSTHM.__init__`, phono3py/other/kaccum.py:52-62, at one temperature and for
one tensor element. `frequencies` are the values at the irreducible points, as a flat list of
`numIr * numBand` numbers; `weights` is `ir_grid_weights`; `eps` the threshold of the tetrahedron
method and `margin` the constant `epsilon`. -/
structure KdosInput (K : Type _) where
  numIr : Nat
  numBand : Nat
  modeKappa : Nat → Nat → K
  frequencies : List K
  weights : Option (Nat → Nat)
  irGridPoints : List Nat
  irGridMap : List Nat
  frequencyPoints : Option (List K)
  numSampling : Nat
  bzg2grg : List Nat
  grg2bzg : Nat → Int
  bz : BZGridOut
  D : V3
  dense : Bool
  rel : Fin 24 → Fin 4 → V3
  eps : K
  margin : K

/-- The frequency points, phono3py/other/kaccum.py:97-104. -/
def kdosPoints (k : KdosInput K) : Option (List K) :=
  (pyMin k.frequencies).bind fun lo => (pyMax k.frequencies).bind fun hi =>
    match k.frequencyPoints with
    | none => some (npLinspace lo (hi + k.margin) k.numSampling)
    | some l => some l

/-- `get_integration_weights` of phono3py/other/tetrahedron_method.py:91-176 as called by
`KappaDOSTHM`: the array `iw[i, j, b]`, zero where nothing is stored. -/
def kdosWeights (k : KdosInput K) (isI : Bool) (points : List K) (map : List Nat) (i j b : Nat) : K :=
  runWrites (fun _ => 0)
    (gridWeightStores k.eps isI (fun j => points.getD j 0) points.length k.numBand
      k.irGridPoints.length k.rel k.D (fun i => k.grg2bzg (k.irGridPoints.getD i 0)) k.bz k.dense
      (fun p => k.frequencies.getD p.toNat 0) (fun g => ((map.getD g.toNat 0 : Nat) : Int)))
    ((i * points.length * k.numBand + j * k.numBand + b : Nat) : Int)

/-- `KappaDOSTHM.__init__`, phono3py/other/kaccum.py:97-139: frequency points and
`kdos[j, 0]` (`isI = false`, accumulated) or `kdos[j, 1]` (`isI = true`). -/
def kappaDos (k : KdosInput K) (isI : Bool) : Option (List K × (Nat → K)) :=
  (kdosPoints k).bind fun points =>
    (bzgp2irgpMap k.bzg2grg k.irGridMap k.irGridPoints).bind fun map =>
      some (points, fun j =>
        (sumLoop k.irGridPoints.length fun i => sumLoop k.numBand fun b =>
          kdosWeights k isI points map i j b *
            (k.modeKappa i b * ((match k.weights with | none => 1 | some w => w i : Nat) : K)))
          / ((k.D.x * k.D.y * k.D.z : Int) : K))

/-- Smearing width of `GammaDOSsmearing`, phono3py/other/kaccum.py:228-233: the width given by the
user only selects the constant `0.1`. -/
def gammaDosSigma (sigma : Option K) (points : List K) : Option K :=
  match sigma with
  | none => (pyMin points).bind fun lo => (pyMax points).bind fun hi => some ((hi - lo) / 100)
  | some _ => some (1 / 10)

/-- `GammaDOSsmearing`, phono3py/other/kaccum.py:195-260, at one temperature: the spectrum at the
sampling points. `smear sigma x` is `NormalDistribution(sigma).calc(x)`. -/
def gammaDos (smear : K → K → K) (numIr numBand : Nat) (gamma : Nat → Nat → K)
    (frequencies : List K) (weights : Nat → Nat) (sigma : Option K) (numSampling : Nat)
    (margin : K) : Option (List K × List K) :=
  (pyMin frequencies).bind fun lo => (pyMax frequencies).bind fun hi =>
    let points := npLinspace lo (hi + margin) numSampling
    (gammaDosSigma sigma points).bind fun s =>
      some (points, points.map fun f =>
        (sumLoop numBand fun b => sumLoop numIr fun i =>
          (weights i : K) * (smear s (frequencies.getD (i * numBand + b) 0 - f) * gamma i b))
          / ((sumLoop numIr fun i => weights i : Nat) : K))

end
end Phono3py
