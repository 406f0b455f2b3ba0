/-
Phonon-isotope scattering: c/isotope.c and phono3py/other/isotope.py. `double` is an ordered
field `K`; `funcs_gaussian` (c/funcs.c:48-50) is an arbitrary function `gaussian`, `M_2PI` an
arbitrary number `twoPi`. Eigenvectors and frequencies are taken as given (the phonon solver is
not modelled here).
-/
import Mathlib.Algebra.Order.Field.Basic
import Verif.Model.Writes
import Verif.Model.Complex

namespace Phono3py

section
variable {K : Type _} [Field K] [LinearOrder K] [IsStrictOrderedRing K]

/-- Arguments shared by `iso_get_isotope_scattering_strength` and
`iso_get_thm_isotope_scattering_strength`, c/isotope.c:44-50 and 130-136. -/
structure IsoArgs (K : Type _) where
  gridPoint : Int
  irGridPoints : Nat → Int
  weights : Int → K
  massVariances : Nat → K
  frequencies : Int → K
  eigenvectors : Int → Cplx K
  numGridPoints : Nat
  bandIndices : Nat → Int
  numBand : Nat
  numBand0 : Nat
  cutoff : K

/-- `f0[i]`, c/isotope.c:59 and 146. -/
def isoF0 (s : IsoArgs K) (i : Nat) : K :=
  s.frequencies (s.gridPoint * s.numBand + s.bandIndices i)

/-- `e0_r[i * num_band + j]` and `e0_i[i * num_band + j]`, c/isotope.c:60-67 and 147-154. The
local copy is modelled by the value copied. -/
def isoE0 (s : IsoArgs K) (i j : Nat) : Cplx K :=
  s.eigenvectors (s.gridPoint * s.numBand * s.numBand + j * s.numBand + s.bandIndices i)

/-- `e1_r`, `e1_i`, c/isotope.c:96-101 and 187-192. -/
def isoE1 (s : IsoArgs K) (gp : Int) (k l m : Nat) : Cplx K :=
  s.eigenvectors (gp * s.numBand * s.numBand + ((l : Int) * 3 + m) * s.numBand + k)

/-- `a * a + b * b`, c/isotope.c:93-107 and 184-198. -/
def isoOverlap (s : IsoArgs K) (i : Nat) (gp : Int) (k l : Nat) : K :=
  let ab := (List.range 3).foldl (fun (ab : K × K) m =>
    let e0 := isoE0 s i (l * 3 + m)
    let e1 := isoE1 s gp k l m
    (ab.1 + (e0.re * e1.re + e0.im * e1.im), ab.2 + (e0.im * e1.re - e0.re * e1.im))) (0, 0)
  ab.1 * ab.1 + ab.2 * ab.2

/-- `sum_g_k`, c/isotope.c:85-109 and 175-200. `dist k` is the value of `dist` for band `k`. -/
def isoSumGK (s : IsoArgs K) (i : Nat) (gp : Int) (dist : Nat → K) : K :=
  (List.range s.numBand).foldl (fun sum (k : Nat) =>
    let f := s.frequencies (gp * s.numBand + k)
    if f < s.cutoff then sum
    else (List.range (s.numBand / 3)).foldl (fun sum l =>
      sum + isoOverlap s i gp k l * s.massVariances l * dist k) sum) 0

/-- `iso_get_isotope_scattering_strength`, c/isotope.c:44-128: the array `gamma` on return,
`gamma` being its content on entry. The reduction over grid points (79-111) adds the partial
sums in the order given by `order`, an arbitrary permutation of `0, …, num_grid_points - 1`. -/
def isoStrength (gaussian : K → K → K) (twoPi : K) (s : IsoArgs K) (sigma : K)
    (order : List Nat) (gamma : Int → K) : Int → K :=
  let g0 := runWrites gamma (loop s.numBand0 fun i => [(((i : Nat) : Int), 0)])
  let g1 := runWrites g0 (loop s.numBand0 fun i =>
    if isoF0 s i < s.cutoff then []
    else [(((i : Nat) : Int), order.foldl (fun sum (j : Nat) =>
      let gp := s.irGridPoints j
      sum + isoSumGK s i gp
        (fun k => gaussian (s.frequencies (gp * s.numBand + k) - isoF0 s i) sigma) *
        s.weights gp) 0)])
  runWrites g1 (loop s.numBand0 fun i =>
    [(((i : Nat) : Int), g1 i * (twoPi / 4 * isoF0 s i * isoF0 s i / 2))])

/-- Stores of the parallel loop over grid points, c/isotope.c:169-203, to `gamma_ij`. -/
def isoThmStores (s : IsoArgs K) (integrationWeights : Int → K) (i : Nat) : List (Int × K) :=
  let gp := s.irGridPoints i
  loop s.numBand0 fun j =>
    if isoF0 s j < s.cutoff then []
    else [(((i * s.numBand0 + j : Nat) : Int), isoSumGK s j gp
      (fun k => integrationWeights (gp * s.numBand0 * s.numBand + j * s.numBand + k)) *
      s.weights gp)]

/-- `iso_get_thm_isotope_scattering_strength`, c/isotope.c:130-230: the array `gamma` on return.
`mem` is the content of the buffer `gamma_ij` when it is allocated; `order` is the order in which
the iterations of the parallel loop run. -/
def isoThmStrength (twoPi : K) (s : IsoArgs K) (integrationWeights : Int → K)
    (order : List Nat) (mem gamma : Int → K) : Int → K :=
  let gij0 := runWrites mem (loop (s.numGridPoints * s.numBand0) fun i =>
    [(((i : Nat) : Int), 0)])
  let gij := runWrites gij0 (order.flatMap (isoThmStores s integrationWeights))
  let g0 := runWrites gamma (loop s.numBand0 fun i => [(((i : Nat) : Int), 0)])
  let g1 := runAdds g0 (loop s.numGridPoints fun i => loop s.numBand0 fun j =>
    [(((j : Nat) : Int), gij ((i * s.numBand0 + j : Nat) : Int))])
  runWrites g1 (loop s.numBand0 fun i =>
    [(((i : Nat) : Int), g1 i * (twoPi / 4 * isoF0 s i * isoF0 s i / 2))])

/-- `Isotope._run_c` with a smearing width, phono3py/other/isotope.py:242-276: weights are one
and the result is divided by the number of grid points. -/
def isoRunC (gaussian : K → K → K) (pi : K) (s : IsoArgs K) (sigma prodD : K) (i : Nat) : K :=
  isoStrength gaussian (2 * pi) { s with weights := fun _ => 1 } sigma
    (List.range s.numGridPoints) (fun _ => 0) i / prodD

/-- `Isotope._run_c` with the tetrahedron method, phono3py/other/isotope.py:242-276. -/
def isoRunThmC (pi : K) (s : IsoArgs K) (integrationWeights : Int → K) (prodD : K)
    (mem : Int → K) (i : Nat) : K :=
  isoThmStrength (2 * pi) { s with weights := fun _ => 1 } integrationWeights
    (List.range s.numGridPoints) mem (fun _ => 0) i / prodD

/-- `Isotope._run_py`, phono3py/other/isotope.py:341-369, for the position `i` in
`band_indices`. `weight gp bi j` is `self._integration_weights[gp, bi, j]` or
`gaussian(f0 - f, sigma)`. `np.abs(z) ** 2` is the squared modulus. -/
def isoRunPy (pi : K) (s : IsoArgs K) (weight : Int → Int → Nat → K) (prodD : K) (i : Nat) : K :=
  let bi := s.bandIndices i
  let f0 := isoF0 s i
  let tiSum := (List.range s.numGridPoints).foldl (fun sum g =>
    let gp := s.irGridPoints g
    (List.range s.numBand).foldl (fun sum (j : Nat) =>
      if s.frequencies (gp * s.numBand + j) < s.cutoff then sum
      else
        let tiSumBand := sumLoop (s.numBand / 3) fun l =>
          let z := sumLoop 3 fun m =>
            isoE1 s gp j l m * (⟨(isoE0 s i (l * 3 + m)).re, -(isoE0 s i (l * 3 + m)).im⟩ : Cplx K)
          z.normSq * s.massVariances l
        sum + tiSumBand * weight gp bi j) sum) 0
  pi / 2 / prodD * f0 ^ 2 * tiSum / 2

/-- One entry of `get_mass_variances`, phono3py/other/isotope.py:80-86, from the list of
`(mass, fraction)` of the isotopes of an element. -/
def massVariance (isotopes : List (K × K)) : K :=
  let mAve := (isotopes.map fun x => x.1 * x.2).sum
  (isotopes.map fun x => x.2 * (1 - x.1 / mAve) ^ 2).sum

/-- `get_mass_variances`, phono3py/other/isotope.py:60-88: data given by the user take precedence
over the table of phonopy; `none` is the `KeyError` of an unknown symbol. -/
def getMassVariances (table : String → Option (List (K × K)))
    (user : Option (String → Option (List (K × K)))) (symbols : List String) : Option (List K) :=
  symbols.mapM fun s =>
    match user.bind (· s) with
    | some d => some (massVariance d)
    | none => (table s).map massVariance

end
end Phono3py
