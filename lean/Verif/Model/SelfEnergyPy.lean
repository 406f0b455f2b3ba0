/-
Python implementations of sums that are also implemented in C, and the joint density of states:
phono3py/phonon3/imag_self_energy.py, phono3py/phonon3/collision_matrix.py,
phono3py/phonon3/triplets.py and phono3py/phonon3/joint_dos.py. Arrays are addressed by the
position of an element in C order; `double` is an ordered field `K`.
-/
import Verif.Model.Collision

namespace Phono3py

section
variable {K : Type _} [Field K] [LinearOrder K]

/-! ### Imaginary part of the self-energy -/

/-- `_run_py_with_band_indices_with_g`, phono3py/phonon3/imag_self_energy.py:486-490, with
`_ise_thm_with_band_indices` (492-513) and `_ise_thm_with_band_indices_0K` (515-523): the element
of band `b`. `n` of line 495 replaces frequencies not above the cutoff by 1 before the occupation is
taken. -/
def pyIse (bose : K → K → K) (numTriplets numBand0 numBand : Nat) (strength frequencies : Int → K)
    (triplets : Nat → Fin 3 → Int) (weights : Nat → Int) (g : Int → K) (temperature cutoff unit : K)
    (b : Nat) : K :=
  (if temperature > 0 then
    (List.range numTriplets).foldl (fun s (i : Nat) =>
      (List.range numBand).foldl (fun s (j : Nat) => (List.range numBand).foldl (fun s (k : Nat) =>
        let f1 := frequencies (triplets i 1 * numBand + j)
        let f2 := frequencies (triplets i 2 * numBand + k)
        if f1 > cutoff ∧ f2 > cutoff then
          let n2 := bose (if f1 > cutoff then f1 else 1) temperature
          let n3 := bose (if f2 > cutoff then f2 else 1) temperature
          let p : Nat := (i * numBand0 + b) * numBand * numBand + j * numBand + k
          let p' : Nat := ((numTriplets + i) * numBand0 + b) * numBand * numBand + j * numBand + k
          s + ((n2 + n3 + 1) * g (p : Nat) + (n2 - n3) * g (p' : Nat)) * strength (p : Nat) * weights i
        else s) s) s) 0
  else
    (List.range numTriplets).foldl (fun s (i : Nat) =>
      (List.range numBand).foldl (fun s (j : Nat) => (List.range numBand).foldl (fun s (k : Nat) =>
        let p : Nat := (i * numBand0 + b) * numBand * numBand + j * numBand + k
        s + g (p : Nat) * strength (p : Nat) * weights i) s) s) 0) * unit

/-- `_run_py_with_frequency_points_with_g`, phono3py/phonon3/imag_self_energy.py:525-529, with
`_ise_thm_with_frequency_points` (531-550) and `_ise_thm_with_frequency_points_0K` (552-561): the
element of frequency point `x` and band `b`. -/
def pyIseAt (bose : K → K → K) (numTriplets numBand0 numBand numPoints : Nat)
    (strength frequencies : Int → K) (triplets : Nat → Fin 3 → Int) (weights : Nat → Int)
    (g : Int → K) (temperature cutoff unit : K) (x b : Nat) : K :=
  (if temperature > 0 then
    (List.range numTriplets).foldl (fun s (i : Nat) =>
      (List.range numBand).foldl (fun s (j : Nat) => (List.range numBand).foldl (fun s (k : Nat) =>
        let f1 := frequencies (triplets i 1 * numBand + j)
        let f2 := frequencies (triplets i 2 * numBand + k)
        if f1 > cutoff ∧ f2 > cutoff then
          let n2 := bose f1 temperature
          let n3 := bose f2 temperature
          let q : Nat := (i * numBand0 + b) * numBand * numBand + j * numBand + k
          let p : Nat := (i * numPoints + x) * numBand * numBand + j * numBand + k
          let p' : Nat := ((numTriplets + i) * numPoints + x) * numBand * numBand + j * numBand + k
          s + ((n2 + n3 + 1) * g (p : Nat) + (n2 - n3) * g (p' : Nat)) * strength (q : Nat) * weights i
        else s) s) s) 0
  else
    (List.range numTriplets).foldl (fun s (i : Nat) =>
      (List.range numBand).foldl (fun s (j : Nat) => (List.range numBand).foldl (fun s (k : Nat) =>
        let q : Nat := (i * numBand0 + b) * numBand * numBand + j * numBand + k
        let p : Nat := (i * numPoints + x) * numBand * numBand + j * numBand + k
        s + g (p : Nat) * strength (q : Nat) * weights i) s) s) 0) * unit

/-- `self._imag_self_energy` after `_run_c_with_band_indices_with_g`,
phono3py/phonon3/imag_self_energy.py:376-396. -/
def cIse (bose : K → K → K) (numTriplets numBand0 numBand : Nat) (strength frequencies : Int → K)
    (triplets : Nat → Fin 3 → Int) (weights : Nat → Int) (g : Int → K) (gZero : Option (Int → Bool))
    (temperature cutoff unit : K) (b : Nat) : K :=
  iseWithG bose numTriplets numBand0 numBand strength frequencies triplets weights g
    (gZero.getD fun _ => false) temperature cutoff numBand0 (-1) (b : Nat) * unit

/-- `self._imag_self_energy` after `_run_c_with_frequency_points_with_g`,
phono3py/phonon3/imag_self_energy.py:426-446: the array `ise_at_f` is filled anew in every round. -/
def cIseAt (bose : K → K → K) (numTriplets numBand0 numBand numPoints : Nat)
    (strength frequencies : Int → K) (triplets : Nat → Fin 3 → Int) (weights : Nat → Int)
    (g : Int → K) (gZero : Int → Bool) (temperature cutoff unit : K) (x b : Nat) : K :=
  iseWithG bose numTriplets numBand0 numBand strength frequencies triplets weights g gZero
    temperature cutoff numPoints (x : Nat) (b : Nat) * unit

/-! ### Collision matrix -/

/-- `_get_inv_sinh`, phono3py/phonon3/collision_matrix.py:309-318. `sinh` is the hyperbolic sine of
half the frequency over the temperature. -/
def pyInverseSinh (sinh : K → K) (c : CollisionInput K) (gp : Int) (m : Nat) : K :=
  let f := c.frequencies (gp * c.numBand + m)
  let s := if f > c.cutoff then sinh f else -1
  if s > 0 then 1 / s else 0

/-- `collision`, phono3py/phonon3/collision_matrix.py:201-215 and 225-239, for grid point `gp`. -/
def pyCollision (sinh : K → K) (c : CollisionInput K) (map : Gp2tp) (gp : Int) (j k : Nat) : K :=
  let ti := map.gp2tp gp
  let base := ti * c.numBand0 * c.numBand * c.numBand + j * c.numBand * c.numBand
  (sumLoop c.numBand fun m =>
    let p := if map.swapped gp then base + m * c.numBand + k else base + k * c.numBand + m
    c.fc3NormalSquared p * pyInverseSinh sinh c (map.tp2s gp) m * c.g p) * c.unit

/-- `_run_py_collision_matrix`, phono3py/phonon3/collision_matrix.py:188-218; `none` is a failed
assertion. -/
def pyCollisionMatrix (sinh : K → K) (c : CollisionInput K) (bzg2grg rotGridPoints : Int → Int)
    (numIr numRot : Nat) (rotations a : Int → K) : Option (Int → K) := do
  let map ← pyGp2tp c.numGp c.triplets c.tripletsMap c.mapQ bzg2grg
  return runAdds a (loop numIr fun i => loop numRot fun r =>
    let gp := rotGridPoints ((i * numRot + r : Nat) : Int)
    loop c.numBand0 fun j => loop c.numBand fun k => loop 3 fun x => loop 3 fun y =>
      [((((((j * 3 + x) * numIr + i) * c.numBand + k) * 3 + y : Nat) : Int),
        pyCollision sinh c map gp j k * rotations ((r * 9 + x * 3 + y : Nat) : Int))])

/-- `_run_py_reducible_collision_matrix`, phono3py/phonon3/collision_matrix.py:220-248. -/
def pyReducibleCollisionMatrix (sinh : K → K) (c : CollisionInput K) (bzg2grg : Int → Int)
    (a : Int → K) : Option (Int → K) := do
  let map ← pyGp2tp c.numGp c.triplets c.tripletsMap c.mapQ bzg2grg
  return runAdds a (loop c.numGp fun gp1 => loop c.numBand0 fun j => loop c.numBand fun k =>
    [((((j * c.numGp + gp1) * c.numBand + k : Nat) : Int),
      pyCollision sinh c map (gp1 : Nat) j k)])

/-! ### Integration weights with smearing -/

/-- The branch with `sigma` and `lang != "C"` of `get_triplets_integration_weights`,
phono3py/phonon3/triplets.py:172-213: the value left at position `[s, i, x, j, k]`; `slabs` is
`len(g)`. No flags are returned. -/
def pySmearing (gaussian : K → K → K) (sigma : K) (frequencyPoints : Nat → K)
    (triplets : Nat → Fin 3 → Int) (frequencies : Int → K) (numBand slabs : Nat) (s i x j k : Nat) :
    K :=
  let f1 := frequencies (triplets i 1 * numBand + j)
  let f2 := frequencies (triplets i 2 * numBand + k)
  let g0 := gaussian (frequencyPoints x - f1 - f2) sigma
  let g1 := gaussian (frequencyPoints x + f1 - f2) sigma
  let g2 := gaussian (frequencyPoints x - f1 + f2) sigma
  if s = 0 then g0 else if s = 1 then g1 - g2
  else if slabs = 3 ∧ s = 2 then g0 + g1 + g2 else 0

/-! ### Joint density of states -/

/-- What `run_jdos` reads, phono3py/phonon3/joint_dos.py:339-368; `g` and `gZero` are the weights
and flags of `run_integration_weights` (328-337). -/
structure JdosInput (K : Type _) where
  bose : K → K → K
  numTriplets : Nat
  numBand : Nat
  numPoints : Nat
  frequencies : Int → K
  triplets : Nat → Fin 3 → Int
  weights : Nat → Int
  g : Int → K
  gZero : Int → Bool
  cutoff : K
  D : V3

/-- Position of `g[s, i, x, k, l]` (phono3py/phonon3/triplets.py:172-184). -/
def JdosInput.pos (o : JdosInput K) (s i x k l : Nat) : Nat :=
  (((s * o.numTriplets + i) * o.numPoints + x) * o.numBand + k) * o.numBand + l

/-- Branch without temperature, phono3py/phonon3/joint_dos.py:351-360: row `x` before the division.
`np.tensordot` sums over triplets and `np.sum` over pairs of bands. -/
def jdosNone (o : JdosInput K) (x : Nat) (column : Fin 2) : K :=
  sumLoop o.numBand fun k => sumLoop o.numBand fun l => sumLoop o.numTriplets fun i =>
    (if column = 1 then o.g (o.pos 0 i x k l : Nat)
      else o.g (o.pos 2 i x k l : Nat) - o.g (o.pos 0 i x k l : Nat)) * o.weights i

/-- Branch with temperature and `lang="C"`, phono3py/phonon3/joint_dos.py:362-372, with
`_run_c_with_g_at_temperature` (380-397): the copy of `g` has slab `column` set to zero. -/
def jdosC (o : JdosInput K) (temperature : K) (x : Nat) (column : Fin 2) : K :=
  let size : Nat := o.numTriplets * o.numPoints * o.numBand * o.numBand
  let g : Int → K := fun p =>
    if (column.val * size : Nat) ≤ p ∧ p < ((column.val + 1) * size : Nat) then 0 else o.g p
  iseWithG o.bose o.numTriplets 1 o.numBand (fun _ => 1) o.frequencies o.triplets o.weights g
    o.gZero temperature o.cutoff o.numPoints (x : Nat) 0

/-- Branch with temperature and another language, phono3py/phonon3/joint_dos.py:373-376, with
`_run_occupation` (399-404) and `_run_py_with_g_at_temperature` (406-418). -/
def jdosPy (o : JdosInput K) (temperature : K) (x : Nat) (column : Fin 2) : K :=
  let n := fun (i : Nat) (m : Fin 3) (b : Nat) =>
    occupation o.bose o.cutoff (o.frequencies (o.triplets i m * o.numBand + b)) temperature
  (List.range o.numBand).foldl (fun s (k : Nat) => (List.range o.numBand).foldl (fun s (l : Nat) =>
    s + sumLoop o.numTriplets fun i =>
      let w : K := if n i 1 k < 0 ∨ n i 2 l < 0 then 0 else o.weights i
      (if column = 1 then (n i 1 k + n i 2 l + 1) * o.g (o.pos 0 i x k l : Nat)
        else (n i 1 k - n i 2 l) * o.g (o.pos 1 i x k l : Nat)) * w) s) 0

/-- `run_jdos`, phono3py/phonon3/joint_dos.py:339-378: entry `[x, column]` of `_joint_dos`. -/
def jointDos (o : JdosInput K) (temperature : Option K) (langC : Bool) (x : Nat) (column : Fin 2) :
    K :=
  (match temperature with
    | none => jdosNone o x column
    | some t => if langC then jdosC o t x column else jdosPy o t x column) /
      ((o.D.x * o.D.y * o.D.z : Int) : K)

end
end Phono3py
