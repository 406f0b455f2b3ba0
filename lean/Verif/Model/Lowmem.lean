/-
Linewidths of the relaxation time approximation without stored interaction strengths:
phono3py/conductivity/rta.py.
-/
import Verif.Model.IseRoutines
import Verif.Model.PPCollision

namespace Phono3py

/-- The choice between `_set_gamma_at_sigmas` (`true`) and `_set_gamma_at_sigmas_lowmem` in
`_run_at_grid_point`, phono3py/conductivity/rta.py:213-223, for a run that does not read gamma. -/
def storesStrengths (isFullPP readPP storePP useAverages useConstant isGammaDetail : Bool) : Bool :=
  isFullPP || readPP || storePP || useAverages || useConstant || isGammaDetail

section
variable {K : Type} [Field K] [LinearOrder K] [IsStrictOrderedRing K]

/-- Arguments of `pp_collision` and `pp_collision_with_sigma` that do not depend on triplets,
phono3py/conductivity/rta.py:372-398 and 404-429: the data of the `Interaction` object and the
temperatures. -/
def IseCode.setting (c : IseCode K) (temperatures : List K) : CollisionSetting K where
  bose := c.bose
  sqrt := c.o.sqrt
  expi := c.o.expi
  crystal := c.o.crystal
  numBand0 := c.o.numBand0
  temperatures := fun k => temperatures.getD k 0
  numTemps := temperatures.length
  frequencies := c.o.frequencies
  eigenvectors := c.o.eigenvectors
  addresses := c.o.addresses
  D := c.o.D
  Q := c.o.Q
  symmetrize := c.o.symmetrize
  mem := c.o.mem

/-- Contents of memory as returned by `malloc` (c/pp_collision.c:93-109 and 167-183). -/
structure LowmemMemory (K : Type) where
  ise : Int → K
  g : Int → K
  gZero : Int → Bool

/-- The array `collisions` for one smearing width, phono3py/conductivity/rta.py:344-429. -/
def IseCode.collisions (c : IseCode K) (p : Int) (temperatures : List K) (isNU : Bool)
    (sigma cutoff : Option K) (m : LowmemMemory K) : Int → K :=
  match sigma with
  | none => ppCollisionTetrahedron (c.setting temperatures) c.eps c.g0 c.relative c.bz c.dense
      (c.triplets p) (c.numTriplets p) (c.weights p) isNU m.ise m.g m.gZero
  | some x => ppCollisionSmearing (c.setting temperatures) c.gaussian x (cutoff.getD (-1))
      (c.triplets p) (c.numTriplets p) (c.weights p) isNU m.ise m.g m.gZero

/-- `average_by_degeneracy(col[k] * col_unit_conv * pp_unit_conv, ...)`,
phono3py/conductivity/rta.py:439-457; `col` in C order. -/
def IseCode.lowmemRow (c : IseCode K) (p : Int) (col : Int → K) (k : Nat) : Nat → K :=
  averageByDegeneracy (c.degSets p) c.bands fun b =>
    if b < c.o.numBand0 then col ((k * c.o.numBand0 + b : Nat) : Int) * c.unit * c.o.unit else 0

/-- Linewidths, and normal and Umklapp parts if they are asked for. -/
structure LowmemOut (K : Type) where
  gamma : Nat → K
  parts : Option ((Nat → K) × (Nat → K))

/-- `_set_gamma_at_sigmas_lowmem` for one smearing width and temperature `k`,
phono3py/conductivity/rta.py:342-457. -/
def IseCode.lowmemGamma (c : IseCode K) (p : Int) (temperatures : List K) (isNU : Bool)
    (sigma cutoff : Option K) (m : LowmemMemory K) (k : Nat) : LowmemOut K :=
  let collisions := c.collisions p temperatures isNU sigma cutoff m
  let half : Int := (temperatures.length * c.o.numBand0 : Nat)
  if isNU then
    { gamma := c.lowmemRow p (fun q => collisions q + collisions (half + q)) k
      parts := some (c.lowmemRow p collisions k, c.lowmemRow p (fun q => collisions (half + q)) k) }
  else
    { gamma := c.lowmemRow p collisions k
      parts := none }

/-- `_set_gamma_at_sigmas_lowmem`, phono3py/conductivity/rta.py:342-457. -/
def IseCode.lowmemSigmas (c : IseCode K) (p : Int) (temperatures : List K) (isNU : Bool)
    (sigmas : List (Option K)) (cutoff : Option K) (m : LowmemMemory K) : List (List (LowmemOut K)) :=
  sigmas.map fun sigma =>
    (List.range temperatures.length).map fun k => c.lowmemGamma p temperatures isNU sigma cutoff m k

/-- `get_imag_self_energy_N_and_U` after `_run_c_detailed_with_band_indices_with_g` with the
interaction strengths `v`, phono3py/phonon3/imag_self_energy.py:185-191 and 351-379. Elements outside
the arrays are 0. -/
def IseCode.partsAt (c : IseCode K) (p : Int) (v g : Int → K) (z : Int → Bool) (t : K)
    (init : Int → K) : (Nat → K) × (Nat → K) :=
  let r := detailedWithG c.bose (c.numTriplets p) c.o.numBand0 c.o.crystal.numBand v c.o.frequencies
    (c.triplets p) (c.weights p) c.o.addresses g z t c.o.crystal.cutoff init
  (averageByDegeneracy (c.degSets p) c.bands fun b =>
    if b < c.o.numBand0 then r.normal b * c.unit else 0,
   averageByDegeneracy (c.degSets p) c.bands fun b =>
    if b < c.o.numBand0 then r.umklapp b * c.unit else 0)

end
end Phono3py
