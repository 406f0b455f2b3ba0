/-
Linewidths without storing the interaction strengths: c/pp_collision.c.
-/
import Verif.Model.Interaction
import Verif.Model.IntegrationWeight

namespace Phono3py

section
variable {K : Type _} [Field K] [LinearOrder K] [IsStrictOrderedRing K]

/-- What all triplets share. `mem` is uninitialised memory used by the symmetrised variant
(c/pp_collision.c:67-137). -/
structure CollisionSetting (K : Type _) where
  bose : K → K → K
  sqrt : K → K
  expi : K → Cplx K
  crystal : Crystal K
  numBand0 : Nat
  temperatures : Nat → K
  numTemps : Nat
  frequencies : Int → K
  eigenvectors : Int → Cplx K
  addresses : Int → V3
  D : V3
  Q : M3
  symmetrize : Bool
  mem : Int → K

/-- `get_collision`, c/pp_collision.c:210-253. -/
def getCollision (s : CollisionSetting K) (g : Int → K) (gZero : Int → Bool)
    (triplet : Fin 3 → Int) (tripletWeight : Int) : Int → K :=
  let numBand := s.crystal.numBand
  let gPos := setGPos s.numBand0 numBand gZero
  let fc3NormalSquared := interactionAtTriplet s.sqrt s.expi s.crystal s.numBand0 gPos
    s.frequencies s.eigenvectors triplet s.addresses s.D s.Q s.symmetrize s.mem fun _ => 0
  iseAtTriplet s.bose s.numBand0 numBand fc3NormalSquared s.frequencies triplet tripletWeight g
    (shiftBy g (s.numBand0 * numBand * numBand)) gPos s.temperatures s.numTemps s.crystal.cutoff
    false

/-- `finalize_ise`, c/pp_collision.c:255-295. -/
def finalizeIse (ise : Int → K) (addresses : Int → V3) (triplets : Nat → Fin 3 → Int)
    (numTriplets numTemps numBand0 : Nat) (isNU : Bool) : Int → K :=
  runAdds (fun _ => 0) (loop numTriplets fun i => loop numTemps fun j => loop numBand0 fun k =>
    let x := ise ((i * numTemps * numBand0 + j * numBand0 + k : Nat) : Int)
    if isNU then
      if isNormal (triplets i) addresses then [(((j * numBand0 + k : Nat) : Int), x)]
      else [(((numTemps * numBand0 + j * numBand0 + k : Nat) : Int), x)]
    else [(((j * numBand0 + k : Nat) : Int), x)])

/-- The loop over triplets of `ppc_get_pp_collision` and `ppc_get_pp_collision_with_sigma`,
c/pp_collision.c:107-128 and c/pp_collision.c:181-199; `weights i` are the integration weights
and flags of triplet `i`, `mem` is the content of `ise` as returned by `malloc`. -/
def ppCollision (s : CollisionSetting K) (weights : Nat → (Int → K) × (Int → Bool))
    (triplets : Nat → Fin 3 → Int) (numTriplets : Nat) (tripletWeights : Nat → Int) (isNU : Bool)
    (mem : Int → K) : Int → K :=
  let ise := runWrites mem (loop numTriplets fun i => loop (s.numTemps * s.numBand0) fun r =>
    [(((i * s.numTemps * s.numBand0 + r : Nat) : Int),
      getCollision s (weights i).1 (weights i).2 (triplets i) (tripletWeights i) (r : Nat))])
  finalizeIse ise s.addresses triplets numTriplets s.numTemps s.numBand0 isNU

/-- `freqs_at_gp`, c/pp_collision.c:95-99. -/
def freqsAtGp (s : CollisionSetting K) (triplets : Nat → Fin 3 → Int) (b : Nat) : K :=
  s.frequencies (triplets 0 0 * s.crystal.numBand + (s.crystal.bandIndices b : Nat))

/-- `ppc_get_pp_collision`, c/pp_collision.c:67-137. `gMem` and `zMem` are the contents of `g`
and `g_zero` as returned by `malloc`. -/
def ppCollisionTetrahedron (s : CollisionSetting K) (eps : K) (g0 : Fin 3 → K)
    (relative : Fin 24 → Fin 4 → V3) (bz : BZGridOut) (dense : Bool)
    (triplets : Nat → Fin 3 → Int) (numTriplets : Nat) (tripletWeights : Nat → Int) (isNU : Bool)
    (mem gMem : Int → K) (zMem : Int → Bool) : Int → K :=
  let nb := s.crystal.numBand
  let vertices := fun i =>
    tripletVertices bz s.D dense (setRelativeGridAddress relative 2) (triplets i)
  ppCollision s (fun i =>
    (runWrites gMem (tpiStores eps g0 0 (freqsAtGp s triplets) s.numBand0 (vertices i) 1
      s.frequencies nb s.frequencies nb 2),
     runWrites zMem (tpiZeroStores eps g0 0 (freqsAtGp s triplets) s.numBand0 (vertices i)
      s.frequencies nb s.frequencies nb 2))) triplets numTriplets tripletWeights isNU mem

/-- `ppc_get_pp_collision_with_sigma`, c/pp_collision.c:139-208. -/
def ppCollisionSmearing (s : CollisionSetting K) (gaussian : K → K → K) (sigma sigmaCutoff : K)
    (triplets : Nat → Fin 3 → Int) (numTriplets : Nat) (tripletWeights : Nat → Int) (isNU : Bool)
    (mem gMem : Int → K) (zMem : Int → Bool) : Int → K :=
  ppCollision s (fun i =>
    let st := sigmaStores gaussian sigma sigmaCutoff (freqsAtGp s triplets) s.numBand0
      (fun _ => triplets i) 1 s.frequencies s.crystal.numBand 2
    (runWrites gMem st.1, runWrites zMem st.2)) triplets numTriplets tripletWeights isNU mem

end
end Phono3py
