/-
Integration weights of the q-point triplets: c/triplet_iw.c and c/triplet.c.

Arrays indexed by band and grid point are functions of the flat index. `funcs_gaussian` is an
arbitrary function `gaussian`.
-/
import Verif.Model.Tetrahedron
import Verif.Model.BZGrid
import Verif.Model.Writes

namespace Phono3py

section
variable {K : Type _} [Field K] [LinearOrder K]

/-- `set_freq_vertices`, c/triplet_iw.c:224-253. Entries 1 and 2 are not written for
tp_type 4; they are not read then either. -/
def setFreqVertices (frequencies1 frequencies2 : Int → K)
    (vertices : Fin 2 → Fin 24 → Fin 4 → Int) (numBand1 numBand2 : Nat) (b1 b2 : Nat)
    (tpType : Nat) : Fin 3 → Fin 24 → Fin 4 → K := fun k i j =>
  let f1 := frequencies1 (vertices 0 i j * numBand1 + b1)
  let f2 := frequencies2 (vertices 1 i j * numBand2 + b2)
  if tpType = 2 ∨ tpType = 3 then
    let f1 := if f1 < 0 then 0 else f1
    let f2 := if f2 < 0 then 0 else f2
    ![-f1 + f2, f1 - f2, f1 + f2] k
  else -f1 + f2

/-- `set_g`, c/triplet_iw.c:264-281: the array `g` and the flag. The loop runs over `i` below
`maxI`; entries from `maxI` on keep their old value. -/
def setG (eps : K) (g : Fin 3 → K) (f0 : K) (fv : Fin 3 → Fin 24 → Fin 4 → K) (maxI : Nat) :
    (Fin 3 → K) × Bool :=
  (List.finRange 3).foldl
    (fun (st : (Fin 3 → K) × Bool) i =>
      if i.1 < maxI then
        if thmInTetrahedra f0 (fv i) then
          (fun k => if k = i then thmIntegrationWeight eps true f0 (fv i) else st.1 k, false)
        else (fun k => if k = i then 0 else st.1 k, st.2)
      else st)
    (g, true)

/-- `max_i`, c/triplet_iw.c:97-102. For any other tp_type it is uninitialised in the code; here
it is 0. -/
def tpMaxI (tpType : Nat) : Nat := if tpType = 2 ∨ tpType = 3 then 3 else if tpType = 4 then 1 else 0

/-- The stores to `iw` at one address, c/triplet_iw.c:116-130. -/
def iwStores (tpType : Nat) (shift prod : Int) (g : Fin 3 → K) : List (Int × K) :=
  (if tpType = 2 then [(shift, g 2), (shift + prod, g 0 - g 1)] else []) ++
  (if tpType = 3 then
    [(shift, g 2), (shift + prod, g 0 - g 1), (shift + prod + prod, g 0 + g 1 + g 2)] else []) ++
  (if tpType = 4 then [(shift, g 0)] else [])

/-- Everything `tpi_get_integration_weight` computes for one pair of bands and one frequency
point: `g` and the flag. `g0` is the uninitialised local array (c/triplet_iw.c:97-130). -/
def bandWeight (eps : K) (g0 : Fin 3 → K) (frequencyPoints : Nat → K)
    (vertices : Fin 2 → Fin 24 → Fin 4 → Int) (frequencies1 : Int → K) (numBand1 : Nat)
    (frequencies2 : Int → K) (numBand2 : Nat) (tpType : Nat) (j b12 : Nat) :
    (Fin 3 → K) × Bool :=
  setG eps g0 (frequencyPoints j)
    (setFreqVertices frequencies1 frequencies2 vertices numBand1 numBand2 (b12 / numBand2)
      (b12 % numBand2) tpType) (tpMaxI tpType)

/-- `adrs_shift`, c/triplet_iw.c:113 and 157. -/
def adrsShift (numBand1 numBand2 j b1 b2 : Nat) : Nat :=
  j * numBand1 * numBand2 + b1 * numBand2 + b2

/-- Stores to `iw` of `tpi_get_integration_weight`, c/triplet_iw.c:66-133, for a triplet whose
arrays start at `base`. -/
def tpiStores (eps : K) (g0 : Fin 3 → K) (base : Int) (frequencyPoints : Nat → K)
    (numBand0 : Nat) (vertices : Fin 2 → Fin 24 → Fin 4 → Int) (numTriplets : Nat)
    (frequencies1 : Int → K) (numBand1 : Nat) (frequencies2 : Int → K) (numBand2 : Nat)
    (tpType : Nat) : List (Int × K) :=
  loop (numBand1 * numBand2) fun b12 =>
    loop numBand0 fun j =>
      iwStores tpType
        (base + adrsShift numBand1 numBand2 j (b12 / numBand2) (b12 % numBand2))
        (numTriplets * numBand0 * numBand1 * numBand2 : Nat)
        (bandWeight eps g0 frequencyPoints vertices frequencies1 numBand1 frequencies2 numBand2
          tpType j b12).1

/-- Stores to `iw_zero` of `tpi_get_integration_weight` (c/triplet_iw.c:66-133). -/
def tpiZeroStores (eps : K) (g0 : Fin 3 → K) (base : Int) (frequencyPoints : Nat → K)
    (numBand0 : Nat) (vertices : Fin 2 → Fin 24 → Fin 4 → Int) (frequencies1 : Int → K)
    (numBand1 : Nat) (frequencies2 : Int → K) (numBand2 : Nat) (tpType : Nat) :
    List (Int × Bool) :=
  loop (numBand1 * numBand2) fun b12 =>
    loop numBand0 fun j =>
      [(base + adrsShift numBand1 numBand2 j (b12 / numBand2) (b12 % numBand2),
        (bandWeight eps g0 frequencyPoints vertices frequencies1 numBand1 frequencies2 numBand2
          tpType j b12).2)]

/-- `tpl_set_relative_grid_address`, c/triplet.c:135-160. -/
def setRelativeGridAddress (relative : Fin 24 → Fin 4 → V3) (tpType : Nat) :
    Fin 2 → Fin 24 → Fin 4 → V3 := fun i j k =>
  let sign : Int := if i = 0 then 1 else if tpType = 2 ∨ tpType = 3 then -1 else 1
  ⟨(relative j k).x * sign, (relative j k).y * sign, (relative j k).z * sign⟩

/-- One entry of `get_neighboring_grid_points_type1`, c/triplet_iw.c:298-323. -/
def neighborType1 (bz : BZGridOut) (D : V3) (gridPoint : Int) (rel : V3) : Int :=
  let bzmesh : V3 := ⟨D.x * 2, D.y * 2, D.z * 2⟩
  let a := bz.addresses gridPoint + rel
  let bzGp := bz.gpMap (gridIndex a bzmesh)
  if bzGp = numGrid bzmesh then gridIndex a D else bzGp

/-- One entry of `get_neighboring_grid_points_type2`, c/triplet_iw.c:325-350. -/
def neighborType2 (bz : BZGridOut) (D : V3) (gridPoint : Int) (rel : V3) : Int :=
  let a := bz.addresses gridPoint + rel
  let gp := gridIndex a D
  if bz.gpMap (gp + 1) - bz.gpMap gp > 1 then
    match findAddress bz.addresses a (bz.gpMap gp) (bz.gpMap (gp + 1)) with
    | some j => j
    | none => bz.gpMap gp
  else bz.gpMap gp

/-- `tpi_get_neighboring_grid_points`, c/triplet_iw.c:208-222, one entry. -/
def neighborGridPoint (bz : BZGridOut) (D : V3) (dense : Bool) (gridPoint : Int) (rel : V3) : Int :=
  if dense then neighborType2 bz D gridPoint rel else neighborType1 bz D gridPoint rel

/-- `get_triplet_tetrahedra_vertices`, c/triplet_iw.c:283-296. -/
def tripletVertices (bz : BZGridOut) (D : V3) (dense : Bool)
    (rel : Fin 2 → Fin 24 → Fin 4 → V3) (triplet : Fin 3 → Int) : Fin 2 → Fin 24 → Fin 4 → Int :=
  fun i j k => neighborGridPoint bz D dense (triplet i.succ) (rel i j k)

/-- `tpl_get_integration_weight`, c/triplet.c:65-92: the stores to `iw` and to `iw_zero`. -/
def tplStores (eps : K) (g0 : Fin 3 → K) (frequencyPoints : Nat → K) (numBand0 : Nat)
    (relative : Fin 24 → Fin 4 → V3) (triplets : Nat → Fin 3 → Int) (numTriplets : Nat)
    (bz : BZGridOut) (D : V3) (dense : Bool) (frequencies1 : Int → K) (numBand1 : Nat)
    (frequencies2 : Int → K) (numBand2 : Nat) (tpType : Nat) :
    List (Int × K) × List (Int × Bool) :=
  let rel := setRelativeGridAddress relative tpType
  (loop numTriplets fun i =>
    tpiStores eps g0 (i * (numBand0 * numBand1 * numBand2) : Nat) frequencyPoints numBand0
      (tripletVertices bz D dense rel (triplets i)) numTriplets frequencies1 numBand1 frequencies2
      numBand2 tpType,
   loop numTriplets fun i =>
    tpiZeroStores eps g0 (i * (numBand0 * numBand1 * numBand2) : Nat) frequencyPoints numBand0
      (tripletVertices bz D dense rel (triplets i)) frequencies1 numBand1 frequencies2 numBand2
      tpType)

/-! ### Smearing -/

/-- The flag and `g0, g1, g2` of `tpi_get_integration_weight_with_sigma`,
c/triplet_iw.c:159-190. For tp_type 4 only `g0` is computed. -/
def sigmaWeight (gaussian : K → K → K) (sigma cutoff f0 f1 f2 : K) (tpType : Nat) :
    (Fin 3 → K) × Bool :=
  if tpType = 2 ∨ tpType = 3 then
    if cutoff > 0 ∧ |f0 + f1 - f2| > cutoff ∧ |f0 - f1 + f2| > cutoff ∧ |f0 - f1 - f2| > cutoff
    then (fun _ => 0, true)
    else (![gaussian (f0 + f1 - f2) sigma, gaussian (f0 - f1 + f2) sigma,
      gaussian (f0 - f1 - f2) sigma], false)
  else if tpType = 4 then
    if cutoff > 0 ∧ |f0 + f1 - f2| > cutoff then (fun _ => 0, true)
    else (fun _ => gaussian (f0 + f1 - f2) sigma, false)
  else (fun _ => 0, false)

/-- `tpl_get_integration_weight_with_sigma` with `tpi_get_integration_weight_with_sigma`,
c/triplet.c:94-115 and c/triplet_iw.c:135-194: stores to `iw` and to `iw_zero`. For a tp_type
other than 2, 3, 4 nothing is stored in the code; the model then stores a flag. -/
def sigmaStores (gaussian : K → K → K) (sigma sigmaCutoff : K) (frequencyPoints : Nat → K)
    (numBand0 : Nat) (triplets : Nat → Fin 3 → Int) (numTriplets : Nat) (frequencies : Int → K)
    (numBand : Nat) (tpType : Nat) : List (Int × K) × List (Int × Bool) :=
  let cutoff := sigma * sigmaCutoff
  let weight := fun (i b12 j : Nat) =>
    sigmaWeight gaussian sigma cutoff (frequencyPoints j)
      (frequencies (triplets i 1 * numBand + (b12 / numBand : Nat)))
      (frequencies (triplets i 2 * numBand + (b12 % numBand : Nat))) tpType
  (loop numTriplets fun i => loop (numBand * numBand) fun b12 => loop numBand0 fun j =>
    iwStores tpType
      ((i * (numBand0 * numBand * numBand) : Nat)
        + adrsShift numBand numBand j (b12 / numBand) (b12 % numBand))
      (numTriplets * numBand0 * numBand * numBand : Nat) (weight i b12 j).1,
   loop numTriplets fun i => loop (numBand * numBand) fun b12 => loop numBand0 fun j =>
    [((i * (numBand0 * numBand * numBand) : Nat)
        + (adrsShift numBand numBand j (b12 / numBand) (b12 % numBand) : Int),
      (weight i b12 j).2)])

end
end Phono3py
