/-
q-point triplets: `c/triplet_grid.c` and `phono3py/phonon3/triplets.py`.
-/
import Verif.Model.BZGrid
import Mathlib.Data.List.Dedup

namespace Phono3py

/-- `get_reciprocal_point_group_with_q`, c/triplet_grid.c:437-485: the rotations that keep
the grid point. -/
def stabilizer (rots : List M3) (D : V3) (gridPoint : Int) : List M3 :=
  rots.filter fun R =>
    decide (gridIndex (R.mulVec (gridAddressFromIndex gridPoint D)) D = gridPoint)

/-- `gp2` of c/triplet_grid.c:167-174: grid point of `-q0 - q1`. -/
def thirdGridPoint (D : V3) (gridPoint gp1 : Int) : Int :=
  let adrs0 := gridAddressFromIndex gridPoint D
  let adrs1 := gridAddressFromIndex gp1 D
  gridIndex (-adrs0 - adrs1) D

/-- Loop body of c/triplet_grid.c:164-181; the state is `(map_triplets, num_ir_triplets)`. -/
def permStep1 (mapQ : Int → Int) (D : V3) (gridPoint : Int) (st : (Int → Int) × Nat) (gp1 : Nat) :
    (Int → Int) × Nat :=
  if mapQ gp1 = gp1 then
    let gp2 := thirdGridPoint D gridPoint gp1
    if mapQ gp2 < gp1 then (upd st.1 gp1 (mapQ gp2), st.2)
    else (upd st.1 gp1 gp1, st.2 + 1)
  else st

/-- Loop body of c/triplet_grid.c:187-192 (OpenMP loop; the read entries are not written in
this loop, here it runs in ascending order). -/
def permStep2 (mapQ : Int → Int) (m : Int → Int) (gp1 : Nat) : Int → Int :=
  if mapQ gp1 ≠ gp1 then upd m gp1 (m (mapQ gp1)) else m

/-- `get_ir_triplets_at_q_perm_q1q2`, c/triplet_grid.c:150-195. -/
def irTripletsPerm (mapQ : Int → Int) (D : V3) (gridPoint : Int) (init : Int → Int) :
    (Int → Int) × Nat :=
  let st := (List.range (numGrid D).toNat).foldl (permStep1 mapQ D gridPoint) (init, 0)
  ((List.range (numGrid D).toNat).foldl (permStep2 mapQ) st.1, st.2)

/-- Loop body of c/triplet_grid.c:206-213. -/
def nopermStep (mapQ : Int → Int) (st : (Int → Int) × Nat) (gp1 : Nat) : (Int → Int) × Nat :=
  if mapQ gp1 = gp1 then (upd st.1 gp1 gp1, st.2 + 1)
  else (upd st.1 gp1 (st.1 (mapQ gp1)), st.2)

/-- `get_ir_triplets_at_q_noperm`, c/triplet_grid.c:197-216. -/
def irTripletsNoperm (mapQ : Int → Int) (D : V3) (init : Int → Int) : (Int → Int) × Nat :=
  (List.range (numGrid D).toNat).foldl (nopermStep mapQ) (init, 0)

/-- `get_ir_triplets_at_q`, c/triplet_grid.c:114-148: `(map_triplets, map_q, num_ir)`. -/
def irTripletsAtQ (rots : List M3) (D : V3) (gridPoint : Int) (swappable : Bool)
    (init : Int → Int) : (Int → Int) × (Int → Int) × Nat :=
  let mapQ := irGridMap (stabilizer rots D gridPoint) D ⟨0, 0, 0⟩
  let r := if swappable then irTripletsPerm mapQ D gridPoint init
    else irTripletsNoperm mapQ D init
  (r.1, mapQ, r.2)

/-- `tpk_get_ir_triplets_at_q`, c/triplet_grid.c:83-105; `none` is the return value 0 of the
point-group step (the arrays are then left as they were). -/
def tpkIrTripletsAtQ (rotsIn : List M3) (isTimeReversal : Bool) (D : V3) (gridPoint : Int)
    (swappable : Bool) (init : Int → Int) : Option ((Int → Int) × (Int → Int) × Nat) :=
  match reciprocalPointGroup rotsIn isTimeReversal false with
  | none => none
  | some rots => some (irTripletsAtQ rots D gridPoint swappable init)

/-! ### Triplets on the BZ grid -/

/-- Indices visited for one member of a triplet in the sparse layout,
c/triplet_grid.c:293-317. -/
def visited1 (bz : BZGridOut) (D : V3) (gp : Int) : List Int :=
  let n := numGrid D
  let nb := n * 8
  (List.range (bz.gpMap (nb + gp + 1) - bz.gpMap (nb + gp) + 1).toNat).map fun (k : Nat) =>
    if k = 0 then gp else n + bz.gpMap (nb + gp) + k - 1

/-- Indices visited for one member of a triplet in the dense layout,
c/triplet_grid.c:378-382. -/
def visited2 (bz : BZGridOut) (gp : Int) : List Int :=
  (List.range (bz.gpMap (gp + 1) - bz.gpMap gp).toNat).map fun (k : Nat) => bz.gpMap gp + k

/-- The three nested loops as one list of combinations in loop order (c/triplet_grid.c:293-317). -/
def combos (l0 l1 l2 : List Int) : List (Int × Int × Int) :=
  l0.flatMap fun a => l1.flatMap fun b => l2.map fun c => (a, b, c)

/-- `G` of c/triplet_grid.c:318-321. -/
def comboG (bz : BZGridOut) (t : Int × Int × Int) : V3 :=
  bz.addresses t.1 + bz.addresses t.2.1 + bz.addresses t.2.2

section
variable {K : Type _} [Field K] [LinearOrder K]

/-- `get_LQD_inv`, c/triplet_grid.c:421-434. The innermost statement assigns instead of
accumulating over `j`, so the value of the last round, `j = 2`, remains. -/
def lqdInv (b : BZInput K) : Fin 3 → Fin 3 → K :=
  fun i k => b.reclat i 2 * (b.Q.e 2 k : K) / (b.D.e k : K)

/-- `get_squared_distance`, c/triplet_grid.c:407-419. -/
def squaredDistance (G : V3) (m : Fin 3 → Fin 3 → K) : K :=
  let d : Fin 3 → K := fun i => m i 0 * (G.x : K) + m i 1 * (G.y : K) + m i 2 * (G.z : K)
  0 + d 0 * d 0 + d 1 * d 1 + d 2 * d 2

/-- Body of the innermost loop with `goto found`, c/triplet_grid.c:318-334 and 383-399. -/
def tripletSearch (bz : BZGridOut) (dist : V3 → K) (tol : K) :
    List (Int × Int × Int) → K → Int × Int × Int → Int × Int × Int
  | [], _, t => t
  | c :: cs, m, t =>
    if comboG bz c = ⟨0, 0, 0⟩ then c
    else if dist (comboG bz c) < m - tol ∨ m < 0 then tripletSearch bz dist tol cs (dist (comboG bz c)) c
    else tripletSearch bz dist tol cs m t

/-- One round of the loops of `get_BZ_triplets_at_q_type1` (c/triplet_grid.c:285-339) and
`get_BZ_triplets_at_q_type2` (c/triplet_grid.c:370-404) for the irreducible `q1`. `b` holds
`D_diag`, `Q` and `reclat` of the `RecgridConstBZGrid` handed over; note that the callers
(c/phono3py.c:403-436, c/gridsys.c:218-251) never set `reclat`, so it is arbitrary.
`before` is the content of `triplets[i]` before the call. -/
def bzTriplet (b : BZInput K) (bz : BZGridOut) (dense : Bool) (gridPoint q1 : Int)
    (before : Int × Int × Int) : Int × Int × Int :=
  let a0 := bz.addresses gridPoint
  let a1 := bz.addresses (if dense then bz.gpMap q1 else q1)
  let gp2 := gridIndex (-a0 - a1) b.D
  let cs :=
    if dense then
      combos (visited2 bz (gridIndex a0 b.D)) (visited2 bz q1) (visited2 bz gp2)
    else combos (visited1 bz b.D gridPoint) (visited1 bz b.D q1) (visited1 bz b.D gp2)
  tripletSearch bz (fun G => squaredDistance G (lqdInv b)) (bzTolerance b) cs (-1) before

/-- `ir_q1_gps`, c/triplet_grid.c:233-238; `size` is the length of `map_triplets`. -/
def irQ1 (size : Nat) (mapT : Int → Int) : List Nat :=
  (List.range size).filter fun (gp : Nat) => decide (mapT gp = gp)

/-- `get_BZ_triplets_at_q`, c/triplet_grid.c:218-254, on an array filled with -1. -/
def bzTripletsAtQ (b : BZInput K) (bz : BZGridOut) (dense : Bool) (gridPoint : Int)
    (size : Nat) (mapT : Int → Int) : List (Int × Int × Int) :=
  (irQ1 size mapT).map fun (q1 : Nat) => bzTriplet b bz dense gridPoint q1 (-1, -1, -1)

end

/-- `weights` of `_get_BZ_triplets_at_q`, phono3py/phonon3/triplets.py:324-327: histogram
of the map, without the zero entries. -/
def irWeights (size : Nat) (mapT : Int → Int) : List Nat :=
  ((List.range size).map fun (v : Nat) =>
    (List.range size).countP fun (g : Nat) => decide (mapT g = v)).filter (fun w => decide (w > 0))

/-- Result of `get_triplets_at_q` (phono3py/phonon3/triplets.py:51-116). -/
structure Triplets where
  triplets : List (Int × Int × Int)
  weights : List Nat
  mapTriplets : List Int
  mapQ : List Int

/-- `get_triplets_at_q`, phono3py/phonon3/triplets.py:51-116, with
`_get_triplets_reciprocal_mesh_at_q` (225-283) and `_get_BZ_triplets_at_q` (286-344).
`none` is a failed assertion. -/
def getTripletsAtQ {K : Type _} [Field K] [LinearOrder K] (b : BZInput K) (bz : BZGridOut)
    (dense : Bool) (rots : List M3) (gridPoint : Int) (isTimeReversal swappable : Bool) :
    Option Triplets :=
  let n := (numGrid b.D).toNat
  match tpkIrTripletsAtQ rots isTimeReversal b.D (bz.bzg2grg gridPoint) swappable (fun _ => 0) with
  | none => none
  | some (mapT, mapQ, num) =>
    let tableT := (List.range n).map fun (g : Nat) => mapT g
    if num ≠ tableT.dedup.length then none
    else
      let ws := irWeights n mapT
      let ts := bzTripletsAtQ b bz dense gridPoint n mapT
      if ts.length ≠ ws.length then none
      else if n ≠ ws.sum then none
      else some ⟨ts, ws, tableT, (List.range n).map fun (g : Nat) => mapQ g⟩

/-- `get_nosym_triplets_at_q`, phono3py/phonon3/triplets.py:135-146, and `get_all_triplets`
(121-132), which returns the first field: the map is the identity. -/
def getNosymTripletsAtQ {K : Type _} [Field K] [LinearOrder K] (b : BZInput K) (bz : BZGridOut)
    (dense : Bool) (gridPoint : Int) : Option Triplets :=
  let n := (numGrid b.D).toNat
  let ident := (List.range n).map fun (g : Nat) => (g : Int)
  let ws := irWeights n (fun g => g)
  let ts := bzTripletsAtQ b bz dense gridPoint n (fun g => g)
  if ts.length ≠ ws.length then none
  else if n ≠ ws.sum then none
  else some ⟨ts, ws, ident, ident⟩

end Phono3py
