/-
Brillouin-zone grid: `c/bzgrid.c` and the tolerance of `c/recgrid.c`.
The real quantities (`double`) live in an arbitrary linearly ordered field with floor.
Arrays are functions of an integer index; the content before the call is arbitrary.
-/
import Verif.Model.Grid
import Verif.Model.Transform

namespace Phono3py

/-- `bz_search_space`, c/bzgrid.c:46-73. The 125 literal rows are all triples over
`0, 1, 2, -2, -1`, the last component running fastest. -/
def bzSearchSpace : List V3 :=
  [0, 1, 2, -2, -1].flatMap fun (x : Int) =>
    [0, 1, 2, -2, -1].flatMap fun (y : Int) =>
      [0, 1, 2, -2, -1].map fun (z : Int) => (⟨x, y, z⟩ : V3)

section
variable {K : Type _} [Field K] [LinearOrder K] [IsStrictOrderedRing K] [FloorRing K]

/-- Input part of `RecgridBZGrid`, c/recgrid.h: `D_diag`, `PS`, `Q` and `reclat`
(c/recgrid.h:76-86). -/
structure BZInput (K : Type _) where
  D : V3
  PS : V3
  Q : M3
  reclat : Fin 3 → Fin 3 → K

/-- `double v[3]` (c/bzgrid.c:327-349). -/
abbrev RV (K : Type _) := Fin 3 → K

/-- `multiply_matrix_vector_d3` (and `_ld3` after the cast), c/bzgrid.c:303-325. -/
def mulVecD3 (a : Fin 3 → Fin 3 → K) (b : RV K) : RV K :=
  fun i => a i 0 * b 0 + a i 1 * b 1 + a i 2 * b 2

/-- `norm_squared_d3`, c/bzgrid.c:351-353. -/
def normSquared (a : RV K) : K := a 0 * a 0 + a 1 * a 1 + a 2 * a 2

/-- `q_red` before subtracting the nearest integers, c/bzgrid.c:270-275. -/
def qRed (b : BZInput K) (gridAddress : V3) : RV K :=
  let dadrs := doubleGridAddress gridAddress b.PS
  mulVecD3 (fun i j => (b.Q.e i j : K)) (fun i => (dadrs.e i : K) / (2 * (b.D.e i : K)))

/-- `nint`, c/bzgrid.c:276-277. -/
def bzNint (b : BZInput K) (gridAddress : V3) : V3 :=
  let q := qRed b gridAddress
  ⟨nint (q 0), nint (q 1), nint (q 2)⟩

/-- `distances[i]` for the search vector `s`, c/bzgrid.c:276-287. -/
def bzDistance (b : BZInput K) (gridAddress : V3) (s : V3) : K :=
  let q := qRed b gridAddress
  let n := bzNint b gridAddress
  let qr : RV K := fun i => q i - (n.e i : K)
  normSquared (mulVecD3 b.reclat (fun i => qr i + (s.e i : K)))

/-- `min_distance`, c/bzgrid.c:293-300, from the list of distances. -/
def minDistance (tol : K) : List K → K
  | [] => 0
  | d :: ds => ds.foldl (fun m d => if d < m - tol then d else m) d

/-- `get_bz_distances`, c/bzgrid.c:261-301, the returned minimum. -/
def bzMinDistance (b : BZInput K) (tol : K) (gridAddress : V3) : K :=
  minDistance tol (bzSearchSpace.map (bzDistance b gridAddress))

/-- `set_bz_address`, c/bzgrid.c:245-259. -/
def setBzAddress (s gridAddress D nint : V3) (Qinv : M3) : V3 :=
  let deltaG := Qinv.mulVec (s - nint)
  gridAddress + deltaG.mul D

/-- `recgrid_get_tolerance_for_BZ_reduction`, c/recgrid.c:193-222
(`GRID_TOLERANCE_FACTOR` is 0.01, line 46). -/
def bzTolerance (b : BZInput K) : K :=
  let reclatQ : Fin 3 → Fin 3 → K := fun i j =>
    b.reclat i 0 * (b.Q.e 0 j : K) + b.reclat i 1 * (b.Q.e 1 j : K) + b.reclat i 2 * (b.Q.e 2 j : K)
  let length : Fin 3 → K := fun i =>
    (reclatQ 0 i * reclatQ 0 i + reclatQ 1 i * reclatQ 1 i + reclatQ 2 i * reclatQ 2 i) /
      ((b.D.e i : K) * (b.D.e i : K))
  let t := length 0
  let t := if t < length 1 then length 1 else t
  let t := if t < length 2 then length 2 else t
  t * (1 / 100)

/-- Output part of `RecgridBZGrid`: `addresses`, `gp_map`, `bzg2grg`, `size`
(c/recgrid.h:76-86). -/
structure BZGridOut where
  addresses : Int → V3
  gpMap : Int → Int
  bzg2grg : Int → Int
  size : Int

/-- Loop state of `get_bz_grid_addresses_type2` (c/bzgrid.c:214-243). -/
structure BZ2State where
  addresses : Int → V3
  gpMap : Int → Int
  bzg2grg : Int → Int
  num : Int

/-- Body of the inner `j` loop, c/bzgrid.c:231-236. -/
def bz2Inner (cond : V3 → Bool) (addr : V3 → V3) (i : Int) (st : BZ2State) (s : V3) : BZ2State :=
  if cond s then
    { st with
      addresses := upd st.addresses st.num (addr s)
      bzg2grg := upd st.bzg2grg st.num i
      num := st.num + 1 }
  else st

/-- Body of the outer `i` loop, c/bzgrid.c:226-239. -/
def bz2Outer (b : BZInput K) (tol : K) (Qinv : M3) (st : BZ2State) (i : Nat) : BZ2State :=
  let gr := gridAddressFromIndex i b.D
  let nint := bzNint b gr
  let m := bzMinDistance b tol gr
  let st := bzSearchSpace.foldl
    (bz2Inner (fun s => decide (bzDistance b gr s < m + tol))
      (fun s => setBzAddress s gr b.D nint Qinv) i) st
  { st with gpMap := upd st.gpMap (i + 1) st.num }

/-- `get_bz_grid_addresses_type2`, c/bzgrid.c:214-243, on arrays with initial content
`init`. -/
def bzGridType2 (b : BZInput K) (tol : K) (Qinv : M3) (init : BZGridOut) : BZGridOut :=
  let st : BZ2State := ⟨init.addresses, upd init.gpMap 0 0, init.bzg2grg, 0⟩
  let st := (List.range (numGrid b.D).toNat).foldl (bz2Outer b tol Qinv) st
  ⟨st.addresses, st.gpMap, st.bzg2grg, st.num⟩

/-- Loop state of `get_bz_grid_addresses_type1` (c/bzgrid.c:154-212). -/
structure BZ1State where
  addresses : Int → V3
  gpMap : Int → Int
  bzg2grg : Int → Int
  boundary : Int
  count : Int
  idShift : Int

/-- Body of the inner `j` loop, c/bzgrid.c:185-203. -/
def bz1Inner (D PS : V3) (cond : V3 → Bool) (addr : V3 → V3) (i : Int) (st : BZ1State) (s : V3) :
    BZ1State :=
  if cond s then
    let gp := if st.count = 0 then i else st.boundary + numGrid D
    let boundary := if st.count = 0 then st.boundary else st.boundary + 1
    let a := addr s
    let bzmesh : V3 := ⟨D.x * 2, D.y * 2, D.z * 2⟩
    let bzgp := doubleGridIndex (doubleGridAddress a PS) bzmesh PS
    { st with
      addresses := upd st.addresses gp a
      gpMap := upd st.gpMap bzgp gp
      bzg2grg := upd st.bzg2grg gp i
      boundary := boundary
      count := st.count + 1 }
  else st

/-- `num_bzmesh`, c/bzgrid.c:163-167. -/
def numBzMesh (D : V3) : Int := D.x * 2 * (D.y * 2) * (D.z * 2)

/-- Body of the outer `i` loop, c/bzgrid.c:180-210. -/
def bz1Outer (b : BZInput K) (tol : K) (Qinv : M3) (st : BZ1State) (i : Nat) : BZ1State :=
  let gr := gridAddressFromIndex i b.D
  let nint := bzNint b gr
  let m := bzMinDistance b tol gr
  let st := { st with count := 0 }
  let st := bzSearchSpace.foldl
    (bz1Inner b.D b.PS (fun s => decide (bzDistance b gr s < m + tol))
      (fun s => setBzAddress s gr b.D nint Qinv) i) st
  let idShift := st.idShift + (st.count - 1)
  { st with idShift := idShift, gpMap := upd st.gpMap (numBzMesh b.D + i + 1) idShift }

/-- `get_bz_grid_addresses_type1`, c/bzgrid.c:154-212. -/
def bzGridType1 (b : BZInput K) (tol : K) (Qinv : M3) (init : BZGridOut) : BZGridOut :=
  let n := numBzMesh b.D
  let gpMap := fun k => if 0 ≤ k ∧ k < n then n else init.gpMap k
  let st : BZ1State := ⟨init.addresses, upd gpMap n 0, init.bzg2grg, 0, 0, 0⟩
  let st := (List.range (numGrid b.D).toNat).foldl (bz1Outer b tol Qinv) st
  ⟨st.addresses, st.gpMap, st.bzg2grg, st.boundary + numGrid b.D⟩

/-- `bzg_get_bz_grid_addresses`, c/bzgrid.c:136-152; `none` is the return value 0. `dense`
selects type 2. -/
def bzGrid (b : BZInput K) (dense : Bool) (init : BZGridOut) : Option BZGridOut :=
  match b.Q.inverseUnimodular with
  | none => none
  | some Qinv =>
    let tol := bzTolerance b
    some (if dense then bzGridType2 b tol Qinv init else bzGridType1 b tol Qinv init)

end

/-- The search loops of `bzg_rotate_grid_index`: first index in `[lo, hi)` whose address is
`a` (c/bzgrid.c:114-129). -/
def findAddress (addresses : Int → V3) (a : V3) (lo hi : Int) : Option Int :=
  ((List.range (hi - lo).toNat).map (fun (k : Nat) => lo + k)).find?
    (fun i => decide (addresses i = a))

/-- `adrs_rot` of c/bzgrid.c:100-103. -/
def rotatedBzAddress (bz : BZGridOut) (PS : V3) (idx : Int) (R : M3) : V3 :=
  singleGridAddress (R.mulVec (doubleGridAddress (bz.addresses idx) PS)) PS

/-- `bzg_rotate_grid_index`, c/bzgrid.c:94-134. -/
def bzRotateGridIndex (bz : BZGridOut) (D PS : V3) (dense : Bool) (idx : Int) (R : M3) : Int :=
  let a := rotatedBzAddress bz PS idx R
  let gp := gridIndex a D
  if dense then
    match findAddress bz.addresses a (bz.gpMap gp) (bz.gpMap (gp + 1)) with
    | some i => i
    | none => bz.gpMap gp
  else if bz.addresses gp = a then gp
  else
    let n := numGrid D
    let nb := n * 8
    match findAddress bz.addresses a (bz.gpMap (nb + gp) + n) (bz.gpMap (nb + gp + 1) + n) with
    | some i => i
    | none => bz.gpMap gp

end Phono3py
