/-
Generalized regular grid: `c/grgrid.c`, part of `c/recgrid.c`, and the grid-point
routines of `phono3py/phonon/grid.py`.
`GRID_ORDER_XYZ` is undefined in the build, so the `#ifndef` branches are modelled.
-/
import Verif.Model.Vec

namespace Phono3py

/-- `D_diag[0] * D_diag[1] * D_diag[2]` (e.g. c/grgrid.c:412). -/
def numGrid (D : V3) : Int := D.x * D.y * D.z

/-- `reduce_grid_address`, c/grgrid.c:297-303. -/
def reduceGridAddress (a D : V3) : V3 :=
  ⟨moduloL a.x D.x, moduloL a.y D.y, moduloL a.z D.z⟩

/-- `get_grid_index_from_address`, c/grgrid.c:319-328. -/
def gridIndexFromAddress (a D : V3) : Int :=
  a.z * D.x * D.y + a.y * D.x + a.x

/-- `grg_get_grid_index`, c/grgrid.c:192-198
(`recgrid_get_grid_index_from_address`, c/recgrid.c:71-74). -/
def gridIndex (a D : V3) : Int :=
  gridIndexFromAddress (reduceGridAddress a D) D

/-- `get_grid_address_from_index`, c/grgrid.c:349-365. -/
def gridAddressFromIndex (g : Int) (D : V3) : V3 :=
  let nn := D.x * D.y
  let z := g.tdiv nn
  ⟨g.tmod D.x, (g - z * nn).tdiv D.x, z⟩

/-- `get_all_grid_addresses`, c/grgrid.c:330-346: three nested loops that write
`address` at row `get_grid_index_from_address(address)`.
The table is a function from rows to addresses; `init` is its content before the call. -/
def allGridAddresses (D : V3) (init : Int → V3) : Int → V3 :=
  (List.range D.x.toNat).foldl (fun t (i : Nat) =>
    (List.range D.y.toNat).foldl (fun t (j : Nat) =>
      (List.range D.z.toNat).foldl (fun t (k : Nat) =>
        let a : V3 := ⟨i, j, k⟩
        upd t (gridIndexFromAddress a D) a) t) t) init

/-- `get_double_grid_address`, c/grgrid.c:381-389. -/
def doubleGridAddress (a PS : V3) : V3 :=
  ⟨a.x * 2 + PS.x, a.y * 2 + PS.y, a.z * 2 + PS.z⟩

/-- `get_grid_address`, c/grgrid.c:369-377; C division truncates. -/
def singleGridAddress (ad PS : V3) : V3 :=
  ⟨(ad.x - PS.x).tdiv 2, (ad.y - PS.y).tdiv 2, (ad.z - PS.z).tdiv 2⟩

/-- `get_double_grid_index`, c/grgrid.c:305-313. -/
def doubleGridIndex (ad D PS : V3) : Int :=
  gridIndexFromAddress (reduceGridAddress (singleGridAddress ad PS) D) D

/-- `rotate_grid_index`, c/grgrid.c:391-400. -/
def rotateGridIndex (g : Int) (R : M3) (D PS : V3) : Int :=
  doubleGridIndex (R.mulVec (doubleGridAddress (gridAddressFromIndex g D) PS)) D PS

/-- Body of the `gp` loop of `get_ir_grid_map`, c/grgrid.c:420-431: the first rotation
that lowers the index copies the entry already written there and leaves the loop. -/
def irStep (rots : List M3) (D PS : V3) (map : Int → Int) (gp : Int) : Int → Int :=
  let map' :=
    match rots.find? (fun R => decide (rotateGridIndex gp R D PS < gp)) with
    | some R => upd map gp (map (rotateGridIndex gp R D PS))
    | none => map
  if map' gp = numGrid D then upd map' gp gp else map'

/-- `get_ir_grid_map`, c/grgrid.c:405-432. The array is a function; entries outside
`[0, N)` are never read or written, here they start as `N` like the others. -/
def irGridMap (rots : List M3) (D PS : V3) : Int → Int :=
  (List.range (numGrid D).toNat).foldl (fun m (gp : Nat) => irStep rots D PS m gp)
    (fun _ => numGrid D)

/-- `recgrid_get_ir_grid_map`, c/recgrid.c:108-123: number of fixed points of the map. -/
def numIrGrid (rots : List M3) (D PS : V3) : Nat :=
  (List.range (numGrid D).toNat).countP (fun (i : Nat) => irGridMap rots D PS i = i)

/-- `get_grid_point_from_address_py`, phono3py/phonon/grid.py:858-869:
`np.dot(np.mod(addresses, D_diag), [1, D0, D0*D1])`; `np.mod` is the floor remainder. -/
def gridIndexPy (a D : V3) : Int :=
  a.x.fmod D.x * 1 + a.y.fmod D.y * D.x + a.z.fmod D.z * (D.x * D.y)

/-- `np.unique` on a list of indices: sorted distinct values. Used by phonopy's
`extract_ir_grid_points` (called at phono3py/phonon/grid.py:934) and by
`_get_triplets_reciprocal_mesh_at_q`. Written as a filter of `0..n-1`, which is the
sorted list of distinct values when all values are in `[0,n)`. -/
def uniqueBelow (n : Nat) (l : List Nat) : List Nat :=
  (List.range n).filter (fun v => decide (v ∈ l))

/-- `extract_ir_grid_points` of phonopy (external, assumed): distinct values of the
mapping table in ascending order and the number of occurrences of each
(phono3py/phonon/grid.py:933). -/
def extractIrGridPoints (n : Nat) (table : List Nat) : List Nat × List Nat :=
  let ir := uniqueBelow n table
  (ir, ir.map (fun v => table.count v))

/-- `get_ir_grid_points`, phono3py/phonon/grid.py:911-935 (the map part is
`_get_ir_grid_map`, grid.py:1177-1223; it raises when no ir-point is found, see
`irGridPoints?`). -/
def irGridPoints (rots : List M3) (D PS : V3) : List Nat × List Nat × List Nat :=
  let n := (numGrid D).toNat
  let table := (List.range n).map (fun (i : Nat) => (irGridMap rots D PS i).toNat)
  let r := extractIrGridPoints n table
  (r.1, r.2, table)

/-- Error branch of `_get_ir_grid_map`, phono3py/phonon/grid.py:1219-1223. -/
def irGridPoints? (rots : List M3) (D PS : V3) : Option (List Nat × List Nat × List Nat) :=
  if numIrGrid rots D PS > 0 then some (irGridPoints rots D PS) else none

/-- `BZGrid._satisfy_shift_symmetry`, phono3py/phonon/grid.py:514-522. `P` is the
left unimodular matrix of the grid, `S` the 0/1 half-grid shift, `rots` the rotations in the
grid basis. `none` is the failed assertion `determinant(Pinv) == 1`. `np.linalg.inv` followed
by `np.rint` is modelled by the exact integer inverse (it exists since |det P| = 1).
The shift used for rotating grid points is `PS = P S` (grid.py:276-281). -/
def satisfyShiftSymmetry (P : M3) (S : V3) (rots : List M3) : Option Bool :=
  match P.inverseUnimodular with
  | none => none
  | some Pinv =>
    if Pinv.det = 1 then
      some (rots.all (fun r =>
        let S' := (Pinv.mul (r.mul P)).mulVec S
        decide ((S.x - S'.x).fmod 2 = 0 ∧ (S.y - S'.y).fmod 2 = 0 ∧ (S.z - S'.z).fmod 2 = 0)))
    else none

/-! ### Reciprocal point group -/

/-- First loop of `grg_get_reciprocal_point_group`, c/grgrid.c:247-262: append a rotation
unless an equal one is stored; give up at the 49th distinct rotation. -/
def collectUnique : List M3 → List M3 → Option (List M3)
  | acc, [] => some acc
  | acc, r :: rs =>
    if acc.any (fun s => r.same s) then collectUnique acc rs
    else if acc.length = 48 then none
    else collectUnique (acc ++ [r]) rs

/-- `grg_get_reciprocal_point_group`, c/grgrid.c:237-295. `none` is the return value 0. -/
def reciprocalPointGroup (rots : List M3) (isTimeReversal isTranspose : Bool) :
    Option (List M3) :=
  match collectUnique [] rots with
  | none => none
  | some u =>
    let u := if isTranspose then u.map M3.transpose else u
    if isTimeReversal then
      if u.any (fun r => M3.negOne.same r) then some u
      else if u.length > 24 then none
      else some (u ++ u.map (fun r => M3.negOne.mul r))
    else some u

end Phono3py
