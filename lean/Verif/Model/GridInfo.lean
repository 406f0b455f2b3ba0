/-
Grid points and weights of a conductivity run (phono3py/conductivity/base.py:697-726, 773-792) and of
the files that list them (phono3py/cui/triplets_info.py:48-75, 154-165, phono3py/file_IO.py:1510-1536).
-/
import Verif.Model.GridObject

namespace Phono3py

/-- What `_get_grid_info` returns, phono3py/conductivity/base.py:697-726: grid points to run over,
irreducible grid points, weights of the former. -/
structure GridInfo where
  points : List Int
  irPoints : List Int
  weights : List Nat
deriving DecidableEq

/-- `weights = np.zeros_like(ir_grid_map)` and the loop `weights[gp] += 1`,
phono3py/conductivity/base.py:784-786. -/
def countLoop (table : List Nat) : Nat → Nat :=
  table.foldl (fun w g => fun k => if k = g then w k + 1 else w k) (fun _ => 0)

/-- `bz_grid.grg2bzg`, phono3py/phonon/grid.py:456-459, as an array. -/
def grg2bzgArray (D : V3) (dense : Bool) (bz : BZGridOut) : List Int :=
  (List.range (numGrid D).toNat).map fun (i : Nat) => grg2bzgTable dense bz i

/-- `bz_grid.grg2bzg[ir_grid_points]`, phono3py/conductivity/base.py:778-780. -/
def irOnBz (dense : Bool) (bz : BZGridOut) (ir : List Nat) : List Int :=
  ir.map fun (v : Nat) => grg2bzgTable dense bz v

/-- `weights[ir_grid_map[bzg2grg[grid_points]]]`, phono3py/conductivity/base.py:784-790. -/
def givenWeights (bz : BZGridOut) (table : List Nat) (gps : List Int) : List Nat :=
  gps.map fun g => countLoop table (table.getD (bz.bzg2grg g).toNat 0)

/-- `_get_grid_info` and `_get_ir_grid_points`, phono3py/conductivity/base.py:697-726, 773-792, from
what `get_ir_grid_points` returns. `none` is the `IndexError` for a point that is not on the grid;
negative numbers, which numpy counts from the end, are taken as errors. -/
def gridInfoFrom (D : V3) (dense : Bool) (bz : BZGridOut) (isStar : Bool) (given : Option (List Int))
    (t : List Nat × List Nat × List Nat) : Option GridInfo :=
  match given with
  | some gps =>
    if gps.all (fun g => decide (0 ≤ g ∧ g < bz.size)) then
      some ⟨gps, irOnBz dense bz t.1, givenWeights bz t.2.2 gps⟩
    else none
  | none =>
    if !isStar then
      some ⟨grg2bzgArray D dense bz, grg2bzgArray D dense bz, (grg2bzgArray D dense bz).map fun _ => 1⟩
    else some ⟨irOnBz dense bz t.1, irOnBz dense bz t.1, t.2.1⟩

/-- `_get_grid_info`, phono3py/conductivity/base.py:697-726; `rots` are `bz_grid.rotations`. -/
def gridInfo (rots : List M3) (D PS : V3) (dense : Bool) (bz : BZGridOut) (isStar : Bool)
    (given : Option (List Int)) : Option GridInfo :=
  (irGridPoints? rots D PS).bind (gridInfoFrom D dense bz isStar given)

/-- `_get_ir_grid_points`, phono3py/cui/triplets_info.py:154-165. Without k-stars the irreducible
points are not searched. -/
def listedPoints (rots : List M3) (D PS : V3) (dense : Bool) (bz : BZGridOut) (isStar : Bool) :
    Option (List Int × List Nat) :=
  if isStar then
    (irGridPoints? rots D PS).map fun t => (irOnBz dense bz t.1, t.2.1)
  else
    let points := (grg2bzgArray D dense bz).take (numGrid D).toNat
    some (points, points.map fun _ => 1)

/-- Entries of `ir_grid_points.yaml`: grid point, weight and address,
phono3py/file_IO.py:1510-1536 (the lattices and the q-point are left out). -/
def irGridYaml (bz : BZGridOut) (points : List Int) (weights : List Nat) : List (Int × Nat × V3) :=
  (points.zip weights).map fun x => (x.1, x.2, bz.addresses x.1)

/-- `write_grid_points`, phono3py/cui/triplets_info.py:48-75: the entries of
`ir_grid_points.yaml`. -/
def writtenGridPoints (rots : List M3) (D PS : V3) (dense : Bool) (bz : BZGridOut) (isStar : Bool) :
    Option (List (Int × Nat × V3)) :=
  (listedPoints rots D PS dense bz isStar).map fun x => irGridYaml bz x.1 x.2

end Phono3py
