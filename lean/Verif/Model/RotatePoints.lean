/-
Rotations of BZ grid points as the Python layer makes them (phono3py/phonon/grid.py:938-1050).
The grid's arrays are those of `Model/BZGrid.lean`.
-/
import Verif.Model.GridObject

namespace Phono3py

/-- `rot_adrs = np.dot(rotations, bz_grid.addresses[bz_gp])`, phono3py/phonon/grid.py:981 and
1020, for one rotation. The shift of the grid does not enter. -/
def pyRotatedAddress (bz : BZGridOut) (idx : Int) (R : M3) : V3 := R.mulVec (bz.addresses idx)

/-- One entry of `_get_grid_points_by_rotations`, phono3py/phonon/grid.py:979-983. -/
def pyRotatedPoint (bz : BZGridOut) (D : V3) (dense : Bool) (idx : Int) (R : M3) : Int :=
  grg2bzgTable dense bz (gridIndex (pyRotatedAddress bz idx R) D)

/-- `np.where((addresses[gps] == adrs).all(axis=1))[0]` and its first entry,
phono3py/phonon/grid.py:1024-1033 and 1045-1049; `none` is the `RuntimeError`. -/
def firstWithAddress (bz : BZGridOut) (a : V3) (gps : List Int) : Option Int :=
  gps.find? (fun i => decide (bz.addresses i = a))

/-- One entry of `_get_grid_points_by_bz_rotations_py`, phono3py/phonon/grid.py:1011-1051. -/
def pyRotateWithSurface (bz : BZGridOut) (D : V3) (dense : Bool) (idx : Int) (R : M3) : Option Int :=
  let a := pyRotatedAddress bz idx R
  let gp := gridIndex a D
  if dense then
    firstWithAddress bz a ((List.range (bz.gpMap (gp + 1) - bz.gpMap gp).toNat).map
      (fun (k : Nat) => bz.gpMap gp + k))
  else
    let n := numGrid D
    let nb := n * 8
    firstWithAddress bz a (gp :: (List.range (bz.gpMap (nb + gp + 1) - bz.gpMap (nb + gp)).toNat).map
      (fun (k : Nat) => (bz.gpMap (nb + gp) + k) + n))

/-- `get_grid_points_by_rotations`, phono3py/phonon/grid.py:938-976 (and 986-1008: the C variant
is the one used). -/
def gridPointsByRotations (bz : BZGridOut) (D PS : V3) (dense withSurface : Bool) (idx : Int)
    (rots : List M3) : List Int :=
  if withSurface then rots.map (fun R => bzRotateGridIndex bz D PS dense idx R)
  else rots.map (fun R => pyRotatedPoint bz D dense idx R)

/-- The loop over rotations of `_get_grid_points_by_bz_rotations_py`,
phono3py/phonon/grid.py:1023 and 1037; one failure ends the call. -/
def pyPointsWithSurface (bz : BZGridOut) (D : V3) (dense : Bool) (idx : Int) (rots : List M3) :
    Option (List Int) :=
  rots.mapM (fun R => pyRotateWithSurface bz D dense idx R)

end Phono3py
