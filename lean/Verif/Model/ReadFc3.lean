import Verif.Model.Fc3

/-!
# Third-order force constants read from fc3.hdf5

`_read_phono3py_fc3` of `phono3py/cui/create_force_constants.py` with `read_fc3_from_hdf5` of
`phono3py/file_IO.py`.
-/

namespace Phono3py

section
variable {K : Type} [Field K]

/-- The content of fc3.hdf5: an array of shape `(lead, atoms, atoms, 3, 3, 3)` by flat position, the
dataset `p2s_map` if there, and whether h5py gives contiguous doubles
(`phono3py/file_IO.py:341-356`). -/
structure Fc3File (K : Type) where
  /-- `fc3.shape[0]`. -/
  lead : Nat
  /-- `fc3.shape[1]`. -/
  atoms : Nat
  /-- `p2s_map`. -/
  p2s : Option (List Nat)
  /-- Type and layout. -/
  isDouble : Bool
  /-- Elements. -/
  values : Int → K

/-- How reading ends (`phono3py/cui/create_force_constants.py:368-397`). -/
inductive Fc3Read (K : Type) where
  /-- `sys.exit(1)`. -/
  | exited
  /-- An exception. -/
  | raised
  /-- `phono3py.fc3` is set to an array with this leading dimension. -/
  | taken (lead : Nat) (values : Int → K)

/-- `set_translational_invariance_fc3` on an array of shape `(lead, n, n, 3, 3, 3)`,
`phono3py/phonon3/fc3.py:317-320`; the shapes of lines are those of the array. -/
def translateAnyFc3 (lead n : Nat) (fc3 : Int → K) : Int → K :=
  (List.range 3).foldl (fun fc3 i => translationalInvariancePerIndex lead n i fc3) fc3

/-- The symmetrisation of a run with `--sym-fc` or `--sym-fc3r` that reads fc3,
`phono3py/cui/create_force_constants.py:393-395`: the functions for full arrays whatever the shape.
The C routine takes `fc3.shape[0]` for the number of atoms (`c/_phono3py.cpp:638-646`). -/
def symmetrizeRead (lead n : Nat) (fc3 : Int → K) : Int → K :=
  setPermutationSymmetryFc3 lead (translateAnyFc3 lead n fc3)

/-- `_read_phono3py_fc3`, `phono3py/cui/create_force_constants.py:368-397`, with `read_fc3_from_hdf5`
(`phono3py/file_IO.py:330-356`).  `checkIndices shape inFile given` is phonopy's
`check_force_constants_indices`: whether it returns. -/
def readFc3 (checkIndices : Nat × Nat → List Nat → List Nat → Bool) (p2s : List Nat) (numAtom : Nat)
    (symmetrize : Bool) : Option (Fc3File K) → Fc3Read K
  | none => .exited
  | some f =>
    if f.p2s.any (fun l => !checkIndices (f.lead, f.atoms) l p2s) then .exited
    else if !f.isDouble then .raised
    else if f.atoms ≠ numAtom then .exited
    else .taken f.lead (if symmetrize then symmetrizeRead f.lead f.atoms f.values else f.values)

/-- The symmetrisation of a run that computes fc3 (`phono3py/api_phono3py.py:1499-1511`). -/
def symmetrizeProduced (isCompact : Bool) (m : CompactMaps) (fc3 : Int → K) : Int → K :=
  if isCompact then setPermutationSymmetryCompactFc3 m (setTranslationalInvarianceCompactFc3 m fc3)
  else setPermutationSymmetryFc3 m.nSatom (setTranslationalInvarianceFc3 m.nSatom fc3)

/-- The file such a run writes (`phono3py/cui/create_force_constants.py:165-178`). -/
def fc3Written (isCompact : Bool) (m : CompactMaps) (p2s : List Nat) (fc3 : Int → K) : Fc3File K where
  lead := if isCompact then m.nPatom else m.nSatom
  atoms := m.nSatom
  p2s := some p2s
  isDouble := true
  values := fc3

end
end Phono3py
