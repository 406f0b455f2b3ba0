import Verif.Model.StoredGamma

/-!
# Reading collision data at selected temperatures

`set_collision_from_file` with every form of the argument `indices`.
-/

namespace Phono3py

/-- The argument `read_collision` of `get_thermal_conductivity_LBTE`
(phono3py/conductivity/direct_solution.py:1714, 1772-1779): the string `"all"`, a list of indices of
temperatures (phono3py/cui/settings.py:809-814), or `True` as in the signature of
`Phono3py.run_thermal_conductivity` (phono3py/api_phono3py.py:1952, 2066). Negative indices are left
out. -/
inductive ColIndices where
  /-- `"all"`. -/
  | all
  /-- Indices of temperatures. -/
  | list (l : List Nat)
  /-- `True`. -/
  | flag

/-- `f[key][indices]` of h5py along the leading axis (phono3py/file_IO.py:1159-1162): `none` is the
exception for indices that do not increase or are out of range. -/
def NdArr.select {K : Type} (l : List Nat) (a : NdArr K) : Option (NdArr K) :=
  match a.dims with
  | [] => none
  | n :: ds =>
    if l.Pairwise (· < ·) ∧ ∀ k ∈ l, k < n then
      some { dims := l.length :: ds
             val := fun idx => a.val (l.getD (idx.getD 0 0) 0 :: idx.drop 1) }
    else none

/-- The data of a file that `read_collision_from_hdf5` returns (phono3py/file_IO.py:1150-1162); the
leading axis of length one is added in `takeFull`, `takePoint` and `takeBand`. `len(True)` raises. -/
def ColFile.select {K : Type} (ix : ColIndices) (f : ColFile K) : Option (ColFile K) :=
  match ix with
  | .all => some f
  | .flag => none
  | .list l =>
    (f.gamma.select l).bind (fun (g : NdArr K) =>
      (f.colmat.select l).bind (fun (c : NdArr K) =>
        if ∀ k ∈ l, k < f.temps.length then
          some { gamma := g, colmat := c, temps := l.map (fun k => f.temps.getD k 0) }
        else none))

/-- `read_collision_from_hdf5` (phono3py/file_IO.py:1110-1162): `some none` for a missing file. -/
def readCollision {K : Type} (ix : ColIndices) (d : Disk (ColFile K)) (n : List Char) :
    Option (Option (ColFile K)) :=
  match d n with
  | none => some none
  | some f => (f.select ix).map some

/-- The loop over bands, `phono3py/conductivity/utils.py:1107-1124`; a missing file raises. -/
def collectBandsSelected {K : Type} (ix : ColIndices) (r : StoreArgs) (numSlot : Nat)
    (slot : Nat → Nat) (rowDims : List Nat) (d : Disk (ColFile K)) (j : Nat) (sigma : Option ℚ)
    (g : Nat × Nat) (st : ColRead K) : Option (ColRead K) :=
  (List.range r.numBand).foldlM (fun (st : ColRead K) (b : Nat) =>
    match readCollision ix d (pieceName "collision".toList r sigma (some g.1) (some b)) with
    | some (some f) => takeBand r numSlot rowDims j (slot g.2) b f st
    | _ => none) st

/-- The loop over grid points, `phono3py/conductivity/utils.py:1090-1124`. -/
def collectPointsSelected {K : Type} (ix : ColIndices) (r : StoreArgs) (numSlot : Nat)
    (slot : Nat → Nat) (rowDims : List Nat) (d : Disk (ColFile K)) (j : Nat) (sigma : Option ℚ)
    (st : ColRead K) : Option (ColRead K) :=
  r.gridPoints.zipIdx.foldlM (fun (st : ColRead K) (g : Nat × Nat) =>
    match readCollision ix d (pieceName "collision".toList r sigma (some g.1) none) with
    | none => none
    | some (some f) => takePoint r numSlot rowDims j (slot g.2) f st
    | some none => collectBandsSelected ix r numSlot slot rowDims d j sigma g st) st

/-- The body of the loop over sigmas, `phono3py/conductivity/utils.py:1030-1125`: `_allocate_collision`
reads all temperatures of a file, whatever the indices (phono3py/file_IO.py:1144-1147). -/
def collectSigmaSelected {K : Type} [Zero K] (ix : ColIndices) (r : StoreArgs) (numSlot : Nat)
    (slot : Nat → Nat) (rowDims : List Nat) (d : Disk (ColFile K)) (j : Nat) (sigma : Option ℚ)
    (st : ColRead K) : Option (Option (ColRead K)) :=
  match readCollision ix d (pieceName "collision".toList r sigma none none) with
  | none => none
  | some (some f) => (takeFull r numSlot rowDims j f st).map some
  | some none =>
    match firstTemperatures r d sigma with
    | none => some none
    | some ts =>
      (collectPointsSelected ix r numSlot slot rowDims d j sigma (allocateOnce ts st)).map some

/-- `set_collision_from_file`, `phono3py/conductivity/utils.py:992-1127`. -/
def setCollisionSelected {K : Type} [Zero K] (ix : ColIndices) (r : StoreArgs) (numSlot : Nat)
    (slot : Nat → Nat) (rowDims : List Nat) (d : Disk (ColFile K)) (st : ColRead K) :
    Option (Option (ColRead K)) :=
  r.sigmas.zipIdx.foldlM (fun (o : Option (ColRead K)) (s : Option ℚ × Nat) =>
    match o with
    | none => some none
    | some st => collectSigmaSelected ix r numSlot slot rowDims d s.2 s.1 st) (some st)

end Phono3py
