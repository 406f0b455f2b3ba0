import Verif.Model.FileName

/-!
# Linewidths and collision matrices stored in files

An array is its shape together with its entries; numpy's assignment broadcasts.  The files of a
directory are a function from names to contents.
-/

namespace Phono3py

/-- An `n`-dimensional array: shape and entries by index
(phono3py/conductivity/utils.py:764-773). -/
structure NdArr (K : Type) where
  /-- The shape. -/
  dims : List Nat
  /-- The entry at an index of this shape. -/
  val : List Nat → K

/-- Whether an array of shape `src` (innermost axis first) can be assigned to a region of shape
`dst` (innermost axis first): each axis equal or one; surplus leading axes must be one
(phono3py/conductivity/utils.py:764-773). -/
def fitsRev : List Nat → List Nat → Bool
  | [], _ => true
  | s :: src, [] => s == 1 && fitsRev src []
  | s :: src, d :: dst => (s == d || s == 1) && fitsRev src dst

/-- The index into the source for an index of the region (both innermost axis first)
(phono3py/conductivity/utils.py:764-773). -/
def indexRev : List Nat → List Nat → List Nat
  | [], _ => []
  | _ :: src, [] => 0 :: indexRev src []
  | s :: src, i :: idx => (if s = 1 then 0 else i) :: indexRev src idx

/-- numpy assignment `region[...] = a`: the value for every index of the region, or `none` if the
shapes do not match (`ValueError`) (phono3py/conductivity/utils.py:764-773). -/
def NdArr.assign {K : Type} (a : NdArr K) (dst : List Nat) : Option (List Nat → K) :=
  if fitsRev a.dims.reverse dst.reverse then
    some (fun idx => a.val (indexRev a.dims.reverse idx.reverse).reverse)
  else none

/-- `a[0]`: the first slice along the leading axis; `none` for an empty axis
(phono3py/conductivity/utils.py:1042-1050). -/
def NdArr.first {K : Type} (a : NdArr K) : Option (NdArr K) :=
  match a.dims with
  | [] => none
  | 0 :: _ => none
  | (_ + 1) :: ds => some { dims := ds, val := fun idx => a.val (0 :: idx) }

/-- The files of a directory (phono3py/file_IO.py:1071-1155). -/
abbrev Disk (F : Type) := List Char → Option F

/-- Writing a file replaces one of the same name (phono3py/file_IO.py:893-946). -/
def Disk.put {F : Type} (d : Disk F) (n : List Char) (f : F) : Disk F :=
  fun m => if m = n then some f else d m

/-- What the names and loops depend on: `br.mesh_numbers`, `sigma_cutoff_width`, `sigmas`,
the number of temperatures, `grid_points`, the number of bands, and the user's file name
(phono3py/conductivity/utils.py:717-753). -/
structure StoreArgs where
  /-- Mesh numbers. -/
  mesh : Nat × Nat × Nat
  /-- Cutoff of the smearing function. -/
  cutoff : Option ℚ := none
  /-- Smearing widths; `none` is the tetrahedron method. -/
  sigmas : List (Option ℚ)
  /-- Number of temperatures. -/
  numT : Nat
  /-- Grid points. -/
  gridPoints : List Nat
  /-- Number of bands. -/
  numBand : Nat
  /-- User's file name. -/
  name : Option (List Char) := none

/-- Which piece of the data a file holds: everything at one sigma, one grid point (by its position
in the list), or one band at one grid point (phono3py/conductivity/utils.py:754-831). -/
inductive Piece where
  /-- All grid points and bands. -/
  | all
  /-- The `i`-th grid point. -/
  | point (i : Nat)
  /-- Band `b` of the `i`-th grid point. -/
  | band (i b : Nat)

/-- The name of the file with a piece at a sigma, as built in `write_kappa_to_hdf5`,
`read_gamma_from_hdf5`, `write_collision_to_hdf5`, `read_collision_from_hdf5`
(`phono3py/file_IO.py:934-946, 1080-1092, 762-774, 1127-1139`). -/
def pieceName (kind : List Char) (r : StoreArgs) (sigma : Option ℚ) (gp : Option Nat)
    (band : Option Nat) : List Char :=
  outputName kind { mesh := r.mesh, gridPoint := gp, bands := band.map (fun b => [b]),
                    sigma := sigma, cutoff := r.cutoff, name := r.name }

/-- The shape of the region that a piece is assigned to
(phono3py/conductivity/utils.py:764-827). -/
def Piece.dims (numT numGp numBand : Nat) : Piece → List Nat
  | .all => [numT, numGp, numBand]
  | .point _ => [numT, numBand]
  | .band _ _ => [numT]

/-- The index within the region of a piece for temperature `t`, grid point `i`, band `b`
(phono3py/conductivity/utils.py:764-827). -/
def Piece.index (t i b : Nat) : Piece → Option (List Nat)
  | .all => some [t, i, b]
  | .point i' => if i = i' then some [t, b] else none
  | .band i' b' => if i = i' ∧ b = b' then some [t] else none

/-! ## Relaxation-time calculation -/

/-- The datasets of a `kappa-*.hdf5` file that the reader uses. -/
structure KappaFile (K : Type) where
  /-- `gamma`. -/
  gamma : NdArr K
  /-- `gamma_N`. -/
  gammaN : Option (NdArr K) := none
  /-- `gamma_U`. -/
  gammaU : Option (NdArr K) := none

/-- The arrays of a calculation handed to the writers, indexed by sigma, temperature, grid point and
(selected) band (phono3py/conductivity/utils.py:82-216). -/
structure Linewidths (K : Type) where
  /-- `br.gamma`. -/
  gamma : Nat → Nat → Nat → Nat → K
  /-- `br.get_gamma_N_U()`. -/
  nu : Option ((Nat → Nat → Nat → Nat → K) × (Nat → Nat → Nat → Nat → K)) := none

/-- `gamma[j, :, i]` (phono3py/conductivity/utils.py:82-216). -/
def pointSlice {K : Type} (r : StoreArgs) (a : Nat → Nat → Nat → Nat → K) (j i : Nat) : NdArr K where
  dims := [r.numT, r.numBand]
  val idx := a j (idx.getD 0 0) i (idx.getD 1 0)

/-- `gamma[j, :, i, k]` (phono3py/conductivity/utils.py:82-216). -/
def bandSlice {K : Type} (r : StoreArgs) (a : Nat → Nat → Nat → Nat → K) (j i k : Nat) : NdArr K where
  dims := [r.numT]
  val idx := a j (idx.getD 0 0) i k

/-- `gamma[j]` (phono3py/conductivity/utils.py:273-345). -/
def allSlice {K : Type} (r : StoreArgs) (a : Nat → Nat → Nat → Nat → K) (j : Nat) : NdArr K where
  dims := [r.numT, r.gridPoints.length, r.numBand]
  val idx := a j (idx.getD 0 0) (idx.getD 1 0) (idx.getD 2 0)

/-- `ConductivityRTAWriter.write_gamma`, `phono3py/conductivity/utils.py:82-216`, for the `i`-th
grid point, with `all_bands_exist` of `phono3py/phonon3/interaction.py:1087-1094`: one file per
sigma, or one per sigma and selected band.  Datasets that `set_gamma_from_file` does not restore
are left out (isotope linewidths among them; the averaged interaction strength is left out too).
`none`: `grid_points[i]` out of range. -/
def writeGamma {K : Type} (r : StoreArgs) (bandIndices : List Nat) (w : Linewidths K) (i : Nat)
    (d : Disk (KappaFile K)) : Option (Disk (KappaFile K)) :=
  r.gridPoints[i]?.map (fun gp =>
    if bandIndices = List.range r.numBand then
      r.sigmas.zipIdx.foldl (fun (d : Disk (KappaFile K)) (s : Option ℚ × Nat) =>
        d.put (pieceName "kappa".toList r s.1 (some gp) none)
          { gamma := pointSlice r w.gamma s.2 i
            gammaN := w.nu.map (fun p => pointSlice r p.1 s.2 i)
            gammaU := w.nu.map (fun p => pointSlice r p.2 s.2 i) }) d
    else
      r.sigmas.zipIdx.foldl (fun (d : Disk (KappaFile K)) (s : Option ℚ × Nat) =>
        bandIndices.zipIdx.foldl (fun (d : Disk (KappaFile K)) (b : Nat × Nat) =>
          d.put (pieceName "kappa".toList r s.1 (some gp) (some b.1))
            { gamma := bandSlice r w.gamma s.2 i b.2
              gammaN := w.nu.map (fun p => bandSlice r p.1 s.2 i b.2)
              gammaU := w.nu.map (fun p => bandSlice r p.2 s.2 i b.2) }) d) d)

/-- The grid-point part of the name given by `write_kappa`, `phono3py/conductivity/utils.py:337`:
the whole array of grid points is passed; formatting an array with `%d` raises `TypeError` (caught)
unless it has exactly one entry. -/
def summaryPoint (gridPoints : List Nat) : Option Nat :=
  match gridPoints with
  | [g] => some g
  | _ => none

/-- `ConductivityRTAWriter.write_kappa`, `phono3py/conductivity/utils.py:273-345`: one file per
sigma with all grid points. -/
def writeKappa {K : Type} (r : StoreArgs) (w : Linewidths K) (d : Disk (KappaFile K)) :
    Disk (KappaFile K) :=
  r.sigmas.zipIdx.foldl (fun (d : Disk (KappaFile K)) (s : Option ℚ × Nat) =>
    d.put (pieceName "kappa".toList r s.1 (summaryPoint r.gridPoints) none)
      { gamma := allSlice r w.gamma s.2
        gammaN := w.nu.map (fun p => allSlice r p.1 s.2)
        gammaU := w.nu.map (fun p => allSlice r p.2 s.2) }) d

/-- The local arrays and flags of `set_gamma_from_file`
(phono3py/conductivity/utils.py:717-841). -/
structure GammaRead (K : Type) where
  /-- `gamma`. -/
  gamma : Nat → Nat → Nat → Nat → K
  /-- `gamma_N`. -/
  gammaN : Nat → Nat → Nat → Nat → K
  /-- `gamma_U`. -/
  gammaU : Nat → Nat → Nat → Nat → K
  /-- `is_gamma_N_U_in`. -/
  isNU : Bool := false
  /-- `read_succeeded`. -/
  ok : Bool := true

/-- `gamma[j] = …`, `gamma[j, :, i] = …`, `gamma[j, :, i, bi] = …`
(phono3py/conductivity/utils.py:764-827). -/
def storePiece {K : Type} (r : StoreArgs) (j : Nat) (p : Piece) (a : NdArr K)
    (arr : Nat → Nat → Nat → Nat → K) : Option (Nat → Nat → Nat → Nat → K) :=
  (a.assign (p.dims r.numT r.gridPoints.length r.numBand)).map
    (fun (v : List Nat → K) => fun (j' t i b : Nat) =>
      if j' = j then
        match p.index t i b with
        | some idx => v idx
        | none => arr j' t i b
      else arr j' t i b)

/-- Taking over the content of one file, `phono3py/conductivity/utils.py:764-773, 790-799,
818-827`.  `none`: a shape mismatch, or `gamma_N` without `gamma_U` (`KeyError`). -/
def absorb {K : Type} (r : StoreArgs) (j : Nat) (p : Piece) (f : KappaFile K) (st : GammaRead K) :
    Option (GammaRead K) :=
  (storePiece r j p f.gamma st.gamma).bind (fun (g : Nat → Nat → Nat → Nat → K) =>
    match f.gammaN with
    | none => some { st with gamma := g }
    | some n => (storePiece r j p n st.gammaN).bind (fun (gn : Nat → Nat → Nat → Nat → K) =>
        f.gammaU.bind (fun (u : NdArr K) =>
          (storePiece r j p u st.gammaU).map (fun (gu : Nat → Nat → Nat → Nat → K) =>
            { gamma := g, gammaN := gn, gammaU := gu, isNU := true, ok := st.ok }))))

/-- The loop over bands, `phono3py/conductivity/utils.py:806-831`. -/
def readBands {K : Type} (r : StoreArgs) (d : Disk (KappaFile K)) (j : Nat) (sigma : Option ℚ)
    (i gp : Nat) (st : GammaRead K) : Option (GammaRead K) :=
  (List.range r.numBand).foldlM (fun (st : GammaRead K) (b : Nat) =>
    match d (pieceName "kappa".toList r sigma (some gp) (some b)) with
    | some f => absorb r j (.band i b) f st
    | none => some { st with ok := false }) st

/-- The loop over grid points, `phono3py/conductivity/utils.py:779-831`. -/
def readPoints {K : Type} (r : StoreArgs) (d : Disk (KappaFile K)) (j : Nat) (sigma : Option ℚ)
    (st : GammaRead K) : Option (GammaRead K) :=
  r.gridPoints.zipIdx.foldlM (fun (st : GammaRead K) (g : Nat × Nat) =>
    match d (pieceName "kappa".toList r sigma (some g.1) none) with
    | some f => absorb r j (.point g.2) f st
    | none => readBands r d j sigma g.2 g.1 st) st

/-- The loop over sigmas, `phono3py/conductivity/utils.py:754-831`. -/
def readSigmas {K : Type} (r : StoreArgs) (d : Disk (KappaFile K)) (st : GammaRead K) :
    Option (GammaRead K) :=
  r.sigmas.zipIdx.foldlM (fun (st : GammaRead K) (s : Option ℚ × Nat) =>
    match d (pieceName "kappa".toList r s.1 none none) with
    | some f => absorb r s.2 .all f st
    | none => readPoints r d s.2 s.1 st) st

/-- `set_gamma_from_file`, `phono3py/conductivity/utils.py:717-841`: `none` for an exception,
`some none` when it returns `False`, otherwise the linewidths given to the calculation. -/
def setGammaFromFile {K : Type} [Zero K] (r : StoreArgs) (d : Disk (KappaFile K)) :
    Option (Option (Linewidths K)) :=
  (readSigmas r d { gamma := fun _ _ _ _ => 0, gammaN := fun _ _ _ _ => 0,
                    gammaU := fun _ _ _ _ => 0 }).map (fun (st : GammaRead K) =>
    if st.ok then
      some { gamma := st.gamma, nu := if st.isNU then some (st.gammaN, st.gammaU) else none }
    else none)

/-! ## Direct solution -/

/-- The datasets of a `collision-*.hdf5` file that the reader uses. -/
structure ColFile (K : Type) where
  /-- `gamma`. -/
  gamma : NdArr K
  /-- `collision_matrix`. -/
  colmat : NdArr K
  /-- `temperature`. -/
  temps : List ℚ

/-- The arrays of a calculation: linewidths by sigma, temperature, grid point, band; collision matrix
with the remaining indices of its row (phono3py/conductivity/utils.py:992-1127). -/
structure Collisions (K : Type) where
  /-- `lbte.gamma`. -/
  gamma : Nat → Nat → Nat → Nat → K
  /-- `lbte.collision_matrix`. -/
  colmat : Nat → Nat → Nat → Nat → List Nat → K

/-- `ConductivityLBTEWriter.write_collision`, `phono3py/conductivity/utils.py:409-487`.  `point` is
the argument `i`; `slot` the position `igp` of this grid point in the arrays (`0` for a one-point
matrix, the grid index for a reducible matrix, else `i`); `rowDims` the shape of a row of the
matrix; `numSlot` the number of positions. -/
def writeCollision {K : Type} (r : StoreArgs) (temps : List ℚ) (rowDims : List Nat) (numSlot : Nat)
    (slot : Nat → Nat) (bandIndices : List Nat) (w : Collisions K) (point : Option Nat)
    (d : Disk (ColFile K)) : Option (Disk (ColFile K)) :=
  match point with
  | some i =>
    r.gridPoints[i]?.map (fun gp =>
      if bandIndices = List.range r.numBand then
        r.sigmas.zipIdx.foldl (fun (d : Disk (ColFile K)) (s : Option ℚ × Nat) =>
          d.put (pieceName "collision".toList r s.1 (some gp) none)
            { gamma := pointSlice r w.gamma s.2 (slot i)
              colmat := { dims := [r.numT, r.numBand] ++ rowDims,
                          val := fun idx => w.colmat s.2 (idx.getD 0 0) (slot i) (idx.getD 1 0)
                            (idx.drop 2) }
              temps := temps }) d
      else
        r.sigmas.zipIdx.foldl (fun (d : Disk (ColFile K)) (s : Option ℚ × Nat) =>
          bandIndices.zipIdx.foldl (fun (d : Disk (ColFile K)) (b : Nat × Nat) =>
            d.put (pieceName "collision".toList r s.1 (some gp) (some b.1))
              { gamma := bandSlice r w.gamma s.2 (slot i) b.2
                colmat := { dims := [r.numT] ++ rowDims,
                            val := fun idx => w.colmat s.2 (idx.getD 0 0) (slot i) b.2
                              (idx.drop 1) }
                temps := temps }) d) d)
  | none =>
    some (r.sigmas.zipIdx.foldl (fun (d : Disk (ColFile K)) (s : Option ℚ × Nat) =>
      d.put (pieceName "collision".toList r s.1 none none)
        { gamma := { dims := [r.numT, numSlot, r.numBand],
                     val := fun idx => w.gamma s.2 (idx.getD 0 0) (idx.getD 1 0) (idx.getD 2 0) }
          colmat := { dims := [r.numT, numSlot, r.numBand] ++ rowDims,
                      val := fun idx => w.colmat s.2 (idx.getD 0 0) (idx.getD 1 0) (idx.getD 2 0)
                        (idx.drop 3) }
          temps := temps }) d)

/-- The state while `set_collision_from_file` runs: the arrays of the calculation and, once they
are allocated, the number of temperatures (phono3py/conductivity/utils.py:992-1127). -/
structure ColRead (K : Type) where
  /-- `lbte.gamma`. -/
  gamma : Nat → Nat → Nat → Nat → K
  /-- `lbte.collision_matrix`. -/
  colmat : Nat → Nat → Nat → Nat → List Nat → K
  /-- The temperatures assigned to `lbte.temperatures`, once allocated. -/
  temps : Option (List ℚ) := none

/-- `lbte.temperatures = temperatures` on the first pass (`phono3py/conductivity/utils.py:1044-1047,
1085-1088` and `phono3py/conductivity/base.py:515-518`): the arrays are allocated anew, zero. -/
def allocateOnce {K : Type} [Zero K] (temps : List ℚ) (st : ColRead K) : ColRead K :=
  match st.temps with
  | some _ => st
  | none => { gamma := fun _ _ _ _ => 0, colmat := fun _ _ _ _ _ => 0, temps := some temps }

/-- Assignment of a piece of the linewidths (phono3py/conductivity/utils.py:1042-1124). -/
def storeGamma {K : Type} (numT numSlot numBand j : Nat) (p : Piece) (a : NdArr K)
    (arr : Nat → Nat → Nat → Nat → K) : Option (Nat → Nat → Nat → Nat → K) :=
  (a.assign (p.dims numT numSlot numBand)).map
    (fun (v : List Nat → K) => fun (j' t i b : Nat) =>
      if j' = j then
        match p.index t i b with
        | some idx => v idx
        | none => arr j' t i b
      else arr j' t i b)

/-- Assignment of a piece of the collision matrix (phono3py/conductivity/utils.py:1042-1124). -/
def storeColmat {K : Type} (numT numSlot numBand j : Nat) (rowDims : List Nat) (p : Piece)
    (a : NdArr K) (arr : Nat → Nat → Nat → Nat → List Nat → K) :
    Option (Nat → Nat → Nat → Nat → List Nat → K) :=
  (a.assign (p.dims numT numSlot numBand ++ rowDims)).map
    (fun (v : List Nat → K) => fun (j' t i b : Nat) (row : List Nat) =>
      if j' = j then
        match p.index t i b with
        | some idx => v (idx ++ row)
        | none => arr j' t i b row
      else arr j' t i b row)

/-- What `read_collision_from_hdf5` adds to the matrix of a file: a leading axis of length one
(`phono3py/file_IO.py:1152-1155`), removed again by the callers' `[0]`.  Only the reading of all
temperatures (`indices == "all"`) is modelled. -/
def leadingAxis {K : Type} (a : NdArr K) : NdArr K where
  dims := 1 :: a.dims
  val idx := a.val (idx.drop 1)

/-- Taking over a whole-sigma file, `phono3py/conductivity/utils.py:1042-1050`. -/
def takeFull {K : Type} [Zero K] (r : StoreArgs) (numSlot : Nat) (rowDims : List Nat) (j : Nat)
    (f : ColFile K) (st : ColRead K) : Option (ColRead K) :=
  let st := allocateOnce f.temps st
  let numT := (st.temps.getD []).length
  (leadingAxis f.colmat).first.bind (fun (c : NdArr K) =>
    (storeColmat numT numSlot r.numBand j rowDims .all c st.colmat).bind
      (fun (cm : Nat → Nat → Nat → Nat → List Nat → K) =>
        f.gamma.first.bind (fun (g : NdArr K) =>
          (storeGamma numT numSlot r.numBand j .all g st.gamma).map
            (fun (gm : Nat → Nat → Nat → Nat → K) => { st with gamma := gm, colmat := cm }))))

/-- `_collect_collision_gp` with a file present, `phono3py/conductivity/utils.py:1199-1208`. -/
def takePoint {K : Type} (r : StoreArgs) (numSlot : Nat) (rowDims : List Nat) (j s : Nat)
    (f : ColFile K) (st : ColRead K) : Option (ColRead K) :=
  let numT := (st.temps.getD []).length
  (storeGamma numT numSlot r.numBand j (.point s) f.gamma st.gamma).bind
    (fun (gm : Nat → Nat → Nat → Nat → K) =>
      (leadingAxis f.colmat).first.bind (fun (c : NdArr K) =>
        (storeColmat numT numSlot r.numBand j rowDims (.point s) c st.colmat).map
          (fun (cm : Nat → Nat → Nat → Nat → List Nat → K) => { st with gamma := gm, colmat := cm })))

/-- `_collect_collision_band` with a file present, `phono3py/conductivity/utils.py:1243-1252`. -/
def takeBand {K : Type} (r : StoreArgs) (numSlot : Nat) (rowDims : List Nat) (j s b : Nat)
    (f : ColFile K) (st : ColRead K) : Option (ColRead K) :=
  let numT := (st.temps.getD []).length
  f.gamma.first.bind (fun (g : NdArr K) =>
    (storeGamma numT numSlot r.numBand j (.band s b) g st.gamma).bind
      (fun (gm : Nat → Nat → Nat → Nat → K) =>
        (leadingAxis f.colmat).first.bind (fun (c : NdArr K) =>
          (storeColmat numT numSlot r.numBand j rowDims (.band s b) c st.colmat).map
            (fun (cm : Nat → Nat → Nat → Nat → List Nat → K) =>
              { st with gamma := gm, colmat := cm }))))

/-- The loops over grid points and bands, `phono3py/conductivity/utils.py:1090-1124`.  A missing
band file makes `read_collision_from_hdf5` return `None`, which `_collect_collision_band` compares
with `False` and then unpacks: `TypeError` (`none`). -/
def collectPoints {K : Type} (r : StoreArgs) (numSlot : Nat) (slot : Nat → Nat) (rowDims : List Nat)
    (d : Disk (ColFile K)) (j : Nat) (sigma : Option ℚ) (st : ColRead K) : Option (ColRead K) :=
  r.gridPoints.zipIdx.foldlM (fun (st : ColRead K) (g : Nat × Nat) =>
    match d (pieceName "collision".toList r sigma (some g.1) none) with
    | some f => takePoint r numSlot rowDims j (slot g.2) f st
    | none =>
      (List.range r.numBand).foldlM (fun (st : ColRead K) (b : Nat) =>
        match d (pieceName "collision".toList r sigma (some g.1) (some b)) with
        | some f => takeBand r numSlot rowDims j (slot g.2) b f st
        | none => none) st) st

/-- `_allocate_collision`, `phono3py/conductivity/utils.py:1130-1166`, for grid points and then for
bands: the temperatures of the first grid point's file, or of its first band's file. -/
def firstTemperatures {K : Type} (r : StoreArgs) (d : Disk (ColFile K)) (sigma : Option ℚ) :
    Option (List ℚ) :=
  r.gridPoints.head?.bind (fun gp =>
    match d (pieceName "collision".toList r sigma (some gp) none) with
    | some f => some f.temps
    | none => (d (pieceName "collision".toList r sigma (some gp) (some 0))).map (fun f => f.temps))

/-- The body of the loop over sigmas, `phono3py/conductivity/utils.py:1030-1125`; `some none` is
`return False`. -/
def collectSigma {K : Type} [Zero K] (r : StoreArgs) (numSlot : Nat) (slot : Nat → Nat)
    (rowDims : List Nat) (d : Disk (ColFile K)) (j : Nat) (sigma : Option ℚ) (st : ColRead K) :
    Option (Option (ColRead K)) :=
  match d (pieceName "collision".toList r sigma none none) with
  | some f => (takeFull r numSlot rowDims j f st).map some
  | none =>
    match firstTemperatures r d sigma with
    | none => some none
    | some ts => (collectPoints r numSlot slot rowDims d j sigma (allocateOnce ts st)).map some

/-- `set_collision_from_file`, `phono3py/conductivity/utils.py:992-1127`, for `indices == "all"`:
`none` for an exception, `some none` for `False`, else the arrays of the calculation. -/
def setCollisionFromFile {K : Type} [Zero K] (r : StoreArgs) (numSlot : Nat) (slot : Nat → Nat)
    (rowDims : List Nat) (d : Disk (ColFile K)) (st : ColRead K) : Option (Option (ColRead K)) :=
  r.sigmas.zipIdx.foldlM (fun (o : Option (ColRead K)) (s : Option ℚ × Nat) =>
    match o with
    | none => some none
    | some st => collectSigma r numSlot slot rowDims d s.2 s.1 st) (some st)

end Phono3py
