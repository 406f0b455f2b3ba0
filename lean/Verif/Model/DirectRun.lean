import Verif.Model.StoredSelect
import Verif.Model.RtaRun

/-!
# The direct solution as a run over a directory of files

`get_thermal_conductivity_LBTE` reads stored collision data, visits the grid points, stores pieces of
the collision matrix and solves.  The routines that compute linewidths, collision matrices and
conductivities are functions of their arguments (`DirWorld`); see C75-C77, C109-C114 and C131 for
them.
-/

namespace Phono3py

/-- Where the collision data come from, `phono3py/conductivity/direct_solution.py:1739-1742,
1772-1782`: computed at temperatures and grid points (`none`: the whole mesh), or read with the
argument `read_collision`.  Left out: `read_collision` together with `grid_points`, and an empty list
(no reading). -/
inductive DirSource where
  /-- `read_collision=False`. -/
  | compute (temps : List ℚ) (points : Option (List Nat))
  /-- `read_collision`. -/
  | stored (ix : ColIndices)

/-- The argument `grid_points` (phono3py/conductivity/direct_solution.py:1702). -/
def DirSource.points : DirSource → Option (List Nat)
  | .compute _ p => p
  | .stored _ => none

/-- The arguments of `get_thermal_conductivity_LBTE`, `phono3py/conductivity/direct_solution.py:1695-1723`,
and the band selection of the interaction.  Left out: averaged interaction strengths (`is_full_pp`),
`write_pp`, `read_pp`, `write_kappa` (whose files have other names), `log_level`, and the arguments
that only change how conductivities follow from the collision matrix. -/
structure DirSettings where
  /-- Mesh numbers. -/
  mesh : Nat × Nat × Nat
  /-- Cutoff of the smearing function. -/
  cutoff : Option ℚ := none
  /-- Smearing widths. -/
  sigmas : List (Option ℚ)
  /-- `interaction.band_indices`. -/
  bands : List Nat
  /-- Number of bands of the crystal. -/
  numBand : Nat
  /-- `is_reducible_collision_matrix`. -/
  reducible : Bool := false
  /-- Isotope scattering. -/
  isIsotope : Bool := false
  /-- Temperatures, grid points and `read_collision`. -/
  source : DirSource
  /-- `write_collision`. -/
  writeCollision : Bool := false
  /-- `write_LBTE_solution`. -/
  writeSolution : Bool := false
  /-- `input_filename`. -/
  inName : Option (List Char) := none
  /-- `output_filename`. -/
  outName : Option (List Char) := none

/-- What the routines compute, by sigma, temperature, grid point and band
(`phono3py/conductivity/direct_solution.py:452-541`, `phono3py/conductivity/base.py:848-870`), the grid
points visited when none are asked for (`base.py:697-728`), and the conductivity at one sigma and
temperature as a function of linewidths, isotope linewidths and collision matrix
(`direct_solution.py:221-236`).  The first argument of `rowDims`, `colmat` and `kappa` tells whether
the collision matrix is reducible. -/
structure DirWorld (K : Type) where
  /-- Grid points of the whole mesh. -/
  meshPoints : List Nat
  /-- Number of points of the mesh. -/
  numMesh : Nat
  /-- `bz_grid.bzg2grg`. -/
  gridIndex : Nat → Nat
  /-- Shape of a row of the collision matrix. -/
  rowDims : Bool → List Nat
  /-- Linewidths. -/
  gamma : Option ℚ → ℚ → Nat → Nat → K
  /-- Rows of the collision matrix. -/
  colmat : Bool → Option ℚ → ℚ → Nat → Nat → List Nat → K
  /-- Isotope linewidths. -/
  iso : Option ℚ → Nat → Nat → K
  /-- Conductivity. -/
  kappa : Bool → ℚ → List (List K) → Option (List (List K)) → List (List (List K)) → List K

/-- `_get_grid_info`, `phono3py/conductivity/base.py:697-728`. -/
def dirPoints {K : Type} (s : DirSettings) (w : DirWorld K) : List Nat :=
  s.source.points.getD w.meshPoints

/-- `all_bands_exist`, `phono3py/phonon3/interaction.py:1087-1094`. -/
def dirAllBands (s : DirSettings) : Bool := decide (s.bands = List.range s.numBand)

/-- Position of a grid point in arrays over grid points, `i_data` of `_run_at_grid_point`
(`phono3py/conductivity/direct_solution.py:371-374`). -/
def dirPlace {K : Type} (s : DirSettings) (w : DirWorld K) (gp i : Nat) : Nat :=
  if s.reducible then w.gridIndex gp else i

/-- Position of its linewidths and rows, `i_data` of `_set_collision_matrix_at_sigmas`
(`phono3py/conductivity/direct_solution.py:531-537`) and `igp` of `write_collision`
(`phono3py/conductivity/utils.py:430-437`). -/
def dirSlot {K : Type} (s : DirSettings) (w : DirWorld K) (gp i : Nat) : Nat :=
  if s.source.points.isSome then 0 else dirPlace s w gp i

/-- Number of positions in arrays over grid points
(`phono3py/conductivity/direct_solution.py:385-395, 416-427`). -/
def dirPlaces {K : Type} (s : DirSettings) (w : DirWorld K) : Nat :=
  if s.reducible then w.numMesh else (dirPoints s w).length

/-- Number of grid points in the collision matrix
(`phono3py/conductivity/direct_solution.py:391-394, 422-425`). -/
def dirStored {K : Type} (s : DirSettings) (w : DirWorld K) : Nat :=
  if s.source.points.isSome then 1 else dirPlaces s w

/-- What file names and shapes depend on (`phono3py/conductivity/utils.py:410-427`). -/
def dirStore {K : Type} (s : DirSettings) (w : DirWorld K) (numT : Nat) (name : Option (List Char)) :
    StoreArgs where
  mesh := s.mesh
  cutoff := s.cutoff
  sigmas := s.sigmas
  numT := numT
  gridPoints := dirPoints s w
  numBand := s.bands.length
  name := name

/-- The arrays of the conductivity object (`phono3py/conductivity/direct_solution.py:322-352,
385-449`). -/
structure DirState (K : Type) where
  /-- `_read_gamma`. -/
  read : Bool
  /-- `_temperatures`. -/
  temps : List ℚ
  /-- `_gamma` and `_collision_matrix`. -/
  data : Collisions K
  /-- `_gamma_iso`, if isotope scattering is on: by sigma, grid point, selected band. -/
  iso : Option (Nat → Nat → Nat → K)

/-- `_allocate_values`, `phono3py/conductivity/direct_solution.py:315-449`. -/
def dirInit {K : Type} [Zero K] (s : DirSettings) (temps : List ℚ) : DirState K where
  read := false
  temps := temps
  data := { gamma := fun _ _ _ _ => 0, colmat := fun _ _ _ _ _ => 0 }
  iso := if s.isIsotope then some (fun _ _ _ => 0) else none

/-- The object after `set_collision_from_file` (`phono3py/conductivity/utils.py:1040-1050,
1085-1106`): arrays with the temperatures of the files and, in their place, the data that were read.
The data are stored *into* the arrays, `lbte.gamma[i_sigma] = …`, so the setter of the attribute
`gamma`, which alone sets `_read_gamma` (`phono3py/conductivity/base.py:545-548`), is not called. -/
def dirTake {K : Type} [Zero K] (s : DirSettings) (temps : List ℚ) (v : ColRead K) : DirState K where
  read := (dirInit (K := K) s temps).read
  temps := temps
  data := { gamma := v.gamma, colmat := v.colmat }
  iso := (dirInit s temps).iso

/-- The collision matrix when a grid point is entered: cleared in a run at selected grid points
(`phono3py/conductivity/direct_solution.py:360-361`). -/
def dirClear {K : Type} [Zero K] (s : DirSettings) (a : Nat → Nat → Nat → Nat → List Nat → K) :
    Nat → Nat → Nat → Nat → List Nat → K :=
  if s.source.points.isSome then fun _ _ _ _ _ => 0 else a

/-- `_run_at_grid_point`, `phono3py/conductivity/direct_solution.py:354-383`: linewidths and rows of
the collision matrix unless `_read_gamma` (452-541), and isotope linewidths. -/
def dirPoint {K : Type} [Zero K] (s : DirSettings) (w : DirWorld K) (st : DirState K) (gp i : Nat) :
    DirState K where
  read := st.read
  temps := st.temps
  data :=
    { gamma := if st.read then st.data.gamma else
        fun j t => setAt (st.data.gamma j t) (dirSlot s w gp i) fun k =>
          w.gamma (s.sigmas.getD j none) (st.temps.getD t 0) gp (s.bands.getD k 0)
      colmat := if st.read then dirClear s st.data.colmat else
        fun j t => setAt (dirClear s st.data.colmat j t) (dirSlot s w gp i) fun k =>
          w.colmat s.reducible (s.sigmas.getD j none) (st.temps.getD t 0) gp (s.bands.getD k 0) }
  iso := st.iso.map fun a => fun j => setAt (a j) (dirPlace s w gp i) fun k =>
    w.iso (s.sigmas.getD j none) gp (s.bands.getD k 0)

/-- A file written: its name, the datasets that are read back, and the isotope linewidths
(`phono3py/file_IO.py:749-780`). -/
structure DirPut (K : Type) where
  /-- Name. -/
  name : List Char
  /-- `gamma`, `collision_matrix`, `temperature`. -/
  file : ColFile K
  /-- `gamma_isotope`. -/
  iso : Option (NdArr K)

/-- The rows of the collision matrix of a grid point with all its bands
(`phono3py/conductivity/utils.py:449`). -/
def pointRows {K : Type} (r : StoreArgs) (rowDims : List Nat)
    (a : Nat → Nat → Nat → Nat → List Nat → K) (j i : Nat) : NdArr K where
  dims := [r.numT, r.numBand] ++ rowDims
  val idx := a j (idx.getD 0 0) i (idx.getD 1 0) (idx.drop 2)

/-- The rows of one band (`phono3py/conductivity/utils.py:467`). -/
def bandRows {K : Type} (r : StoreArgs) (rowDims : List Nat)
    (a : Nat → Nat → Nat → Nat → List Nat → K) (j i k : Nat) : NdArr K where
  dims := [r.numT] ++ rowDims
  val idx := a j (idx.getD 0 0) i k (idx.drop 1)

/-- The files of `ConductivityLBTEWriter.write_collision` for one grid point,
`phono3py/conductivity/utils.py:428-473`; `slot` is its `igp`, which is also the position at which
isotope linewidths are taken (440-441, 456-457). -/
def piecePuts {K : Type} (r : StoreArgs) (rowDims : List Nat) (all : Bool) (bands : List Nat)
    (st : DirState K) (slot gp : Nat) : List (DirPut K) :=
  if all then
    r.sigmas.zipIdx.map fun (s : Option ℚ × Nat) =>
      { name := pieceName "collision".toList r s.1 (some gp) none
        file := { gamma := pointSlice r st.data.gamma s.2 slot
                  colmat := pointRows r rowDims st.data.colmat s.2 slot
                  temps := st.temps }
        iso := st.iso.map fun a => { dims := [r.numBand], val := fun idx => a s.2 slot (idx.getD 0 0) } }
  else
    r.sigmas.zipIdx.flatMap fun (s : Option ℚ × Nat) =>
      bands.zipIdx.map fun (b : Nat × Nat) =>
        { name := pieceName "collision".toList r s.1 (some gp) (some b.1)
          file := { gamma := bandSlice r st.data.gamma s.2 slot b.2
                    colmat := bandRows r rowDims st.data.colmat s.2 slot b.2
                    temps := st.temps }
          iso := st.iso.map fun a => { dims := [], val := fun _ => a s.2 slot b.2 } }

/-- The files of `ConductivityLBTEWriter.write_collision` without a grid point,
`phono3py/conductivity/utils.py:474-487`: the arrays as they are. -/
def wholePuts {K : Type} (r : StoreArgs) (rowDims : List Nat) (places stored : Nat)
    (st : DirState K) : List (DirPut K) :=
  r.sigmas.zipIdx.map fun (s : Option ℚ × Nat) =>
    { name := pieceName "collision".toList r s.1 none none
      file := { gamma := { dims := [r.numT, places, r.numBand]
                           val := fun idx => st.data.gamma s.2 (idx.getD 0 0) (idx.getD 1 0)
                             (idx.getD 2 0) }
                colmat := { dims := [r.numT, stored, r.numBand] ++ rowDims
                            val := fun idx => st.data.colmat s.2 (idx.getD 0 0) (idx.getD 1 0)
                              (idx.getD 2 0) (idx.drop 3) }
                temps := st.temps }
      iso := st.iso.map fun a =>
        { dims := [places, r.numBand], val := fun idx => a s.2 (idx.getD 0 0) (idx.getD 1 0) } }

/-- What is written at one grid point, `phono3py/conductivity/direct_solution.py:1799-1807`. -/
def dirPieces {K : Type} (s : DirSettings) (w : DirWorld K) (st : DirState K) (gp i : Nat) :
    List (DirPut K) :=
  if s.writeCollision then
    piecePuts (dirStore s w st.temps.length s.outName) (w.rowDims s.reducible) (dirAllBands s) s.bands st
      (dirSlot s w gp i) gp
  else []

/-- The loop over grid points, `phono3py/conductivity/direct_solution.py:1793-1809`; each point comes
with its position. -/
def dirLoop {K : Type} [Zero K] (s : DirSettings) (w : DirWorld K) :
    List (Nat × Nat) → DirState K → DirState K × List (DirPut K)
  | [], st => (st, [])
  | (gp, i) :: l, st =>
    let st' := dirPoint s w st gp i
    let z := dirLoop s w l st'
    (z.1, dirPieces s w st' gp i ++ z.2)

/-- All index lists of an array of a shape, in order (phono3py/conductivity/direct_solution.py:385-441). -/
def rowIndices : List Nat → List (List Nat)
  | [] => [[]]
  | n :: ds => (List.range n).flatMap fun k => (rowIndices ds).map fun r => k :: r

/-- The collision matrix at one sigma and temperature as a table
(phono3py/conductivity/direct_solution.py:543-568). -/
def colmatRows {K : Type} (places numBand : Nat) (rowDims : List Nat) (a : Nat → Nat → List Nat → K) :
    List (List (List K)) :=
  (List.range places).map fun i => (List.range numBand).map fun b => (rowIndices rowDims).map fun r => a i b r

/-- `set_kappa_at_sigmas`, `phono3py/conductivity/direct_solution.py:221-236`, by sigma and
temperature. -/
def dirKappa {K : Type} (s : DirSettings) (w : DirWorld K) (st : DirState K) : List (List (List K)) :=
  (List.range s.sigmas.length).map fun j => st.temps.zipIdx.map fun (t : ℚ × Nat) =>
    w.kappa s.reducible t.1
      (gammaRows (dirPlaces s w) s.bands.length (st.data.gamma j t.2))
      (st.iso.map fun a => gammaRows (dirPlaces s w) s.bands.length (a j))
      (colmatRows (dirPlaces s w) s.bands.length (w.rowDims s.reducible) (st.data.colmat j t.2))

/-- The object returned: its arrays, and the conductivity if it was computed
(`phono3py/conductivity/direct_solution.py:1823-1838`). -/
structure DirResult (K : Type) where
  /-- The arrays, before they are overwritten in the solution. -/
  state : DirState K
  /-- The conductivity by sigma and temperature; `none`: left at zero. -/
  kappa : Option (List (List (List K)))

/-- How a run ends (phono3py/conductivity/direct_solution.py:1780-1838). -/
inductive DirOutcome (K : Type) where
  /-- An exception. -/
  | raised
  /-- `return False`. -/
  | failed
  /-- `return lbte`. -/
  | result (x : DirResult K)

/-- A run: the collision files it writes in their order, and its end
(phono3py/conductivity/direct_solution.py:1695-1838). -/
structure DirTrace (K : Type) where
  /-- The files. -/
  puts : List (DirPut K)
  /-- The end. -/
  outcome : DirOutcome K

/-- What follows the loop, `phono3py/conductivity/direct_solution.py:1811-1838`; `solution` tells
whether the condition of 1813-1818 holds. -/
def dirFinish {K : Type} (s : DirSettings) (w : DirWorld K) (solution : Bool)
    (z : DirState K × List (DirPut K)) : DirTrace K where
  puts := z.2 ++ if solution then
    wholePuts (dirStore s w z.1.temps.length s.outName) (w.rowDims s.reducible) (dirPlaces s w) (dirStored s w)
      z.1 else []
  outcome := .result
    { state := z.1
      kappa := if s.source.points = none ∧ dirAllBands s = true then some (dirKappa s w z.1) else none }

/-- The loop and what follows, from the arrays `st` (phono3py/conductivity/direct_solution.py:1793-1838). -/
def dirGo {K : Type} [Zero K] (s : DirSettings) (w : DirWorld K) (solution : Bool) (st : DirState K) :
    DirTrace K :=
  dirFinish s w solution (dirLoop s w (dirPoints s w).zipIdx st)

/-- Whether the value of `set_collision_from_file` is `"grid_points"`: that of the last sigma, for
which no file with everything was found (`phono3py/conductivity/utils.py:1040-1051, 1125-1127`). -/
def readFromPoints {K : Type} (r : StoreArgs) (d : Disk (ColFile K)) : Bool :=
  match r.sigmas.getLast? with
  | none => false
  | some sigma => (d (pieceName "collision".toList r sigma none none)).isNone

/-- What is done with the result of `set_collision_from_file`
(`phono3py/conductivity/direct_solution.py:1772-1782`); without temperatures nothing was read and its
value is `None`. -/
def dirAfterRead {K : Type} [Zero K] (s : DirSettings) (w : DirWorld K) (fromPoints : Bool) :
    Option (Option (ColRead K)) → DirTrace K
  | none => { puts := [], outcome := .raised }
  | some none => { puts := [], outcome := .failed }
  | some (some v) =>
    match v.temps with
    | none => { puts := [], outcome := .failed }
    | some ts => dirGo s w (s.writeSolution && dirAllBands s && fromPoints) (dirTake s ts v)

/-- `get_thermal_conductivity_LBTE`, `phono3py/conductivity/direct_solution.py:1695-1838`, in the
directory `d`.  Shapes of files do not matter for their names (`numT`). -/
def dirRun {K : Type} [Zero K] (s : DirSettings) (w : DirWorld K) (d : Disk (ColFile K)) : DirTrace K :=
  match s.source with
  | .compute temps _ => dirGo s w s.writeSolution (dirInit s temps)
  | .stored ix =>
    dirAfterRead s w (readFromPoints (dirStore s w 0 s.inName) d)
      (setCollisionSelected ix (dirStore s w 0 s.inName) (dirPlaces s w)
        (fun i => dirPlace s w ((dirPoints s w).getD i 0) i) (w.rowDims s.reducible) d
        { gamma := fun _ _ _ _ => 0, colmat := fun _ _ _ _ _ => 0 })

/-- The directory after files were written (phono3py/file_IO.py:749-780). -/
def dirPutAll {K : Type} (d : Disk (ColFile K)) (l : List (DirPut K)) : Disk (ColFile K) :=
  l.foldl (fun (d : Disk (ColFile K)) (p : DirPut K) => d.put p.name p.file) d

/-- The directory after a run that was killed when it had written `n` files, or has ended if it does
not write more (phono3py/conductivity/direct_solution.py:1793-1821).  A kill while a file is being
written is not modelled. -/
def dirKilled {K : Type} [Zero K] (s : DirSettings) (w : DirWorld K) (n : Nat)
    (d : Disk (ColFile K)) : Disk (ColFile K) := dirPutAll d ((dirRun s w d).puts.take n)

/-- Several runs one after the other, each killed after some number of files
(phono3py/conductivity/direct_solution.py:1695-1838). -/
def dirRuns {K : Type} [Zero K] (w : DirWorld K) (l : List (DirSettings × Nat))
    (d : Disk (ColFile K)) : Disk (ColFile K) :=
  l.foldl (fun (d : Disk (ColFile K)) (p : DirSettings × Nat) => dirKilled p.1 w p.2 d) d

end Phono3py
