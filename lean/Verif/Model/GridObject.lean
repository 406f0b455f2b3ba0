/-
The classes `GridMatrix` and `BZGrid` of `phono3py/phonon/grid.py`: from the mesh argument of the
user to grid addresses, rotations and the lookup tables.
-/
import Verif.Model.Niggli
import Verif.Model.Snf

namespace Phono3py

section
variable {K : Type _} [Field K] [LinearOrder K] [IsStrictOrderedRing K]

/-- The argument `mesh`, told apart by its number of values (phono3py/phonon/grid.py:668-698):
one, three, nine, or any other number. -/
inductive MeshArg (K : Type _) where
  | length (l : K)
  | numbers (m : V3)
  | matrix (A : M3)
  | other

/-- The argument `SNF_coordinates` (phono3py/phonon/grid.py:836-846). -/
inductive SnfCoordinates where
  | reciprocal
  | direct
  | other
deriving DecidableEq

/-- The attributes of a symmetry dataset that are read (phono3py/phonon/grid.py:758-766);
`stdLattice` has its basis vectors in rows. -/
structure SymDataset (K : Type _) where
  rotations : List M3
  tmat : RM K
  stdLattice : RM K

/-- Functions of phonopy and numpy that are called: `np.rint`, `length2mesh` (with the rotations
given or not), `estimate_supercell_matrix` together with the number of atoms allowed for a length
and a conventional cell, and `is_primitive_cell` (phono3py/phonon/grid.py:684-690, 718, 836-842). -/
structure GridEnv (K : Type _) where
  rint : K → Int
  length2mesh : K → RM K → Option (List M3) → V3
  supercellMesh : SymDataset K → K → RM K → V3
  isPrimitive : List M3 → Bool

/-- The attributes of `GridMatrix`, phono3py/phonon/grid.py:577-581. -/
structure GridMatrixOut where
  gridMatrix : Option M3
  D : V3
  P : M3
  Q : M3
deriving DecidableEq

/-- `np.allclose(a, b, atol=symprec)` with the default `rtol=1e-5` and `symprec=1e-5`
(phono3py/phonon/grid.py:1236-1240). -/
def allcloseRM (a b : RM K) : Bool :=
  decide (∀ i j, |a i j - b i j| ≤ 1 / 100000 + 1 / 100000 * |b i j|)

/-- `_can_use_std_lattice`, phono3py/phonon/grid.py:1226-1242. phonopy's
`similarity_transformation(tmat, r)` is `tmat r tmat⁻¹`. -/
def canUseStdLattice (convLat tmat stdLattice : RM K) (rotations : List M3) : Bool :=
  rotations.any fun r =>
    let rs := mulRM tmat (mulRM (fun i j => (r.e i j : K)) (cofactorRM tmat))
    let m := mulRM (transposeRM convLat) rs
    allcloseRM (fun i j => detRM rs * m i j) (transposeRM stdLattice)

/-- `GridMatrix._get_grid_matrix`, phono3py/phonon/grid.py:804-855. `none` is the `TypeError` or
the failed assertion. -/
def getGridMatrix (env : GridEnv K) (lattice : RM K) (ds : SymDataset K) (length : K)
    (coordinates : SnfCoordinates) : Option M3 :=
  let convLat := mulRM (transposeRM (cofactorRM ds.tmat)) lattice
  let useStd := canUseStdLattice convLat ds.tmat ds.stdLattice ds.rotations
  let tmat := if useStd then transposeRM (mulRM lattice (cofactorRM ds.stdLattice)) else ds.tmat
  let convLat := if useStd then ds.stdLattice else convLat
  let mesh? : Option V3 := match coordinates with
    | .direct => some (env.supercellMesh ds length convLat)
    | .reciprocal => some (env.length2mesh length convLat none)
    | .other => none
  match mesh? with
  | none => none
  | some mesh =>
    let inv := cofactorRM tmat
    let invInt := M3.ofFn fun i j => env.rint (inv i j)
    if ∀ i j, |inv i j - (invInt.e i j : K)| < 1 / 100000 then
      some (M3.ofFn fun i j => invInt.e j i * mesh.e i)
    else none

/-- `GridMatrix._set_GRG_mesh` after the grid matrix is known, phono3py/phonon/grid.py:791-802;
`none` is the `RuntimeError`. -/
def setGrgMesh (A : M3) (forceSNF : Bool) : Option GridMatrixOut :=
  if M3.diag ⟨A.m00, A.m11, A.m22⟩ = A ∧ forceSNF = false then
    some ⟨none, ⟨A.m00, A.m11, A.m22⟩, M3.one, M3.one⟩
  else
    match grgSnf3x3 A with
    | some (some (D, P, Q)) => some ⟨some A, D, P, Q⟩
    | _ => none

/-- `GridMatrix._get_mock_symmetry_dataset`, phono3py/phonon/grid.py:733-767; `none` is a
`RuntimeError`. The first test is `.all()` over `tmat_inv - tmat_inv_int > 1e-8`, as in the code. -/
def mockDataset (env : GridEnv K) (lattice tmat : RM K) : Option (SymDataset K) :=
  let inv := cofactorRM tmat
  let invInt := M3.ofFn fun i j => env.rint (inv i j)
  if ∀ i j, inv i j - (invInt.e i j : K) > 1 / 100000000 then none
  else if invInt.det < 0 then none
  else if invInt.det < 1 then none
  else some ⟨[M3.one], tmat, lattice⟩

/-- The dataset used by `GridMatrix._run_grg`, phono3py/phonon/grid.py:709-717. -/
def grgDataset (env : GridEnv K) (lattice : RM K) (ds : Option (SymDataset K))
    (tmat : Option (RM K)) : Option (SymDataset K) :=
  match ds, tmat with
  | none, none => none
  | some d, _ => some d
  | none, some t => mockDataset env lattice t

/-- `GridMatrix._run_grg`, phono3py/phonon/grid.py:700-731, with the matrix or the length given.
`none` is an exception, `some none` the return value False. -/
def runGrg (env : GridEnv K) (lattice : RM K) (ds : Option (SymDataset K)) (tmat : Option (RM K))
    (gridMatrix : SymDataset K → Option M3) (forceSNF : Bool) : Option (Option GridMatrixOut) :=
  match grgDataset env lattice ds tmat with
  | none => none
  | some d =>
    if env.isPrimitive d.rotations then
      match gridMatrix d with
      | none => none
      | some A => (setGrgMesh A forceSNF).map some
    else some none

/-- The state set by `GridMatrix.__init__`, phono3py/phonon/grid.py:577-581, with the mesh
numbers `D`. -/
def plainMesh (D : V3) : GridMatrixOut := ⟨none, D, M3.one, M3.one⟩

/-- `GridMatrix._set_mesh_numbers`, phono3py/phonon/grid.py:635-698; `none` is an exception. -/
def setMeshNumbers (env : GridEnv K) (mesh : MeshArg K) (lattice : RM K)
    (ds : Option (SymDataset K)) (tmat : Option (RM K)) (useGrg forceSNF : Bool)
    (coordinates : SnfCoordinates) : Option GridMatrixOut :=
  match mesh with
  | .length l =>
    let numbers := plainMesh (env.length2mesh l lattice (ds.map (·.rotations)))
    if useGrg then
      match runGrg env lattice ds tmat (fun d => getGridMatrix env lattice d l coordinates)
          forceSNF with
      | none => none
      | some (some g) => some g
      | some none => some numbers
    else some numbers
  | .matrix A =>
    match runGrg env lattice ds tmat (fun _ => some A) forceSNF with
    | none => none
    | some (some g) => some g
    | some none => some (plainMesh ⟨1, 1, 1⟩)
  | .numbers m => some (plainMesh m)
  | .other => some (plainMesh ⟨1, 1, 1⟩)

variable [FloorRing K]

/-- Attributes of `BZGrid`, phono3py/phonon/grid.py:200-216. -/
structure GridObject (K : Type _) where
  gm : GridMatrixOut
  PS : V3
  bz : BZGridOut
  grg2bzg : Int → Int
  gpGamma : Int
  microzone : RM K
  recOps : List M3
  rotations : List M3

/-- `BZGrid.PS`, phono3py/phonon/grid.py:276-281. -/
def gridShift (P : M3) (isShift : Option V3) : V3 :=
  match isShift with
  | none => ⟨0, 0, 0⟩
  | some S => P.mulVec S

/-- `self._grg2bzg`, phono3py/phonon/grid.py:456-459. -/
def grg2bzgTable (dense : Bool) (bz : BZGridOut) : Int → Int :=
  if dense then bz.gpMap else fun i => i

/-- `self._microzone_lattice`, phono3py/phonon/grid.py:461-466. -/
def microzoneLattice (recLattice : RM K) (gm : GridMatrixOut) : RM K :=
  mulRM recLattice (mulRM (fun i j => (gm.Q.e i j : K) * (1 / (gm.D.e j : K)))
    (fun i j => (gm.P.e i j : K)))

/-- `BZGrid._set_rotations`, phono3py/phonon/grid.py:471-512: the reciprocal operations and the
rotations of the grid. When C refuses the rotations it returns 0 and the list is empty. `none` is a
`RuntimeError` or the failed assertion of `_satisfy_shift_symmetry`. -/
def setRotations (gm : GridMatrixOut) (directRotations : Option (List M3)) (isTimeReversal : Bool)
    (isShift : Option V3) : Option (List M3 × List M3) :=
  let ops := (reciprocalPointGroup (directRotations.getD [M3.one]) isTimeReversal true).getD []
  match transformRotations gm.D gm.Q ops with
  | none => none
  | some rots =>
    match isShift with
    | none => some (ops, rots)
    | some S =>
      match satisfyShiftSymmetry gm.P S rots with
      | some true => some (ops, rots)
      | _ => none

/-- `BZGrid._set_bz_grid`, phono3py/phonon/grid.py:447-469, and `_set_rotations`. When C reports
size 0 the next statements index empty arrays; that is `none` here (never reached, since `Q` is
unimodular). -/
def bzGridObject (rint : K → Int) (reduced recLattice : RM K) (gm : GridMatrixOut)
    (directRotations : Option (List M3)) (isTimeReversal : Bool) (isShift : Option V3)
    (dense : Bool) (init : BZGridOut) : Option (GridObject K) :=
  let PS := gridShift gm.P isShift
  match relocateBzGridAddress rint reduced gm.D gm.Q PS recLattice dense init with
  | some (some bz) =>
    let grg2bzg := grg2bzgTable dense bz
    match setRotations gm directRotations isTimeReversal isShift with
    | none => none
    | some (ops, rots) =>
      some ⟨gm, PS, bz, grg2bzg, grg2bzg (gridIndex ⟨0, 0, 0⟩ gm.D),
        microzoneLattice recLattice gm, ops, rots⟩
  | _ => none

/-- `BZGrid.__init__` and `_generate_grid`, phono3py/phonon/grid.py:142-232, 428-445, with
`lattice` given in rows: the reciprocal lattice is its inverse. `reduce` is phonopy's
`get_reduced_bases`, on columns. -/
def bzGridInit (env : GridEnv K) (reduce : RM K → RM K) (mesh : MeshArg K) (lattice : RM K)
    (ds : Option (SymDataset K)) (tmat : Option (RM K)) (isShift : Option V3)
    (isTimeReversal useGrg forceSNF : Bool) (coordinates : SnfCoordinates) (dense : Bool)
    (init : BZGridOut) : Option (GridObject K) :=
  let recLattice := cofactorRM lattice
  match setMeshNumbers env mesh lattice ds tmat useGrg forceSNF coordinates with
  | none => none
  | some gm => bzGridObject env.rint (reduce recLattice) recLattice gm (ds.map (·.rotations))
      isTimeReversal isShift dense init

/-- `BZGrid.get_indices_from_addresses` for one address, phono3py/phonon/grid.py:418-423. -/
def indexFromAddress (o : GridObject K) (a : V3) : Int := o.grg2bzg (gridIndex a o.gm.D)

end

end Phono3py
