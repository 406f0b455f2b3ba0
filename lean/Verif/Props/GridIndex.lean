/-
Property theorems C118 (microzone, mesh arguments that are not used), C120 (lookup of grid points)
and C121 (the grid matrix made from a length), with concrete cases for C118-C121.
-/
import Verif.Props.GridSymmetry
import Verif.Props.Neighbor

namespace Phono3py.Props
open Phono3py Phono3py.Spec

section
variable {K : Type _} [Field K] [LinearOrder K] [IsStrictOrderedRing K]
variable {gm : GridMatrixOut}

/-! ## C118: microzone and unused mesh arguments -/

/-- `microzone · A` is the reciprocal lattice. -/
theorem microzone_mul (F : Factorised gm) (L : RM K) :
    mulRM (microzoneLattice L gm) (castM (matrixOf gm)) = L := by
  obtain ⟨Qi, q1, q2⟩ := exists_inverse F.detQ
  have hPA : gm.P.mul (matrixOf gm) = (M3.diag gm.D).mul Qi := by
    rw [← F.snf, M3.mul_assoc, q2, M3.mul_one]
  have hP : (fun i j => (gm.P.e i j : K)) = castM gm.P := rfl
  have hdK (i : Fin 3) : (gm.D.e i : K) ≠ 0 := by exact_mod_cast (V3.e_pos F.pos i).ne'
  have hc : mulRM (fun i j => (gm.Q.e i j : K) * (1 / (gm.D.e j : K))) (castM ((M3.diag gm.D).mul Qi)) =
      castM (gm.Q.mul Qi) := by
    funext i j
    have h0 := hdK 0; have h1 := hdK 1; have h2 := hdK 2
    have e (a : Fin 3) : ((M3.diag gm.D).mul Qi).e a j = gm.D.e a * Qi.e a j := by
      rw [M3.mul_e]; fin_cases a <;> simp [M3.diag, M3.e, V3.e]
    simp only [mulRM, castM, e, M3.mul_e]
    push_cast
    field_simp
  unfold microzoneLattice
  rw [hP, mulRM_assoc, mulRM_assoc, mulRM_castM, hPA, hc, q2, mulRM_one]

/-- C118, what fails: nine mesh numbers on a cell that is not primitive, and any number of values
other than one, three and nine, give the 1×1×1 mesh and no error. -/
theorem C118_mesh_ignored (env : GridEnv K) (lattice : RM K) (ds : SymDataset K)
    (tmat : Option (RM K)) (useGrg force : Bool) (c : SnfCoordinates)
    (hp : env.isPrimitive ds.rotations = false) (A : M3) :
    setMeshNumbers env (.matrix A) lattice (some ds) tmat useGrg force c =
      some (plainMesh ⟨1, 1, 1⟩) ∧
    setMeshNumbers env .other lattice (some ds) tmat useGrg force c =
      some (plainMesh ⟨1, 1, 1⟩) := by
  refine ⟨?_, rfl⟩
  unfold setMeshNumbers runGrg grgDataset
  simp [hp]

/-! ## C121 -/

omit [LinearOrder K] [IsStrictOrderedRing K] in
theorem transposeRM_mul (a b : RM K) : transposeRM (mulRM a b) = mulRM (transposeRM b) (transposeRM a) := by
  funext i j; simp only [transposeRM, mulRM]; ring

omit [LinearOrder K] [IsStrictOrderedRing K] in
theorem transposeRM_one : transposeRM (castM M3.one : RM K) = castM M3.one := by
  funext i j; fin_cases i <;> fin_cases j <;> rfl

omit [LinearOrder K] [IsStrictOrderedRing K] in
theorem detRM_transpose (a : RM K) : detRM (transposeRM a) = detRM a := by
  simp only [detRM, transposeRM]; ring

omit [LinearOrder K] [IsStrictOrderedRing K] in
theorem mul_cofactorRM (a : RM K) (h : detRM a ≠ 0) : mulRM a (cofactorRM a) = castM M3.one := by
  funext i j
  obtain ⟨d, hd⟩ : ∃ d, d = detRM a := ⟨_, rfl⟩
  have h0 : d ≠ 0 := hd ▸ h
  fin_cases i <;> fin_cases j <;>
    simp [mulRM, cofactorRM, rows9, castM, M3.e, M3.one, ← hd] <;> field_simp <;>
    (try rw [hd]) <;> (try simp only [detRM]) <;> ring

omit [LinearOrder K] [IsStrictOrderedRing K] in
/-- The inverse is unique. -/
theorem cofactorRM_eq {a b : RM K} (h : mulRM a b = castM M3.one) (ha : detRM a ≠ 0) :
    cofactorRM a = b := by
  have : mulRM (cofactorRM a) (mulRM a b) = cofactorRM a := by rw [h, mulRM_one]
  rwa [← mulRM_assoc, cofactorRM_mul a ha, one_mulRM, eq_comm] at this

omit [LinearOrder K] [IsStrictOrderedRing K] in
theorem detRM_cofactor {a : RM K} (ha : detRM a ≠ 0) : detRM (cofactorRM a) ≠ 0 := by
  have := congrArg detRM (cofactorRM_mul a ha)
  rw [detRM_mul, detRM_castM] at this
  intro h0
  rw [h0, zero_mul] at this
  have e : M3.one.det = 1 := by decide
  rw [e] at this
  simp at this

/-- C121: the grid matrix made from a length. `conv` is the conventional cell that is used (rows
are its basis vectors), either the one of the transformation matrix or the standardised one, and
`mesh` the mesh numbers for it. When the conventional basis vectors are integer combinations of
those of the given lattice, row `i` of the matrix gives exactly the combination that is `mesh i`
times conventional basis vector `i`. -/
theorem C121_length (env : GridEnv K) (hr : ∀ n : Int, env.rint (n : K) = n) (lattice : RM K)
    (ds : SymDataset K) (l : K) (c : SnfCoordinates) (A : M3)
    (hl : detRM lattice ≠ 0) (ht : detRM ds.tmat ≠ 0) (hs : detRM ds.stdLattice ≠ 0)
    (h : getGridMatrix env lattice ds l c = some A) :
    ∃ conv : RM K,
      (conv = ds.stdLattice ∨ mulRM (transposeRM ds.tmat) conv = lattice) ∧
      ∃ mesh : V3, (c = .reciprocal ∧ mesh = env.length2mesh l conv none ∨
        c = .direct ∧ mesh = env.supercellMesh ds l conv) ∧
      ∀ N : M3, conv = mulRM (castM N) lattice →
        mulRM (castM A) lattice = fun i j => (mesh.e i : K) * conv i j := by
  unfold getGridMatrix at h
  simp only at h
  set useStd := canUseStdLattice (mulRM (transposeRM (cofactorRM ds.tmat)) lattice) ds.tmat
    ds.stdLattice ds.rotations with hstd
  set tm := (if useStd then transposeRM (mulRM lattice (cofactorRM ds.stdLattice)) else ds.tmat) with htm
  set conv := (if useStd then ds.stdLattice else mulRM (transposeRM (cofactorRM ds.tmat)) lattice) with hconv
  -- in both cases the transposed inverse times the lattice is the conventional cell
  have key : mulRM (transposeRM (cofactorRM tm)) lattice = conv := by
    rcases Bool.eq_false_or_eq_true useStd with hu | hu
    · rw [htm, hconv, hu]
      simp only [if_true]
      have e : cofactorRM (transposeRM (mulRM lattice (cofactorRM ds.stdLattice))) =
          transposeRM (mulRM ds.stdLattice (cofactorRM lattice)) := by
        refine cofactorRM_eq ?_ ?_
        · rw [← transposeRM_mul, mulRM_assoc, ← mulRM_assoc (cofactorRM lattice), cofactorRM_mul _ hl,
            one_mulRM, mul_cofactorRM _ hs, transposeRM_one]
        · rw [detRM_transpose, detRM_mul]
          exact mul_ne_zero hl (detRM_cofactor hs)
      rw [e]
      have e2 : transposeRM (transposeRM (mulRM ds.stdLattice (cofactorRM lattice))) =
          mulRM ds.stdLattice (cofactorRM lattice) := rfl
      rw [e2, mulRM_assoc, cofactorRM_mul _ hl, mulRM_one]
    · rw [htm, hconv, hu]; rfl
  refine ⟨conv, ?_, ?_⟩
  · rcases Bool.eq_false_or_eq_true useStd with hu | hu
    · left; rw [hconv, hu]; rfl
    · right
      rw [hconv, hu]
      simp only [Bool.false_eq_true, if_false]
      rw [← mulRM_assoc, ← transposeRM_mul, cofactorRM_mul _ ht, transposeRM_one, one_mulRM]
  · have fin (mesh : V3) (h' : (if ∀ i j, |cofactorRM tm i j -
          ((M3.ofFn fun i j => env.rint (cofactorRM tm i j)).e i j : K)| < 1 / 100000 then
          some (M3.ofFn fun i j => (M3.ofFn fun i j => env.rint (cofactorRM tm i j)).e j i * mesh.e i)
          else none) = some A) (N : M3) (hN : conv = mulRM (castM N) lattice) :
        mulRM (castM A) lattice = fun i j => (mesh.e i : K) * conv i j := by
      split_ifs at h' with hc
      obtain rfl := Option.some.inj h'
      have e1 : transposeRM (cofactorRM tm) = castM N := by
        have : mulRM (mulRM (transposeRM (cofactorRM tm)) lattice) (cofactorRM lattice) =
            mulRM (mulRM (castM N) lattice) (cofactorRM lattice) := by rw [key, hN]
        rwa [mulRM_assoc, mulRM_assoc, mul_cofactorRM _ hl, mulRM_one, mulRM_one] at this
      have e2 (i j : Fin 3) : cofactorRM tm j i = (N.e i j : K) := congrFun (congrFun e1 i) j
      rw [hN]
      funext i j
      simp only [mulRM, castM, M3.ofFn_e, e2, hr]
      push_cast
      ring
    cases c with
    | reciprocal =>
      exact ⟨_, Or.inl ⟨rfl, rfl⟩, fun N hN => fin _ h N hN⟩
    | direct =>
      exact ⟨_, Or.inr ⟨rfl, rfl⟩, fun N hN => fin _ h N hN⟩
    | other => simp at h

/-- C121: without the assumption on the conventional cell the rows are still within
`mesh i · 10⁻⁵` of it, entry by entry in coordinates of the given lattice. -/
theorem C121_length_close (env : GridEnv K) (lattice : RM K) (ds : SymDataset K) (l : K)
    (c : SnfCoordinates) (A : M3) (hl : detRM lattice ≠ 0)
    (hns : canUseStdLattice (mulRM (transposeRM (cofactorRM ds.tmat)) lattice) ds.tmat
      ds.stdLattice ds.rotations = false)
    (h : getGridMatrix env lattice ds l c = some A) :
    ∃ mesh : V3, ∀ i j, |(A.e i j : K) - (mesh.e i : K) * cofactorRM ds.tmat j i| ≤
      |(mesh.e i : K)| / 100000 := by
  unfold getGridMatrix at h
  simp only [hns, Bool.false_eq_true, if_false] at h
  have fin (mesh : V3) (h' : (if ∀ i j, |cofactorRM ds.tmat i j -
        ((M3.ofFn fun i j => env.rint (cofactorRM ds.tmat i j)).e i j : K)| < 1 / 100000 then
        some (M3.ofFn fun i j => (M3.ofFn fun i j => env.rint (cofactorRM ds.tmat i j)).e j i * mesh.e i)
        else none) = some A) : ∀ i j, |(A.e i j : K) - (mesh.e i : K) * cofactorRM ds.tmat j i| ≤
      |(mesh.e i : K)| / 100000 := by
    split_ifs at h' with hc
    obtain rfl := Option.some.inj h'
    intro i j
    have := hc j i
    rw [M3.ofFn_e] at this
    simp only [M3.ofFn_e]
    push_cast
    have e : (env.rint (cofactorRM ds.tmat j i) : K) * (mesh.e i : K) - (mesh.e i : K) * cofactorRM ds.tmat j i =
        (mesh.e i : K) * -(cofactorRM ds.tmat j i - (env.rint (cofactorRM ds.tmat j i) : K)) := by ring
    rw [e, abs_mul, abs_neg, div_eq_mul_one_div]
    exact mul_le_mul_of_nonneg_left this.le (abs_nonneg _)
  cases c with
  | reciprocal => exact ⟨_, fin _ h⟩
  | direct => exact ⟨_, fin _ h⟩
  | other => simp at h

/-- C121: the standardised lattice is used when the primitive cell that it describes (basis vectors
in columns) is the given one with its basis vectors replaced by their images under an operation of
the crystal, a rotoinversion being replaced by its rotation. -/
theorem C121_standard_lattice (lattice tmat std : RM K) (rots : List M3) (ht : detRM tmat ≠ 0)
    (W : M3) (hW : W ∈ rots)
    (h : mulRM (transposeRM std) tmat =
      fun i j => (W.det : K) * mulRM (transposeRM lattice) (castM W) i j) :
    canUseStdLattice (mulRM (transposeRM (cofactorRM tmat)) lattice) tmat std rots = true := by
  have e1 : mulRM (transposeRM (mulRM (transposeRM (cofactorRM tmat)) lattice))
      (mulRM tmat (mulRM (castM W) (cofactorRM tmat))) =
      mulRM (mulRM (transposeRM lattice) (castM W)) (cofactorRM tmat) := by
    rw [transposeRM_mul]
    have : transposeRM (transposeRM (cofactorRM tmat)) = cofactorRM tmat := rfl
    rw [this, mulRM_assoc (transposeRM lattice), ← mulRM_assoc (cofactorRM tmat),
      cofactorRM_mul _ ht, one_mulRM, mulRM_assoc]
  have e2 : detRM (mulRM tmat (mulRM (castM W) (cofactorRM tmat)) : RM K) = (W.det : K) := by
    have hd := congrArg detRM (mul_cofactorRM tmat ht)
    rw [detRM_mul, detRM_castM] at hd
    rw [detRM_mul, detRM_mul, detRM_castM, mul_left_comm, hd]
    have : M3.one.det = 1 := by decide
    rw [this]; simp
  have e3 : (fun i j => (W.det : K) *
      mulRM (mulRM (transposeRM lattice) (castM W)) (cofactorRM tmat) i j) = transposeRM std := by
    have : mulRM (fun i j => (W.det : K) * mulRM (transposeRM lattice) (castM W) i j) (cofactorRM tmat) =
        transposeRM std := by
      rw [← h, mulRM_assoc, mul_cofactorRM _ ht, mulRM_one]
    rw [← this]
    funext i j
    simp only [mulRM]; ring
  unfold canUseStdLattice
  rw [List.any_eq_true]
  refine ⟨W, hW, ?_⟩
  have hc : (fun i j => (W.e i j : K)) = castM W := rfl
  simp only [hc, e1, e2]
  rw [e3]
  unfold allcloseRM
  simp only [sub_self, abs_zero, decide_eq_true_eq]
  intro i j
  positivity

/-- C121: the transformation matrix of a caller, when its inverse `N` is an integer matrix, is
accepted exactly when `N` has a positive determinant, and is then used as it is, with the given
lattice and no other rotation than the identity. -/
theorem C121_given_matrix (env : GridEnv K) (hr : ∀ n : Int, env.rint (n : K) = n) (lattice tmat : RM K)
    (N : M3) (hN : cofactorRM tmat = castM N) (d : SymDataset K) :
    mockDataset env lattice tmat = some d ↔
      1 ≤ N.det ∧ d.rotations = [M3.one] ∧ d.tmat = tmat ∧ d.stdLattice = lattice := by
  have hi : (M3.ofFn fun i j => env.rint (cofactorRM tmat i j)) = N := by
    apply M3.ext_e
    intro i j
    rw [M3.ofFn_e, hN]
    exact hr _
  unfold mockDataset
  simp only [hi]
  have hc (i j : Fin 3) : cofactorRM tmat i j - (N.e i j : K) = 0 := by
    rw [hN]; exact sub_self _
  have hn : ¬ ∀ i j, cofactorRM tmat i j - (N.e i j : K) > 1 / 100000000 := by
    intro h
    have := h 0 0
    rw [hc] at this
    have h0 : (0 : K) < 1 / 100000000 := by positivity
    exact absurd this (not_lt.2 h0.le)
  rw [if_neg hn]
  obtain ⟨r, t, l⟩ := d
  split_ifs with h1 h2
  · simp; omega
  · simp; omega
  · simp only [Option.some.injEq, SymDataset.mk.injEq]
    constructor
    · rintro ⟨rfl, rfl, rfl⟩
      exact ⟨by omega, rfl, rfl, rfl⟩
    · rintro ⟨-, rfl, rfl, rfl⟩
      exact ⟨rfl, rfl, rfl⟩

/-! ## C120 -/

variable [FloorRing K]

omit [LinearOrder K] [IsStrictOrderedRing K] [FloorRing K] in
theorem latticeVector_eq_zero {L : RM K} (hv : cellVolume L ≠ 0) {n : Fin 3 → Int} [CharZero K]
    (h : latticeVector L n = fun _ => 0) : n = 0 := by
  have hd : detRM L ≠ 0 := by rw [← cellVolume_eq]; exact hv
  have hc := cofactorRM_mul L hd
  have h0 := congrFun h 0; have h1 := congrFun h 1; have h2 := congrFun h 2
  simp only [latticeVector] at h0 h1 h2
  have e (i j : Fin 3) : cofactorRM L i 0 * L 0 j + cofactorRM L i 1 * L 1 j + cofactorRM L i 2 * L 2 j =
      ((M3.one.e i j : Int) : K) := congrFun (congrFun hc i) j
  have s (i : Fin 3) : ((M3.one.e i 0 : Int) : K) * (n 0 : K) + ((M3.one.e i 1 : Int) : K) * (n 1 : K) +
      ((M3.one.e i 2 : Int) : K) * (n 2 : K) = 0 := by
    rw [← e, ← e, ← e]
    linear_combination cofactorRM L i 0 * h0 + cofactorRM L i 1 * h1 + cofactorRM L i 2 * h2
  have s0 := s 0; have s1 := s 1; have s2 := s 2
  simp [M3.one, M3.e] at s0 s1 s2
  funext i; fin_cases i
  · exact s0
  · exact s1
  · exact s2

/-- C120: looking up any address, inside or outside of the zone, gives an index in range whose
wave vector is that of the address up to a reciprocal lattice vector. -/
theorem C120_lookup (env : GridEnv K) (reduce : RM K → RM K) (mesh : MeshArg K) (lattice : RM K)
    (ds : Option (SymDataset K)) (tmat : Option (RM K)) (S : Option V3) (tr useGrg force : Bool)
    (c : SnfCoordinates) (dense : Bool) (init : BZGridOut) (o : GridObject K)
    (h : bzGridInit env reduce mesh lattice ds tmat S tr useGrg force c dense init = some o)
    (hD : PosMesh o.gm.D) (hr : ∃ i j, reduce (cofactorRM lattice) i j ≠ 0) (a : V3) :
    (0 ≤ indexFromAddress o a ∧ indexFromAddress o a < o.bz.size) ∧
    EquivalentQ (qCoord (⟨o.gm.D, o.PS, o.gm.Q, fun _ _ => 0⟩ : BZInput K) a)
      (objectQ o (indexFromAddress o a)) := by
  obtain ⟨hm, ho⟩ := bzGridInit_some h
  have F := setMeshNumbers_factorised env mesh lattice ds tmat useGrg force c o.gm hm hD
  obtain ⟨-, hPS, hbz, -, htab, -⟩ := bzGridObject_some ho
  obtain ⟨Q', hbz⟩ := relocate_some hbz
  have V := bzGrid_valid _ hD hr dense init o.bz hbz
  have hg := gridIndex_bounds a o.gm.D hD
  have hmem : indexFromAddress o a ∈ block o.gm.D dense o.bz (gridIndex a o.gm.D) := by
    unfold indexFromAddress
    rw [htab]
    unfold grg2bzgTable
    cases dense
    · simp [block]
    · have := (((C10_dense_map _ hD hr init o.bz hbz).2.2) _ hg.1 hg.2).1
      simp only [if_true, block, List.mem_map, List.mem_range]
      exact ⟨0, by omega, by simp⟩
  obtain ⟨h1, -, h2⟩ := V.filed _ hg.1 hg.2 _ hmem
  refine ⟨h1, ?_⟩
  unfold objectQ
  exact (equivalentQ_iff F _ _ _ _).2 ((gridIndex_eq_iff _ _ _ hD).1 h2.symm)

/-- C118: the microzone lattice is the reciprocal lattice divided by the grid matrix: the product
`microzone · A` is the reciprocal lattice, the inverse of the given lattice (basis vectors in
columns). -/
theorem C118_microzone (env : GridEnv K) (reduce : RM K → RM K) (mesh : MeshArg K) (lattice : RM K)
    (ds : Option (SymDataset K)) (tmat : Option (RM K)) (S : Option V3) (tr useGrg force : Bool)
    (c : SnfCoordinates) (dense : Bool) (init : BZGridOut) (o : GridObject K)
    (h : bzGridInit env reduce mesh lattice ds tmat S tr useGrg force c dense init = some o)
    (hD : PosMesh o.gm.D) (hl : detRM lattice ≠ 0) :
    mulRM (mulRM o.microzone (castM (matrixOf o.gm))) lattice = castM M3.one := by
  obtain ⟨hm, ho⟩ := bzGridInit_some h
  have F := setMeshNumbers_factorised env mesh lattice ds tmat useGrg force c o.gm hm hD
  obtain ⟨-, -, -, -, -, -, hmz⟩ := bzGridObject_some ho
  rw [hmz, microzone_mul F, cofactorRM_mul _ hl]

/-- The first image stored for the grid point at the origin of an unshifted grid is the origin. -/
theorem bzImages_origin (b : BZInput K) (hD : PosMesh b.D) (hPS : b.PS = ⟨0, 0, 0⟩) (tol : K)
    (ht : 0 < tol) (Qinv : M3) : ∃ l, bzImages b tol Qinv 0 = ⟨0, 0, 0⟩ :: l := by
  have hgr : gridAddressFromIndex ((0 : Nat) : Int) b.D = ⟨0, 0, 0⟩ := by
    simp [gridAddressFromIndex]
  have hq : qRed b ⟨0, 0, 0⟩ = fun _ => 0 := by
    funext i
    unfold qRed doubleGridAddress mulVecD3
    rw [hPS]
    simp [V3.e]
  have hn : bzNint b ⟨0, 0, 0⟩ = ⟨0, 0, 0⟩ := by
    unfold bzNint
    have : nint (0 : K) = 0 := by simpa using nint_int (K := K) 0
    simp only [hq, this]
  have hss : ∃ t, bzSearchSpace = ⟨0, 0, 0⟩ :: t := ⟨_, rfl⟩
  obtain ⟨t, hss⟩ := hss
  have hd : bzDistance b ⟨0, 0, 0⟩ ⟨0, 0, 0⟩ = 0 := by
    unfold bzDistance
    simp only [hq, hn]
    simp [normSquared, mulVecD3, V3.e]
  have hnn (s : V3) : 0 ≤ bzDistance b ⟨0, 0, 0⟩ s := by
    unfold bzDistance normSquared
    exact add_nonneg (add_nonneg (mul_self_nonneg _) (mul_self_nonneg _)) (mul_self_nonneg _)
  have hmin : 0 ≤ bzMinDistance b tol ⟨0, 0, 0⟩ := by
    unfold bzMinDistance
    rw [hss, List.map_cons, minDistance]
    have : ∀ (l : List V3) (m : K), 0 ≤ m →
        0 ≤ (l.map (bzDistance b ⟨0, 0, 0⟩)).foldl (fun m d => if d < m - tol then d else m) m := by
      intro l
      induction l with
      | nil => intro m hm; exact hm
      | cons s l ih =>
        intro m hm
        simp only [List.map_cons, List.foldl_cons]
        split_ifs
        · exact ih _ (hnn s)
        · exact ih _ hm
    exact this t _ (hnn _)
  refine ⟨(t.filter (fun s => decide (bzDistance b ⟨0, 0, 0⟩ s < bzMinDistance b tol ⟨0, 0, 0⟩ + tol))).map
    (fun s => setBzAddress s ⟨0, 0, 0⟩ b.D ⟨0, 0, 0⟩ Qinv), ?_⟩
  unfold bzImages bzImagesAt
  rw [hgr, hss, List.filter_cons_of_pos (by rw [decide_eq_true_eq, hd]; linarith), List.map_cons, hn]
  congr 1
  simp [setBzAddress, M3.mulVec, V3.mul]
  rfl

/-- C120: on a grid without a shift `gp_Gamma` is an index in range of the Γ point itself. -/
theorem C120_gamma (env : GridEnv K) (reduce : RM K → RM K) (mesh : MeshArg K) (lattice : RM K)
    (ds : Option (SymDataset K)) (tmat : Option (RM K)) (tr useGrg force : Bool)
    (c : SnfCoordinates) (dense : Bool) (init : BZGridOut) (o : GridObject K)
    (h : bzGridInit env reduce mesh lattice ds tmat none tr useGrg force c dense init = some o)
    (hD : PosMesh o.gm.D) (hr : ∃ i j, reduce (cofactorRM lattice) i j ≠ 0) :
    (0 ≤ o.gpGamma ∧ o.gpGamma < o.bz.size) ∧ o.bz.addresses o.gpGamma = ⟨0, 0, 0⟩ ∧
      objectQ o o.gpGamma = fun _ => 0 := by
  obtain ⟨hm, ho⟩ := bzGridInit_some h
  obtain ⟨-, hPS, hbz, -, htab, hgam, -⟩ := bzGridObject_some ho
  obtain ⟨Q', hbz⟩ := relocate_some hbz
  have hPS0 : o.PS = ⟨0, 0, 0⟩ := by rw [hPS]; simp [M3.mulVec]
  have hlook := C120_lookup env reduce mesh lattice ds tmat none tr useGrg force c dense init o h hD hr
    ⟨0, 0, 0⟩
  have hgi : indexFromAddress o ⟨0, 0, 0⟩ = o.gpGamma := by rw [hgam]; rfl
  rw [hgi] at hlook
  have hN := numGrid_pos o.gm.D hD
  have hz : gridIndex ⟨0, 0, 0⟩ o.gm.D = 0 := by
    have e : gridAddressFromIndex 0 o.gm.D = ⟨0, 0, 0⟩ := by simp [gridAddressFromIndex]
    have := gridIndex_addressFromIndex 0 o.gm.D hD le_rfl hN
    rwa [e] at this
  have B := bzGrid_facts _ hD hr dense init o.bz hbz
  have hq := (bzGrid_some _ dense init o.bz hbz).1
  obtain ⟨l, hl⟩ := bzImages_origin (⟨o.gm.D, o.PS, Q', reduce (cofactorRM lattice)⟩ : BZInput K) hD hPS0 _
    (bzTolerance_pos _ hD hq hr) (Q'.cofactorsDiv Q'.det)
  have hb : ∃ t, block o.gm.D dense o.bz 0 = o.gpGamma :: t := by
    rw [hgam, htab, hz]
    unfold grg2bzgTable
    cases dense
    · exact ⟨_, rfl⟩
    · have := (((C10_dense_map _ hD hr init o.bz hbz).2.2) 0 le_rfl hN).1
      obtain ⟨n, hn⟩ : ∃ n, (o.bz.gpMap (0 + 1) - o.bz.gpMap 0).toNat = n + 1 :=
        ⟨(o.bz.gpMap (0 + 1) - o.bz.gpMap 0).toNat - 1, by omega⟩
      simp only [block, if_true, hn, List.range_succ_eq_map, List.map_cons]
      exact ⟨((List.range n).map Nat.succ).map (fun (k : Nat) => o.bz.gpMap 0 + k), by simp⟩
  obtain ⟨t, hb⟩ := hb
  have hmap := B.map_block 0 (by simpa using hN)
  have hmap' : (block o.gm.D dense o.bz 0).map o.bz.addresses =
      bzImages (⟨o.gm.D, o.PS, Q', reduce (cofactorRM lattice)⟩ : BZInput K)
        (bzTolerance ⟨o.gm.D, o.PS, Q', reduce (cofactorRM lattice)⟩) (Q'.cofactorsDiv Q'.det) 0 := hmap
  rw [hb, hl, List.map_cons, List.cons.injEq] at hmap'
  refine ⟨hlook.1, hmap'.1, ?_⟩
  unfold objectQ
  rw [hmap'.1, hPS0]
  funext i
  simp [qCoord, V3.e]

/-- C59 for the Python class, what holds: when no reciprocal lattice vector is as short as the
tolerance of the search, `|G|² < 2 · tolerance`, at most eight rows per grid point are written. The
search runs in any basis of the reciprocal lattice. -/
theorem C59_python_fits (rint : K → Int) (hri : ∀ n : Int, rint (n : K) = n) (reduced L : RM K)
    (D : V3) (Q : M3) (PS : V3) (hD : PosMesh D) (hv : cellVolume L ≠ 0)
    (hsame : SameLattice L reduced) (dense : Bool) (init bz : BZGridOut)
    (h : relocateBzGridAddress rint reduced D Q PS L dense init = some (some bz))
    (hG : ∀ n : Fin 3 → Int, n ≠ 0 → 2 * Spec.tolerance ⟨D, PS, Q, L⟩ ≤
      latticeVector L n 0 * latticeVector L n 0 + latticeVector L n 1 * latticeVector L n 1 +
        latticeVector L n 2 * latticeVector L n 2) :
    bz.size ≤ 8 * (D.x * D.y * D.z) := by
  obtain ⟨T, hTd, hBQ, hvr, hrel⟩ := relocate_eq rint hri reduced L D Q PS hv hsame dense init
  have hne := reclat_ne hvr
  rw [hrel] at h
  have hbz' := Option.some.inj h
  have htol : Spec.tolerance ⟨D, PS, T.mul Q, reduced⟩ = Spec.tolerance ⟨D, PS, Q, L⟩ :=
    tolerance_congr (b := ⟨D, PS, Q, L⟩) rfl hBQ
  refine C59_fits _ hD hne (fun n hn => ?_) dense init bz hbz'
  obtain ⟨n', hn'⟩ := (hsame (latticeVector reduced ![n.x, n.y, n.z])).2 ⟨_, rfl⟩
  have hn0 : n' ≠ 0 := by
    rintro rfl
    have z : latticeVector reduced ![n.x, n.y, n.z] = fun _ => 0 := by
      rw [← hn']; funext i; simp [latticeVector]
    have := latticeVector_eq_zero hvr z
    apply hn
    have a0 := congrFun this 0; have a1 := congrFun this 1; have a2 := congrFun this 2
    simp at a0 a1 a2
    ext <;> assumption
  have := hG n' hn0
  rw [← htol, hn'] at this
  rw [bzTolerance_eq]
  refine this.trans (le_of_eq ?_)
  simp [latticeVector]
  ring

end

/-! ## Concrete cases -/

/-- Cubic lattice of unit length. -/
def unitLattice : RM ℚ := fun i j => if i = j then 1 else 0

/-- Stand-ins for the external functions: mesh 2×2×2 for every length, and primitive when no
rotation is repeated. -/
def sampleEnv : GridEnv ℚ :=
  ⟨nint, fun _ _ _ => ⟨2, 2, 2⟩, fun _ _ _ => ⟨2, 2, 2⟩, fun r => r.dedup.length == r.length⟩

/-- A crystal with a fourfold axis. -/
def fourfold : SymDataset ℚ :=
  ⟨[M3.one, ⟨0, -1, 0, 1, 0, 0, 0, 0, 1⟩, ⟨-1, 0, 0, 0, -1, 0, 0, 0, 1⟩, ⟨0, 1, 0, -1, 0, 0, 0, 0, 1⟩],
    unitLattice, unitLattice⟩

/-- The grid of a body-centred matrix on it, in the dense layout. -/
def sampleGrid (S : Option V3) : Option (GridObject ℚ) :=
  bzGridInit sampleEnv id (.matrix ⟨0, 1, 1, 1, 0, 1, 1, 1, 0⟩) unitLattice (some fourfold) none S
    true true false .reciprocal true exampleInit

/-- C118, C119, C120: the grid object is built, with two inequivalent wave vectors, nine stored
ones and eight operations; a shift that keeps the fourfold axis is accepted, one that breaks it is
refused. -/
example : (sampleGrid none).map (fun o => (o.gm.D, o.bz.size, o.gpGamma, o.rotations.length)) =
      some (⟨1, 1, 2⟩, 9, 0, 8) ∧
    (sampleGrid none).map (fun o => (o.bz.addresses 1, indexFromAddress o ⟨5, 7, 3⟩)) =
      some (⟨0, 0, -1⟩, 1) ∧
    (sampleGrid (some ⟨1, 1, 0⟩)).isSome = true ∧ sampleGrid (some ⟨1, 0, 0⟩) = none := by
  refine ⟨by decide +kernel, by decide +kernel, by decide +kernel, ?_⟩
  have : (sampleGrid (some ⟨1, 0, 0⟩)).isSome = false := by decide +kernel
  simpa using this

/-- C118, C120: the remaining hypotheses. -/
example : PosMesh (⟨1, 1, 2⟩ : V3) ∧ (∃ i j, id (cofactorRM unitLattice) i j ≠ 0) ∧
    cellVolume (cofactorRM unitLattice) ≠ 0 ∧
    SameLattice (cofactorRM unitLattice) (id (cofactorRM unitLattice)) :=
  ⟨by decide, ⟨0, 0, by decide +kernel⟩, by decide +kernel, fun _ => Iff.rfl⟩

/-- C119: the matrix alone can break the symmetry: the mesh 1×2×1 is refused. -/
example : (bzGridInit sampleEnv id (.numbers ⟨1, 2, 1⟩) unitLattice (some fourfold) none none
    true true false .reciprocal true exampleInit).isSome = false := by decide +kernel

/-- Body-centred primitive cell of the unit cube. -/
def bodyCell : RM ℚ := ![![-1 / 2, 1 / 2, 1 / 2], ![1 / 2, -1 / 2, 1 / 2], ![1 / 2, 1 / 2, -1 / 2]]

/-- C121: the body-centred cell gives the matrix of the 2×2×2 conventional supercell, whether or not
the standardised lattice can be used. -/
example : getGridMatrix sampleEnv bodyCell ⟨[M3.one], bodyCell, unitLattice⟩ 5 .reciprocal =
      some ⟨0, 2, 2, 2, 0, 2, 2, 2, 0⟩ ∧
    getGridMatrix sampleEnv bodyCell ⟨[M3.one], bodyCell, bodyCell⟩ 5 .direct =
      some ⟨0, 2, 2, 2, 0, 2, 2, 2, 0⟩ ∧
    canUseStdLattice (mulRM (transposeRM (cofactorRM bodyCell)) bodyCell) bodyCell unitLattice [M3.one]
      = true ∧
    canUseStdLattice (mulRM (transposeRM (cofactorRM bodyCell)) bodyCell) bodyCell bodyCell [M3.one]
      = false ∧
    detRM bodyCell ≠ 0 ∧ detRM unitLattice ≠ 0 := by decide +kernel

/-- C121: the standardised cell of the body-centred cell is recognised also when the only operation
is the inversion, and its transformation matrix, whose inverse has determinant 2, is accepted. -/
example : mulRM (transposeRM unitLattice) bodyCell =
      (fun i j => ((M3.negOne.det : Int) : ℚ) * mulRM (transposeRM bodyCell) (castM M3.negOne) i j) ∧
    cofactorRM bodyCell = castM ⟨0, 1, 1, 1, 0, 1, 1, 1, 0⟩ ∧
    (⟨0, 1, 1, 1, 0, 1, 1, 1, 0⟩ : M3).det = 2 := by decide +kernel

/-- C121, what fails: the test that the transformation matrix of a caller has an integer inverse
never fires unless all nine entries are off, so the matrix diag(1, 1, 2/3), whose inverse is
not an integer matrix, is accepted (the later test of `_get_grid_matrix` refuses it, but a matrix
given as nine numbers does not reach that test). -/
theorem C121_inverse_not_tested :
    let t : RM ℚ := ![![1, 0, 0], ![0, 1, 0], ![0, 0, 2 / 3]]
    cofactorRM t 2 2 = 3 / 2 ∧ (mockDataset sampleEnv unitLattice t).isSome = true ∧
      (setMeshNumbers sampleEnv (.matrix ⟨0, 1, 1, 1, 0, 1, 1, 1, 0⟩) unitLattice none (some t) true false
        .reciprocal).isSome = true := by decide +kernel

/-! ### The grid of a body-centred orthorhombic crystal overflows -/

/-- Primitive cell of a body-centred orthorhombic crystal with axes 1, 1/2 and 1/7. -/
def needleCell : RM ℚ := ![![-1 / 2, 1 / 4, 1 / 14], ![1 / 2, -1 / 4, 1 / 14], ![1 / 2, 1 / 4, -1 / 14]]

/-- A reduced basis of its reciprocal lattice, in columns. -/
def needleReduced : RM ℚ := ![![2, 1, 1], ![0, 2, 0], ![0, 0, 7]]

theorem needle_reduced : MinkowskiReduced 0 needleReduced ∧
    SameLattice (cofactorRM needleCell) needleReduced := by
  refine ⟨⟨by decide +kernel, by decide +kernel, by decide +kernel, by decide +kernel,
    by decide +kernel, ?_⟩, ?_⟩
  · intro s t hs ht
    rcases hs with rfl | rfl <;> rcases ht with rfl | rfl <;> decide +kernel
  · refine Related.sameLattice ⟨⟨-1, 0, 0, 1, 0, 1, 1, 1, 0⟩, by decide, ?_⟩
    funext i j
    fin_cases i <;> fin_cases j <;> decide +kernel

/-- Its grid with the matrix of the 1×2×7 mesh of the conventional cell, whose microzone is a
cube. -/
def needleGrid : Option (GridObject ℚ) :=
  bzGridInit sampleEnv (fun _ => needleReduced) (.matrix ⟨0, 1, 1, 2, 0, 2, 7, 7, 0⟩) needleCell
    (some ⟨[M3.one], unitLattice, unitLattice⟩) none none true true false .reciprocal true exampleInit

/-- C59 fails for the Python class with a reduced basis of the right lattice: the tolerance is taken
from the columns of `Q / D`, which the Smith normal form makes long and skewed, so translates that
are not nearest are stored, and more than eight rows per grid point are written. -/
theorem C59_overflow_grg : ∃ o, needleGrid = some o ∧ PosMesh o.gm.D ∧
    8 * (o.gm.D.x * o.gm.D.y * o.gm.D.z) < o.bz.size := by
  have hx : needleGrid.map (fun o => (o.gm.D, decide (224 < o.bz.size))) = some (⟨1, 1, 28⟩, true) := by
    decide +kernel
  cases h : needleGrid with
  | none => rw [h] at hx; simp at hx
  | some o =>
    rw [h] at hx
    simp only [Option.map_some, Option.some.injEq, Prod.mk.injEq, decide_eq_true_eq] at hx
    refine ⟨o, rfl, ?_, ?_⟩
    · rw [hx.1]; decide
    · rw [hx.1]; exact hx.2

end Phono3py.Props
