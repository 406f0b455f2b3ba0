/-
Property theorems C118-C121 about the grid objects of the Python code.
-/
import Verif.Model.GridObject
import Verif.Spec.GridObject
import Verif.Props.Niggli
import Verif.Props.Snf

namespace Phono3py.Props
open Phono3py Phono3py.Spec

section
variable {K : Type _} [Field K] [LinearOrder K] [IsStrictOrderedRing K]

/-! ## The grid matrix -/

/-- The grid matrix of the attributes: the stored one, or the diagonal matrix of mesh numbers. -/
def matrixOf (gm : GridMatrixOut) : M3 := gm.gridMatrix.getD (M3.diag gm.D)

/-- Factorisation that all grids rest on. -/
structure Factorised (gm : GridMatrixOut) : Prop where
  pos : PosMesh gm.D
  snf : (gm.P.mul (matrixOf gm)).mul gm.Q = M3.diag gm.D
  detP : gm.P.det = 1
  detQ : gm.Q.det = 1 ∨ gm.Q.det = -1

theorem setGrgMesh_some {A : M3} {force : Bool} {gm : GridMatrixOut} (h : setGrgMesh A force = some gm) :
    matrixOf gm = A ∧ (gm.P.mul A).mul gm.Q = M3.diag gm.D ∧ gm.P.det = 1 ∧
      (gm.Q.det = 1 ∨ gm.Q.det = -1) ∧
      (gm.gridMatrix = some A → PosMesh gm.D ∧ gm.D.x * gm.D.y * gm.D.z = |A.det|) := by
  unfold setGrgMesh at h
  split_ifs at h with hd
  · obtain rfl := Option.some.inj h
    refine ⟨hd.1, ?_, (by decide : M3.one.det = 1), Or.inl (by decide : M3.one.det = 1), fun h => by simp at h⟩
    simp only [M3.one_mul, M3.mul_one]; exact hd.1.symm
  · split at h
    · rename_i D P Q e
      obtain rfl := Option.some.inj h
      obtain ⟨h1, h2, h3, h4, h5⟩ := C08_sound A D P Q e
      exact ⟨rfl, h1, h2, h3, fun _ => ⟨h4, h5⟩⟩
    · simp at h

theorem plainMesh_fact {D : V3} (hD : PosMesh D) : Factorised (plainMesh D) :=
  ⟨hD, by simp [plainMesh, matrixOf], (by decide : M3.one.det = 1), Or.inl (by decide : M3.one.det = 1)⟩

/-- Whatever path is taken, positive mesh numbers come with a factorised grid matrix. -/
theorem setMeshNumbers_factorised (env : GridEnv K) (mesh : MeshArg K) (lattice : RM K)
    (ds : Option (SymDataset K)) (tmat : Option (RM K)) (useGrg force : Bool) (c : SnfCoordinates)
    (gm : GridMatrixOut) (h : setMeshNumbers env mesh lattice ds tmat useGrg force c = some gm)
    (hD : PosMesh gm.D) : Factorised gm := by
  have hg : ∀ f g, runGrg env lattice ds tmat f force = some (some g) → PosMesh g.D → Factorised g := by
    intro f g hr hp
    unfold runGrg at hr
    split at hr
    · simp at hr
    · split_ifs at hr
      · split at hr
        · simp at hr
        · rename_i A _
          simp only [Option.map_eq_some_iff, Option.some.injEq, exists_eq_right] at hr
          obtain ⟨h1, h2, h3, h4, -⟩ := setGrgMesh_some hr
          exact ⟨hp, by rw [h1]; exact h2, h3, h4⟩
      · simp at hr
  unfold setMeshNumbers at h
  split at h
  · simp only at h
    split_ifs at h
    · split at h
      · simp at h
      · rename_i g e
        obtain rfl := Option.some.inj h
        exact hg _ _ e hD
      · obtain rfl := Option.some.inj h
        exact plainMesh_fact hD
    · obtain rfl := Option.some.inj h
      exact plainMesh_fact hD
  · split at h
    · simp at h
    · rename_i g e
      obtain rfl := Option.some.inj h
      exact hg _ _ e hD
    · obtain rfl := Option.some.inj h
      exact plainMesh_fact hD
  · obtain rfl := Option.some.inj h
    exact plainMesh_fact hD
  · obtain rfl := Option.some.inj h
    exact plainMesh_fact hD

/-! ## q-points -/

omit [LinearOrder K] [IsStrictOrderedRing K] in
theorem intApply_mul (a b : M3) (q : Fin 3 → K) : intApply (a.mul b) q = intApply a (intApply b q) := by
  funext i
  simp only [intApply, M3.mul_e]
  push_cast; ring

omit [LinearOrder K] [IsStrictOrderedRing K] in
theorem intApply_one (q : Fin 3 → K) : intApply M3.one q = q := by
  funext i; fin_cases i <;> simp [intApply, M3.one, M3.e]

omit [LinearOrder K] [IsStrictOrderedRing K] in
theorem intApply_int (a : M3) (v : V3) : intApply a (fun i => (v.e i : K)) = fun i => ((a.mulVec v).e i : K) := by
  funext i; fin_cases i <;> simp [intApply, M3.mulVec, M3.e, V3.e]

omit [LinearOrder K] [IsStrictOrderedRing K] in
theorem intApply_add (a : M3) (p q : Fin 3 → K) :
    intApply a (fun i => p i + q i) = fun i => intApply a p i + intApply a q i := by
  funext i; simp only [intApply]; ring

omit [LinearOrder K] [IsStrictOrderedRing K] in
theorem intApply_smul (a : M3) (c : K) (p : Fin 3 → K) :
    intApply a (fun i => c * p i) = fun i => c * intApply a p i := by
  funext i; simp only [intApply]; ring

omit [LinearOrder K] [IsStrictOrderedRing K] in
theorem intApply_diag (D : V3) (q : Fin 3 → K) : intApply (M3.diag D) q = fun i => (D.e i : K) * q i := by
  funext i; fin_cases i <;> simp [intApply, M3.diag, M3.e, V3.e]

theorem unimodular_det {a : M3} (h : a.det = 1 ∨ a.det = -1) : a.det.natAbs = 1 := by
  rcases h with h | h <;> rw [h] <;> rfl

/-- Integer inverse of a unimodular matrix. -/
theorem exists_inverse {a : M3} (h : a.det = 1 ∨ a.det = -1) :
    ∃ b : M3, b.mul a = M3.one ∧ a.mul b = M3.one :=
  ⟨_, (M3.cofactorsDiv_mul a (unimodular_det h)).1, (M3.cofactorsDiv_mul a (unimodular_det h)).2⟩

variable {gm : GridMatrixOut}

/-- `P A q = a + P S / 2` for the q-point of the address `a`. -/
theorem apply_qCoord (F : Factorised gm) (S a : V3) (L : RM K) :
    intApply (gm.P.mul (matrixOf gm)) (qCoord ⟨gm.D, gm.P.mulVec S, gm.Q, L⟩ a) =
      fun i => (a.e i : K) + ((gm.P.mulVec S).e i : K) / 2 := by
  have e : qCoord ⟨gm.D, gm.P.mulVec S, gm.Q, L⟩ a =
      intApply gm.Q (fun i => ((a.e i : K) + ((gm.P.mulVec S).e i : K) / 2) / (gm.D.e i : K)) := rfl
  rw [e, ← intApply_mul, F.snf, intApply_diag]
  funext i
  have : (gm.D.e i : K) ≠ 0 := by exact_mod_cast (V3.e_pos F.pos i).ne'
  field_simp

/-- The q-point of `a` is the only one with these products. -/
theorem eq_qCoord (F : Factorised gm) (S a : V3) (L : RM K) (q : Fin 3 → K)
    (h : intApply (gm.P.mul (matrixOf gm)) q = fun i => (a.e i : K) + ((gm.P.mulVec S).e i : K) / 2) :
    q = qCoord ⟨gm.D, gm.P.mulVec S, gm.Q, L⟩ a := by
  obtain ⟨Qi, q1, q2⟩ := exists_inverse F.detQ
  have e : qCoord ⟨gm.D, gm.P.mulVec S, gm.Q, L⟩ a =
      intApply gm.Q (fun i => ((a.e i : K) + ((gm.P.mulVec S).e i : K) / 2) / (gm.D.e i : K)) := rfl
  have hPA : gm.P.mul (matrixOf gm) = (M3.diag gm.D).mul Qi := by
    rw [← F.snf, M3.mul_assoc, q2, M3.mul_one]
  rw [hPA, intApply_mul, intApply_diag] at h
  have h2 : intApply Qi q = fun i => ((a.e i : K) + ((gm.P.mulVec S).e i : K) / 2) / (gm.D.e i : K) := by
    funext i
    have h3 : (gm.D.e i : K) * intApply Qi q i = _ := congrFun h i
    have : (gm.D.e i : K) ≠ 0 := by exact_mod_cast (V3.e_pos F.pos i).ne'
    rw [← h3]; field_simp
  rw [e, ← h2, ← intApply_mul, q2, intApply_one]

theorem onGrid_iff (F : Factorised gm) (S : V3) (L : RM K) (q : Fin 3 → K) :
    OnGrid (matrixOf gm) S q ↔ ∃ a, q = qCoord ⟨gm.D, gm.P.mulVec S, gm.Q, L⟩ a := by
  obtain ⟨Pi, p1, p2⟩ := exists_inverse (Or.inl F.detP : gm.P.det = 1 ∨ gm.P.det = -1)
  have hs : ((fun i => ((gm.P.mulVec S).e i : K) / 2) : Fin 3 → K) =
      intApply gm.P (fun i => (1 / 2 : K) * (S.e i : K)) := by
    rw [intApply_smul, intApply_int]; funext i; ring
  constructor
  · intro h
    choose n hn using h
    refine ⟨gm.P.mulVec ⟨n 0, n 1, n 2⟩, eq_qCoord F S _ L q ?_⟩
    have hq : intApply (matrixOf gm) q = fun i => (((⟨n 0, n 1, n 2⟩ : V3).e i : Int) : K) +
        (1 / 2 : K) * (S.e i : K) := by
      funext i
      rw [hn i]
      fin_cases i <;> simp [V3.e] <;> ring
    rw [intApply_mul, hq, intApply_add, intApply_int]
    funext i
    have := congrFun hs i
    simp only at this ⊢
    rw [this]
  · rintro ⟨a, rfl⟩ i
    have h := apply_qCoord F S a L
    have h2 : intApply (matrixOf gm) (qCoord ⟨gm.D, gm.P.mulVec S, gm.Q, L⟩ a) =
        fun i => ((Pi.mulVec a).e i : K) + (1 / 2 : K) * (S.e i : K) := by
      have e1 : matrixOf gm = Pi.mul (gm.P.mul (matrixOf gm)) := by
        rw [← M3.mul_assoc, p1, M3.one_mul]
      rw [e1, intApply_mul, h, intApply_add, intApply_int, hs, ← intApply_mul, p1, intApply_one]
    exact ⟨(Pi.mulVec a).e i, by rw [h2]; ring⟩

variable [FloorRing K]

/-- Addresses of the same q-point up to a reciprocal lattice vector. -/
theorem equivalentQ_iff (F : Factorised gm) (PS a c : V3) (L : RM K) :
    EquivalentQ (qCoord ⟨gm.D, PS, gm.Q, L⟩ a) (qCoord ⟨gm.D, PS, gm.Q, L⟩ c) ↔ SamePoint gm.D a c := by
  constructor
  · intro h
    choose m hm using h
    obtain ⟨Qi, q1, q2⟩ := exists_inverse F.detQ
    have e (x : V3) : qCoord ⟨gm.D, PS, gm.Q, L⟩ x =
      intApply gm.Q (fun i => ((x.e i : K) + (PS.e i : K) / 2) / (gm.D.e i : K)) := rfl
    have h1 : qCoord ⟨gm.D, PS, gm.Q, L⟩ a = fun i => qCoord ⟨gm.D, PS, gm.Q, L⟩ c i +
        (((⟨m 0, m 1, m 2⟩ : V3).e i : Int) : K) := by
      funext i
      rw [hm i]
      fin_cases i <;> simp [V3.e]
    have h2 := congrArg (intApply Qi) h1
    rw [intApply_add, intApply_int, e, e, ← intApply_mul, ← intApply_mul, q1, intApply_one,
      intApply_one] at h2
    have h3 (i : Fin 3) : gm.D.e i ∣ a.e i - c.e i := by
      refine ⟨(Qi.mulVec ⟨m 0, m 1, m 2⟩).e i, ?_⟩
      have h4 := congrFun h2 i
      have : (gm.D.e i : K) ≠ 0 := by exact_mod_cast (V3.e_pos F.pos i).ne'
      simp only at h4
      field_simp at h4
      have h5 : ((a.e i - c.e i : Int) : K) = ((gm.D.e i * (Qi.mulVec ⟨m 0, m 1, m 2⟩).e i : Int) : K) := by
        push_cast; linarith
      exact_mod_cast h5
    exact ⟨h3 0, h3 1, h3 2⟩
  · intro h i
    obtain ⟨n, hn⟩ := samePoint_qCoord (⟨gm.D, PS, gm.Q, L⟩ : BZInput K) F.pos h
    exact ⟨-n.e i, by rw [hn i]; push_cast; ring⟩

/-! ## C118 -/

theorem bzGridObject_some {rint : K → Int} {reduced L : RM K} {gm : GridMatrixOut}
    {rots : Option (List M3)} {tr : Bool} {S : Option V3} {dense : Bool} {init : BZGridOut}
    {o : GridObject K} (h : bzGridObject rint reduced L gm rots tr S dense init = some o) :
    o.gm = gm ∧ o.PS = gm.P.mulVec (S.getD ⟨0, 0, 0⟩) ∧
      relocateBzGridAddress rint reduced gm.D gm.Q o.PS L dense init = some (some o.bz) ∧
      setRotations gm rots tr S = some (o.recOps, o.rotations) ∧
      o.grg2bzg = grg2bzgTable dense o.bz ∧ o.gpGamma = o.grg2bzg (gridIndex ⟨0, 0, 0⟩ gm.D) ∧
      o.microzone = microzoneLattice L gm := by
  unfold bzGridObject at h
  simp only at h
  split at h
  · rename_i bz e
    split at h
    · simp at h
    · rename_i ops rs e2
      obtain rfl := Option.some.inj h
      refine ⟨rfl, ?_, e, e2, rfl, rfl, rfl⟩
      cases S with
      | none => simp [gridShift, M3.mulVec]
      | some S => rfl
  · simp at h

theorem relocate_some {rint : K → Int} {reduced L : RM K} {D : V3} {Q : M3} {PS : V3} {dense : Bool}
    {init bz : BZGridOut} (h : relocateBzGridAddress rint reduced D Q PS L dense init = some (some bz)) :
    ∃ Q', bzGrid ⟨D, PS, Q', reduced⟩ dense init = some bz := by
  unfold relocateBzGridAddress at h
  simp only at h
  split_ifs at h with hc
  exact ⟨_, Option.some.inj h⟩

theorem bzGridInit_some {env : GridEnv K} {reduce : RM K → RM K} {mesh : MeshArg K} {lattice : RM K}
    {ds : Option (SymDataset K)} {tmat : Option (RM K)} {S : Option V3} {tr useGrg force : Bool}
    {c : SnfCoordinates} {dense : Bool} {init : BZGridOut} {o : GridObject K}
    (h : bzGridInit env reduce mesh lattice ds tmat S tr useGrg force c dense init = some o) :
    setMeshNumbers env mesh lattice ds tmat useGrg force c = some o.gm ∧
      bzGridObject env.rint (reduce (cofactorRM lattice)) (cofactorRM lattice) o.gm
        (ds.map (·.rotations)) tr S dense init = some o := by
  unfold bzGridInit at h
  simp only at h
  split at h
  · simp at h
  · rename_i gm e
    have := (bzGridObject_some h).1
    rw [this]
    exact ⟨e, h⟩

/-- Reduced coordinates of the wave vector of a grid point, by the formula of the documentation:
`Q (addresses[k] + PS / 2) / D_diag`. -/
def objectQ (o : GridObject K) (k : Int) : Fin 3 → K :=
  qCoord ⟨o.gm.D, o.PS, o.gm.Q, fun _ _ => 0⟩ (o.bz.addresses k)

/-- C118: the wave vectors of a grid object are exactly those of the grid of its matrix and shift,
up to reciprocal lattice vectors; indices are equivalent exactly when the table `bzg2grg` says
so; and there are `|det A|` inequivalent ones. -/
theorem C118_qpoints (env : GridEnv K) (reduce : RM K → RM K) (mesh : MeshArg K) (lattice : RM K)
    (ds : Option (SymDataset K)) (tmat : Option (RM K)) (S : Option V3) (tr useGrg force : Bool)
    (c : SnfCoordinates) (dense : Bool) (init : BZGridOut) (o : GridObject K)
    (h : bzGridInit env reduce mesh lattice ds tmat S tr useGrg force c dense init = some o)
    (hD : PosMesh o.gm.D) (hr : ∃ i j, reduce (cofactorRM lattice) i j ≠ 0) :
    (∀ k, 0 ≤ k → k < o.bz.size → OnGrid (matrixOf o.gm) (S.getD ⟨0, 0, 0⟩) (objectQ o k)) ∧
    (∀ q : Fin 3 → K, OnGrid (matrixOf o.gm) (S.getD ⟨0, 0, 0⟩) q →
      ∃ k, 0 ≤ k ∧ k < o.bz.size ∧ EquivalentQ q (objectQ o k)) ∧
    (∀ k l, 0 ≤ k → k < o.bz.size → 0 ≤ l → l < o.bz.size →
      (EquivalentQ (objectQ o k) (objectQ o l) ↔ o.bz.bzg2grg k = o.bz.bzg2grg l)) ∧
    o.gm.D.x * o.gm.D.y * o.gm.D.z = |(matrixOf o.gm).det| := by
  obtain ⟨hm, ho⟩ := bzGridInit_some h
  have F := setMeshNumbers_factorised env mesh lattice ds tmat useGrg force c o.gm hm hD
  obtain ⟨-, hPS, hbz, -⟩ := bzGridObject_some ho
  obtain ⟨Q', hbz⟩ := relocate_some hbz
  have hV := bzGrid_valid _ hD hr dense init o.bz hbz
  have hq : ∀ a, qCoord (⟨o.gm.D, o.PS, o.gm.Q, fun _ _ => 0⟩ : BZInput K) a =
      qCoord ⟨o.gm.D, o.gm.P.mulVec (S.getD ⟨0, 0, 0⟩), o.gm.Q, fun _ _ => 0⟩ a := by rw [hPS]; simp
  refine ⟨fun k _ _ => ?_, fun q hq' => ?_, fun k l k0 k1 l0 l1 => ?_, ?_⟩
  · exact (onGrid_iff F _ _ _).2 ⟨_, hq _⟩
  · obtain ⟨a, rfl⟩ := (onGrid_iff F _ (fun _ _ => 0) _).1 hq'
    have hi := gridIndex_bounds a o.gm.D hD
    obtain ⟨k, hk⟩ := List.exists_mem_of_ne_nil _ (hV.nonempty _ hi.1 hi.2)
    obtain ⟨⟨k0, k1⟩, -, hka⟩ := hV.filed _ hi.1 hi.2 k hk
    refine ⟨k, k0, k1, ?_⟩
    unfold objectQ
    rw [hq]
    exact (equivalentQ_iff F _ _ _ _).2 ((gridIndex_eq_iff _ _ _ hD).1 hka.symm)
  · unfold objectQ
    rw [equivalentQ_iff F, ← (C09_translate _ hD hr dense init o.bz hbz k k0 k1).2.2,
      ← (C09_translate _ hD hr dense init o.bz hbz l l0 l1).2.2]
    exact (gridIndex_eq_iff _ _ _ hD).symm
  · have h1 := congrArg M3.det F.snf
    rw [M3.det_mul, M3.det_mul, F.detP] at h1
    have hd : (M3.diag o.gm.D).det = o.gm.D.x * o.gm.D.y * o.gm.D.z := by simp [M3.diag, M3.det]; ring
    have hpos : 0 < o.gm.D.x * o.gm.D.y * o.gm.D.z := mul_pos (mul_pos hD.1 hD.2.1) hD.2.2
    rw [hd] at h1
    rcases F.detQ with e | e <;> rw [e] at h1
    · rw [← h1, one_mul, mul_one, abs_of_pos (by linarith)]
    · rw [← h1, one_mul, mul_neg_one, abs_of_neg (by linarith)]

/-- C118: the matrix of the grid is the one the user gives, for mesh numbers and, on a primitive
cell, for nine numbers. A matrix that is not diagonal always gives positive mesh numbers. -/
theorem C118_user_matrix (env : GridEnv K) (lattice : RM K) (ds : SymDataset K)
    (tmat : Option (RM K)) (useGrg force : Bool) (c : SnfCoordinates) :
    (∀ m gm, setMeshNumbers env (.numbers m) lattice (some ds) tmat useGrg force c = some gm →
      matrixOf gm = M3.diag m ∧ gm.D = m) ∧
    (env.isPrimitive ds.rotations = true → ∀ A gm,
      setMeshNumbers env (.matrix A) lattice (some ds) tmat useGrg force c = some gm →
      matrixOf gm = A ∧ (A ≠ M3.diag ⟨A.m00, A.m11, A.m22⟩ → PosMesh gm.D)) := by
  refine ⟨fun m gm h => ?_, fun hp A gm h => ?_⟩
  · obtain rfl := Option.some.inj h
    exact ⟨rfl, rfl⟩
  · unfold setMeshNumbers runGrg grgDataset at h
    simp only [hp, if_true] at h
    cases hs : setGrgMesh A force with
    | none => rw [hs] at h; simp at h
    | some g =>
      rw [hs] at h
      simp only [Option.map_some] at h
      obtain rfl := Option.some.inj h
      obtain ⟨h1, -, -, -, h5⟩ := setGrgMesh_some hs
      refine ⟨h1, fun hne => ?_⟩
      refine (h5 ?_).1
      unfold setGrgMesh at hs
      rw [if_neg (fun hc => hne hc.1.symm)] at hs
      split at hs
      · obtain rfl := Option.some.inj hs; rfl
      · simp at hs

end

end Phono3py.Props
