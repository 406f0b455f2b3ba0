/-
Property theorem C119: the symmetry operations of a grid object.
-/
import Verif.Props.GridObject
import Verif.Lemmas.Transform
import Verif.Lemmas.Triplet

namespace Phono3py.Props
open Phono3py Phono3py.Spec

section
variable {K : Type _} [Field K] [LinearOrder K] [IsStrictOrderedRing K]
variable {gm : GridMatrixOut}

/-- The grid rotation of `R` written without division. -/
def TransformsTo (gm : GridMatrixOut) (R t : M3) : Prop :=
  ∀ i j, t.e i j * gm.D.e j =
    gm.D.e i * ((gm.Q.cofactorsDiv gm.Q.det).mul (R.mul gm.Q)).e i j

theorem transform_iff (F : Factorised gm) (hlt : ∀ i, gm.D.e i < 100000) (R t : M3) :
    transformRotation gm.D gm.Q R = some t ↔ TransformsTo gm R t := by
  have hQ := unimodular_det F.detQ
  constructor
  · intro h
    exact transformRotation_exact gm.D F.pos hlt gm.Q R t hQ h
  · intro h
    cases hs : transformRotation gm.D gm.Q R with
    | none =>
      obtain ⟨i, j, hij⟩ := (transformRotation_none _ _ _).1 hs
      have := hij (t.e i j)
      rw [scaledSimilar_eq _ _ _ hQ] at this
      have hd : (gm.D.e j : ℚ) ≠ 0 := by exact_mod_cast (V3.e_pos F.pos j).ne'
      have e : (((gm.Q.cofactorsDiv gm.Q.det).mul (R.mul gm.Q)).e i j : ℚ) * (gm.D.e i : ℚ) /
          (gm.D.e j : ℚ) = (t.e i j : ℚ) := by
        rw [div_eq_iff hd]
        have := h i j
        have h2 : ((t.e i j * gm.D.e j : Int) : ℚ) = _ := congrArg (fun z : Int => (z : ℚ)) this
        push_cast at h2
        rw [h2, mul_comm]
      rw [e, sub_self, abs_zero] at this
      exact absurd this (by unfold identityTol; norm_num)
    | some t' =>
      have h' := transformRotation_exact gm.D F.pos hlt gm.Q R t' hQ hs
      congr 1
      refine M3.ext_e fun i j => ?_
      have := (h' i j).trans (h i j).symm
      exact mul_right_cancel₀ (V3.e_pos F.pos j).ne' this

theorem transformsTo_mul (R t : M3) (h : TransformsTo gm R t) :
    t.mul (M3.diag gm.D) = (M3.diag gm.D).mul ((gm.Q.cofactorsDiv gm.Q.det).mul (R.mul gm.Q)) := by
  refine M3.ext_e fun i j => ?_
  have := h i j
  revert this
  generalize ((gm.Q.cofactorsDiv gm.Q.det).mul (R.mul gm.Q)) = N
  intro this
  simp only [M3.mul_e]
  fin_cases i <;> fin_cases j <;> simp [M3.diag, M3.e, V3.e] at this ⊢ <;> linarith

theorem smul_e (c : Int) (v : V3) (i : Fin 3) : (V3.smul c v).e i = c * v.e i := by
  fin_cases i <;> rfl

theorem sub_e (v w : V3) (i : Fin 3) : (v - w).e i = v.e i - w.e i := by
  fin_cases i <;> rfl

theorem v3_ext_e {v w : V3} (h : ∀ i, v.e i = w.e i) : v = w := by
  ext
  · exact h 0
  · exact h 1
  · exact h 2

/-- An operation keeps the grid exactly when it has an integer matrix on addresses that respects
the shift. -/
theorem keepsGrid_iff (F : Factorised gm) (S : V3) (R : M3) :
    KeepsGrid K (matrixOf gm) S R ↔ ∃ t, TransformsTo gm R t ∧ ShiftCompat (gm.P.mulVec S) t := by
  obtain ⟨q1, q2⟩ := M3.cofactorsDiv_mul gm.Q (unimodular_det F.detQ)
  have hdK (i : Fin 3) : (gm.D.e i : K) ≠ 0 := by exact_mod_cast (V3.e_pos F.pos i).ne'
  set Qi := gm.Q.cofactorsDiv gm.Q.det with hQi
  set PS := gm.P.mulVec S with hPS
  have hPA : gm.P.mul (matrixOf gm) = (M3.diag gm.D).mul Qi := by
    rw [← F.snf, M3.mul_assoc, q2, M3.mul_one]
  -- the rotated q-point of an address, in half-grid units
  have key (a : V3) : intApply (gm.P.mul (matrixOf gm)) (intApply R
        (qCoord (⟨gm.D, PS, gm.Q, fun _ _ => 0⟩ : BZInput K) a)) =
      intApply ((M3.diag gm.D).mul (Qi.mul (R.mul gm.Q)))
        (fun i => ((a.e i : K) + (PS.e i : K) / 2) / (gm.D.e i : K)) := by
    have e : qCoord (⟨gm.D, PS, gm.Q, fun _ _ => 0⟩ : BZInput K) a =
        intApply gm.Q (fun i => ((a.e i : K) + (PS.e i : K) / 2) / (gm.D.e i : K)) := rfl
    rw [e, hPA, ← intApply_mul, ← intApply_mul]
    simp only [M3.mul_assoc]
  constructor
  · intro h
    -- images of the origin and of the three unit addresses
    have img (a : V3) : ∃ c : V3, intApply ((M3.diag gm.D).mul (Qi.mul (R.mul gm.Q)))
        (fun i => ((a.e i : K) + (PS.e i : K) / 2) / (gm.D.e i : K)) =
        fun i => (c.e i : K) + (PS.e i : K) / 2 := by
      have h1 := h _ ((onGrid_iff F S (fun _ _ => 0) _).2 ⟨a, rfl⟩)
      obtain ⟨c, hc⟩ := (onGrid_iff F S (fun _ _ => 0) _).1 h1
      refine ⟨c, ?_⟩
      rw [← key, hc]
      exact apply_qCoord F S c _
    obtain ⟨c0, h0⟩ := img ⟨0, 0, 0⟩
    obtain ⟨c1, h1⟩ := img ⟨1, 0, 0⟩
    obtain ⟨c2, h2⟩ := img ⟨0, 1, 0⟩
    obtain ⟨c3, h3⟩ := img ⟨0, 0, 1⟩
    have e0 (v : V3) : v.e 0 = v.x := rfl
    have e1 (v : V3) : v.e 1 = v.y := rfl
    have e2 (v : V3) : v.e 2 = v.z := rfl
    let cs : Fin 3 → V3 := ![c1, c2, c3]
    let t : M3 := M3.ofFn fun i j => (cs j).e i - c0.e i
    have ht : TransformsTo gm R t := by
      intro i j
      set N := (Qi.mul (R.mul gm.Q)) with hN
      have hM : (((M3.diag gm.D).mul N).e i j : K) / (gm.D.e j : K) = ((cs j).e i : K) - (c0.e i : K) := by
        have a0 := congrFun h0 i
        have a1 := congrFun h1 i
        have a2 := congrFun h2 i
        have a3 := congrFun h3 i
        simp only [intApply, e0, e1, e2] at a0 a1 a2 a3
        fin_cases j
        · show (((M3.diag gm.D).mul N).e i 0 : K) / (gm.D.x : K) = (c1.e i : K) - _
          push_cast at a0 a1
          linear_combination a1 - a0
        · show (((M3.diag gm.D).mul N).e i 1 : K) / (gm.D.y : K) = (c2.e i : K) - _
          push_cast at a0 a2
          linear_combination a2 - a0
        · show (((M3.diag gm.D).mul N).e i 2 : K) / (gm.D.z : K) = (c3.e i : K) - _
          push_cast at a0 a3
          linear_combination a3 - a0
      have hdiag : ((M3.diag gm.D).mul N).e i j = gm.D.e i * N.e i j := by
        rw [M3.mul_e]; fin_cases i <;> simp [M3.diag, M3.e, V3.e]
      rw [hdiag, div_eq_iff (hdK j)] at hM
      have e : t.e i j = (cs j).e i - c0.e i := M3.ofFn_e _ i j
      rw [e]
      have : (((cs j).e i - c0.e i) * gm.D.e j : K) = ((gm.D.e i * N.e i j : Int) : K) := hM.symm
      exact_mod_cast this
    refine ⟨t, ht, (shiftCompat_iff _ _).2 ⟨c0, ?_⟩⟩
    have e := transformsTo_mul R t ht
    rw [← hQi] at e
    rw [← e, intApply_mul, intApply_diag] at h0
    have h5 : intApply t (fun i => (1 / 2 : K) * (PS.e i : K)) = fun i => (c0.e i : K) + (PS.e i : K) / 2 := by
      rw [← h0]
      congr 1
      funext i
      have := hdK i
      have z : (⟨0, 0, 0⟩ : V3).e i = 0 := by fin_cases i <;> rfl
      rw [z]
      push_cast
      field_simp
      ring
    rw [intApply_smul, intApply_int] at h5
    refine v3_ext_e fun i => ?_
    have h6 := congrFun h5 i
    simp only at h6
    rw [sub_e, smul_e]
    have h7 : (((t.mulVec PS).e i - PS.e i : Int) : K) = ((2 * c0.e i : Int) : K) := by
      push_cast; linarith
    exact_mod_cast h7
  · rintro ⟨t, ht, hs⟩ q hq
    obtain ⟨a, rfl⟩ := (onGrid_iff F S (fun _ _ => 0) _).1 hq
    obtain ⟨w, hw⟩ := (shiftCompat_iff _ _).1 hs
    refine (onGrid_iff F S (fun _ _ => 0) _).2 ⟨t.mulVec a + w, eq_qCoord F S _ _ _ ?_⟩
    have e := transformsTo_mul R t ht
    rw [← hQi] at e
    rw [← hPS, key, ← e, intApply_mul, intApply_diag]
    have hx : (fun i => (gm.D.e i : K) * (((a.e i : K) + (PS.e i : K) / 2) / (gm.D.e i : K))) =
        fun i => (a.e i : K) + (1 / 2 : K) * (PS.e i : K) := by
      funext i; have := hdK i; field_simp
    rw [hx, intApply_add, intApply_smul, intApply_int, intApply_int]
    funext i
    have hwi : (t.mulVec PS).e i - PS.e i = 2 * w.e i := by
      rw [← sub_e, hw, smul_e]
    have hwK : ((t.mulVec PS).e i : K) - (PS.e i : K) = 2 * (w.e i : K) := by exact_mod_cast hwi
    have ha : (t.mulVec a + w).e i = (t.mulVec a).e i + w.e i := by fin_cases i <;> rfl
    simp only [ha]
    push_cast
    linarith

/-- `_satisfy_shift_symmetry`, both directions. -/
theorem satisfyShift_iff (P : M3) (hP : P.det = 1) (S : V3) (rots : List M3) :
    satisfyShiftSymmetry P S rots = some true ↔ ∀ R ∈ rots, ShiftCompat (P.mulVec S) R := by
  refine ⟨satisfyShift_compat P S rots, fun h => ?_⟩
  have hn : P.det.natAbs = 1 := by rw [hP]; rfl
  obtain ⟨p1, p2⟩ := M3.cofactorsDiv_mul P hn
  have hd : (P.cofactorsDiv P.det).det = 1 := by
    have := congrArg M3.det p1
    rw [M3.det_mul, hP, mul_one] at this
    rw [hP, this]; decide
  unfold satisfyShiftSymmetry M3.inverseUnimodular
  simp only [hn, bne_self_eq_false, Bool.false_eq_true, if_false]
  rw [if_pos hd]
  simp only [Option.some.injEq, List.all_eq_true, decide_eq_true_eq]
  intro R hR
  obtain ⟨w, hw⟩ := (shiftCompat_iff _ _).1 (h R hR)
  have e : ((P.cofactorsDiv P.det).mul (R.mul P)).mulVec S - S = V3.smul 2 ((P.cofactorsDiv P.det).mulVec w) := by
    rw [← M3.mulVec_smul, ← hw, M3.mulVec_sub, ← M3.mul_mulVec (P.cofactorsDiv P.det) P, p1, M3.one_mulVec,
      M3.mul_mulVec, M3.mul_mulVec]
  rw [V3.ext_iff] at e
  simp at e
  obtain ⟨e1, e2, e3⟩ := e
  rw [Int.fmod_eq_emod_of_nonneg _ (by decide), Int.fmod_eq_emod_of_nonneg _ (by decide),
    Int.fmod_eq_emod_of_nonneg _ (by decide)]
  omega

/-- Constructing the rotations of a grid fails exactly when some of the operations does not carry
the grid, with its shift, to itself. -/
theorem setRotations_iff (F : Factorised gm) (hlt : ∀ i, gm.D.e i < 100000)
    (rots : Option (List M3)) (tr : Bool) (S : Option V3) :
    (∃ out, setRotations gm rots tr S = some out) ↔
      ∀ R ∈ (reciprocalPointGroup (rots.getD [M3.one]) tr true).getD [],
        KeepsGrid K (matrixOf gm) (S.getD ⟨0, 0, 0⟩) R := by
  unfold setRotations
  simp only
  generalize (reciprocalPointGroup (rots.getD [M3.one]) tr true).getD [] = ops
  simp only [keepsGrid_iff F]
  cases ht : transformRotations gm.D gm.Q ops with
  | none =>
    simp only [reduceCtorEq, exists_false, false_iff]
    obtain ⟨R, hR, e⟩ := (transformRotations_none _ _ _).1 ht
    intro h
    obtain ⟨t, h1, -⟩ := h R hR
    rw [(transform_iff F hlt R t).2 h1] at e
    simp at e
  | some rs =>
    have hf := transformRotations_some _ _ _ _ ht
    have hall : (∀ t ∈ rs, ShiftCompat (gm.P.mulVec (S.getD ⟨0, 0, 0⟩)) t) ↔
        ∀ R ∈ ops, ∃ t, TransformsTo gm R t ∧ ShiftCompat (gm.P.mulVec (S.getD ⟨0, 0, 0⟩)) t := by
      clear ht
      induction hf with
      | nil => simp
      | cons h1 _ ih =>
        simp only [List.mem_cons, forall_eq_or_imp, ih]
        refine and_congr_left fun _ => ?_
        constructor
        · intro h; exact ⟨_, (transform_iff F hlt _ _).1 h1, h⟩
        · rintro ⟨t, h2, h3⟩
          rw [(transform_iff F hlt _ _).2 h2, Option.some.injEq] at h1
          rwa [← h1]
    rw [← hall]
    cases S with
    | none =>
      have : gm.P.mulVec ((none : Option V3).getD ⟨0, 0, 0⟩) = Z3 := by
        simp [M3.mulVec, Z3]
      rw [this]
      simp only [Option.some.injEq, exists_eq', true_iff]
      exact fun t _ => shiftCompat_zero t
    | some S =>
      rw [Option.getD_some, ← satisfyShift_iff gm.P F.detP]
      cases hs : satisfyShiftSymmetry gm.P S rs with
      | none => simp [hs]
      | some b => cases b <;> simp [hs]

/-- Wave vectors of a grid come with their opposites, so only the rotations of the crystal count. -/
theorem keepsGrid_neg (A : M3) (S : V3) (R : M3) (h : KeepsGrid K A S R) :
    KeepsGrid K A S (M3.negOne.mul R) := by
  intro q hq i
  obtain ⟨n, hn⟩ := h q hq i
  refine ⟨-n - S.e i, ?_⟩
  have e : intApply (M3.negOne.mul R) q = fun j => -(intApply R q j) := by
    rw [intApply_mul]
    funext j; fin_cases j <;> simp [intApply, M3.negOne, M3.e]
  have e2 : intApply A (fun j => -(intApply R q j)) i = -(intApply A (intApply R q) i) := by
    simp only [intApply]; ring
  rw [e, e2, hn]
  push_cast
  ring

theorem ops_keep_iff (A : M3) (S : V3) (rots : List M3) (tr : Bool) (h48 : rots.dedup.length ≤ 48)
    (h24 : tr = true → M3.negOne ∉ rots → rots.dedup.length ≤ 24) :
    (∀ R ∈ (reciprocalPointGroup rots tr true).getD [], KeepsGrid K A S R) ↔
      ∀ r ∈ rots, KeepsGrid K A S r.transpose := by
  cases h : reciprocalPointGroup rots tr true with
  | none =>
    rcases (C06_failure_iff _ _ _).1 h with h1 | ⟨h1, h2, h3⟩
    · omega
    · have := h24 h1 h2; omega
  | some L =>
    have hm := C06_members rots L tr true h
    simp only [if_true] at hm
    simp only [Option.getD_some]
    constructor
    · intro hk r hr
      exact hk _ ((hm _).2 (Or.inl ⟨r, hr, rfl⟩))
    · intro hk R hR
      rcases (hm R).1 hR with ⟨s, hs, rfl⟩ | ⟨-, -, s, hs, rfl⟩
      · exact hk s hs
      · exact keepsGrid_neg A S _ (hk s hs)

variable [FloorRing K]

/-- C119: with the mesh numbers known, building the grid object fails exactly when the grid of the
matrix and shift is not carried to itself by the transpose of some rotation of the crystal. No
shift that breaks the symmetry, and no matrix that does, is ever accepted, and no other is
refused. -/
theorem C119_failure_iff (env : GridEnv K) (hr : ∀ n : Int, env.rint (n : K) = n)
    (reduce : RM K → RM K) (mesh : MeshArg K) (lattice : RM K) (ds : Option (SymDataset K))
    (tmat : Option (RM K)) (S : Option V3) (tr useGrg force : Bool) (c : SnfCoordinates)
    (dense : Bool) (init : BZGridOut) (gm : GridMatrixOut)
    (hg : setMeshNumbers env mesh lattice ds tmat useGrg force c = some gm) (hD : PosMesh gm.D)
    (hlt : ∀ i, gm.D.e i < 100000) (hv : cellVolume (cofactorRM lattice) ≠ 0)
    (hsame : SameLattice (cofactorRM lattice) (reduce (cofactorRM lattice)))
    (h48 : ((ds.map (·.rotations)).getD [M3.one]).dedup.length ≤ 48)
    (h24 : tr = true → M3.negOne ∉ (ds.map (·.rotations)).getD [M3.one] →
      ((ds.map (·.rotations)).getD [M3.one]).dedup.length ≤ 24) :
    bzGridInit env reduce mesh lattice ds tmat S tr useGrg force c dense init = none ↔
      ∃ r ∈ (ds.map (·.rotations)).getD [M3.one],
        ¬ KeepsGrid K (matrixOf gm) (S.getD ⟨0, 0, 0⟩) r.transpose := by
  have F := setMeshNumbers_factorised env mesh lattice ds tmat useGrg force c gm hg hD
  have hiff := (setRotations_iff (K := K) F hlt (ds.map (·.rotations)) tr S).trans
    (ops_keep_iff _ _ _ tr h48 h24)
  obtain ⟨out, ho, hn, -⟩ := C117_python env.rint hr (reduce (cofactorRM lattice))
    (cofactorRM lattice) gm.D gm.Q (gridShift gm.P S) hD hv hsame dense init
  have hsome : ∃ bz, out = some bz := by
    cases out with
    | some bz => exact ⟨bz, rfl⟩
    | none =>
      obtain ⟨a, b⟩ := hn.1 rfl
      rcases F.detQ with e | e
      · exact absurd e a
      · exact absurd e b
  obtain ⟨bz, rfl⟩ := hsome
  have hex : (∃ r ∈ (ds.map (·.rotations)).getD [M3.one],
      ¬ KeepsGrid K (matrixOf gm) (S.getD ⟨0, 0, 0⟩) r.transpose) ↔
      ¬ ∃ out, setRotations gm (ds.map (·.rotations)) tr S = some out := by
    rw [hiff]; push Not; rfl
  rw [hex]
  unfold bzGridInit bzGridObject
  simp only [hg, ho]
  cases hs : setRotations gm (ds.map (·.rotations)) tr S with
  | none => simp
  | some p => obtain ⟨a, b⟩ := p; simp

/-- C119: on a grid object that was built, each rotation of the crystal, by its transpose, carries
every wave vector of the grid to a wave vector of the grid up to a reciprocal lattice vector; with
time reversal so does the change of sign. -/
theorem C119_closed (env : GridEnv K) (reduce : RM K → RM K) (mesh : MeshArg K) (lattice : RM K)
    (ds : Option (SymDataset K)) (tmat : Option (RM K)) (S : Option V3) (tr useGrg force : Bool)
    (c : SnfCoordinates) (dense : Bool) (init : BZGridOut) (o : GridObject K)
    (h : bzGridInit env reduce mesh lattice ds tmat S tr useGrg force c dense init = some o)
    (hD : PosMesh o.gm.D) (hlt : ∀ i, o.gm.D.e i < 100000)
    (hr : ∃ i j, reduce (cofactorRM lattice) i j ≠ 0)
    (h48 : ((ds.map (·.rotations)).getD [M3.one]).dedup.length ≤ 48)
    (h24 : tr = true → M3.negOne ∉ (ds.map (·.rotations)).getD [M3.one] →
      ((ds.map (·.rotations)).getD [M3.one]).dedup.length ≤ 24)
    (k : Int) (h0 : 0 ≤ k) (h1 : k < o.bz.size) :
    (∀ r ∈ (ds.map (·.rotations)).getD [M3.one], ∃ l, 0 ≤ l ∧ l < o.bz.size ∧
      EquivalentQ (intApply r.transpose (objectQ o k)) (objectQ o l)) ∧
    (∃ l, 0 ≤ l ∧ l < o.bz.size ∧ EquivalentQ (fun i => -(objectQ o k i)) (objectQ o l)) := by
  obtain ⟨hm, ho⟩ := bzGridInit_some h
  have F := setMeshNumbers_factorised env mesh lattice ds tmat useGrg force c o.gm hm hD
  obtain ⟨-, -, -, hs, -⟩ := bzGridObject_some ho
  have hkeep := ((setRotations_iff (K := K) F hlt (ds.map (·.rotations)) tr S).trans
    (ops_keep_iff _ _ _ tr h48 h24)).1 ⟨_, hs⟩
  obtain ⟨q1, q2, -⟩ := C118_qpoints env reduce mesh lattice ds tmat S tr useGrg force c dense init o
    h hD hr
  refine ⟨fun r hr' => q2 _ (hkeep r hr' _ (q1 k h0 h1)), q2 _ ?_⟩
  have hone : KeepsGrid K (matrixOf o.gm) (S.getD ⟨0, 0, 0⟩) M3.one := by
    intro q hq; rwa [intApply_one]
  have := keepsGrid_neg _ _ _ hone _ (q1 k h0 h1)
  have e : intApply (M3.negOne.mul M3.one) (objectQ o k) = fun i => -(objectQ o k i) := by
    rw [M3.mul_one]
    funext j; fin_cases j <;> simp [intApply, M3.negOne, M3.e]
  rwa [e] at this

/-- C119: the stored integer rotations act on addresses as the reciprocal operations, in the same
order, act on wave vectors: the address `a'` with `2 a' + PS = t (2 a + PS)` exists and has the
rotated wave vector, exactly and not only up to a reciprocal lattice vector. -/
theorem C119_rotations (env : GridEnv K) (reduce : RM K → RM K) (mesh : MeshArg K) (lattice : RM K)
    (ds : Option (SymDataset K)) (tmat : Option (RM K)) (S : Option V3) (tr useGrg force : Bool)
    (c : SnfCoordinates) (dense : Bool) (init : BZGridOut) (o : GridObject K)
    (h : bzGridInit env reduce mesh lattice ds tmat S tr useGrg force c dense init = some o)
    (hD : PosMesh o.gm.D) (hlt : ∀ i, o.gm.D.e i < 100000) :
    o.recOps = (reciprocalPointGroup ((ds.map (·.rotations)).getD [M3.one]) tr true).getD [] ∧
    List.Forall₂ (fun R t => ∀ a : V3, ∃ a' : V3,
      V3.smul 2 a' + o.PS = t.mulVec (V3.smul 2 a + o.PS) ∧
      intApply R (qCoord (⟨o.gm.D, o.PS, o.gm.Q, fun _ _ => 0⟩ : BZInput K) a) =
        qCoord ⟨o.gm.D, o.PS, o.gm.Q, fun _ _ => 0⟩ a') o.recOps o.rotations := by
  obtain ⟨hm, ho⟩ := bzGridInit_some h
  have F := setMeshNumbers_factorised env mesh lattice ds tmat useGrg force c o.gm hm hD
  obtain ⟨-, hPS, -, hs, -⟩ := bzGridObject_some ho
  unfold setRotations at hs
  simp only at hs
  generalize hops : (reciprocalPointGroup ((ds.map (·.rotations)).getD [M3.one]) tr true).getD [] = ops at *
  split at hs
  · simp at hs
  rename_i rs hrs
  have hf := transformRotations_some _ _ _ _ hrs
  have hall : o.recOps = ops ∧ o.rotations = rs ∧ ∀ t ∈ rs, ShiftCompat o.PS t := by
    rw [hPS]
    cases S with
    | none =>
      simp only [Option.some.injEq, Prod.mk.injEq] at hs
      refine ⟨hs.1.symm, hs.2.symm, ?_⟩
      have : o.gm.P.mulVec ((none : Option V3).getD ⟨0, 0, 0⟩) = Z3 := by simp [M3.mulVec, Z3]
      rw [this]
      exact fun t _ => shiftCompat_zero t
    | some S =>
      simp only at hs
      split at hs
      · rename_i e
        simp only [Option.some.injEq, Prod.mk.injEq] at hs
        exact ⟨hs.1.symm, hs.2.symm, satisfyShift_compat _ _ _ e⟩
      · simp at hs
  obtain ⟨e1, e2, e3⟩ := hall
  refine ⟨e1, ?_⟩
  rw [e1, e2]
  have hf2 : List.Forall₂ (fun R t => TransformsTo o.gm R t ∧ ShiftCompat o.PS t) ops rs := by
    clear hrs hs hops e1 e2
    induction hf with
    | nil => exact List.Forall₂.nil
    | cons h1 _ ih =>
      simp only [List.mem_cons, forall_eq_or_imp] at e3
      exact List.Forall₂.cons ⟨(transform_iff F hlt _ _).1 h1, e3.1⟩ (ih e3.2)
  refine hf2.imp fun R t ht a => ?_
  obtain ⟨ht, hsc⟩ := ht
  obtain ⟨w, hw⟩ := (shiftCompat_iff _ _).1 hsc
  obtain ⟨q1, q2⟩ := M3.cofactorsDiv_mul o.gm.Q (unimodular_det F.detQ)
  have hdK (i : Fin 3) : (o.gm.D.e i : K) ≠ 0 := by exact_mod_cast (V3.e_pos F.pos i).ne'
  refine ⟨t.mulVec a + w, ?_, ?_⟩
  · have : V3.smul 2 w = t.mulVec o.PS - o.PS := hw.symm
    have e : V3.smul 2 (t.mulVec a + w) + o.PS = V3.smul 2 (t.mulVec a) + (V3.smul 2 w + o.PS) := by
      ext <;> simp <;> ring
    rw [e, this, M3.mulVec_add, M3.mulVec_smul]
    ext <;> simp
  · rw [hPS]
    refine eq_qCoord F _ _ _ _ ?_
    rw [← hPS]
    have e := transformsTo_mul R t ht
    have hPA : o.gm.P.mul (matrixOf o.gm) = (M3.diag o.gm.D).mul (o.gm.Q.cofactorsDiv o.gm.Q.det) := by
      rw [← F.snf, M3.mul_assoc, q2, M3.mul_one]
    have eq : qCoord (⟨o.gm.D, o.PS, o.gm.Q, fun _ _ => 0⟩ : BZInput K) a =
        intApply o.gm.Q (fun i => ((a.e i : K) + (o.PS.e i : K) / 2) / (o.gm.D.e i : K)) := rfl
    rw [eq, hPA, ← intApply_mul, ← intApply_mul, M3.mul_assoc, M3.mul_assoc, ← e, intApply_mul,
      intApply_diag]
    have hx : (fun i => (o.gm.D.e i : K) * (((a.e i : K) + (o.PS.e i : K) / 2) / (o.gm.D.e i : K))) =
        fun i => (a.e i : K) + (1 / 2 : K) * (o.PS.e i : K) := by
      funext i; have := hdK i; field_simp
    rw [hx, intApply_add, intApply_smul, intApply_int, intApply_int]
    funext i
    have hwi : (t.mulVec o.PS).e i - o.PS.e i = 2 * w.e i := by
      rw [← sub_e, hw, smul_e]
    have hwK : ((t.mulVec o.PS).e i : K) - (o.PS.e i : K) = 2 * (w.e i : K) := by exact_mod_cast hwi
    have ha : (t.mulVec a + w).e i = (t.mulVec a).e i + w.e i := by fin_cases i <;> rfl
    simp only [ha]
    push_cast
    linarith

end

end Phono3py.Props
