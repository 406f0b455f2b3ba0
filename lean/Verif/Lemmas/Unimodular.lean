import Verif.Lemmas.Grid

namespace Phono3py
open Spec

theorem tdiv_unit (n d : Int) (hd : d.natAbs = 1) : n.tdiv d = d * n := by
  rcases Int.natAbs_eq d with h | h <;> rw [hd] at h
  · subst h; simp
  · subst h; simp

theorem M3.cofactorsDiv_mul (a : M3) (h : a.det.natAbs = 1) :
    (a.cofactorsDiv a.det).mul a = M3.one ∧ a.mul (a.cofactorsDiv a.det) = M3.one := by
  have hdd : a.det * a.det = 1 := by
    rcases Int.natAbs_eq a.det with h' | h' <;> rw [h] at h' <;> rw [h'] <;> rfl
  constructor
  · ext <;> simp only [M3.cofactorsDiv, M3.mul, tdiv_unit _ _ h, M3.one] <;>
      unfold M3.det at * <;> first | ring1 | linear_combination hdd
  · ext <;> simp only [M3.cofactorsDiv, M3.mul, tdiv_unit _ _ h, M3.one] <;>
      unfold M3.det at * <;> first | ring1 | linear_combination hdd

/-- Elementwise form of mesh compatibility. -/
theorem meshCompat_iff (D : V3) (R : M3) :
    MeshCompat D R ↔
      (D.x ∣ R.m00 * D.x ∧ D.y ∣ R.m10 * D.x ∧ D.z ∣ R.m20 * D.x) ∧
      (D.x ∣ R.m01 * D.y ∧ D.y ∣ R.m11 * D.y ∧ D.z ∣ R.m21 * D.y) ∧
      (D.x ∣ R.m02 * D.z ∧ D.y ∣ R.m12 * D.z ∧ D.z ∣ R.m22 * D.z) := by
  constructor
  · intro h
    refine ⟨?_, ?_, ?_⟩
    · have := h ⟨D.x, 0, 0⟩ (by simp [MeshTranslation])
      simpa [MeshTranslation, M3.mulVec] using this
    · have := h ⟨0, D.y, 0⟩ (by simp [MeshTranslation])
      simpa [MeshTranslation, M3.mulVec] using this
    · have := h ⟨0, 0, D.z⟩ (by simp [MeshTranslation])
      simpa [MeshTranslation, M3.mulVec] using this
  · rintro ⟨⟨a1, a2, a3⟩, ⟨b1, b2, b3⟩, c1, c2, c3⟩ v ⟨⟨p, hp⟩, ⟨q, hq⟩, ⟨r, hr⟩⟩
    simp only [MeshTranslation, M3.mulVec, hp, hq, hr]
    have comb : ∀ (d u v w A B C P Q R : Int), d ∣ A * P → d ∣ B * Q → d ∣ C * R →
        d ∣ A * (P * u) + B * (Q * v) + C * (R * w) := by
      intro d u v w A B C P Q R h1 h2 h3
      rw [← mul_assoc, ← mul_assoc, ← mul_assoc]
      exact Int.dvd_add (Int.dvd_add (Dvd.dvd.mul_right h1 _) (Dvd.dvd.mul_right h2 _))
        (Dvd.dvd.mul_right h3 _)
    exact ⟨comb _ _ _ _ _ _ _ _ _ _ a1 b1 c1, comb _ _ _ _ _ _ _ _ _ _ a2 b2 c2,
      comb _ _ _ _ _ _ _ _ _ _ a3 b3 c3⟩

/-- The integer matrix `K` with `R D = D K`. -/
theorem exists_conj (D : V3) (hD : PosMesh D) (R : M3) (h : MeshCompat D R) :
    ∃ K : M3, R.mul (M3.diag D) = (M3.diag D).mul K ∧ K.det = R.det := by
  obtain ⟨⟨⟨a, ha⟩, ⟨b, hb⟩, ⟨c, hc⟩⟩, ⟨⟨d, hd⟩, ⟨e, he⟩, ⟨f, hf⟩⟩, ⟨g, hg⟩, ⟨k, hk⟩, ⟨l, hl⟩⟩ :=
    (meshCompat_iff D R).1 h
  have e1 : R.mul (M3.diag D) = (M3.diag D).mul ⟨a, d, g, b, e, k, c, f, l⟩ := by
    ext <;> simp [M3.mul, M3.diag] <;> assumption
  refine ⟨⟨a, d, g, b, e, k, c, f, l⟩, e1, ?_⟩
  have := congrArg M3.det e1
  rw [M3.det_mul, M3.det_mul] at this
  have hd0 : (M3.diag D).det ≠ 0 := by
    have : (M3.diag D).det = D.x * (D.y * D.z) := by simp [M3.diag, M3.det]
    rw [this]
    exact (mul_pos hD.1 (mul_pos hD.2.1 hD.2.2)).ne'
  rw [mul_comm] at this
  exact (mul_left_cancel₀ hd0 this).symm

theorem meshTranslation_iff (D v : V3) :
    MeshTranslation D v ↔ ∃ w, v = (M3.diag D).mulVec w := by
  constructor
  · rintro ⟨⟨p, hp⟩, ⟨q, hq⟩, ⟨r, hr⟩⟩
    exact ⟨⟨p, q, r⟩, by ext <;> simp [M3.mulVec, M3.diag, hp, hq, hr]⟩
  · rintro ⟨w, rfl⟩
    simp [MeshTranslation, M3.mulVec, M3.diag]

theorem meshCompat_inverse {D : V3} (hD : PosMesh D) {R R' : M3} (h : MeshCompat D R)
    (hdet : R.det.natAbs = 1) (hinv : R'.mul R = M3.one) : MeshCompat D R' := by
  obtain ⟨K, hK, hKd⟩ := exists_conj D hD R h
  have hKu : K.det.natAbs = 1 := by rw [hKd]; exact hdet
  obtain ⟨-, k2⟩ := M3.cofactorsDiv_mul K hKu
  set K' := K.cofactorsDiv K.det
  -- R' D = D K'
  have e : R'.mul (M3.diag D) = (M3.diag D).mul K' := by
    calc R'.mul (M3.diag D) = (R'.mul (M3.diag D)).mul (K.mul K') := by rw [k2, M3.mul_one]
      _ = R'.mul (((M3.diag D).mul K).mul K') := by simp only [M3.mul_assoc]
      _ = R'.mul ((R.mul (M3.diag D)).mul K') := by rw [hK]
      _ = (R'.mul R).mul ((M3.diag D).mul K') := by simp only [M3.mul_assoc]
      _ = _ := by rw [hinv, M3.one_mul]
  intro v hv
  obtain ⟨w, rfl⟩ := (meshTranslation_iff D v).1 hv
  rw [meshTranslation_iff]
  exact ⟨K'.mulVec w, by rw [← M3.mul_mulVec, e, M3.mul_mulVec]⟩

theorem shiftCompat_iff (PS : V3) (R : M3) :
    ShiftCompat PS R ↔ ∃ w, R.mulVec PS - PS = V3.smul 2 w := by
  constructor
  · intro h; exact ⟨shiftOf R PS, (shiftOf_spec h).symm⟩
  · rintro ⟨w, hw⟩
    rw [V3.ext_iff] at hw
    exact ⟨⟨_, hw.1⟩, ⟨_, hw.2.1⟩, ⟨_, hw.2.2⟩⟩

theorem shiftCompat_inverse {PS : V3} {R R' : M3} (h : ShiftCompat PS R)
    (hinv : R'.mul R = M3.one) : ShiftCompat PS R' := by
  obtain ⟨w, hw⟩ := (shiftCompat_iff PS R).1 h
  rw [shiftCompat_iff]
  refine ⟨-(R'.mulVec w), ?_⟩
  have h1 : R'.mulVec (R.mulVec PS - PS) = R'.mulVec (V3.smul 2 w) := by rw [hw]
  rw [M3.mulVec_sub, ← M3.mul_mulVec, hinv, M3.one_mulVec, M3.mulVec_smul] at h1
  have : R'.mulVec PS - PS = -(PS - R'.mulVec PS) := by ext <;> simp
  rw [this, h1]
  ext <;> simp

/-- `_satisfy_shift_symmetry` implies preservation of the transformed shift. -/
theorem satisfyShift_compat (P : M3) (S : V3) (rots : List M3)
    (h : satisfyShiftSymmetry P S rots = some true) :
    ∀ R ∈ rots, ShiftCompat (P.mulVec S) R := by
  unfold satisfyShiftSymmetry M3.inverseUnimodular at h
  by_cases hdet : P.det.natAbs = 1
  · simp only [hdet, bne_self_eq_false] at h
    have hinv := (M3.cofactorsDiv_mul P hdet).2
    set Pinv := P.cofactorsDiv P.det
    split at h <;> rename_i heq
    · simp at heq
    · simp only [Bool.false_eq_true, if_false, Option.some.injEq] at heq
      subst heq
      split at h
      · simp only [Option.some.injEq, List.all_eq_true, decide_eq_true_eq] at h
        intro R hR
        obtain ⟨h1, h2, h3⟩ := h R hR
        rw [Int.fmod_eq_emod_of_nonneg _ (by decide)] at h1 h2 h3
        rw [shiftCompat_iff]
        set T := (Pinv.mul (R.mul P)).mulVec S with hT
        have hPT : P.mulVec T = R.mulVec (P.mulVec S) := by
          rw [hT, ← M3.mul_mulVec, ← M3.mul_assoc, hinv, M3.one_mul, M3.mul_mulVec]
        have hw : T - S = V3.smul 2 ⟨(T.x - S.x) / 2, (T.y - S.y) / 2, (T.z - S.z) / 2⟩ := by
          ext <;> simp <;> omega
        refine ⟨P.mulVec ⟨(T.x - S.x) / 2, (T.y - S.y) / 2, (T.z - S.z) / 2⟩, ?_⟩
        rw [← M3.mulVec_smul, ← hw, M3.mulVec_sub, hPT]
      · simp at h
  · simp [hdet, bne] at h

end Phono3py
