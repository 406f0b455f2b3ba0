/- Lemmas about the Smith normal form routine. -/
import Verif.Model.Snf
import Verif.Lemmas.Unimodular
import Mathlib.Tactic.LinearCombination
import Mathlib.Algebra.Order.Group.Unbundled.Int
import Mathlib.Data.Nat.Log

namespace Phono3py

/-! ### extended_gcd -/

theorem extGcdLoop_inv (a b : Int) : ∀ (n : Nat) (v : GcdVals), v.r1.natAbs ≤ n →
    a * v.s0 + b * v.t0 = v.r0 → a * v.s1 + b * v.t1 = v.r1 →
    a * (extGcdLoop v).s0 + b * (extGcdLoop v).t0 = (extGcdLoop v).r0 ∧
    (extGcdLoop v).r0.natAbs = Int.gcd v.r0 v.r1 := by
  intro n
  induction n with
  | zero =>
    intro v hn h0 h1
    have hz : v.r1 = 0 := by omega
    rw [extGcdLoop_unfold]
    rw [if_pos hz]
    exact ⟨h0, by rw [hz, Int.gcd_zero_right]⟩
  | succ n ih =>
    intro v hn h0 h1
    by_cases hz : v.r1 = 0
    · rw [extGcdLoop_unfold]
      rw [if_pos hz]
      exact ⟨h0, by rw [hz, Int.gcd_zero_right]⟩
    · rw [extGcdLoop_unfold]
      rw [if_neg hz, extGcdStep_eq v hz]
      have hm1 := Int.emod_nonneg v.r0 hz
      have hm2 := Int.emod_lt_abs v.r0 hz
      rw [Int.abs_eq_natAbs] at hm2
      have hd := Int.emod_add_mul_ediv v.r0 v.r1
      obtain ⟨i1, i2⟩ := ih ⟨v.r1, v.r0 % v.r1, v.s1, v.s0 - v.r0 / v.r1 * v.s1,
        v.t1, v.t0 - v.r0 / v.r1 * v.t1⟩ (by simp only; omega) h1
        (by simp only; linear_combination h0 - v.r0 / v.r1 * h1 - hd)
      refine ⟨i1, ?_⟩
      rw [i2]
      simp only
      rw [Int.gcd_comm, Int.gcd_emod]

theorem extGcdLoop_pos : ∀ (n : Nat) (v : GcdVals), v.r1.natAbs ≤ n → 0 < v.r1 →
    0 < (extGcdLoop v).r0 := by
  intro n
  induction n with
  | zero => intro v hn h; omega
  | succ n ih =>
    intro v hn h
    have hz : v.r1 ≠ 0 := by omega
    rw [extGcdLoop_unfold]
    rw [if_neg hz, extGcdStep_eq v hz]
    have hm1 := Int.emod_nonneg v.r0 hz
    have hm2 := Int.emod_lt_of_pos v.r0 h
    rcases Int.lt_or_eq_of_le hm1 with hp | he
    · exact ih _ (by simp only; omega) (by simpa using hp)
    · rw [extGcdLoop_unfold]
      rw [if_pos (by simp only; omega)]
      exact h

/-- Bezout identity asserted at c/snf3x3.c:393, and the gcd. -/
theorem extGcd_spec {a b : Int} (hb : b ≠ 0) :
    ∃ r s t, extGcd a b = some (r, s, t) ∧ r = a * s + b * t ∧ r.natAbs = Int.gcd a b := by
  obtain ⟨h1, h2⟩ := extGcdLoop_inv a b _ ⟨a, b, 1, 0, 0, 1⟩ le_rfl (by simp) (by simp)
  exact ⟨_, _, _, by unfold extGcd; rw [if_neg hb], h1.symm, h2⟩

theorem extGcd_pos {a b : Int} (hb : 0 < b) {r s t : Int} (h : extGcd a b = some (r, s, t)) :
    0 < r := by
  unfold extGcd at h
  rw [if_neg (by omega)] at h
  simp only [Option.some.injEq, Prod.mk.injEq] at h
  rw [← h.1]
  exact extGcdLoop_pos _ _ le_rfl hb

theorem extGcd_of_dvd {a b : Int} (hb : b ≠ 0) (ha : 0 < a) (h1 : a ∣ b) (h2 : ¬ b ∣ a) :
    extGcd a b = some (a, 1, 0) := by
  have hlt : a < |b| := by
    rcases lt_or_ge a |b| with h | h
    · exact h
    · exfalso
      have := Int.le_of_dvd (abs_pos.2 hb) ((dvd_abs a b).2 h1)
      have e : a = |b| := le_antisymm this h
      exact h2 (by rw [e]; exact (dvd_abs b b).2 dvd_rfl)
  have hq : a / b = 0 := Int.ediv_eq_zero_of_lt_abs ha.le hlt
  have hm : a % b = a := by
    have := Int.emod_add_mul_ediv a b
    rw [hq] at this; simpa using this
  unfold extGcd
  rw [if_neg hb]
  have e1 : extGcdLoop ⟨a, b, 1, 0, 0, 1⟩ = extGcdLoop ⟨b, a, 0, 1, 1, 0⟩ := by
    conv_lhs => rw [extGcdLoop_unfold]
    rw [if_neg hb, extGcdStep_eq _ hb]
    simp [hq, hm]
  have e2 : extGcdLoop ⟨b, a, 0, 1, 1, 0⟩ = ⟨a, 0, 1, 0 - b / a, 0, 1⟩ := by
    have ha' : a ≠ 0 := by omega
    rw [extGcdLoop_unfold]
    rw [if_neg ha', extGcdStep_eq _ ha']
    rw [extGcdLoop_unfold]
    rw [if_pos (by simpa using Int.emod_eq_zero_of_dvd h1)]
    simp [Int.emod_eq_zero_of_dvd h1]
  rw [e1, e2]

/-- Two steps of the Euclidean loop at least halve the second remainder. -/
theorem extGcdLoopCapped_eq : ∀ (n : Nat) (v : GcdVals), v.r1 ≠ 0 → 0 < v.r1 →
    v.r1.natAbs < 2 ^ n → extGcdLoopCapped (2 * n) v = extGcdLoop v := by
  intro n
  induction n with
  | zero => intro v h hp hl; simp at hl; omega
  | succ n ih =>
    intro v h hp hl
    rw [show 2 * (n + 1) = (2 * n + 1) + 1 from by ring]
    rw [extGcdLoop_unfold, extGcdLoopCapped]
    rw [if_neg h]
    have hm1 := Int.emod_nonneg v.r0 h
    have hm2 := Int.emod_lt_of_pos v.r0 hp
    by_cases h2 : (extGcdStep v).r1 = 0
    · rw [if_pos h2]; rw [extGcdLoop_unfold]; rw [if_pos h2]
    · rw [if_neg h2]
      rw [extGcdLoop_unfold, extGcdLoopCapped]
      rw [if_neg h2]
      by_cases h3 : (extGcdStep (extGcdStep v)).r1 = 0
      · rw [if_pos h3]; rw [extGcdLoop_unfold]; rw [if_pos h3]
      · rw [if_neg h3]
        have e1 : (extGcdStep v).r1 = v.r0 % v.r1 := by rw [extGcdStep_eq v h]
        have e0 : (extGcdStep v).r0 = v.r1 := by rw [extGcdStep_eq v h]
        have e2 : (extGcdStep (extGcdStep v)).r1 = v.r1 % (v.r0 % v.r1) := by
          rw [extGcdStep_eq _ h2, e1, e0]
        have hp2 : 0 < v.r0 % v.r1 := by omega
        have hm3 := Int.emod_nonneg v.r1 (show v.r0 % v.r1 ≠ 0 by omega)
        have hm4 := Int.emod_lt_of_pos v.r1 hp2
        have hd := Int.emod_add_mul_ediv v.r1 (v.r0 % v.r1)
        have hq : 1 ≤ v.r1 / (v.r0 % v.r1) := by
          rw [Int.le_ediv_iff_mul_le hp2]; omega
        have hhalf : 2 * (v.r1 % (v.r0 % v.r1)) ≤ v.r1 := by nlinarith
        apply ih _ h3 (by omega)
        rw [e2]
        rw [pow_succ] at hl
        omega

/-- The cap of 1000 iterations never takes effect for a 64 bit argument. -/
theorem extGcdCapped_eq (a b : Int) (hb : b.natAbs < 2 ^ 499) : extGcdCapped a b = extGcd a b := by
  unfold extGcdCapped extGcd
  by_cases h : b = 0
  · simp [h]
  · rw [if_neg h, if_neg h]
    have key : extGcdLoopCapped 1000 ⟨a, b, 1, 0, 0, 1⟩ = extGcdLoop ⟨a, b, 1, 0, 0, 1⟩ := by
      rw [extGcdLoop_unfold]
      rw [if_neg h]
      have hm1 := Int.emod_nonneg a h
      have hm2 := Int.emod_lt_abs a h
      rw [Int.abs_eq_natAbs] at hm2
      have hr : (extGcdStep ⟨a, b, 1, 0, 0, 1⟩).r1 = a % b := by rw [extGcdStep_eq _ h]
      have aux : ∀ n, 2 * 499 ≤ n → ∀ v : GcdVals, 0 < v.r1 → v.r1.natAbs < 2 ^ 499 →
          extGcdLoopCapped n v = extGcdLoop v := by
        intro n hn v hv hv'
        have mono : ∀ m (w : GcdVals), extGcdLoopCapped m w = extGcdLoop w →
            (extGcdLoopCapped m w).r1 = 0 → w.r1 ≠ 0 → extGcdLoopCapped (m + 1) w = extGcdLoop w := by
          intro m
          induction m with
          | zero => intro w h1 h2 h3; simp [extGcdLoopCapped] at h2; omega
          | succ m ih =>
            intro w h1 h2 h3
            rw [extGcdLoopCapped] at h1 h2 ⊢
            by_cases hz : (extGcdStep w).r1 = 0
            · rw [if_pos hz] at h1 ⊢; exact h1
            · rw [if_neg hz] at h1 h2 ⊢
              have : extGcdLoop w = extGcdLoop (extGcdStep w) := by
                conv_lhs => rw [extGcdLoop_unfold]
                rw [if_neg h3]
              rw [this] at h1 ⊢
              exact ih _ h1 h2 hz
        have fin : ∀ (k : Nat) (w : GcdVals), w.r1.natAbs ≤ k → (extGcdLoop w).r1 = 0 := by
          intro k
          induction k with
          | zero =>
            intro w hw
            rw [extGcdLoop_unfold]; rw [if_pos (by omega)]; omega
          | succ k ih =>
            intro w hw
            by_cases hz : w.r1 = 0
            · rw [extGcdLoop_unfold]; rw [if_pos hz]; exact hz
            · rw [extGcdLoop_unfold]; rw [if_neg hz]
              apply ih
              rw [extGcdStep_eq w hz]
              have h1 := Int.emod_nonneg w.r0 hz
              have h2 := Int.emod_lt_abs w.r0 hz
              rw [Int.abs_eq_natAbs] at h2
              simp only; omega
        induction n, hn using Nat.le_induction with
        | base => exact extGcdLoopCapped_eq 499 v (by omega) hv hv'
        | succ n hn ih =>
          exact mono n v ih (by rw [ih]; exact fin _ v le_rfl) (by omega)
      rw [show (1000 : Nat) = 999 + 1 from rfl, extGcdLoopCapped]
      by_cases hz : (extGcdStep ⟨a, b, 1, 0, 0, 1⟩).r1 = 0
      · rw [if_pos hz]; rw [extGcdLoop_unfold]; rw [if_pos hz]
      · rw [if_neg hz]
        exact aux 999 (by norm_num) _ (by omega) (by omega)
    rw [key]

/-! ### elementary matrices -/

/-- Row operations by one unimodular matrix. -/
def RowStep (s s' : AP) : Prop :=
  ∃ U : M3, U.det.natAbs = 1 ∧ s'.A = U.mul s.A ∧ s'.P = U.mul s.P

theorem RowStep.refl (s : AP) : RowStep s s :=
  ⟨M3.one, by decide, (M3.one_mul _).symm, (M3.one_mul _).symm⟩

theorem RowStep.trans {s t u : AP} (h : RowStep s t) (k : RowStep t u) : RowStep s u := by
  obtain ⟨U, hU, a1, p1⟩ := h
  obtain ⟨V, hV, a2, p2⟩ := k
  exact ⟨V.mul U, by rw [M3.det_mul, Int.natAbs_mul, hU, hV],
    by rw [a2, a1, M3.mul_assoc], by rw [p2, p1, M3.mul_assoc]⟩

theorem rowStep_left (s : AP) (L : M3) (h : L.det.natAbs = 1) : RowStep s (s.left L) :=
  ⟨L, h, rfl, rfl⟩

/-- The pivot of a column that is otherwise zero divides the column it came from. -/
theorem RowStep.dvd_column {s t : AP} (h : RowStep s t) (h1 : t.A.m10 = 0) (h2 : t.A.m20 = 0) :
    t.A.m00 ∣ s.A.m00 ∧ t.A.m00 ∣ s.A.m10 ∧ t.A.m00 ∣ s.A.m20 := by
  obtain ⟨U, hU, a, _⟩ := h
  obtain ⟨i1, _⟩ := M3.cofactorsDiv_mul U hU
  have e : s.A = (U.cofactorsDiv U.det).mul t.A := by
    rw [a, ← M3.mul_assoc, i1, M3.one_mul]
  generalize U.cofactorsDiv U.det = V at e
  rw [e]
  refine ⟨⟨V.m00, ?_⟩, ⟨V.m10, ?_⟩, ⟨V.m20, ?_⟩⟩ <;> simp only [M3.mul, h1, h2] <;> ring

/-- The data of one elimination step. -/
theorem elim_facts {a b r s t : Int} (hb : b ≠ 0) (h : extGcd a b = some (r, s, t)) :
    r ≠ 0 ∧ ∃ u v : Int, cdiv (-b) r = some u ∧ cdiv a r = some v ∧
      s * v - t * u = 1 ∧ u * a + v * b = 0 ∧ s * a + t * b = r ∧ u * r = -b ∧ v * r = a := by
  obtain ⟨r', s', t', h', e1, e2⟩ := extGcd_spec (a := a) hb
  rw [h] at h'
  simp only [Option.some.injEq, Prod.mk.injEq] at h'
  obtain ⟨rfl, rfl, rfl⟩ := h'
  have hr : r ≠ 0 := by
    intro hr
    have : Int.gcd a b = 0 := by rw [← e2, hr]; rfl
    rw [Int.gcd_eq_zero_iff] at this
    exact hb this.2
  have da : r ∣ a := by
    rw [← Int.natAbs_dvd, e2]; exact Int.gcd_dvd_left ..
  have db : r ∣ b := by
    rw [← Int.natAbs_dvd, e2]; exact Int.gcd_dvd_right ..
  refine ⟨hr, (-b).tdiv r, a.tdiv r, by simp [cdiv, hr], by simp [cdiv, hr], ?_⟩
  have eu : (-b).tdiv r * r = -b := Int.tdiv_mul_cancel ((Int.dvd_neg).2 db)
  have ev : a.tdiv r * r = a := Int.tdiv_mul_cancel da
  generalize (-b).tdiv r = u at *
  generalize a.tdiv r = v at *
  have h1 : r * (s * v - t * u - 1) = 0 := by
    linear_combination s * ev - t * eu - e1
  have h2 : r * (u * a + v * b) = 0 := by
    linear_combination a * eu + b * ev
  rcases mul_eq_zero.1 h1 with h | h
  · exact absurd h hr
  rcases mul_eq_zero.1 h2 with h' | h'
  · exact absurd h' hr
  exact ⟨by linarith, h', by linarith, eu, ev⟩

theorem zeroFirst1_spec (s : AP) : ∃ t, zeroFirst1 s = some t ∧ RowStep s t ∧ t.A.m10 = 0 ∧
    t.A.m20 = s.A.m20 ∧ (s.A.m00 ≠ 0 → t.A.m00 ≠ 0) := by
  unfold zeroFirst1
  by_cases h : s.A.m10 ≠ 0
  · rw [if_pos h]
    obtain ⟨r, x, y, hg, _, _⟩ := extGcd_spec (a := s.A.m00) h
    obtain ⟨hr, u, v, hu, hv, d, z, p, _, _⟩ := elim_facts h hg
    rw [hg]
    simp only [Option.bind_eq_bind, Option.bind_some, setZero01, hu, hv]
    refine ⟨_, rfl, rowStep_left _ _ ?_, ?_, ?_, ?_⟩
    · have : M3.det ⟨x, y, 0, u, v, 0, 0, 0, 1⟩ = 1 := by simp only [M3.det]; linarith
      rw [this]; rfl
    · simp only [AP.left, M3.mul]; linarith
    · simp only [AP.left, M3.mul]; ring
    · intro _; simp only [AP.left, M3.mul]
      rw [show x * s.A.m00 + y * s.A.m10 + 0 * s.A.m20 = r by linarith]; exact hr
  · rw [if_neg h]
    push Not at h
    exact ⟨s, rfl, RowStep.refl s, h, rfl, id⟩

theorem zeroFirst2_spec (s : AP) : ∃ t, zeroFirst2 s = some t ∧ RowStep s t ∧ t.A.m20 = 0 ∧
    t.A.m10 = s.A.m10 ∧ (s.A.m00 ≠ 0 → t.A.m00 ≠ 0) := by
  unfold zeroFirst2
  by_cases h : s.A.m20 ≠ 0
  · rw [if_pos h]
    obtain ⟨r, x, y, hg, _, _⟩ := extGcd_spec (a := s.A.m00) h
    obtain ⟨hr, u, v, hu, hv, d, z, p, _, _⟩ := elim_facts h hg
    rw [hg]
    simp only [Option.bind_eq_bind, Option.bind_some, setZero02, hu, hv]
    refine ⟨_, rfl, rowStep_left _ _ ?_, ?_, ?_, ?_⟩
    · have : M3.det ⟨x, 0, y, 0, 1, 0, u, 0, v⟩ = 1 := by simp only [M3.det]; linarith
      rw [this]; rfl
    · simp only [AP.left, M3.mul]; linarith
    · simp only [AP.left, M3.mul]; ring
    · intro _; simp only [AP.left, M3.mul]
      rw [show x * s.A.m00 + 0 * s.A.m10 + y * s.A.m20 = r by linarith]; exact hr
  · rw [if_neg h]
    push Not at h
    exact ⟨s, rfl, RowStep.refl s, h, rfl, id⟩

theorem firstColumn_spec (s : AP) (hne : ¬ (s.A.m00 = 0 ∧ s.A.m10 = 0 ∧ s.A.m20 = 0)) :
    ∃ t, firstColumn s = some t ∧ RowStep s t ∧ t.A.m10 = 0 ∧ t.A.m20 = 0 ∧ t.A.m00 ≠ 0 := by
  have key : ∀ s' : AP, RowStep s s' → s'.A.m00 ≠ 0 →
      ∃ t, (do let s ← zeroFirst1 s'; zeroFirst2 s) = some t ∧ RowStep s t ∧ t.A.m10 = 0 ∧
        t.A.m20 = 0 ∧ t.A.m00 ≠ 0 := by
    intro s' hs' h0
    obtain ⟨t1, e1, r1, z1, _, n1⟩ := zeroFirst1_spec s'
    obtain ⟨t2, e2, r2, z2, k2, n2⟩ := zeroFirst2_spec t1
    exact ⟨t2, by rw [e1]; exact e2, (hs'.trans r1).trans r2, by rw [k2, z1], z2, n2 (n1 h0)⟩
  unfold firstColumn searchFirstPivot
  by_cases h0 : s.A.m00 ≠ 0
  · rw [if_pos h0]
    exact key s (RowStep.refl s) h0
  · rw [if_neg h0]
    by_cases h1 : s.A.m10 ≠ 0
    · rw [if_pos h1]
      exact key _ (rowStep_left s swap01 (by decide)) (by simpa [AP.left, M3.mul, swap01] using h1)
    · rw [if_neg h1]
      have h2 : s.A.m20 ≠ 0 := by push Not at h0 h1; intro h2; exact hne ⟨h0, h1, h2⟩
      rw [if_pos h2]
      exact key _ (rowStep_left s swap02 (by decide)) (by simpa [AP.left, M3.mul, swap02] using h2)

/-- On an already reduced column the routine does nothing. -/
theorem firstColumn_id (s : AP) (h0 : s.A.m00 ≠ 0) (h1 : s.A.m10 = 0) (h2 : s.A.m20 = 0) :
    firstColumn s = some s := by
  unfold firstColumn searchFirstPivot
  rw [if_pos h0]
  simp [zeroFirst1, zeroFirst2, h1, h2]

theorem secondColumn_spec (s : AP) (hne : ¬ (s.A.m11 = 0 ∧ s.A.m21 = 0))
    (hc1 : s.A.m10 = 0) (hc2 : s.A.m20 = 0) :
    ∃ t, secondColumn s = some t ∧ RowStep s t ∧ t.A.m21 = 0 ∧ t.A.m11 ≠ 0 ∧
      t.A.m10 = 0 ∧ t.A.m20 = 0 ∧ t.A.m00 = s.A.m00 ∧ t.A.m01 = s.A.m01 ∧ t.A.m02 = s.A.m02 ∧
      t.A.m11 ∣ s.A.m11 ∧ t.A.m11 ∣ s.A.m21 := by
  have key : ∀ s' : AP, s'.A.m11 ≠ 0 → s'.A.m10 = 0 → s'.A.m20 = 0 →
      ∃ t, (if s'.A.m21 ≠ 0 then do
          let (r, x, y) ← extGcd s'.A.m11 s'.A.m21
          let L ← setZero12 s'.A.m11 s'.A.m21 r x y
          some (s'.left L)
        else some s') = some t ∧ RowStep s' t ∧ t.A.m21 = 0 ∧ t.A.m11 ≠ 0 ∧
        t.A.m10 = 0 ∧ t.A.m20 = 0 ∧ t.A.m00 = s'.A.m00 ∧ t.A.m01 = s'.A.m01 ∧
        t.A.m02 = s'.A.m02 ∧ t.A.m11 ∣ s'.A.m11 ∧ t.A.m11 ∣ s'.A.m21 := by
    intro s' h0 z1 z2
    by_cases h : s'.A.m21 ≠ 0
    · rw [if_pos h]
      obtain ⟨r, x, y, hg, _, _⟩ := extGcd_spec (a := s'.A.m11) h
      obtain ⟨hr, u, v, hu, hv, d, z, p, pu, pv⟩ := elim_facts h hg
      rw [hg]
      simp only [Option.bind_eq_bind, Option.bind_some, setZero12, hu, hv]
      have e11 : (s'.left ⟨1, 0, 0, 0, x, y, 0, u, v⟩).A.m11 = r := by
        simp only [AP.left, M3.mul]; linarith
      refine ⟨_, rfl, rowStep_left _ _ ?_, ?_, by rw [e11]; exact hr, ?_, ?_, ?_, ?_, ?_,
        by rw [e11]; exact ⟨v, by linarith⟩, by rw [e11]; exact ⟨-u, by linarith⟩⟩
      · have : M3.det ⟨1, 0, 0, 0, x, y, 0, u, v⟩ = 1 := by simp only [M3.det]; linarith
        rw [this]; rfl
      all_goals simp only [AP.left, M3.mul, z1, z2]
      all_goals first | ring1 | linarith
    · rw [if_neg h]
      push Not at h
      exact ⟨s', rfl, RowStep.refl _, h, h0, z1, z2, rfl, rfl, rfl, dvd_rfl, by rw [h]; exact dvd_zero _⟩
  unfold secondColumn
  by_cases h : s.A.m11 = 0 ∧ s.A.m21 ≠ 0
  · simp only [if_pos h]
    obtain ⟨t, e, r, a1, a2, a3, a4, a5, a6, a7, a8, a9⟩ := key (s.left swap12)
      (by simpa [AP.left, M3.mul, swap12] using h.2)
      (by simp [AP.left, M3.mul, swap12, hc2]) (by simp [AP.left, M3.mul, swap12, hc1])
    refine ⟨t, e, (rowStep_left s swap12 (by decide)).trans r, a1, a2, a3, a4, ?_, ?_, ?_, ?_, ?_⟩
    · rw [a5]; simp [AP.left, M3.mul, swap12]
    · rw [a6]; simp [AP.left, M3.mul, swap12]
    · rw [a7]; simp [AP.left, M3.mul, swap12]
    · simpa [AP.left, M3.mul, swap12] using a9
    · simpa [AP.left, M3.mul, swap12] using a8
  · simp only [if_neg h]
    have h0 : s.A.m11 ≠ 0 := by
      intro h0; by_cases h1 : s.A.m21 = 0
      · exact hne ⟨h0, h1⟩
      · exact h ⟨h0, h1⟩
    exact key s h0 hc1 hc2

theorem secondColumn_id (s : AP) (h : s.A.m21 = 0) : secondColumn s = some s := by
  simp [secondColumn, h]

/-! ### the invariant -/

/-- `A = P A0 Qᵀ` with unimodular `P` and `Q`. -/
def SnfInv (A0 : M3) (s : Snf) : Prop :=
  s.A = (s.P.mul A0).mul s.Q.transpose ∧ s.P.det.natAbs = 1 ∧ s.Q.det.natAbs = 1

theorem M3.transpose_transpose' (a : M3) : a.transpose.transpose = a := rfl

theorem SnfInv.left {A0 : M3} {s : Snf} (h : SnfInv A0 s) {L : M3} (hL : L.det.natAbs = 1) :
    SnfInv A0 ⟨L.mul s.A, L.mul s.P, s.Q⟩ := by
  obtain ⟨a, p, q⟩ := h
  refine ⟨?_, ?_, q⟩
  · simp only; rw [a, ← M3.mul_assoc, ← M3.mul_assoc]
  · simp only [M3.det_mul, Int.natAbs_mul, hL, p]

theorem SnfInv.right {A0 : M3} {s : Snf} (h : SnfInv A0 s) {L : M3} (hL : L.det.natAbs = 1) :
    SnfInv A0 ⟨(L.mul s.A.transpose).transpose, s.P, L.mul s.Q⟩ := by
  obtain ⟨a, p, q⟩ := h
  refine ⟨?_, p, ?_⟩
  · simp only; rw [M3.transpose_mul, M3.transpose_mul, M3.transpose_transpose', a, M3.mul_assoc]
  · simp only [M3.det_mul, Int.natAbs_mul, hL, q]

theorem SnfInv.det_ne {A0 : M3} {s : Snf} (h : SnfInv A0 s) (h0 : A0.det ≠ 0) : s.A.det ≠ 0 := by
  obtain ⟨a, p, q⟩ := h
  rw [a, M3.det_mul, M3.det_mul, M3.det_transpose]
  refine mul_ne_zero (mul_ne_zero ?_ h0) ?_ <;> intro h <;> simp [h] at p q

theorem SnfInv.det_eq {A0 : M3} {s : Snf} (h : SnfInv A0 s) :
    s.A.det.natAbs = A0.det.natAbs := by
  obtain ⟨a, p, q⟩ := h
  rw [a, M3.det_mul, M3.det_mul, M3.det_transpose, Int.natAbs_mul, Int.natAbs_mul, p, q]
  omega

theorem SnfInv.of_loop {A0 : M3} {s : Snf} (h : SnfInv A0 s) {u v : AP}
    (hu : RowStep ⟨s.A, s.P⟩ u) (hv : RowStep ⟨u.A.transpose, s.Q⟩ v) :
    SnfInv A0 ⟨v.A.transpose, u.P, v.P⟩ := by
  obtain ⟨U, dU, au, pu⟩ := hu
  obtain ⟨V, dV, av, pv⟩ := hv
  have h1 := (h.left dU).right dV
  simp only at au pu av pv h1
  rw [av, pv, au, pu]; exact h1

/-- Row and column of the first pivot are zero. -/
def Block (A : M3) : Prop := A.m10 = 0 ∧ A.m20 = 0 ∧ A.m01 = 0 ∧ A.m02 = 0

/-- Diagonal. -/
def IsDiag (A : M3) : Prop :=
  A.m01 = 0 ∧ A.m02 = 0 ∧ A.m10 = 0 ∧ A.m12 = 0 ∧ A.m20 = 0 ∧ A.m21 = 0

theorem firstLoop_spec {A0 : M3} (h0 : A0.det ≠ 0) {s : Snf} (h : SnfInv A0 s) :
    ∃ t, oneLoop firstColumn s = some t ∧ SnfInv A0 t ∧ t.A.m01 = 0 ∧ t.A.m02 = 0 ∧
      t.A.m00 ≠ 0 ∧ t.A.m00 ∣ s.A.m00 ∧ t.A.m00 ∣ s.A.m10 ∧ t.A.m00 ∣ s.A.m20 := by
  have hd := h.det_ne h0
  obtain ⟨u, e1, r1, z1, z2, n1⟩ := firstColumn_spec ⟨s.A, s.P⟩ (by
    rintro ⟨a, b, c⟩; simp only at a b c
    apply hd; simp only [M3.det, a, b, c]; ring)
  obtain ⟨v, e2, r2, y1, y2, n2⟩ := firstColumn_spec ⟨u.A.transpose, s.Q⟩ (by
    rintro ⟨a, b, c⟩; exact n1 a)
  have d1 := r1.dvd_column z1 z2
  have d2 := (r2.dvd_column y1 y2).1
  simp only at d1 d2
  have d3 : v.A.m00 ∣ u.A.m00 := d2
  refine ⟨_, ?_, h.of_loop r1 r2, y1, y2, n2, d3.trans d1.1, d3.trans d1.2.1, d3.trans d1.2.2⟩
  simp only [oneLoop, e1, e2, Option.bind_eq_bind, Option.bind_some]

theorem tmod_eq_zero_iff {a b : Int} : a.tmod b = 0 ↔ b ∣ a :=
  ⟨Int.dvd_of_tmod_eq_zero, Int.tmod_eq_zero_of_dvd⟩

theorem first_spec {A0 : M3} (h0 : A0.det ≠ 0) {s : Snf} (h : SnfInv A0 s) :
    ∃ b t, first s = some (b, t) ∧ SnfInv A0 t ∧ t.A.m01 = 0 ∧ t.A.m02 = 0 ∧ t.A.m00 ≠ 0 ∧
      (t.A.m00 ∣ s.A.m00 ∧ t.A.m00 ∣ s.A.m10 ∧ t.A.m00 ∣ s.A.m20) ∧
      (b = true → Block t.A) ∧
      (b = false → ¬ (t.A.m00 ∣ t.A.m10 ∧ t.A.m00 ∣ t.A.m20)) := by
  obtain ⟨t, e, i, z1, z2, n, d⟩ := firstLoop_spec h0 h
  unfold first
  simp only [e, Option.bind_eq_bind, Option.bind_some]
  by_cases c : t.A.m10 = 0 ∧ t.A.m20 = 0
  · rw [if_pos c]
    exact ⟨true, t, rfl, i, z1, z2, n, d, fun _ => ⟨c.1, c.2, z1, z2⟩, by simp⟩
  · rw [if_neg c]
    simp only [cmod, if_neg n, Option.bind_some, tmod_eq_zero_iff]
    by_cases c2 : t.A.m00 ∣ t.A.m10 ∧ t.A.m00 ∣ t.A.m20
    · rw [if_pos c2]
      simp only [firstFinalize, cdiv, if_neg n, Option.bind_some, Option.bind_eq_bind]
      have e1 : (-t.A.m10).tdiv t.A.m00 * t.A.m00 = -t.A.m10 :=
        Int.tdiv_mul_cancel ((Int.dvd_neg).2 c2.1)
      have e2 : (-t.A.m20).tdiv t.A.m00 * t.A.m00 = -t.A.m20 :=
        Int.tdiv_mul_cancel ((Int.dvd_neg).2 c2.2)
      generalize (-t.A.m10).tdiv t.A.m00 = u at *
      generalize (-t.A.m20).tdiv t.A.m00 = v at *
      refine ⟨true, _, rfl, i.left ?_, ?_, ?_, ?_, ?_, fun _ => ⟨?_, ?_, ?_, ?_⟩, by simp⟩
      · have : M3.det ⟨1, 0, 0, u, 1, 0, v, 0, 1⟩ = 1 := by simp only [M3.det]; ring
        rw [this]; rfl
      all_goals simp only [M3.mul, z1, z2, one_mul, zero_mul, add_zero, mul_zero]
      · exact n
      · exact d
      · linarith
      · linarith
    · rw [if_neg c2]
      exact ⟨false, t, rfl, i, z1, z2, n, d, by simp, fun _ => c2⟩

/-- `first` does nothing to a matrix whose first row and column are already clear. -/
theorem first_block {s : Snf} (h : Block s.A) (hn : s.A.m00 ≠ 0) : first s = some (true, s) := by
  obtain ⟨a, b, c, d⟩ := h
  have e1 : firstColumn ⟨s.A, s.P⟩ = some ⟨s.A, s.P⟩ := firstColumn_id _ hn a b
  have e2 : firstColumn ⟨s.A.transpose, s.Q⟩ = some ⟨s.A.transpose, s.Q⟩ :=
    firstColumn_id _ hn c d
  simp only [first, oneLoop, e1, e2, Option.bind_eq_bind, Option.bind_some,
    M3.transpose_transpose', a, b, and_self, if_true]

theorem second_spec {A0 : M3} (h0 : A0.det ≠ 0) {s : Snf} (h : SnfInv A0 s) (hb : Block s.A) :
    ∃ b t, second s = some (b, t) ∧ SnfInv A0 t ∧ Block t.A ∧ t.A.m00 = s.A.m00 ∧ t.A.m12 = 0 ∧
      t.A.m11 ≠ 0 ∧ (t.A.m11 ∣ s.A.m11 ∧ t.A.m11 ∣ s.A.m21) ∧
      (b = true → IsDiag t.A) ∧ (b = false → ¬ t.A.m11 ∣ t.A.m21) := by
  have hd := h.det_ne h0
  obtain ⟨b1, b2, b3, b4⟩ := hb
  obtain ⟨u, e1, r1, p1, p2, p3, p4, p5, p6, p7, p8, p9⟩ :=
    secondColumn_spec ⟨s.A, s.P⟩ (by
      rintro ⟨a, b⟩; simp only at a b
      apply hd; simp only [M3.det, a, b, b1, b2]; ring) b1 b2
  have p6' : u.A.m01 = 0 := p6.trans b3
  have p7' : u.A.m02 = 0 := p7.trans b4
  obtain ⟨v, e2, r2, q1, q2, q3, q4, q5, q6, q7, q8, q9⟩ :=
    secondColumn_spec ⟨u.A.transpose, s.Q⟩ (by
      rintro ⟨a, b⟩; exact p2 a) p6' p7'
  have eloop : oneLoop secondColumn s = some ⟨v.A.transpose, u.P, v.P⟩ := by
    simp only [oneLoop, e1, e2, Option.bind_eq_bind, Option.bind_some]
  have i := h.of_loop r1 r2
  set t : Snf := ⟨v.A.transpose, u.P, v.P⟩ with ht
  have tb : Block t.A := ⟨q6.trans p3, q7.trans p4, q3, q4⟩
  have t00 : t.A.m00 = s.A.m00 := q5.trans p5
  have t12 : t.A.m12 = 0 := q1
  have t11 : t.A.m11 ≠ 0 := q2
  have d11 : t.A.m11 ∣ u.A.m11 := q8
  have dd : t.A.m11 ∣ s.A.m11 ∧ t.A.m11 ∣ s.A.m21 := ⟨d11.trans p8, d11.trans p9⟩
  unfold second
  simp only [eloop, Option.bind_eq_bind, Option.bind_some]
  by_cases c : t.A.m21 = 0
  · rw [if_pos c]
    exact ⟨true, t, rfl, i, tb, t00, t12, t11, dd,
      fun _ => ⟨tb.2.2.1, tb.2.2.2, tb.1, t12, tb.2.1, c⟩, by simp⟩
  · rw [if_neg c]
    simp only [cmod, if_neg t11, Option.bind_some, tmod_eq_zero_iff]
    by_cases c2 : t.A.m11 ∣ t.A.m21
    · rw [if_pos c2]
      simp only [secondFinalize, cdiv, if_neg t11, Option.bind_some, Option.bind_eq_bind]
      have e1 : (-t.A.m21).tdiv t.A.m11 * t.A.m11 = -t.A.m21 :=
        Int.tdiv_mul_cancel ((Int.dvd_neg).2 c2)
      generalize (-t.A.m21).tdiv t.A.m11 = u at *
      obtain ⟨c1, c2, c3, c4⟩ := tb
      refine ⟨true, _, rfl, i.left ?_, ⟨?_, ?_, ?_, ?_⟩, ?_, ?_, ?_, ?_,
        fun _ => ⟨?_, ?_, ?_, ?_, ?_, ?_⟩, by simp⟩
      · have : M3.det ⟨1, 0, 0, 0, 1, 0, 0, u, 1⟩ = 1 := by simp only [M3.det]; ring
        rw [this]; rfl
      all_goals simp only [M3.mul, c1, c2, c3, c4, t12, one_mul, zero_mul, add_zero, mul_zero,
        zero_add]
      · exact t00
      · exact t11
      · exact dd
      · linarith
    · rw [if_neg c2]
      exact ⟨false, t, rfl, i, tb, t00, t12, t11, dd, by simp, fun _ => c2⟩

theorem second_diag {s : Snf} (h : IsDiag s.A) : second s = some (true, s) := by
  obtain ⟨a, b, c, d, e, f⟩ := h
  have e1 : secondColumn ⟨s.A, s.P⟩ = some ⟨s.A, s.P⟩ := secondColumn_id _ f
  have e2 : secondColumn ⟨s.A.transpose, s.Q⟩ = some ⟨s.A.transpose, s.Q⟩ := secondColumn_id _ d
  simp only [second, oneLoop, e1, e2, Option.bind_eq_bind, Option.bind_some,
    M3.transpose_transpose', f, if_true]

end Phono3py
