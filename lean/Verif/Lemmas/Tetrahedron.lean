/- Weights of the tetrahedron method. -/
import Verif.Spec.Tetrahedron
import Mathlib.Algebra.Order.Field.Basic
import Mathlib.Data.List.Perm.Basic
import Mathlib.Data.List.OfFn
import Mathlib.Tactic.Linarith
import Mathlib.Tactic.Ring
import Mathlib.Tactic.LinearCombination
import Mathlib.Tactic.FieldSimp
import Mathlib.Tactic.FinCases
import Mathlib.Tactic.IntervalCases
import Mathlib.Tactic.Positivity
import Mathlib.Data.Fintype.Basic

set_option linter.unusedSectionVars false

set_option linter.unusedSimpArgs false

namespace Phono3py
open Spec

section
variable {K : Type _} [Field K] [LinearOrder K] [IsStrictOrderedRing K]

/-- Everything there is to know about the sort. -/
theorem sortOmegas_spec (v : Fin 4 → K) :
    ∃ (a b c d : K) (i : Nat), sortOmegas v = (![a, b, c, d], i) ∧ a ≤ b ∧ b ≤ c ∧ c ≤ d ∧
      (∀ x, List.count x [a, b, c, d] = List.count x [v 0, v 1, v 2, v 3]) ∧
      ((i = 0 ∧ a = v 0) ∨ (i = 1 ∧ b = v 0) ∨ (i = 2 ∧ c = v 0) ∨ (i = 3 ∧ d = v 0)) := by
  generalize ha : v 0 = a
  generalize hb : v 1 = b
  generalize hc : v 2 = c
  generalize hd : v 3 = d
  unfold sortOmegas
  simp only [ha, hb, hc, hd]
  by_cases h1 : a > b <;> by_cases h2 : c > d <;> simp only [h1, h2, reduceIte]
  · by_cases h3 : b > d <;> by_cases h4 : a > c <;> simp only [h3, h4, reduceIte, Nat.reduceEqDiff, zero_ne_one, one_ne_zero, OfNat.ofNat_ne_zero, OfNat.ofNat_ne_one, OfNat.zero_ne_ofNat, OfNat.one_ne_ofNat] <;>
      split_ifs <;> first | contradiction | omega |
      refine ⟨_, _, _, _, _, rfl, by linarith, by linarith, by linarith,
        fun x => by (simp only [List.count_cons, List.count_nil]; try ring1), by simp⟩
  · by_cases h3 : b > c <;> by_cases h4 : a > d <;> simp only [h3, h4, reduceIte, Nat.reduceEqDiff, zero_ne_one, one_ne_zero, OfNat.ofNat_ne_zero, OfNat.ofNat_ne_one, OfNat.zero_ne_ofNat, OfNat.one_ne_ofNat] <;>
      split_ifs <;> first | contradiction | omega |
      refine ⟨_, _, _, _, _, rfl, by linarith, by linarith, by linarith,
        fun x => by (simp only [List.count_cons, List.count_nil]; try ring1), by simp⟩
  · by_cases h3 : a > d <;> by_cases h4 : b > c <;> simp only [h3, h4, reduceIte, Nat.reduceEqDiff, zero_ne_one, one_ne_zero, OfNat.ofNat_ne_zero, OfNat.ofNat_ne_one, OfNat.zero_ne_ofNat, OfNat.one_ne_ofNat] <;>
      split_ifs <;> first | contradiction | omega |
      refine ⟨_, _, _, _, _, rfl, by linarith, by linarith, by linarith,
        fun x => by (simp only [List.count_cons, List.count_nil]; try ring1), by simp⟩
  · by_cases h3 : a > c <;> by_cases h4 : b > d <;> simp only [h3, h4, reduceIte, Nat.reduceEqDiff, zero_ne_one, one_ne_zero, OfNat.ofNat_ne_zero, OfNat.ofNat_ne_one, OfNat.zero_ne_ofNat, OfNat.one_ne_ofNat] <;>
      split_ifs <;> first | contradiction | omega |
      refine ⟨_, _, _, _, _, rfl, by linarith, by linarith, by linarith,
        fun x => by (simp only [List.count_cons, List.count_nil]; try ring1), by simp⟩

theorem sortOmegas_sorted (v : Fin 4 → K) : Sorted4 (sortOmegas v).1 := by
  obtain ⟨a, b, c, d, i, e, h1, h2, h3, -, -⟩ := sortOmegas_spec v
  rw [e]
  exact ⟨h1, h2, h3⟩

theorem sortOmegas_perm (v : Fin 4 → K) :
    (List.ofFn (sortOmegas v).1).Perm (List.ofFn v) := by
  obtain ⟨a, b, c, d, i, e, -, -, -, h, -⟩ := sortOmegas_spec v
  rw [e, List.perm_iff_count]
  intro x
  exact h x

theorem sortOmegas_centre (v : Fin 4 → K) :
    ∃ h : (sortOmegas v).2 < 4, (sortOmegas v).1 ⟨(sortOmegas v).2, h⟩ = v 0 := by
  obtain ⟨a, b, c, d, i, e, -, -, -, -, h⟩ := sortOmegas_spec v
  rw [e]
  rcases h with ⟨rfl, h⟩ | ⟨rfl, h⟩ | ⟨rfl, h⟩ | ⟨rfl, h⟩ <;> exact ⟨by simp, by simpa using h⟩

/-! ### The interpolation fractions -/

variable {eps w : K} {v : Fin 4 → K}

theorem thmF_unit {n m : Fin 4} (h : (v m < w ∧ w < v n) ∨ (v n < w ∧ w < v m)) :
    0 ≤ thmF eps n m w v ∧ thmF eps n m w v ≤ 1 := by
  unfold thmF
  simp only
  split_ifs
  · exact ⟨le_rfl, zero_le_one⟩
  · rcases h with ⟨h1, h2⟩ | ⟨h1, h2⟩
    · have hp : 0 < v n - v m := by linarith
      exact ⟨div_nonneg (by linarith) hp.le, (div_le_one hp).2 (by linarith)⟩
    · have hp : v n - v m < 0 := by linarith
      exact ⟨div_nonneg_of_nonpos (by linarith) hp.le, (div_le_one_of_neg hp).2 (by linarith)⟩

theorem thmF_eq {n m : Fin 4} (h : eps ≤ |v n - v m|) :
    thmF eps n m w v = (w - v m) / (v n - v m) := by
  unfold thmF
  simp only
  rw [if_neg (not_lt.2 h)]

theorem thmF_up (he : 0 < eps) {n m : Fin 4} (h : eps ≤ v n - v m) :
    thmF eps n m w v = (w - v m) / (v n - v m) :=
  thmF_eq (by rw [abs_of_pos (by linarith)]; exact h)

theorem thmF_down (he : 0 < eps) {n m : Fin 4} (h : eps ≤ v m - v n) :
    thmF eps n m w v = 1 - (w - v n) / (v m - v n) := by
  rw [thmF_eq (by rw [abs_sub_comm, abs_of_pos (by linarith)]; exact h)]
  have h1 : v n - v m ≠ 0 := by intro h0; linarith
  have h2 : v m - v n ≠ 0 := by intro h0; linarith
  field_simp
  ring

/-- Fractions of the same pair add up to one. -/
theorem thmF_add (he : 0 < eps) {n m : Fin 4} (h : eps ≤ v n - v m) :
    thmF eps m n w v = 1 - thmF eps n m w v := by
  rw [thmF_down he h, thmF_up he h]

theorem thmF_zero {n m : Fin 4} (h0 : v m ≤ v n) (h : ¬ eps ≤ v n - v m) :
    thmF eps n m w v = 0 ∧ thmF eps m n w v = 0 := by
  push Not at h
  unfold thmF
  simp only
  rw [abs_sub_comm (v m) (v n), abs_of_nonneg (by linarith)]
  exact ⟨if_pos h, if_pos h⟩

/-- A fraction grows with the frequency. -/
theorem thmF_mono (he : 0 < eps) {n m : Fin 4} (h : eps ≤ v n - v m) {w' : K} (hw : w ≤ w') :
    thmF eps n m w v ≤ thmF eps n m w' v := by
  rw [thmF_up he h, thmF_up he h]
  exact div_le_div_of_nonneg_right (by linarith) (by linarith)

/-! ### Shares add up -/

theorem i_sum1 (he : 0 < eps) (hs : Sorted4 v) :
    (i1 eps 0 w v + i1 eps 1 w v + i1 eps 2 w v + i1 eps 3 w v) * g1 eps w v = g1 eps w v := by
  obtain ⟨h0, h1, h2⟩ := hs
  by_cases h : eps ≤ v 1 - v 0
  · simp only [i1, thmF_add he (show eps ≤ v 1 - v 0 by linarith),
      thmF_add he (show eps ≤ v 2 - v 0 by linarith),
      thmF_add he (show eps ≤ v 3 - v 0 by linarith)]
    ring
  · simp only [g1, (thmF_zero h0 h).1]
    ring

theorem i_sum3 (he : 0 < eps) (hs : Sorted4 v) :
    (i3 eps 0 w v + i3 eps 1 w v + i3 eps 2 w v + i3 eps 3 w v) * g3 eps w v = g3 eps w v := by
  obtain ⟨h0, h1, h2⟩ := hs
  by_cases h : eps ≤ v 3 - v 2
  · simp only [i3, thmF_add he (show eps ≤ v 3 - v 0 by linarith),
      thmF_add he (show eps ≤ v 3 - v 1 by linarith),
      thmF_add he (show eps ≤ v 3 - v 2 by linarith)]
    ring
  · simp only [g3, (thmF_zero h2 h).2]
    ring

/-- The bracket of `_g_2`, compared with the threshold. -/
def g2core (eps w : K) (v : Fin 4 → K) : K :=
  thmF eps 1 2 w v * thmF eps 2 0 w v + thmF eps 1 3 w v * thmF eps 2 1 w v

theorem g2_core : g2 eps w v = 3 / (v 3 - v 0) * g2core eps w v := by
  unfold g2 g2core; ring

theorem i_sum2 (he : 0 < eps) (hs : Sorted4 v) (hg : eps ≤ g2core eps w v) :
    i2 eps 0 w v + i2 eps 1 w v + i2 eps 2 w v + i2 eps 3 w v = 1 := by
  obtain ⟨h0, h1, h2⟩ := hs
  by_cases h : eps ≤ v 2 - v 1
  · have e1 := thmF_add (w := w) he (show eps ≤ v 2 - v 1 by linarith)
    have e2 := thmF_add (w := w) he (show eps ≤ v 3 - v 1 by linarith)
    have e3 := thmF_add (w := w) he (show eps ≤ v 2 - v 0 by linarith)
    have e4 := thmF_add (w := w) he (show eps ≤ v 3 - v 0 by linarith)
    have hn : ¬ (thmF eps 1 2 w v * thmF eps 2 0 w v + thmF eps 1 3 w v * thmF eps 2 1 w v < eps) :=
      not_lt.2 hg
    have hp : thmF eps 1 2 w v * thmF eps 2 0 w v + thmF eps 1 3 w v * thmF eps 2 1 w v ≠ 0 := by
      unfold g2core at hg; intro h0; linarith
    simp only [i2, if_neg hn]
    have hq := div_self hp
    rw [add_div] at hq
    generalize thmF eps 1 2 w v * thmF eps 2 0 w v + thmF eps 1 3 w v * thmF eps 2 1 w v = G
      at hq ⊢
    linear_combination (1 / 3) * e4 + (1 / 3) * e1
      + (1 / 3) * (thmF eps 1 2 w v * thmF eps 2 0 w v / G) * e3
      + (1 / 3) * (thmF eps 1 3 w v * thmF eps 2 1 w v / G) * e2 + (1 / 3) * hq
  · unfold g2core at hg
    rw [(thmF_zero h1 h).1, (thmF_zero h1 h).2] at hg
    simp at hg
    linarith

theorem j_sum1 (he : 0 < eps) (hs : Sorted4 v) :
    (j1 eps 0 w v + j1 eps 1 w v + j1 eps 2 w v + j1 eps 3 w v) * n1 eps w v = n1 eps w v := by
  obtain ⟨h0, h1, h2⟩ := hs
  by_cases h : eps ≤ v 1 - v 0
  · simp only [j1, thmF_add he (show eps ≤ v 1 - v 0 by linarith),
      thmF_add he (show eps ≤ v 2 - v 0 by linarith),
      thmF_add he (show eps ≤ v 3 - v 0 by linarith)]
    ring
  · simp only [n1, (thmF_zero h0 h).1]
    ring

theorem j_sum2 (he : 0 < eps) (hs : Sorted4 v) (hn : eps ≤ n2 eps w v) :
    j2 eps 0 w v + j2 eps 1 w v + j2 eps 2 w v + j2 eps 3 w v = 1 := by
  obtain ⟨h0, h1, h2⟩ := hs
  by_cases h : eps ≤ v 2 - v 1
  · have e1 := thmF_add (w := w) he (show eps ≤ v 2 - v 1 by linarith)
    have e2 := thmF_add (w := w) he (show eps ≤ v 3 - v 1 by linarith)
    have e3 := thmF_add (w := w) he (show eps ≤ v 2 - v 0 by linarith)
    have e4 := thmF_add (w := w) he (show eps ≤ v 3 - v 0 by linarith)
    have hp : n2 eps w v ≠ 0 := by intro h0; linarith
    simp only [j2, if_neg (not_lt.2 hn)]
    rw [← add_div, ← add_div, ← add_div, ← add_div, ← add_div, ← add_div, div_eq_one_iff_eq hp]
    unfold n2
    rw [e1, e2, e3, e4]
    field_simp
    ring
  · unfold n2 at hn
    rw [(thmF_zero h1 h).1, (thmF_zero h1 h).2] at hn
    simp at hn
    linarith

theorem j_sum3 (he : 0 < eps) (hs : Sorted4 v) (hn : eps ≤ n3 eps w v) :
    j3 eps 0 w v + j3 eps 1 w v + j3 eps 2 w v + j3 eps 3 w v = 1 := by
  obtain ⟨h0, h1, h2⟩ := hs
  have hp : n3 eps w v ≠ 0 := by intro h0; linarith
  simp only [j3, if_neg (not_lt.2 hn)]
  rw [← add_div, ← add_div, ← add_div, ← add_div, ← add_div, ← add_div, div_eq_one_iff_eq hp]
  unfold n3
  by_cases h : eps ≤ v 3 - v 2
  · have e1 := thmF_add (w := w) he (show eps ≤ v 3 - v 2 by linarith)
    have e2 := thmF_add (w := w) he (show eps ≤ v 3 - v 1 by linarith)
    have e4 := thmF_add (w := w) he (show eps ≤ v 3 - v 0 by linarith)
    rw [e1, e2, e4]
    field_simp
    ring
  · rw [(thmF_zero h2 h).2]
    field_simp
    ring

/-! ### Signs -/

theorem gFunc_nonneg (i : Nat) (hs : Sorted4 v) (hi : InInterval v w i) :
    0 ≤ gFunc eps i w v := by
  obtain ⟨h0, h1, h2⟩ := hs
  match i, hi with
  | 0, _ => exact le_rfl
  | 1, ⟨a, b⟩ =>
    have f1 := (thmF_unit (eps := eps) (v := v) (w := w) (n := 1) (m := 0)
      (Or.inl ⟨by linarith, by linarith⟩)).1
    have f2 := (thmF_unit (eps := eps) (v := v) (w := w) (n := 2) (m := 0)
      (Or.inl ⟨by linarith, by linarith⟩)).1
    have : 0 ≤ v 3 - v 0 := by linarith
    simp only [gFunc, g1]
    positivity
  | 2, ⟨a, b⟩ =>
    have f1 := (thmF_unit (eps := eps) (v := v) (w := w) (n := 1) (m := 2)
      (Or.inr ⟨by linarith, by linarith⟩)).1
    have f2 := (thmF_unit (eps := eps) (v := v) (w := w) (n := 2) (m := 0)
      (Or.inl ⟨by linarith, by linarith⟩)).1
    have f3 := (thmF_unit (eps := eps) (v := v) (w := w) (n := 2) (m := 1)
      (Or.inl ⟨by linarith, by linarith⟩)).1
    have f4 := (thmF_unit (eps := eps) (v := v) (w := w) (n := 1) (m := 3)
      (Or.inr ⟨by linarith, by linarith⟩)).1
    have : 0 ≤ v 3 - v 0 := by linarith
    simp only [gFunc, g2]
    positivity
  | 3, ⟨a, b⟩ =>
    have f1 := (thmF_unit (eps := eps) (v := v) (w := w) (n := 1) (m := 3)
      (Or.inr ⟨by linarith, by linarith⟩)).1
    have f2 := (thmF_unit (eps := eps) (v := v) (w := w) (n := 2) (m := 3)
      (Or.inr ⟨by linarith, by linarith⟩)).1
    have : 0 ≤ v 3 - v 0 := by linarith
    simp only [gFunc, g3]
    positivity
  | 4, _ => exact le_rfl

/-- All fractions used in interval `i` lie in `[0, 1]`. -/
theorem thmF_units (i : Nat) (hs : Sorted4 v) (hi : InInterval v w i) (n m : Fin 4)
    (hnm : (m.1 < i ∧ i ≤ n.1) ∨ (n.1 < i ∧ i ≤ m.1)) :
    0 ≤ thmF eps n m w v ∧ thmF eps n m w v ≤ 1 := by
  obtain ⟨h0, h1, h2⟩ := hs
  apply thmF_unit
  match i, hi with
  | 0, _ => omega
  | 1, ⟨a, b⟩ =>
    rcases hnm with ⟨p, q⟩ | ⟨p, q⟩
    · left; fin_cases n <;> fin_cases m <;> simp_all <;> (try constructor) <;> linarith
    · right; fin_cases n <;> fin_cases m <;> simp_all <;> (try constructor) <;> linarith
  | 2, ⟨a, b⟩ =>
    rcases hnm with ⟨p, q⟩ | ⟨p, q⟩
    · left; fin_cases n <;> fin_cases m <;> simp_all <;> (try constructor) <;> linarith
    · right; fin_cases n <;> fin_cases m <;> simp_all <;> (try constructor) <;> linarith
  | 3, ⟨a, b⟩ =>
    rcases hnm with ⟨p, q⟩ | ⟨p, q⟩
    · left; fin_cases n <;> fin_cases m <;> simp_all <;> (try constructor) <;> linarith
    · right; fin_cases n <;> fin_cases m <;> simp_all <;> (try constructor) <;> linarith
  | 4, _ => omega

theorem iFunc_nonneg (he : 0 < eps) (i ci : Nat) (hs : Sorted4 v) (hi : InInterval v w i) :
    0 ≤ iFunc eps i ci w v := by
  have F := fun (n m : Fin 4) h => (thmF_units (eps := eps) i hs hi n m h).1
  match i, hi, F with
  | 0, _, _ => exact le_rfl
  | 1, _, F =>
    have := F 0 1 (by decide); have := F 0 2 (by decide); have := F 0 3 (by decide)
    have := F 1 0 (by decide); have := F 2 0 (by decide); have := F 3 0 (by decide)
    simp only [iFunc]
    unfold i1
    split <;> positivity
  | 2, _, F =>
    have := F 0 2 (by decide); have := F 0 3 (by decide)
    have := F 1 2 (by decide); have := F 1 3 (by decide)
    have := F 2 0 (by decide); have := F 2 1 (by decide)
    have := F 3 0 (by decide); have := F 3 1 (by decide)
    simp only [iFunc]
    unfold i2
    simp only
    split
    · exact le_rfl
    · split <;> positivity
  | 3, _, F =>
    have := F 0 3 (by decide); have := F 1 3 (by decide); have := F 2 3 (by decide)
    have := F 3 0 (by decide); have := F 3 1 (by decide); have := F 3 2 (by decide)
    simp only [iFunc]
    unfold i3
    split <;> positivity
  | 4, _, _ => exact le_rfl

theorem mul3_le {a b c : K} (ha : 0 ≤ a ∧ a ≤ 1) (hb : 0 ≤ b ∧ b ≤ 1) (hc : 0 ≤ c ∧ c ≤ 1) :
    0 ≤ a * b * c ∧ a * b * c ≤ 1 :=
  ⟨mul_nonneg (mul_nonneg ha.1 hb.1) hc.1,
    mul_le_one₀ (mul_le_one₀ ha.2 hb.1 hb.2) hc.1 hc.2⟩

theorem nFunc_unit (he : 0 < eps) (i : Nat) (hs : Sorted4 v) (hi : InInterval v w i) :
    0 ≤ nFunc eps i w v ∧ nFunc eps i w v ≤ 1 := by
  have F := fun (n m : Fin 4) h => thmF_units (eps := eps) i hs hi n m h
  obtain ⟨h0, h1, h2⟩ := hs
  match i, hi, F with
  | 0, _, _ => exact ⟨le_rfl, zero_le_one⟩
  | 1, _, F => exact mul3_le (F 1 0 (by decide)) (F 2 0 (by decide)) (F 3 0 (by decide))
  | 2, _, F =>
    have a := F 3 1 (by decide); have b := F 2 1 (by decide); have c := F 3 0 (by decide)
    have d := F 1 3 (by decide); have e := F 2 0 (by decide); have f := F 1 2 (by decide)
    simp only [nFunc, n2]
    constructor
    · have := a.1; have := b.1; have := c.1; have := d.1; have := e.1; have := f.1
      positivity
    · by_cases h : eps ≤ v 2 - v 1
      · have e1 := thmF_add (w := w) he (show eps ≤ v 2 - v 1 by linarith)
        have e2 := thmF_add (w := w) he (show eps ≤ v 3 - v 1 by linarith)
        have p1 : thmF eps 3 0 w v * (thmF eps 1 3 w v * thmF eps 2 1 w v) ≤
            1 * (thmF eps 1 3 w v * thmF eps 2 1 w v) :=
          mul_le_mul_of_nonneg_right c.2 (mul_nonneg d.1 b.1)
        have p2 : (thmF eps 3 0 w v * thmF eps 2 0 w v) * thmF eps 1 2 w v ≤
            1 * thmF eps 1 2 w v :=
          mul_le_mul_of_nonneg_right (mul_le_one₀ c.2 e.1 e.2) f.1
        rw [e1] at p2 ⊢
        rw [e2] at p1 ⊢
        linarith
      · rw [(thmF_zero h1 h).1, (thmF_zero h1 h).2]
        simp
  | 3, _, F =>
    have := mul3_le (F 0 3 (by decide)) (F 1 3 (by decide)) (F 2 3 (by decide))
    simp only [nFunc, n3]
    constructor <;> linarith [this.1, this.2]
  | 4, _, _ => exact ⟨zero_le_one, le_rfl⟩

theorem jFunc_nonneg (he : 0 < eps) (i ci : Nat) (hs : Sorted4 v) (hi : InInterval v w i) :
    0 ≤ jFunc eps i ci w v := by
  have U := fun (n m : Fin 4) h => (thmF_units (eps := eps) i hs hi n m h)
  have F := fun (n m : Fin 4) h => (thmF_units (eps := eps) i hs hi n m h).1
  match i, hi, F, U with
  | 0, _, _, _ => exact le_rfl
  | 1, _, F, _ =>
    have := F 0 1 (by decide); have := F 0 2 (by decide); have := F 0 3 (by decide)
    have := F 1 0 (by decide); have := F 2 0 (by decide); have := F 3 0 (by decide)
    simp only [jFunc]
    unfold j1
    split <;> positivity
  | 2, _, F, _ =>
    have := F 0 2 (by decide); have := F 0 3 (by decide)
    have := F 1 2 (by decide); have := F 1 3 (by decide)
    have := F 2 0 (by decide); have := F 2 1 (by decide)
    have := F 3 0 (by decide); have := F 3 1 (by decide)
    simp only [jFunc]
    unfold j2
    simp only
    split
    · exact le_rfl
    · rename_i h
      have := le_trans he.le (not_lt.1 h)
      split <;> positivity
  | 3, _, F, U =>
    have u0 := U 0 3 (by decide); have u1 := U 1 3 (by decide); have u2 := U 2 3 (by decide)
    simp only [jFunc]
    unfold j3
    simp only
    split
    · exact le_rfl
    · rename_i h
      have hn := le_trans he.le (not_lt.1 h)
      have p := mul3_le u0 u1 u2
      have H : ∀ x : K, 0 ≤ x → 0 ≤ x / 4 / n3 eps w v := fun x hx => by positivity
      split
      · refine H _ ?_
        have := mul_le_one₀ u0.2 p.1 p.2
        linarith
      · refine H _ ?_
        have := mul_le_one₀ u1.2 p.1 p.2
        linarith
      · refine H _ ?_
        have := mul_le_one₀ u2.2 p.1 p.2
        linarith
      · refine H _ ?_
        obtain ⟨h0, h1, h2⟩ := hs
        by_cases hg : eps ≤ v 3 - v 2
        · have e1 := thmF_add (w := w) he (show eps ≤ v 3 - v 2 by linarith)
          have e2 := thmF_add (w := w) he (show eps ≤ v 3 - v 1 by linarith)
          have e3 := thmF_add (w := w) he (show eps ≤ v 3 - v 0 by linarith)
          rw [show thmF eps 3 0 w v = 1 - thmF eps 0 3 w v by rw [e3]; ring,
            show thmF eps 3 1 w v = 1 - thmF eps 1 3 w v by rw [e2]; ring,
            show thmF eps 3 2 w v = 1 - thmF eps 2 3 w v by rw [e1]; ring]
          generalize thmF eps 0 3 w v = a at u0 ⊢
          generalize thmF eps 1 3 w v = b at u1 ⊢
          generalize thmF eps 2 3 w v = c at u2 ⊢
          have q1 := mul_nonneg (mul_nonneg (mul_nonneg u1.1 u2.1) (sub_nonneg.2 u0.2))
            (show 0 ≤ 3 - a - b - c by linarith [u0.2, u1.2, u2.2])
          have q2 := mul_nonneg (mul_nonneg u2.1 (sub_nonneg.2 u1.2))
            (show 0 ≤ 2 - b - c by linarith [u0.2, u1.2, u2.2])
          have q3 := mul_self_nonneg (1 - c)
          linear_combination q1 + q2 + q3
        · rw [(thmF_zero h2 hg).2]
          simp
  | 4, _, _, _ => simp only [jFunc]; norm_num

/-! ### The frequency intervals -/

/-- Off the vertex frequencies, exactly one interval applies. -/
theorem exists_interval (hw : ∀ k, w ≠ v k) : ∃ i, i ≤ 4 ∧ InInterval v w i := by
  by_cases h0 : w < v 0
  · exact ⟨0, by omega, h0⟩
  have a0 := lt_of_le_of_ne (not_lt.1 h0) (Ne.symm (hw 0))
  by_cases h1 : w < v 1
  · exact ⟨1, by omega, a0, h1⟩
  have a1 := lt_of_le_of_ne (not_lt.1 h1) (Ne.symm (hw 1))
  by_cases h2 : w < v 2
  · exact ⟨2, by omega, a1, h2⟩
  have a2 := lt_of_le_of_ne (not_lt.1 h2) (Ne.symm (hw 2))
  by_cases h3 : w < v 3
  · exact ⟨3, by omega, a2, h3⟩
  exact ⟨4, by omega, lt_of_le_of_ne (not_lt.1 h3) (Ne.symm (hw 3))⟩

theorem tetraTerm_interval (gn : Nat → K → (Fin 4 → K) → K)
    (IJ : Nat → Nat → K → (Fin 4 → K) → K) (ci : Nat) (hs : Sorted4 v) {i : Nat}
    (hi : InInterval v w i) : tetraTerm gn IJ ci w v = IJ i ci w v * gn i w v := by
  obtain ⟨h0, h1, h2⟩ := hs
  unfold tetraTerm
  match i, hi with
  | 0, (h : w < v 0) => rw [if_pos h]
  | 1, ⟨a, b⟩ => rw [if_neg (by linarith), if_pos ⟨a, b⟩]
  | 2, ⟨a, b⟩ =>
    rw [if_neg (by linarith), if_neg (fun h => by linarith [h.2]), if_pos ⟨a, b⟩]
  | 3, ⟨a, b⟩ =>
    rw [if_neg (by linarith), if_neg (fun h => by linarith [h.2]),
      if_neg (fun h => by linarith [h.2]), if_pos ⟨a, b⟩]
  | 4, (h : v 3 < w) =>
    rw [if_neg (by linarith), if_neg (fun h => by linarith [h.2]),
      if_neg (fun h => by linarith [h.2]), if_neg (fun h => by linarith [h.2]), if_pos h]

/-- On a vertex frequency no branch applies. -/
theorem tetraTerm_vertex (gn : Nat → K → (Fin 4 → K) → K)
    (IJ : Nat → Nat → K → (Fin 4 → K) → K) (ci : Nat) (hs : Sorted4 v) {k : Fin 4}
    (hk : w = v k) : tetraTerm gn IJ ci w v = 0 := by
  obtain ⟨h0, h1, h2⟩ := hs
  unfold tetraTerm
  have hk' : w = v 0 ∨ w = v 1 ∨ w = v 2 ∨ w = v 3 := by
    fin_cases k
    · exact Or.inl hk
    · exact Or.inr (Or.inl hk)
    · exact Or.inr (Or.inr (Or.inl hk))
    · exact Or.inr (Or.inr (Or.inr hk))
  rw [if_neg (by rcases hk' with h | h | h | h <;> linarith),
    if_neg (fun q => by rcases hk' with h | h | h | h <;> linarith [q.1, q.2]),
    if_neg (fun q => by rcases hk' with h | h | h | h <;> linarith [q.1, q.2]),
    if_neg (fun q => by rcases hk' with h | h | h | h <;> linarith [q.1, q.2]),
    if_neg (by rcases hk' with h | h | h | h <;> linarith)]

theorem tetraTerm_outside_I (he : 0 < eps) (ci : Nat) (hs : Sorted4 v)
    (h : w < v 0 ∨ v 3 < w) : tetraTerm (gFunc eps) (iFunc eps) ci w v = 0 := by
  rcases h with h | h
  · rw [tetraTerm_interval (i := 0) _ _ _ hs h]; simp [gFunc]
  · rw [tetraTerm_interval (i := 4) _ _ _ hs h]; simp [gFunc]

/-! ### Monotonicity of the number of states -/

theorem nFunc_mono (he : 0 < eps) (hs : Sorted4 v) (hsep : Separated eps v) {i i' : Nat}
    {w' : K} (hi : InInterval v w i) (hi' : InInterval v w' i') (hw : w ≤ w') :
    nFunc eps i w v ≤ nFunc eps i' w' v := by
  have U := fun (n m : Fin 4) h => thmF_units (eps := eps) i hs hi n m h
  have U' := fun (n m : Fin 4) h => thmF_units (eps := eps) i' hs hi' n m h
  have B := nFunc_unit he i hs hi
  have B' := nFunc_unit he i' hs hi'
  obtain ⟨h0, h1, h2⟩ := hs
  obtain ⟨s0, s1, s2⟩ := hsep
  match i, i', hi, hi', U, U', B, B' with
  | 0, _, _, _, _, _, _, B' => exact B'.1
  | _, 4, _, _, _, _, B, _ => exact B.2
  | _ + 5, _, h, _, _, _, _, _ => exact absurd h (by simp [InInterval])
  | _, _ + 5, _, h, _, _, _, _ => exact absurd h (by simp [InInterval])
  | 1, 0, ⟨a, b⟩, c, _, _, _, _ => exact absurd c (by intro c; simp only [InInterval] at c; linarith)
  | 2, 0, ⟨a, b⟩, c, _, _, _, _ => exact absurd c (by intro c; simp only [InInterval] at c; linarith)
  | 3, 0, ⟨a, b⟩, c, _, _, _, _ => exact absurd c (by intro c; simp only [InInterval] at c; linarith)
  | 2, 1, ⟨a, b⟩, ⟨c, d⟩, _, _, _, _ => linarith
  | 3, 1, ⟨a, b⟩, ⟨c, d⟩, _, _, _, _ => linarith
  | 3, 2, ⟨a, b⟩, ⟨c, d⟩, _, _, _, _ => linarith
  | 4, 0, a, c, _, _, _, _ => simp only [InInterval] at a c; linarith
  | 4, 1, a, c, _, _, _, _ => simp only [InInterval] at a c; linarith
  | 4, 2, a, c, _, _, _, _ => simp only [InInterval] at a c; linarith
  | 4, 3, a, c, _, _, _, _ => simp only [InInterval] at a c; linarith
  | 1, 1, ⟨a, b⟩, ⟨c, d⟩, U, U', _, _ =>
    have g : eps ≤ v 1 - v 0 := by rcases s0 with s0 | s0 <;> linarith
    have m1 := thmF_mono he (show eps ≤ v 1 - v 0 by linarith) hw
    have m2 := thmF_mono he (show eps ≤ v 2 - v 0 by linarith) hw
    have m3 := thmF_mono he (show eps ≤ v 3 - v 0 by linarith) hw
    have u1 := U 1 0 (by decide); have u2 := U 2 0 (by decide); have u3 := U 3 0 (by decide)
    have u1' := U' 1 0 (by decide); have u2' := U' 2 0 (by decide)
    exact mul_le_mul (mul_le_mul m1 m2 u2.1 u1'.1) m3 u3.1 (mul_nonneg u1'.1 u2'.1)
  | 1, 2, ⟨a, b⟩, ⟨c, d⟩, U, U', _, _ =>
    have g : eps ≤ v 1 - v 0 := by rcases s0 with s0 | s0 <;> linarith
    have g2 : eps ≤ v 2 - v 1 := by rcases s1 with s0 | s0 <;> linarith
    have m2 := thmF_mono he (show eps ≤ v 2 - v 0 by linarith) hw
    have m3 := thmF_mono he (show eps ≤ v 3 - v 0 by linarith) hw
    have u1 := U 1 0 (by decide); have u2 := U 2 0 (by decide); have u3 := U 3 0 (by decide)
    have a31 := U' 3 1 (by decide); have a21 := U' 2 1 (by decide)
    have a30 := U' 3 0 (by decide); have a20 := U' 2 0 (by decide)
    have e1 := thmF_add (w := w') he (show eps ≤ v 2 - v 1 by linarith)
    have e2 := thmF_add (w := w') he (show eps ≤ v 3 - v 1 by linarith)
    simp only [nFunc, n1, n2]
    rw [e1, e2]
    have p1 : thmF eps 2 0 w v * thmF eps 3 0 w v ≤ thmF eps 2 0 w' v * thmF eps 3 0 w' v :=
      mul_le_mul m2 m3 u3.1 a20.1
    have p2 : thmF eps 1 0 w v * (thmF eps 2 0 w v * thmF eps 3 0 w v) ≤
        1 * (thmF eps 2 0 w v * thmF eps 3 0 w v) :=
      mul_le_mul_of_nonneg_right u1.2 (mul_nonneg u2.1 u3.1)
    have p3 : 0 ≤ thmF eps 2 1 w' v * (thmF eps 3 1 w' v * (1 - thmF eps 3 0 w' v)
        + thmF eps 3 0 w' v * (1 - thmF eps 2 0 w' v)) :=
      mul_nonneg a21.1 (add_nonneg (mul_nonneg a31.1 (sub_nonneg.2 a30.2))
        (mul_nonneg a30.1 (sub_nonneg.2 a20.2)))
    linear_combination p1 + p2 + p3
  | 1, 3, ⟨a, b⟩, ⟨c, d⟩, U, U', _, _ =>
    have g : eps ≤ v 1 - v 0 := by rcases s0 with s0 | s0 <;> linarith
    have m3 := thmF_mono he (show eps ≤ v 3 - v 0 by linarith) hw
    have u1 := U 1 0 (by decide); have u2 := U 2 0 (by decide); have u3 := U 3 0 (by decide)
    have a1 := U' 1 3 (by decide); have a2 := U' 2 3 (by decide); have a0 := U' 0 3 (by decide)
    have e1 := thmF_add (w := w') he (show eps ≤ v 3 - v 0 by linarith)
    simp only [nFunc, n1, n3]
    have p1 : (thmF eps 1 0 w v * thmF eps 2 0 w v) * thmF eps 3 0 w v ≤ 1 * thmF eps 3 0 w v :=
      mul_le_mul_of_nonneg_right (mul_le_one₀ u1.2 u2.1 u2.2) u3.1
    have p2 : thmF eps 0 3 w' v * (thmF eps 1 3 w' v * thmF eps 2 3 w' v) ≤
        thmF eps 0 3 w' v * 1 :=
      mul_le_mul_of_nonneg_left (mul_le_one₀ a1.2 a2.1 a2.2) a0.1
    linear_combination p1 + p2 + m3 + e1
  | 2, 2, ⟨a, b⟩, ⟨c, d⟩, U, U', _, _ =>
    have g : eps ≤ v 2 - v 1 := by rcases s1 with s0 | s0 <;> linarith
    have m21 := thmF_mono he (show eps ≤ v 2 - v 1 by linarith) hw
    have m31 := thmF_mono he (show eps ≤ v 3 - v 1 by linarith) hw
    have m20 := thmF_mono he (show eps ≤ v 2 - v 0 by linarith) hw
    have m30 := thmF_mono he (show eps ≤ v 3 - v 0 by linarith) hw
    have e1 := thmF_add (w := w') he (show eps ≤ v 2 - v 1 by linarith)
    have e2 := thmF_add (w := w') he (show eps ≤ v 3 - v 1 by linarith)
    have d1 := thmF_add (w := w) he (show eps ≤ v 2 - v 1 by linarith)
    have d2 := thmF_add (w := w) he (show eps ≤ v 3 - v 1 by linarith)
    have a31 := U 3 1 (by decide); have a21 := U 2 1 (by decide)
    have a30 := U 3 0 (by decide); have a20 := U 2 0 (by decide)
    have b31 := U' 3 1 (by decide); have b21 := U' 2 1 (by decide)
    have b30 := U' 3 0 (by decide); have b20 := U' 2 0 (by decide)
    simp only [nFunc, n2]
    rw [e1, e2, d1, d2]
    have p1 : thmF eps 3 0 w v * thmF eps 2 0 w v ≤ thmF eps 3 0 w' v * thmF eps 2 0 w' v :=
      mul_le_mul m30 m20 a20.1 b30.1
    have p2 : (1 - thmF eps 3 1 w' v) * (1 - thmF eps 3 0 w' v) ≤
        (1 - thmF eps 3 1 w v) * (1 - thmF eps 3 0 w v) :=
      mul_le_mul (by linarith) (by linarith) (by linarith [b30.2]) (by linarith [a31.2])
    have q1 := mul_le_mul_of_nonneg_left p1 (show 0 ≤ 1 - thmF eps 2 1 w' v by linarith [b21.2])
    have q2 := mul_le_mul_of_nonneg_left p2 b21.1
    have q3 := mul_nonneg (show 0 ≤ thmF eps 2 1 w' v - thmF eps 2 1 w v by linarith)
      (add_nonneg (mul_nonneg a31.1 (show 0 ≤ 1 - thmF eps 3 0 w v by linarith [a30.2]))
        (mul_nonneg a30.1 (show 0 ≤ 1 - thmF eps 2 0 w v by linarith [a20.2])))
    linear_combination q1 + q2 + q3
  | 2, 3, ⟨a, b⟩, ⟨c, d⟩, U, U', _, _ =>
    have g : eps ≤ v 2 - v 1 := by rcases s1 with s0 | s0 <;> linarith
    have g2 : eps ≤ v 3 - v 2 := by rcases s2 with s0 | s0 <;> linarith
    have m31 := thmF_mono he (show eps ≤ v 3 - v 1 by linarith) hw
    have m30 := thmF_mono he (show eps ≤ v 3 - v 0 by linarith) hw
    have e1 := thmF_add (w := w') he (show eps ≤ v 3 - v 0 by linarith)
    have e2 := thmF_add (w := w') he (show eps ≤ v 3 - v 1 by linarith)
    have d1 := thmF_add (w := w) he (show eps ≤ v 2 - v 1 by linarith)
    have d2 := thmF_add (w := w) he (show eps ≤ v 3 - v 1 by linarith)
    have a31 := U 3 1 (by decide); have a21 := U 2 1 (by decide)
    have a30 := U 3 0 (by decide); have a20 := U 2 0 (by decide)
    have b31 := U' 3 1 (by decide); have b30 := U' 3 0 (by decide)
    have b23 := U' 2 3 (by decide)
    simp only [nFunc, n2, n3]
    rw [e1, e2, d1, d2]
    have p2 : (1 - thmF eps 3 1 w' v) * (1 - thmF eps 3 0 w' v) ≤
        (1 - thmF eps 3 1 w v) * (1 - thmF eps 3 0 w v) :=
      mul_le_mul (by linarith) (by linarith) (by linarith [b30.2]) (by linarith [a31.2])
    have p3 : (1 - thmF eps 3 1 w' v) * (1 - thmF eps 3 0 w' v) * thmF eps 2 3 w' v ≤
        (1 - thmF eps 3 1 w' v) * (1 - thmF eps 3 0 w' v) * 1 :=
      mul_le_mul_of_nonneg_left b23.2
        (mul_nonneg (by linarith [b31.2]) (by linarith [b30.2]))
    have q3 := mul_nonneg (show 0 ≤ 1 - thmF eps 2 1 w v by linarith [a21.2])
      (add_nonneg (mul_nonneg a31.1 (show 0 ≤ 1 - thmF eps 3 0 w v by linarith [a30.2]))
        (mul_nonneg a30.1 (show 0 ≤ 1 - thmF eps 2 0 w v by linarith [a20.2])))
    linear_combination p2 + p3 + q3
  | 3, 3, ⟨a, b⟩, ⟨c, d⟩, U, U', _, _ =>
    have g : eps ≤ v 3 - v 2 := by rcases s2 with s0 | s0 <;> linarith
    have m1 := thmF_mono he (show eps ≤ v 3 - v 0 by linarith) hw
    have m2 := thmF_mono he (show eps ≤ v 3 - v 1 by linarith) hw
    have m3 := thmF_mono he (show eps ≤ v 3 - v 2 by linarith) hw
    have e1 := fun w => thmF_add (w := w) he (show eps ≤ v 3 - v 0 by linarith)
    have e2 := fun w => thmF_add (w := w) he (show eps ≤ v 3 - v 1 by linarith)
    have e3 := fun w => thmF_add (w := w) he (show eps ≤ v 3 - v 2 by linarith)
    have u1 := U 0 3 (by decide); have u2 := U 1 3 (by decide)
    have u1' := U' 0 3 (by decide); have u2' := U' 1 3 (by decide); have u3' := U' 2 3 (by decide)
    have l1 : thmF eps 0 3 w' v ≤ thmF eps 0 3 w v := by rw [e1, e1]; linarith
    have l2 : thmF eps 1 3 w' v ≤ thmF eps 1 3 w v := by rw [e2, e2]; linarith
    have l3 : thmF eps 2 3 w' v ≤ thmF eps 2 3 w v := by rw [e3, e3]; linarith
    have := mul_le_mul (mul_le_mul l1 l2 u2'.1 u1.1) l3 u3'.1 (mul_nonneg u1.1 u2.1)
    simp only [nFunc, n3]
    linarith

end
end Phono3py
