/- C107: the heat capacity matrix of the Green-Kubo formula. -/
import Verif.Model.Velocity
import Mathlib.Analysis.SpecialFunctions.Exp
import Mathlib.Analysis.SpecialFunctions.ExpDeriv
import Mathlib.Analysis.Calculus.Deriv.Slope
import Mathlib.Algebra.Order.Field.Rat
import Mathlib.Tactic.FieldSimp
import Mathlib.Tactic.Positivity

namespace Phono3py.Props
open Filter Topology

section
variable {K : Type} [Field K] [LinearOrder K] [IsStrictOrderedRing K]

/-- The laws of the exponential function used here. -/
structure ExpLaws (exp : K → K) : Prop where
  sub : ∀ a b, exp (a - b) * exp b = exp a
  mono : ∀ a b, a < b → exp a < exp b
  zero : exp 0 = 1

/-- **C107 (formula).** Between modes whose frequencies differ by the cutoff or more, in terms of
`x = f / (k T)`. The expression is symmetric. -/
theorem C107_formula {exp : K → K} (he : ExpLaws exp) (modeCv : K → K → K) {kb cutoff temp : K}
    (hk : 0 < kb) (ht : 0 < temp) (freqs : Nat → K) {i j : Nat} (hi : 0 < freqs i)
    (hj : 0 < freqs j) (hd : cutoff ≤ |freqs i - freqs j|) (hne : freqs i ≠ freqs j) :
    let x := freqs i / (kb * temp)
    let y := freqs j / (kb * temp)
    modeCvMatrix exp modeCv kb cutoff temp freqs i j =
      kb * ((x + y) / 2) ^ 2 * ((exp x - exp y) / (x - y)) / ((exp x - 1) * (exp y - 1)) := by
  intro x y
  have hx : 0 < x := div_pos hi (mul_pos hk ht)
  have hy : 0 < y := div_pos hj (mul_pos hk ht)
  have ex : freqs i / kb / temp = x := by rw [div_div]
  have ey : freqs j / kb / temp = y := by rw [div_div]
  have hxy : x - y ≠ 0 := by
    intro h
    apply hne
    have h1 : x = y := sub_eq_zero.1 h
    have h2 : kb * temp ≠ 0 := (mul_pos hk ht).ne'
    exact (div_left_inj' h2).1 h1
  have h1 : exp x - 1 ≠ 0 := by
    have := he.mono 0 x hx
    rw [he.zero] at this
    exact (sub_pos.2 this).ne'
  have h2 : exp y - 1 ≠ 0 := by
    have := he.mono 0 y hy
    rw [he.zero] at this
    exact (sub_pos.2 this).ne'
  have h3 := he.sub x y
  unfold modeCvMatrix
  dsimp only
  rw [if_neg (not_lt.2 hd), ex, ey]
  generalize exp x = X at *
  generalize exp y = Y at *
  generalize exp (x - y) = Z at *
  subst h3
  field_simp
  ring

/-- **C107 (symmetric), in part.** Missing: modes closer than the cutoff (`C107_asymmetric`). -/
theorem C107_symmetric_partial {exp : K → K} (he : ExpLaws exp) (modeCv : K → K → K)
    {kb cutoff temp : K} (hk : 0 < kb) (ht : 0 < temp) (freqs : Nat → K) {i j : Nat}
    (hi : 0 < freqs i) (hj : 0 < freqs j) (hd : cutoff ≤ |freqs i - freqs j|) :
    modeCvMatrix exp modeCv kb cutoff temp freqs i j =
      modeCvMatrix exp modeCv kb cutoff temp freqs j i := by
  by_cases hne : freqs i = freqs j
  · unfold modeCvMatrix
    simp only [hne]
  · have h1 := C107_formula he modeCv hk ht freqs hi hj hd hne
    have h2 := C107_formula he modeCv hk ht freqs hj hi (cutoff := cutoff) (by rwa [abs_sub_comm])
      (Ne.symm hne)
    dsimp only at h1 h2
    rw [h1, h2]
    generalize freqs i / (kb * temp) = x
    generalize freqs j / (kb * temp) = y
    rw [add_comm x y, mul_comm (exp x - 1), ← neg_sub (exp y) (exp x), ← neg_sub y x, neg_div_neg_eq]

/-- **C107 (positive).** -/
theorem C107_positive {exp : K → K} (he : ExpLaws exp) (modeCv : K → K → K)
    (hcv : ∀ t f, 0 < t → 0 < f → 0 < modeCv t f) {kb cutoff temp : K} (hk : 0 < kb) (ht : 0 < temp)
    (hc : 0 < cutoff) (freqs : Nat → K) {i j : Nat} (hi : 0 < freqs i) (hj : 0 < freqs j) :
    0 < modeCvMatrix exp modeCv kb cutoff temp freqs i j := by
  by_cases hd : |freqs i - freqs j| < cutoff
  · unfold modeCvMatrix
    simp only [if_pos hd]
    exact hcv _ _ ht hi
  · have hd := not_lt.1 hd
    have hne : freqs i ≠ freqs j := by
      intro h
      rw [h, sub_self, abs_zero] at hd
      linarith
    have h1 := C107_formula he modeCv hk ht freqs hi hj hd hne
    dsimp only at h1
    rw [h1]
    have hx : 0 < freqs i / (kb * temp) := div_pos hi (mul_pos hk ht)
    have hy : 0 < freqs j / (kb * temp) := div_pos hj (mul_pos hk ht)
    have hxy : freqs i / (kb * temp) ≠ freqs j / (kb * temp) := by
      intro h
      exact hne ((div_left_inj' (mul_pos hk ht).ne').1 h)
    generalize freqs i / (kb * temp) = x at *
    generalize freqs j / (kb * temp) = y at *
    have e1 : 0 < exp x - 1 := by
      have := he.mono 0 x hx; rw [he.zero] at this; exact sub_pos.2 this
    have e2 : 0 < exp y - 1 := by
      have := he.mono 0 y hy; rw [he.zero] at this; exact sub_pos.2 this
    have e3 : 0 < (exp x - exp y) / (x - y) := by
      rcases lt_or_gt_of_ne hxy with h | h
      · exact div_pos_of_neg_of_neg (sub_neg.2 (he.mono _ _ h)) (sub_neg.2 h)
      · exact div_pos (sub_pos.2 (he.mono _ _ h)) (sub_pos.2 h)
    positivity

/-- **C107 (degenerate).** The diagonal, and elements between modes closer than the cutoff, are the
mode heat capacity of the first mode. -/
theorem C107_diagonal (exp : K → K) (modeCv : K → K → K) (kb : K) {cutoff : K} (hc : 0 < cutoff)
    (temp : K) (freqs : Nat → K) (i : Nat) :
    modeCvMatrix exp modeCv kb cutoff temp freqs i i = modeCv temp (freqs i) := by
  unfold modeCvMatrix
  simp [hc]

/-- C107 fails: between two modes closer than the cutoff whose heat capacities differ the matrix is
not symmetric. -/
theorem C107_asymmetric (exp : K → K) (modeCv : K → K → K) (kb cutoff temp : K) (freqs : Nat → K)
    (i j : Nat) (hd : |freqs i - freqs j| < cutoff)
    (hcv : modeCv temp (freqs i) ≠ modeCv temp (freqs j)) :
    modeCvMatrix exp modeCv kb cutoff temp freqs i j ≠
      modeCvMatrix exp modeCv kb cutoff temp freqs j i := by
  unfold modeCvMatrix
  simp only [if_pos hd, abs_sub_comm (freqs j) (freqs i)]
  exact hcv

end

/-- Heat capacity of a mode. -/
noncomputable def realModeCv (kb temp f : ℝ) : ℝ :=
  kb * (f / (kb * temp)) ^ 2 * Real.exp (f / (kb * temp)) / (Real.exp (f / (kb * temp)) - 1) ^ 2

theorem realExpLaws : ExpLaws Real.exp where
  sub a b := by rw [← Real.exp_add, sub_add_cancel]
  mono _ _ h := Real.exp_lt_exp.2 h
  zero := Real.exp_zero

/-- **C107 (limit).** When two frequencies approach each other, the element tends to the mode heat
capacity: both branches of the code agree in the limit. -/
theorem C107_limit (modeCv : ℝ → ℝ → ℝ) {kb temp : ℝ} (hk : 0 < kb) (ht : 0 < temp) {f : ℝ}
    (hf : 0 < f) :
    Tendsto (fun g => modeCvMatrix Real.exp modeCv kb 0 temp (fun k => if k = 0 then g else f) 0 1)
      (𝓝[≠] f) (𝓝 (realModeCv kb temp f)) := by
  have hkt : 0 < kb * temp := mul_pos hk ht
  set y := f / (kb * temp) with hy
  have hy0 : 0 < y := div_pos hf hkt
  have hey : Real.exp y - 1 ≠ 0 := by
    have := Real.exp_lt_exp.2 hy0
    rw [Real.exp_zero] at this
    exact (sub_pos.2 this).ne'
  -- the argument
  have hx : Tendsto (fun g : ℝ => g / (kb * temp)) (𝓝[≠] f) (𝓝[≠] y) := by
    refine tendsto_nhdsWithin_iff.2 ⟨?_, ?_⟩
    · exact ((continuous_id.div_const _).tendsto f).mono_left nhdsWithin_le_nhds
    · filter_upwards [self_mem_nhdsWithin] with g hg
      intro h
      exact hg ((div_left_inj' hkt.ne').1 h)
  have hslope : Tendsto (fun x => (Real.exp x - Real.exp y) / (x - y)) (𝓝[≠] y) (𝓝 (Real.exp y)) := by
    have h := (Real.hasDerivAt_exp y).tendsto_slope
    refine h.congr fun x => ?_
    rw [slope_def_field]
  have hcont : Tendsto (fun x : ℝ => kb * ((x + y) / 2) ^ 2) (𝓝[≠] y) (𝓝 (kb * ((y + y) / 2) ^ 2)) := by
    have : Continuous fun x : ℝ => kb * ((x + y) / 2) ^ 2 := by fun_prop
    exact (this.tendsto y).mono_left nhdsWithin_le_nhds
  have hden : Tendsto (fun x : ℝ => (Real.exp x - 1) * (Real.exp y - 1)) (𝓝[≠] y)
      (𝓝 ((Real.exp y - 1) * (Real.exp y - 1))) := by
    have : Continuous fun x : ℝ => (Real.exp x - 1) * (Real.exp y - 1) := by fun_prop
    exact (this.tendsto y).mono_left nhdsWithin_le_nhds
  have hall := (((hcont.mul hslope).div hden (mul_ne_zero hey hey)).comp hx)
  have hval : kb * ((y + y) / 2) ^ 2 * Real.exp y / ((Real.exp y - 1) * (Real.exp y - 1)) =
      realModeCv kb temp f := by
    unfold realModeCv
    rw [← hy, ← sq]
    congr 3
    rw [← two_mul, mul_div_cancel_left₀ _ two_ne_zero]
  rw [hval] at hall
  refine hall.congr' ?_
  have hpos : ∀ᶠ g in 𝓝[≠] f, 0 < g :=
    (lt_mem_nhds hf).filter_mono nhdsWithin_le_nhds
  filter_upwards [self_mem_nhdsWithin, hpos] with g hg hg0
  have h := C107_formula realExpLaws modeCv (cutoff := 0) hk ht
    (fun k => if k = 0 then g else f) (i := 0) (j := 1) (by simpa using hg0) (by simpa using hf)
    (abs_nonneg _) (by simpa using hg)
  simp only [if_true, one_ne_zero, if_false] at h
  simp only [Function.comp, Pi.mul_apply, Pi.div_apply]
  exact h.symm

/-- Hypotheses of the theorems above: two optical modes. -/
example : modeCvMatrix Real.exp (realModeCv 1) 1 (1 / 10) 300 (fun k => if k = 0 then 1 else 2) 0 1 =
    modeCvMatrix Real.exp (realModeCv 1) 1 (1 / 10) 300 (fun k => if k = 0 then 1 else 2) 1 0 := by
  refine C107_symmetric_partial realExpLaws _ one_pos (by norm_num) _ ?_ ?_ ?_ <;> norm_num

/-- Hypotheses of `C107_asymmetric`. -/
example : modeCvMatrix (fun x : ℚ => x) (fun _ f => f) 1 (1 / 10) 300
    (fun k => if k = 0 then 1 else 21 / 20) 0 1 ≠
    modeCvMatrix (fun x : ℚ => x) (fun _ f => f) 1 (1 / 10) 300
      (fun k => if k = 0 then 1 else 21 / 20) 1 0 := by
  refine C107_asymmetric _ _ _ _ _ _ _ _ ?_ ?_ <;> norm_num

end Phono3py.Props
