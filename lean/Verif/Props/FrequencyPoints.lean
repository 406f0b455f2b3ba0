/- The frequency axis generated by the program: C100. -/
import Mathlib.Data.Rat.Floor
import Verif.Props.SpectralFunction

namespace Phono3py.Props
open Phono3py.Spec

section
variable {K : Type _} [Field K] [LinearOrder K] [IsStrictOrderedRing K]

theorem le_foldl_max (l : List K) (a : K) :
    a ≤ l.foldl max a ∧ ∀ x ∈ l, x ≤ l.foldl max a := by
  induction l generalizing a with
  | nil => exact ⟨le_rfl, fun x hx => by simp at hx⟩
  | cons b l ih =>
    obtain ⟨h1, h2⟩ := ih (max a b)
    refine ⟨(le_max_left a b).trans h1, fun x hx => ?_⟩
    rcases List.mem_cons.1 hx with rfl | hx
    · exact (le_max_right a x).trans h1
    · exact h2 x hx

/-- C100: the upper end of the range lies above the sum of any two phonon frequencies, by more than
four times any of the smearing widths. -/
theorem C100_upper_end (maxFreq : K) (sigmas : List (Option K)) (hmax : 0 < maxFreq)
    (hs : ∀ s, some s ∈ sigmas → 0 ≤ s) (ω₁ ω₂ : K) (h1 : ω₁ ≤ maxFreq) (h2 : ω₂ ≤ maxFreq) :
    ω₁ + ω₂ < fMax maxFreq sigmas ∧ ∀ s, some s ∈ sigmas → ω₁ + ω₂ + 4 * s < fMax maxFreq sigmas := by
  have hmem : ∀ s, some s ∈ sigmas ↔ s ∈ sigmas.filterMap id := by
    intro s
    simp [List.mem_filterMap]
  have hs' : ∀ s ∈ sigmas.filterMap id, 0 ≤ s := fun s h => hs s ((hmem s).2 h)
  simp only [hmem]
  unfold fMax
  generalize sigmas.filterMap id = vals at hs'
  cases vals with
  | nil =>
    refine ⟨?_, fun s h => by simp at h⟩
    simp only
    nlinarith
  | cons v vs =>
    simp only
    obtain ⟨g1, g2⟩ := le_foldl_max vs v
    generalize vs.foldl max v = m at g1 g2
    have hv : 0 ≤ v := hs' v (by simp)
    have hall : ∀ s ∈ v :: vs, s ≤ m := by
      intro s h
      rcases List.mem_cons.1 h with rfl | h
      · exact g1
      · exact g2 s h
    refine ⟨by nlinarith, fun s h => ?_⟩
    have := hall s h
    have := hs' s h
    nlinarith

variable [FloorSemiring K]

/-- C100: given points are used as they are. -/
theorem C100_given (maxFreq : K) (sigmas : List (Option K)) (points : List K) (step : Option K)
    (num : Option Nat) : getFrequencyPoints maxFreq sigmas (some points) step num = points := rfl

theorem linspace0_getD (fmax : K) (n j : Nat) (hj : j < n) :
    (linspace0 fmax n).getD j 0 = (j : K) * (fmax / ((n - 1 : Nat) : K)) := by
  rw [List.getD_eq_getElem _ _ (by simpa [linspace0] using hj)]
  simp [linspace0]

/-- C100: with a number of points (201 when nothing is given), every frequency up to the
sum of any two phonon frequencies plus four smearing widths lies between two neighbouring points,
whose distance is the range divided by the number of intervals; and the number of points is the
one asked for, whatever the step. -/
theorem C100_number (maxFreq : K) (sigmas : List (Option K)) (step : Option K) (num : Option Nat)
    (hnum : num = none → step = none) (hn : 2 ≤ num.getD 201) (hmax : 0 < maxFreq)
    (hs : ∀ s, some s ∈ sigmas → 0 ≤ s) :
    let pts := getFrequencyPoints maxFreq sigmas none step num
    pts.length = num.getD 201 ∧ pts.getD 0 0 = 0 ∧
    ∀ x ω₁ ω₂ s, 0 ≤ x → ω₁ ≤ maxFreq → ω₂ ≤ maxFreq → (s = 0 ∨ some s ∈ sigmas) →
      x ≤ ω₁ + ω₂ + 4 * s → ∃ j, j + 1 < pts.length ∧ pts.getD j 0 ≤ x ∧ x < pts.getD (j + 1) 0 ∧
        (pts.getD (j + 1) 0 - pts.getD j 0) * ((num.getD 201 - 1 : Nat) : K) =
          fMax maxFreq sigmas := by
  have hpts : getFrequencyPoints maxFreq sigmas none step num =
      linspace0 (fMax maxFreq sigmas) (num.getD 201) := by
    cases num with
    | some n => rfl
    | none => rw [hnum rfl]; rfl
  simp only [hpts]
  generalize num.getD 201 = n at hn
  have hlen : (linspace0 (fMax maxFreq sigmas) n).length = n := by simp [linspace0]
  have hf0 : 0 < fMax maxFreq sigmas := by
    have := (C100_upper_end maxFreq sigmas hmax hs maxFreq maxFreq le_rfl le_rfl).1
    linarith
  have hn1 : (0 : K) < ((n - 1 : Nat) : K) := by exact_mod_cast (by omega : 0 < n - 1)
  rw [hlen]
  refine ⟨rfl, by rw [linspace0_getD _ _ _ (by omega)]; simp, ?_⟩
  intro x ω₁ ω₂ s hx h1 h2 h hle
  have hlt : x < fMax maxFreq sigmas := by
    obtain ⟨g1, g2⟩ := C100_upper_end maxFreq sigmas hmax hs ω₁ ω₂ h1 h2
    rcases h with rfl | h
    · linarith
    · exact hle.trans_lt (g2 s h)
  generalize fMax maxFreq sigmas = f at hf0 hlt
  have hd : 0 < f / ((n - 1 : Nat) : K) := by positivity
  have hquot : 0 ≤ x / (f / ((n - 1 : Nat) : K)) := by positivity
  have e1 := Nat.floor_le hquot
  have e2 := Nat.lt_floor_add_one (x / (f / ((n - 1 : Nat) : K)))
  rw [le_div_iff₀ hd] at e1
  rw [div_lt_iff₀ hd] at e2
  have hj : ⌊x / (f / ((n - 1 : Nat) : K))⌋₊ + 1 < n := by
    have hf : f = ((n - 1 : Nat) : K) * (f / ((n - 1 : Nat) : K)) := by field_simp
    have : (⌊x / (f / ((n - 1 : Nat) : K))⌋₊ : K) < ((n - 1 : Nat) : K) := by
      by_contra hc
      have := mul_le_mul_of_nonneg_right (not_lt.1 hc) hd.le
      linarith
    have : ⌊x / (f / ((n - 1 : Nat) : K))⌋₊ < n - 1 := by exact_mod_cast this
    omega
  refine ⟨_, hj, ?_, ?_, ?_⟩
  · rw [linspace0_getD _ _ _ (by omega)]; exact e1
  · rw [linspace0_getD _ _ _ hj]; push_cast; exact e2
  · rw [linspace0_getD _ _ _ hj, linspace0_getD _ _ _ (by omega)]
    generalize ⌊x / (f / ((n - 1 : Nat) : K))⌋₊ = j
    generalize ((n - 1 : Nat) : K) = m at hn1
    push_cast
    field_simp
    ring

theorem arange0_length (f st : K) : (arange0 f st).length = ⌈f / st⌉₊ := by simp [arange0]

theorem arange0_getD (f st : K) (j : Nat) (hj : j < ⌈f / st⌉₊) :
    (arange0 f st).getD j 0 = (j : K) * st := by
  rw [List.getD_eq_getElem _ _ (by rw [arange0_length]; exact hj)]
  simp [arange0]

/-- C100: with a step the points are the multiples of the step below the upper end, so every
frequency of the range is less than one step above a point. Missing: that a point lies above the sum
of any two frequencies. -/
theorem C100_step_partial (maxFreq : K) (sigmas : List (Option K)) (st : K) (hst : 0 < st)
    (hmax : 0 < maxFreq) (hs : ∀ s, some s ∈ sigmas → 0 ≤ s) :
    let pts := getFrequencyPoints maxFreq sigmas none (some st) none
    (∀ y, y ∈ pts ↔ ∃ j : Nat, y = (j : K) * st ∧ y < fMax maxFreq sigmas) ∧
    ∀ x ω₁ ω₂ s, 0 ≤ x → ω₁ ≤ maxFreq → ω₂ ≤ maxFreq → (s = 0 ∨ some s ∈ sigmas) →
      x ≤ ω₁ + ω₂ + 4 * s → ∃ y ∈ pts, y ≤ x ∧ x < y + st := by
  simp only
  have hpts : getFrequencyPoints maxFreq sigmas none (some st) none =
      arange0 (fMax maxFreq sigmas) st := rfl
  rw [hpts]
  have hmem : ∀ y, y ∈ arange0 (fMax maxFreq sigmas) st ↔
      ∃ j : Nat, y = (j : K) * st ∧ y < fMax maxFreq sigmas := by
    intro y
    unfold arange0
    rw [List.mem_map]
    constructor
    · rintro ⟨j, hj, rfl⟩
      rw [List.mem_range, Nat.lt_ceil, lt_div_iff₀ hst] at hj
      exact ⟨j, rfl, hj⟩
    · rintro ⟨j, rfl, hj⟩
      exact ⟨j, by rw [List.mem_range, Nat.lt_ceil, lt_div_iff₀ hst]; exact hj, rfl⟩
  refine ⟨hmem, ?_⟩
  intro x ω₁ ω₂ s hx h1 h2 h hle
  have hlt : x < fMax maxFreq sigmas := by
    obtain ⟨g1, g2⟩ := C100_upper_end maxFreq sigmas hmax hs ω₁ ω₂ h1 h2
    rcases h with rfl | h
    · linarith
    · exact hle.trans_lt (g2 s h)
  have hq : 0 ≤ x / st := by positivity
  have e1 := Nat.floor_le hq
  have e2 := Nat.lt_floor_add_one (x / st)
  rw [le_div_iff₀ hst] at e1
  rw [div_lt_iff₀ hst] at e2
  exact ⟨_, (hmem _).2 ⟨_, rfl, e1.trans_lt hlt⟩, e1, by linarith⟩

end

/-- C100 fails with a step: the last point may lie below the frequencies of two-phonon processes.
With frequencies up to 10 and a step of 0.3 the last point is 19.8 (the sum of two frequencies is up
to 20; 20.1 is excluded). -/
theorem C100_step_short : ∃ (maxFreq st ω₁ ω₂ : ℚ), 0 < st ∧ 0 < maxFreq ∧ ω₁ ≤ maxFreq ∧
    ω₂ ≤ maxFreq ∧ ∀ y ∈ getFrequencyPoints maxFreq [none] none (some st) none, y < ω₁ + ω₂ := by
  refine ⟨10, 3 / 10, 10, 10, by norm_num, by norm_num, le_rfl, le_rfl, ?_⟩
  intro y hy
  rw [(C100_step_partial (10 : ℚ) [none] (3 / 10) (by norm_num) (by norm_num) (by simp)).1] at hy
  obtain ⟨j, rfl, hj⟩ := hy
  have hf : fMax (10 : ℚ) [none] = 201 / 10 := by decide +kernel
  rw [hf] at hj
  have h67 : (j : ℚ) < 67 := by linarith
  have : j ≤ 66 := by
    have : j < 67 := by exact_mod_cast h67
    omega
  have : (j : ℚ) ≤ 66 := by exact_mod_cast this
  linarith

example : getFrequencyPoints (10 : ℚ) [none, some (1 / 10)] none none (some 3) =
    [0, 10251 / 1000, 20502 / 1000] := by
  decide +kernel

end Phono3py.Props
