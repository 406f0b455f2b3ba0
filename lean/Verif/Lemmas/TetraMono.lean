/- The share of every vertex in the number of states does not decrease with the frequency. -/
import Mathlib.Analysis.Calculus.Deriv.MeanValue
import Mathlib.Analysis.Calculus.FDeriv.Extend
import Verif.Lemmas.TetraReal
import Verif.Props.Tetrahedron

namespace Phono3py
open Spec Filter Topology

theorem tpow_deriv (a w : ℝ) (n : Nat) :
    HasDerivAt (fun w => tpow w a (n + 2)) ((n + 2 : ℕ) * tpow w a (n + 1)) w :=
  hasDerivAt_of_hasDerivAt_of_ne' (f := fun w => tpow w a (n + 2))
    (g := fun w => (n + 2 : ℕ) * tpow w a (n + 1)) (x := a)
    (fun y hy => tpow_hasDerivAt a y n hy) (tpow_continuous a (n + 1)).continuousAt
    (continuous_const.mul (tpow_continuous a n)).continuousAt w

theorem statesShare_deriv (k : Fin 4) (v : Fin 4 → ℝ) (w : ℝ) :
    HasDerivAt (fun w => statesShare k w v) (densityShare k w v) w := by
  have term : ∀ m : Fin 4, HasDerivAt (fun w => if m = k then
      (tpow w (v k) 3
        - tpow w (v k) 4 / 4 * sum4 (fun j => if j = k then 0 else 1 / (v j - v k))) / gaps v k
      else tpow w (v m) 4 / 4 / (gaps v m * (v k - v m)))
      (if m = k then
      (3 * tpow w (v k) 2
        - tpow w (v k) 3 * sum4 (fun j => if j = k then 0 else 1 / (v j - v k))) / gaps v k
      else tpow w (v m) 3 / (gaps v m * (v k - v m))) w := by
    intro m
    have h3 := tpow_deriv (v k) w 1
    have h4 := tpow_deriv (v k) w 2
    have h4' := tpow_deriv (v m) w 2
    by_cases e : m = k
    · simp only [if_pos e]
      refine ((h3.sub ((h4.div_const 4).mul_const _)).div_const _).congr_deriv ?_
      norm_num
    · simp only [if_neg e]
      refine ((h4'.div_const 4).div_const _).congr_deriv ?_
      norm_num
  unfold statesShare densityShare sum4
  exact ((((term 0).add (term 1)).add (term 2)).add (term 3))

theorem densityShare_continuous (k : Fin 4) (v : Fin 4 → ℝ) :
    Continuous fun w => densityShare k w v := by
  have term : ∀ m : Fin 4, Continuous (fun w => if m = k then
      (3 * tpow w (v k) 2
        - tpow w (v k) 3 * sum4 (fun j => if j = k then 0 else 1 / (v j - v k))) / gaps v k
      else tpow w (v m) 3 / (gaps v m * (v k - v m))) := by
    intro m
    by_cases e : m = k
    · simp only [if_pos e]
      exact ((continuous_const.mul (tpow_continuous (v k) 1)).sub
        ((tpow_continuous (v k) 2).mul continuous_const)).div_const _
    · simp only [if_neg e]
      exact (tpow_continuous (v m) 2).div_const _
  unfold densityShare sum4
  exact ((((term 0).add (term 1)).add (term 2)).add (term 3))

section
variable {K : Type _} [Field K] [LinearOrder K] [IsStrictOrderedRing K]

/-- Off the vertices every vertex has a non-negative share of the density. -/
theorem densityShare_off (k : Fin 4) (v : Fin 4 → K) (eps : K) (he : 0 < eps)
    (hd : Distinct eps v) (w : K) (hw : ∀ k, w ≠ v k) : 0 ≤ densityShare k w v := by
  have hs : Sorted4 v := ⟨by linarith [hd.1], by linarith [hd.2.1], by linarith [hd.2.2]⟩
  obtain ⟨i, -, hi⟩ := exists_interval hw
  -- A threshold small enough for the interval.
  obtain ⟨e, he', hle, hg⟩ : ∃ e : K, 0 < e ∧ e ≤ eps ∧ (i = 2 → e ≤ g2core e w v) := by
    by_cases h2 : i = 2
    · subst h2
      obtain ⟨h1, h2⟩ := hi
      obtain ⟨x, p, q, r, c⟩ : ∃ x p q r, Coord w v x p q r := ⟨_, _, _, _, hd.coord he⟩
      have val : ∀ e : K, 0 < e → e ≤ eps → g2core e w v = g2core eps w v := by
        intro e h0 hle
        have hd' : Distinct e v := ⟨hle.trans hd.1, hle.trans hd.2.1, hle.trans hd.2.2⟩
        obtain ⟨-, f20, -, f21, -, -, -, -, -, f12, f13, -⟩ := hd.f he c
        obtain ⟨-, e20, -, e21, -, -, -, -, -, e12, e13, -⟩ := hd'.f h0 c
        unfold g2core
        rw [f20, f21, f12, f13, e20, e21, e12, e13]
      have pos : 0 < g2core eps w v := by
        obtain ⟨-, f20, -, f21, -, -, -, -, -, f12, f13, -⟩ := hd.f he c
        unfold g2core
        rw [f20, f21, f12, f13]
        obtain ⟨hp, hq, hr, e1, e2, e3, ew⟩ := c
        have a1 : 0 < x - p := by linarith
        have a2 : 0 < p + q - x := by linarith
        have b1 : 0 < 1 - (x - p) / q := by
          rw [sub_pos, div_lt_one hq]; linarith
        have b2 : 0 < x / (p + q) := div_pos (by linarith) (by linarith)
        have b3 : 0 < 1 - (x - p) / (q + r) := by
          rw [sub_pos, div_lt_one (by linarith)]; linarith
        have b4 : 0 < (x - p) / q := div_pos a1 hq
        positivity
      refine ⟨min eps (g2core eps w v), lt_min he pos, min_le_left _ _, fun _ => ?_⟩
      rw [val _ (lt_min he pos) (min_le_left _ _)]
      exact min_le_right _ _
    · exact ⟨eps, he, le_rfl, fun h => absurd h h2⟩
  have hd' : Distinct e v := ⟨hle.trans hd.1, hle.trans hd.2.1, hle.trans hd.2.2⟩
  have hn := mul_nonneg (iFunc_nonneg he' i k hs hi) (gFunc_nonneg (eps := e) i hs hi)
  fin_cases k
  · exact (i_share0 he' hd' hi hg) ▸ hn
  · exact (i_share1 he' hd' hi hg) ▸ hn
  · exact (i_share2 he' hd' hi hg) ▸ hn
  · exact (i_share3 he' hd' hi hg) ▸ hn

end

theorem densityShare_nonneg (k : Fin 4) (v : Fin 4 → ℝ) (eps : ℝ) (he : 0 < eps)
    (hd : Distinct eps v) (w : ℝ) : 0 ≤ densityShare k w v := by
  have hlim : Tendsto (fun y => densityShare k y v) (𝓝[≠] w) (𝓝 (densityShare k w v)) :=
    (densityShare_continuous k v).continuousAt.tendsto.mono_left nhdsWithin_le_nhds
  refine ge_of_tendsto hlim ?_
  have h2 : ∀ j, ∀ᶠ y in 𝓝[≠] w, y ≠ v j := by
    intro j
    by_cases e : v j = w
    · filter_upwards [self_mem_nhdsWithin] with y hy
      rw [e]; exact hy
    · exact eventually_nhdsWithin_of_eventually_nhds (isOpen_ne.mem_nhds (Ne.symm e))
  filter_upwards [h2 0, h2 1, h2 2, h2 3] with y h0 h1 h2 h3
  refine densityShare_off k v eps he hd y fun k => ?_
  fin_cases k
  · exact h0
  · exact h1
  · exact h2
  · exact h3

theorem statesShare_mono (k : Fin 4) (v : Fin 4 → ℝ) (eps : ℝ) (he : 0 < eps)
    (hd : Distinct eps v) : Monotone fun w => statesShare k w v := by
  refine monotone_of_deriv_nonneg (fun w => (statesShare_deriv k v w).differentiableAt) fun w => ?_
  rw [(statesShare_deriv k v w).deriv]
  exact densityShare_nonneg k v eps he hd w

/-- The weight of a vertex in the number of states does not decrease, off the vertex frequencies
and above the threshold of the code. -/
theorem vertexWeight_mono (eps : ℝ) (he : 0 < eps) (w w' : ℝ) (v : Fin 4 → ℝ)
    (hd : Distinct eps v) (hw : ∀ k, w ≠ v k) (hw' : ∀ k, w' ≠ v k) (hle : w ≤ w')
    (hn : w < v 0 ∨ eps ≤ states w v) (k : Fin 4) :
    tetraTerm (nFunc eps) (jFunc eps) k w v ≤ tetraTerm (nFunc eps) (jFunc eps) k w' v := by
  have hs : Sorted4 v := ⟨by linarith [hd.1], by linarith [hd.2.1], by linarith [hd.2.2]⟩
  rcases hn with h | h
  · rw [tetraTerm_interval (i := 0) _ _ _ hs h]
    have h0 : jFunc eps 0 k w v * nFunc eps 0 w v = 0 := by simp [nFunc]
    rw [h0]
    exact (Props.C21_nonneg eps he w' v hs k).2
  · obtain ⟨i, -, hi⟩ := exists_interval hw
    obtain ⟨i', -, hi'⟩ := exists_interval hw'
    have hm := nFunc_mono he hs (show Separated eps v from
      ⟨Or.inr hd.1, Or.inr hd.2.1, Or.inr hd.2.2⟩) hi hi' hle
    rw [nFunc_states he hd hi, nFunc_states he hd hi'] at hm
    rw [(Props.C21_exact eps he w v hd hw k).2 h, (Props.C21_exact eps he w' v hd hw' k).2 (h.trans hm)]
    exact statesShare_mono k v eps he hd hle

end Phono3py
