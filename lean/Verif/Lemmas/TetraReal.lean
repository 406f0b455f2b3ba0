/- Continuity and derivative of the specification's number of states, over the reals. -/
import Verif.Lemmas.TetraSpec
import Mathlib.Analysis.Calculus.Deriv.Pow
import Mathlib.Analysis.Calculus.Deriv.Mul
import Mathlib.Analysis.Calculus.Deriv.Add
import Mathlib.Topology.Algebra.Ring.Real
import Mathlib.Topology.Order.Lattice

namespace Phono3py
open Spec Filter Topology

theorem tpow_eq_max (w a : ℝ) (n : Nat) : tpow w a (n + 1) = (max (w - a) 0) ^ (n + 1) := by
  unfold tpow
  split_ifs with h
  · rw [max_eq_left (by linarith)]
  · rw [max_eq_right (by linarith), zero_pow (by omega)]

theorem tpow_continuous (a : ℝ) (n : Nat) : Continuous fun w => tpow w a (n + 1) := by
  simp only [tpow_eq_max]
  exact ((continuous_id.sub continuous_const).max continuous_const).pow _

theorem tpow_hasDerivAt (a w : ℝ) (n : Nat) (h : w ≠ a) :
    HasDerivAt (fun w => tpow w a (n + 2)) ((n + 2 : ℕ) * tpow w a (n + 1)) w := by
  rcases lt_or_gt_of_ne h with h | h
  · have : (fun w => tpow w a (n + 2)) =ᶠ[𝓝 w] fun _ => 0 := by
      filter_upwards [Iio_mem_nhds h] with y hy
      exact if_neg (not_lt.2 (le_of_lt hy))
    have e : tpow w a (n + 1) = 0 := if_neg (not_lt.2 h.le)
    rw [e, mul_zero]
    exact (hasDerivAt_const w (0 : ℝ)).congr_of_eventuallyEq this
  · have : (fun w => tpow w a (n + 2)) =ᶠ[𝓝 w] fun y => (y - a) ^ (n + 2) := by
      filter_upwards [Ioi_mem_nhds h] with y hy
      exact if_pos hy
    have e : tpow w a (n + 1) = (w - a) ^ (n + 1) := if_pos h
    rw [e]
    have d := ((hasDerivAt_id w).sub_const a).pow (n + 2)
    refine (d.congr_of_eventuallyEq this).congr_deriv ?_
    simp

theorem states_continuous (v : Fin 4 → ℝ) : Continuous fun w => states w v := by
  unfold states sum4
  have := fun k : Fin 4 => (tpow_continuous (v k) 2).div_const (gaps v k)
  exact (((this 0).add (this 1)).add (this 2)).add (this 3)

theorem states_hasDerivAt (v : Fin 4 → ℝ) (w : ℝ) (h : ∀ k, w ≠ v k) :
    HasDerivAt (fun w => states w v) (density w v) w := by
  unfold states density sum4
  have := fun k : Fin 4 => (tpow_hasDerivAt (v k) w 1 (h k)).div_const (gaps v k)
  refine ((((this 0).add (this 1)).add (this 2)).add (this 3)).congr_deriv ?_
  norm_num

end Phono3py
