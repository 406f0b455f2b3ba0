/- The Kramers-Kronig relation and the spectral function: C97, C98. -/
import Mathlib.Algebra.Order.Field.Basic
import Mathlib.Algebra.Order.Field.Rat
import Mathlib.Algebra.Order.BigOperators.Group.Finset
import Mathlib.Algebra.BigOperators.Ring.Finset
import Mathlib.Algebra.BigOperators.Intervals
import Mathlib.Algebra.Order.Ring.Abs
import Mathlib.Data.List.GetD
import Mathlib.Tactic.Ring
import Mathlib.Tactic.Linarith
import Mathlib.Tactic.Positivity
import Mathlib.Tactic.FieldSimp
import Mathlib.Tactic.LinearCombination
import Verif.Model.RealSelfEnergy
import Verif.Spec.RealSelfEnergy
import Verif.Lemmas.Adds

namespace Phono3py.Props
open Phono3py.Spec

section
variable {K : Type _} [Field K] [LinearOrder K] [IsStrictOrderedRing K]

theorem expandOdd_length (x : List K) (hx : x ≠ []) :
    (expandOdd x).length = 2 * (x.length - 1) + 1 := by
  have := List.length_pos_iff.2 hx
  simp only [expandOdd, List.length_append, List.length_map, List.length_reverse,
    List.length_tail]
  omega

/-- The left half of the expanded list. -/
theorem expandOdd_left (x : List K) (m : Nat) (hm : m < x.length) :
    (expandOdd x).getD (x.length - 1 - m) 0 = -x.getD m 0 := by
  unfold expandOdd
  rw [List.getD_append _ _ _ _ (by simp; omega)]
  rw [List.getD_eq_getElem _ _ (by simp; omega), List.getD_eq_getElem _ _ hm]
  rw [List.getElem_map, List.getElem_reverse]
  congr 2
  omega

/-- The right half of the expanded list. -/
theorem expandOdd_right (x : List K) (m : Nat) (hm : 0 < m) :
    (expandOdd x).getD (x.length - 1 + m) 0 = x.getD m 0 := by
  unfold expandOdd
  cases x with
  | nil => simp
  | cons a x =>
    rw [List.getD_append_right _ _ _ _ (by simp; omega)]
    obtain ⟨k, rfl⟩ := Nat.exists_eq_add_of_lt hm
    simp only [List.length_map, List.length_reverse, List.length_cons, List.tail_cons]
    rw [show x.length + 1 - 1 + (0 + k + 1) - (x.length + 1) = k by omega,
      show 0 + k + 1 = k + 1 by omega]
    rfl

theorem quotientSum_eq (a b : List K) (h : a.length = b.length) :
    quotientSum a b = ∑ k ∈ Finset.range a.length, a.getD k 0 / b.getD k 0 := by
  unfold quotientSum
  induction a generalizing b with
  | nil => simp
  | cons x a ih =>
    cases b with
    | nil => simp at h
    | cons y b =>
      rw [List.zipWith_cons_cons, List.sum_cons, ih b (by simpa using h), List.length_cons,
        Finset.sum_range_succ']
      simp only [List.getD_cons_succ, List.getD_cons_zero]
      ring

/-- A sum over the expanded index range, by distance from the centre. -/
theorem sum_centre (n : Nat) (g : Nat → K) :
    ∑ k ∈ Finset.range (2 * n + 1), g k =
      ∑ m ∈ Finset.range (n + 1), g (n - m) + ∑ m ∈ Finset.range n, g (n + (m + 1)) := by
  rw [show 2 * n + 1 = (n + 1) + n by ring, Finset.sum_range_add]
  congr 1
  · rw [← Finset.sum_range_reflect]
    refine Finset.sum_congr rfl fun m hm => ?_
    congr 1
  · refine Finset.sum_congr rfl fun m _ => ?_
    congr 1
    ring

/-- What one value of `_pick_one` is, in terms of the unexpanded lists. -/
theorem pick_value (x f : List K) (hx : x ≠ []) (hlen : f.length = x.length) (i : Nat)
    (hi : i < x.length) (hf0 : f.getD 0 0 = 0) (hx0 : x.getD 0 0 = 0) :
    quotientSum (expandOdd x)
        (((expandOdd f).map fun w => w - (expandOdd f).getD (x.length - 1 + i) 0).set
          (x.length - 1 + i) 1) - (expandOdd x).getD (x.length - 1 + i) 0 =
      ∑ m ∈ Finset.range x.length, x.getD m 0 / (f.getD m 0 + f.getD i 0) +
        ∑ m ∈ (Finset.range x.length).erase i, x.getD m 0 / (f.getD m 0 - f.getD i 0) := by
  have hf : f ≠ [] := by
    intro h
    have := List.length_pos_iff.2 hx
    rw [h] at hlen
    simp at hlen
    omega
  obtain ⟨n, hn⟩ : ∃ n, x.length = n + 1 :=
    ⟨x.length - 1, by have := List.length_pos_iff.2 hx; omega⟩
  have hcen : (expandOdd f).getD (x.length - 1 + i) 0 = f.getD i 0 := by
    rcases Nat.eq_zero_or_pos i with h | h
    · subst h
      have := expandOdd_left f 0 (by omega)
      rw [hlen] at this
      rw [show x.length - 1 + 0 = x.length - 1 - 0 by omega, this, hf0, neg_zero]
    · rw [← hlen]; exact expandOdd_right f i h
  have hxi : (expandOdd x).getD (x.length - 1 + i) 0 = x.getD i 0 := by
    rcases Nat.eq_zero_or_pos i with h | h
    · subst h
      rw [show x.length - 1 + 0 = x.length - 1 - 0 by omega, expandOdd_left x 0 (by omega), hx0,
        neg_zero]
    · exact expandOdd_right x i h
  rw [hcen, hxi, quotientSum_eq]
  swap
  · rw [List.length_set, List.length_map, expandOdd_length x hx, expandOdd_length f hf, hlen]
  rw [expandOdd_length x hx, sum_centre]
  have hset : ∀ k, k < 2 * (x.length - 1) + 1 →
      ((((expandOdd f).map fun w => w - f.getD i 0).set (x.length - 1 + i) 1).getD k 0) =
        if k = x.length - 1 + i then 1 else (expandOdd f).getD k 0 - f.getD i 0 := by
    intro k hk
    have hk' : k < (expandOdd f).length := by rw [expandOdd_length f hf, hlen]; exact hk
    rw [List.getD_eq_getElem _ _ (by simpa using hk'), List.getElem_set]
    by_cases h : x.length - 1 + i = k
    · rw [if_pos h, if_pos h.symm]
    · rw [if_neg h, if_neg (fun e => h e.symm), List.getElem_map,
        List.getD_eq_getElem _ _ hk']
  have hleft : ∀ m ∈ Finset.range (x.length - 1 + 1),
      (expandOdd x).getD (x.length - 1 - m) 0 /
        (((expandOdd f).map fun w => w - f.getD i 0).set (x.length - 1 + i) 1).getD
          (x.length - 1 - m) 0 = x.getD m 0 / (f.getD m 0 + f.getD i 0) := by
    intro m hm
    have hm' : m < x.length := by
      have := Finset.mem_range.1 hm
      omega
    rw [hset _ (by omega), expandOdd_left x m hm']
    have e := expandOdd_left f m (by omega)
    rw [hlen] at e
    rw [e]
    by_cases h : x.length - 1 - m = x.length - 1 + i
    · rw [if_pos h]
      have h1 : m = 0 := by omega
      subst h1
      rw [hx0, neg_zero, zero_div, zero_div]
    · rw [if_neg h, show -f.getD m 0 - f.getD i 0 = -(f.getD m 0 + f.getD i 0) by ring, neg_div_neg_eq]
  have hright : ∀ m ∈ Finset.range (x.length - 1),
      (expandOdd x).getD (x.length - 1 + (m + 1)) 0 /
        (((expandOdd f).map fun w => w - f.getD i 0).set (x.length - 1 + i) 1).getD
          (x.length - 1 + (m + 1)) 0 =
        if m + 1 = i then x.getD i 0 else x.getD (m + 1) 0 / (f.getD (m + 1) 0 - f.getD i 0) := by
    intro m hm
    have hm' := Finset.mem_range.1 hm
    rw [hset _ (by omega), expandOdd_right x _ (by omega)]
    have e := expandOdd_right f (m + 1) (by omega)
    rw [hlen] at e
    rw [e]
    by_cases h : m + 1 = i
    · rw [if_pos (by omega), if_pos h, div_one, h]
    · rw [if_neg (by omega), if_neg h]
  rw [Finset.sum_congr rfl hleft, Finset.sum_congr rfl hright]
  have hpos := List.length_pos_iff.2 hx
  rw [show x.length - 1 + 1 = x.length by omega, add_sub_assoc]
  congr 1
  -- the right half
  have hsum : ∑ m ∈ Finset.range (x.length - 1),
      (if m + 1 = i then x.getD i 0 else x.getD (m + 1) 0 / (f.getD (m + 1) 0 - f.getD i 0)) =
      ∑ m ∈ Finset.range x.length,
        (if m = i then x.getD i 0 else x.getD m 0 / (f.getD m 0 - f.getD i 0)) := by
    have e : x.length = (x.length - 1) + 1 := by omega
    conv_rhs => rw [e, Finset.sum_range_succ']
    have : (if 0 = i then x.getD i 0 else x.getD 0 0 / (f.getD 0 0 - f.getD i 0)) = 0 := by
      by_cases h : 0 = i
      · rw [if_pos h, ← h, hx0]
      · rw [if_neg h, hx0, zero_div]
    rw [this, add_zero]
  rw [hsum, ← Finset.add_sum_erase _ _ (Finset.mem_range.2 hi), if_pos rfl, add_sub_cancel_left]
  refine Finset.sum_congr rfl fun m hm => ?_
  rw [if_neg (Finset.ne_of_mem_erase hm)]

/-- The two halves combined. -/
theorem pick_combined (x f : Nat → K) (n i : Nat) (hi : i < n) (hf0 : f 0 = 0)
    (hmono : ∀ j k, j < k → k < n → f j < f k) (hx0 : x 0 = 0) :
    ∑ m ∈ Finset.range n, x m / (f m + f i) + ∑ m ∈ (Finset.range n).erase i, x m / (f m - f i) =
      (∑ m ∈ (Finset.range n).erase i, 2 * f m * x m / (f m ^ 2 - f i ^ 2)) + x i / (2 * f i) := by
  have hnn : ∀ m < n, 0 ≤ f m := by
    intro m hm
    rcases Nat.eq_zero_or_pos m with h | h
    · rw [h, hf0]
    · rw [← hf0]; exact (hmono 0 m h hm).le
  have hpos : ∀ m < n, 0 < m → 0 < f m := by
    intro m hm h
    rw [← hf0]; exact hmono 0 m h hm
  rw [← Finset.add_sum_erase _ _ (Finset.mem_range.2 hi), ← two_mul, add_assoc,
    ← Finset.sum_add_distrib, add_comm]
  congr 1
  refine Finset.sum_congr rfl fun m hm => ?_
  have hmi := Finset.ne_of_mem_erase hm
  have hmn := Finset.mem_range.1 (Finset.mem_of_mem_erase hm)
  have h1 : f m - f i ≠ 0 := by
    rcases lt_or_gt_of_ne hmi with h | h
    · exact (sub_neg.2 (hmono m i h hi)).ne
    · exact (sub_pos.2 (hmono i m h hmn)).ne'
  have h2 : f m + f i ≠ 0 := by
    rcases lt_or_gt_of_ne hmi with h | h
    · have := hpos i hi (by omega); have := hnn m hmn; linarith
    · have := hpos m hmn (by omega); have := hnn i hi; linarith
  have h3 : f m ^ 2 - f i ^ 2 = (f m + f i) * (f m - f i) := by ring
  rw [h3]
  field_simp
  ring

theorem filter_ge (n k : Nat) (h : n = 2 * k + 1) :
    ((List.range n).filter fun i => !decide (i < (n - 1) / 2)) =
      (List.range (k + 1)).map fun i => k + i := by
  subst h
  rw [show (2 * k + 1 - 1) / 2 = k by omega, show 2 * k + 1 = k + (k + 1) by omega,
    List.range_add, List.filter_append]
  have h1 : (List.range k).filter (fun i => !decide (i < k)) = [] := by
    rw [List.filter_eq_nil_iff]
    intro a ha
    simp [List.mem_range.1 ha]
  have h2 : ((List.range (k + 1)).map fun i => k + i).filter (fun i => !decide (i < k)) =
      (List.range (k + 1)).map fun i => k + i := by
    rw [List.filter_eq_self]
    intro a ha
    obtain ⟨b, _, rfl⟩ := List.mem_map.1 ha
    simp
  rw [h1]
  exact h2

theorem differences_length (f : List K) : (differences f).length = f.length - 1 := by
  unfold differences
  rw [List.length_zipWith, List.length_tail]
  omega

theorem differences_cons (a b : K) (f : List K) :
    differences (a :: b :: f) = (b - a) :: differences (b :: f) := rfl

theorem differences_sum (f : List K) : (differences f).sum = f.getD (f.length - 1) 0 - f.getD 0 0 := by
  induction f with
  | nil => simp [differences]
  | cons a f ih =>
    cases f with
    | nil => simp [differences]
    | cons b f =>
      rw [differences_cons, List.sum_cons, ih]
      simp only [List.length_cons, Nat.add_sub_cancel, List.getD_cons_succ, List.getD_cons_zero]
      ring

/-- Accepted input and what the expansion yields. -/
theorem expandBubble_eq (im f : List K) {e : List K × List K × K} (h : expandBubble im f = some e) :
    f ≠ [] ∧ e = (expandOdd im, expandOdd f,
      (f.getD (f.length - 1) 0 - f.getD 0 0) / ((f.length - 1 : Nat) : K)) := by
  cases hf : f with
  | nil => rw [hf] at h; simp [expandBubble] at h
  | cons f0 fs =>
    refine ⟨by simp, ?_⟩
    rw [← hf, ← differences_sum, ← differences_length]
    unfold expandBubble at h
    rw [hf] at h
    simp only at h
    split at h
    · exact absurd h (by simp)
    · split at h
      · exact absurd h (by simp)
      · split at h
        · exact absurd h (by simp)
        · rw [hf]; exact (Option.some.inj h).symm

/-- C97: for half linewidths `gammas` that vanish at zero frequency, sampled at increasing
frequency points starting at zero which the function accepts, the real part is the Kramers-Kronig
transform at exactly the given frequency points. -/
theorem C97_kramers_kronig_partial (pi : K) (gammas fpts : List K) (out : List (K × K))
    (hlen : gammas.length = fpts.length) (hf0 : fpts.getD 0 0 = 0) (hg0 : gammas.getD 0 0 = 0)
    (hmono : ∀ j k, j < k → k < fpts.length → fpts.getD j 0 < fpts.getD k 0)
    (hout : imagToReal pi gammas fpts = some out) :
    out.length = fpts.length ∧ ∀ i < fpts.length,
      out.getD i (0, 0) =
        (kramersKronig pi (fpts.getD (fpts.length - 1) 0 / ((fpts.length - 1 : Nat) : K)) fpts.length
          (fun m => gammas.getD m 0) (fun m => fpts.getD m 0) i, fpts.getD i 0) := by
  unfold imagToReal at hout
  obtain ⟨e, he, hout⟩ := Option.map_eq_some_iff.1 hout
  obtain ⟨hne, rfl⟩ := expandBubble_eq gammas fpts he
  rw [hf0, sub_zero] at hout
  have hgne : gammas ≠ [] := by
    intro h
    rw [h] at hlen
    exact hne (List.length_eq_zero_iff.1 hlen.symm)
  simp only [pickOne] at hout
  rw [filter_ge _ (gammas.length - 1) (expandOdd_length gammas hgne), List.map_map] at hout
  have hpos := List.length_pos_iff.2 hgne
  rw [show gammas.length - 1 + 1 = gammas.length by omega] at hout
  refine ⟨by rw [← hout, List.length_map, List.length_range, hlen], fun i hi => ?_⟩
  have hi' : i < gammas.length := by omega
  rw [← hout, List.getD_eq_getElem _ _ (by simpa using hi'), List.getElem_map,
    List.getElem_range]
  simp only [Function.comp]
  rw [pick_value gammas fpts hgne hlen.symm i hi' hf0 hg0]
  refine Prod.ext ?_ ?_
  · simp only
    rw [pick_combined (fun m => gammas.getD m 0) (fun m => fpts.getD m 0) gammas.length i hi' hf0
      (by rw [hlen]; exact hmono) hg0]
    unfold kramersKronig
    rw [hlen, mul_comm]
  · simp only
    rw [hlen]
    rcases Nat.eq_zero_or_pos i with h | h
    · subst h
      rw [show fpts.length - 1 + 0 = fpts.length - 1 - 0 by omega, expandOdd_left fpts 0 (by omega), hf0,
        neg_zero]
    · exact expandOdd_right fpts i h

/-- C97: the assertion on the frequency points in the spectral-function calculation holds, and the
shifts are the negated Kramers-Kronig transform. -/
theorem C97_shifts_partial (pi : K) (gammas fpts : List K)
    (hlen : gammas.length = fpts.length) (hf0 : fpts.getD 0 0 = 0) (hg0 : gammas.getD 0 0 = 0)
    (hmono : ∀ j k, j < k → k < fpts.length → fpts.getD j 0 < fpts.getD k 0)
    (hacc : (expandBubble gammas fpts).isSome) :
    ∃ deltas, runDelta pi gammas fpts = some deltas ∧ deltas.length = fpts.length ∧
      ∀ i < fpts.length, deltas.getD i 0 =
        -kramersKronig pi (fpts.getD (fpts.length - 1) 0 / ((fpts.length - 1 : Nat) : K)) fpts.length
          (fun m => gammas.getD m 0) (fun m => fpts.getD m 0) i := by
  obtain ⟨e, he⟩ := Option.isSome_iff_exists.1 hacc
  have hout : imagToReal pi gammas fpts = some (pickOne pi e.1 e.2.1 e.2.2) := by
    unfold imagToReal
    rw [he, Option.map_some]
  obtain ⟨h1, h2⟩ := C97_kramers_kronig_partial pi gammas fpts _ hlen hf0 hg0 hmono hout
  have hpts : (pickOne pi e.1 e.2.1 e.2.2).map Prod.snd = fpts := by
    refine List.ext_getElem (by rw [List.length_map, h1]) fun n hn hn' => ?_
    rw [List.length_map] at hn
    have := h2 n hn'
    rw [List.getD_eq_getElem _ _ hn] at this
    rw [List.getElem_map, this, List.getD_eq_getElem _ _ hn']
  refine ⟨(pickOne pi e.1 e.2.1 e.2.2).map fun p => -p.1, ?_, by rw [List.length_map, h1], ?_⟩
  · unfold runDelta
    rw [hout, Option.bind_some, hpts, if_pos]
    rw [List.zipWith_self, List.all_map, List.all_eq_true]
    intro x _
    simp
  · intro i hi
    rw [List.getD_eq_getElem _ _ (by rw [List.length_map, h1]; exact hi), List.getElem_map]
    have := h2 i hi
    rw [List.getD_eq_getElem _ _ (by rw [h1]; exact hi)] at this
    rw [this]

/-- C97: a first frequency point other than zero is refused. -/
theorem C97_start (pi : K) (gammas fpts : List K) (h : 1 / 100000000 < |fpts.getD 0 0|) :
    imagToReal pi gammas fpts = none := by
  unfold imagToReal expandBubble
  cases fpts with
  | nil => rfl
  | cons f0 fs =>
    simp only
    rw [if_pos (by simpa using h)]
    rfl

/-- C97: frequency points whose spacing deviates from the mean spacing by more than the tolerance
are refused. -/
theorem C97_uniform (pi : K) (gammas fpts : List K) (j : Nat) (hj : j + 1 < fpts.length)
    (h : 1 / 1000000 < |fpts.getD (j + 1) 0 - fpts.getD j 0 -
      (fpts.getD (fpts.length - 1) 0 - fpts.getD 0 0) / ((fpts.length - 1 : Nat) : K)|) :
    imagToReal pi gammas fpts = none := by
  have hd : fpts.getD (j + 1) 0 - fpts.getD j 0 ∈ differences fpts := by
    unfold differences
    refine List.mem_iff_getElem.2 ⟨j, by rw [List.length_zipWith, List.length_tail]; omega, ?_⟩
    rw [List.getElem_zipWith, List.getElem_tail, List.getD_eq_getElem _ _ hj,
      List.getD_eq_getElem _ _ (by omega)]
  rw [← differences_sum, ← differences_length] at h
  unfold imagToReal expandBubble
  cases fpts with
  | nil => rfl
  | cons f0 fs =>
    simp only
    split
    · rfl
    · split
      · rfl
      · rw [if_pos]
        · rfl
        · rw [List.any_eq_true]
          exact ⟨_, hd, by simpa using h⟩

/-- C97: points at equal distances starting at zero are accepted; these are the points the program
generates itself when at least two are asked for. -/
theorem C97_default_points (gammas : List K) (fmax : K) (num : Option Nat) (hn : 2 ≤ num.getD 201)
    (hmax : 0 < fmax) :
    let pts := sampleFrequencyPoints fmax num
    (expandBubble gammas pts).isSome ∧ pts.getD 0 0 = 0 ∧ pts.getD (pts.length - 1) 0 = fmax ∧
      ∀ j k, j < k → k < pts.length → pts.getD j 0 < pts.getD k 0 := by
  simp only
  unfold sampleFrequencyPoints
  generalize num.getD 201 = n at hn
  have hlen : (linspace0 fmax n).length = n := by simp [linspace0]
  have hget : ∀ j < n, (linspace0 fmax n).getD j 0 = (j : K) * (fmax / ((n - 1 : Nat) : K)) := by
    intro j hj
    rw [List.getD_eq_getElem _ _ (by rw [hlen]; exact hj)]
    simp [linspace0]
  have hn1 : (0 : K) < ((n - 1 : Nat) : K) := by exact_mod_cast (by omega : 0 < n - 1)
  have h0 : (linspace0 fmax n).getD 0 0 = 0 := by rw [hget 0 (by omega)]; simp
  have hl : (linspace0 fmax n).getD ((linspace0 fmax n).length - 1) 0 = fmax := by
    rw [hlen, hget _ (by omega)]
    field_simp
  refine ⟨?_, h0, hl, ?_⟩
  · unfold expandBubble
    have hd : ∀ d ∈ differences (linspace0 fmax n), d = fmax / ((n - 1 : Nat) : K) := by
      intro d hd
      obtain ⟨j, hj, rfl⟩ := List.mem_iff_getElem.1 hd
      have hj' : j < n - 1 := by rw [differences_length, hlen] at hj; exact hj
      simp only [differences, List.getElem_zipWith, List.getElem_tail]
      rw [← List.getD_eq_getElem _ 0, ← List.getD_eq_getElem _ 0, hget _ (by omega),
        hget _ (by omega)]
      push_cast
      ring
    have hmean : (differences (linspace0 fmax n)).sum / ((differences (linspace0 fmax n)).length : K) =
        fmax / ((n - 1 : Nat) : K) := by
      rw [differences_sum, differences_length, hl, h0, hlen, sub_zero]
    cases hf : linspace0 fmax n with
    | nil => rw [hf] at hlen; simp at hlen; omega
    | cons f0 fs =>
      have hf0 : f0 = 0 := by rw [hf] at h0; simpa using h0
      have hdl := differences_length (linspace0 fmax n)
      rw [hlen, hf] at hdl
      rw [hf] at hd hmean
      simp only
      rw [if_neg (by rw [hf0, abs_zero]; exact not_lt.2 (by positivity)), if_neg, if_neg]
      · rfl
      · rw [List.any_eq_true]
        rintro ⟨d, hd', h⟩
        rw [hd d hd', hmean, sub_self, abs_zero, decide_eq_true_eq] at h
        exact absurd h (not_lt.2 (by positivity))
      · intro h
        rw [h] at hdl
        simp at hdl
        omega
  · intro j k hjk hk
    rw [hlen] at hk
    rw [hget j (by omega), hget k hk]
    refine mul_lt_mul_of_pos_right (by exact_mod_cast hjk) (by positivity)

/-- C97: sign of the shift. At a frequency below all frequencies with a linewidth, the shift is not
positive. -/
theorem C97_sign (pi : K) (gammas fpts : List K) (deltas : List K) (hpi : 0 < pi)
    (hlen : gammas.length = fpts.length) (hf0 : fpts.getD 0 0 = 0)
    (hmono : ∀ j k, j < k → k < fpts.length → fpts.getD j 0 < fpts.getD k 0)
    (hout : runDelta pi gammas fpts = some deltas) (i : Nat) (hi : i < fpts.length)
    (hnn : ∀ m < fpts.length, 0 ≤ gammas.getD m 0)
    (hlow : ∀ m ≤ i, gammas.getD m 0 = 0) : deltas.getD i 0 ≤ 0 := by
  have hacc : (expandBubble gammas fpts).isSome := by
    rw [Option.isSome_iff_ne_none]
    intro h
    simp [runDelta, imagToReal, h] at hout
  obtain ⟨d, h1, _, h3⟩ := C97_shifts_partial pi gammas fpts hlen hf0 (hlow 0 (by omega)) hmono hacc
  rw [hout] at h1
  rw [Option.some.inj h1, h3 i hi, neg_nonpos]
  have hf : ∀ m < fpts.length, 0 ≤ fpts.getD m 0 := by
    intro m hm
    rcases Nat.eq_zero_or_pos m with h | h
    · rw [h, hf0]
    · exact hf0.symm.le.trans (hmono 0 m h hm).le
  unfold kramersKronig
  beta_reduce
  refine mul_nonneg (div_nonneg (div_nonneg (hf _ (by omega)) (Nat.cast_nonneg _)) hpi.le) ?_
  rw [hlow i le_rfl, zero_div, add_zero]
  refine Finset.sum_nonneg fun m hm => ?_
  have hmn := Finset.mem_range.1 (Finset.mem_of_mem_erase hm)
  have hmi := Finset.ne_of_mem_erase hm
  rcases lt_or_gt_of_ne hmi with h | h
  · rw [hlow m h.le, mul_zero, zero_div]
  · refine div_nonneg (mul_nonneg (mul_nonneg (by norm_num) (hf m hmn)) (hnn m hmn)) ?_
    have := hmono i m h hmn
    have := hf i hi
    nlinarith

/-- Six points with a peak. -/
def peakGammas : List ℚ := [0, 0, 1, 3, 1, 0]

example : peakGammas.length = (sampleFrequencyPoints (10 : ℚ) (some 6)).length ∧
    (expandBubble peakGammas (sampleFrequencyPoints (10 : ℚ) (some 6))).isSome = true ∧
    ((runDelta 3 peakGammas (sampleFrequencyPoints (10 : ℚ) (some 6))).map fun d =>
      (decide (d.getD 1 0 < 0), decide (0 < d.getD 5 0))) = some (true, true) := by decide +kernel

/-- C97 fails for a linewidth that does not vanish at zero frequency: the value at zero enters with
the opposite sign. The transform at the second point of `[1, 0]` at `[0, 1]` is `1/π`, although
the only other sample is `1` at distance `-1`, which contributes `-1/π`, or nothing when an odd
function is meant. -/
theorem C97_zero_inverted : ∃ (gammas fpts : List ℚ) (pi : ℚ), 0 < pi ∧
    fpts = [0, 1] ∧ gammas = [1, 0] ∧
    (imagToReal pi gammas fpts).map (fun o => o.map Prod.fst) = some [0, 1 / pi] :=
  ⟨[1, 0], [0, 1], 3, by norm_num, rfl, rfl, by decide +kernel⟩

/-- C97: the two tolerances do not fit together: a first point of `10⁻⁸` passes the check that it
is zero, but the calculation of shifts then stops at its assertion, because the returned first
point is the negated one. -/
theorem C97_assertion : ∃ (gammas fpts : List ℚ) (pi : ℚ),
    (imagToReal pi gammas fpts).isSome = true ∧ runDelta pi gammas fpts = none :=
  ⟨[0, 1], [1 / 100000000, 1], 3, by decide +kernel, by decide +kernel⟩

/-- C97: the tolerance on the spacing is absolute: for closely spaced points even repeated
frequencies pass. -/
theorem C97_repeated : ∃ (gammas fpts : List ℚ) (pi : ℚ),
    fpts.getD 1 0 = fpts.getD 2 0 ∧ (imagToReal pi gammas fpts).isSome = true :=
  ⟨[0, 1, 1], [0, 1 / 1000000, 1 / 1000000], 3, by decide +kernel, by decide +kernel⟩

/-! ## C98 -/

/-- C98: the spectral function is `-(1/π) Im G` for the dressed propagator, away from the bare pole
and where the propagator exists. -/
theorem C98_propagator (pi ω0 ω Γ Δ : K) (hpole : ω ^ 2 ≠ ω0 ^ 2)
    (hex : ¬ (ω ^ 2 - ω0 ^ 2 - 2 * ω0 * Δ = 0 ∧ 2 * ω0 * Γ = 0)) :
    IsSpectral pi ω0 ω Δ Γ (spectralValue pi ω0 ω Γ Δ) := by
  have hx : ω ^ 2 - ω0 ^ 2 ≠ 0 := sub_ne_zero.2 hpole
  unfold spectralValue IsSpectral
  simp only
  generalize ω ^ 2 - ω0 ^ 2 = x at hx hex ⊢
  have hden : 0 < (x - 2 * ω0 * Δ) ^ 2 + (2 * ω0 * Γ) ^ 2 := by
    rcases not_and_or.1 hex with h | h
    · have := sq_pos_of_ne_zero h; positivity
    · have := sq_pos_of_ne_zero h; positivity
  have hd := hden.ne'
  refine ⟨⟨2 * ω0 * (x - 2 * ω0 * Δ) / ((x - 2 * ω0 * Δ) ^ 2 + (2 * ω0 * Γ) ^ 2),
    -(2 * ω0 * (2 * ω0 * Γ)) / ((x - 2 * ω0 * Δ) ^ 2 + (2 * ω0 * Γ) ^ 2)⟩, ?_, ?_⟩
  · ext
    · simp only [Cplx.mul_re, Cplx.sub_re, Cplx.sub_im, Cplx.mul_im, Cplx.one_re, Cplx.one_im]
      generalize hD : (x - 2 * ω0 * Δ) ^ 2 + (2 * ω0 * Γ) ^ 2 = D at hd
      field_simp
      rw [← hD]
      ring
    · simp only [Cplx.mul_re, Cplx.sub_re, Cplx.sub_im, Cplx.mul_im, Cplx.one_re, Cplx.one_im]
      field_simp
      ring
  · rw [if_pos hden]
    generalize (x - 2 * ω0 * Δ) ^ 2 + (2 * ω0 * Γ) ^ 2 = D at hd
    rw [div_div, neg_div, neg_mul_neg, one_div, div_eq_mul_inv, div_eq_mul_inv, mul_inv]
    ring

/-- C98: the spectral function is never negative for a non-negative linewidth. -/
theorem C98_nonneg (pi ω0 ω Γ Δ : K) (hpi : 0 < pi) (hΓ : 0 ≤ Γ) :
    0 ≤ spectralValue pi ω0 ω Γ Δ := by
  unfold spectralValue
  simp only
  split
  · positivity
  · exact le_rfl

/-- C98: it is at most `1/(πΓ)`. -/
theorem C98_bound (pi ω0 ω Γ Δ : K) (hpi : 0 < pi) (hΓ : 0 < Γ) :
    spectralValue pi ω0 ω Γ Δ ≤ 1 / (pi * Γ) := by
  unfold spectralValue
  simp only
  split
  · rename_i h
    rw [div_div, div_le_div_iff₀ (by positivity) (by positivity)]
    have := mul_nonneg hpi.le (sq_nonneg (ω ^ 2 - ω0 ^ 2 - 2 * ω0 * Δ))
    nlinarith
  · positivity

/-- C98: the bound is reached exactly at the shifted frequency, `ω² = ω0² + 2 ω0 Δ`. -/
theorem C98_peak (pi ω0 ω Γ Δ : K) (hpi : 0 < pi) (hΓ : 0 < Γ) (h0 : ω0 ≠ 0) :
    spectralValue pi ω0 ω Γ Δ = 1 / (pi * Γ) ↔ ω ^ 2 = ω0 ^ 2 + 2 * ω0 * Δ := by
  have hpos : 0 < (ω ^ 2 - ω0 ^ 2 - 2 * ω0 * Δ) ^ 2 + (2 * ω0 * Γ) ^ 2 := by positivity
  unfold spectralValue
  simp only
  rw [if_pos hpos, div_div, div_eq_div_iff (by positivity) (by positivity)]
  constructor
  · intro h
    have h1 : pi * (ω ^ 2 - ω0 ^ 2 - 2 * ω0 * Δ) ^ 2 = 0 := by linear_combination -h
    have h2 : (ω ^ 2 - ω0 ^ 2 - 2 * ω0 * Δ) ^ 2 = 0 :=
      (mul_eq_zero.1 h1).resolve_left hpi.ne'
    have h3 := pow_eq_zero_iff (two_ne_zero) |>.1 h2
    linear_combination h3
  · intro h
    rw [show ω ^ 2 - ω0 ^ 2 - 2 * ω0 * Δ = 0 by rw [h]; ring]
    ring

/-- C98: no value is a quotient by zero: where linewidth and detuning both vanish the result is
zero. -/
theorem C98_no_linewidth (pi ω0 ω Δ : K) : spectralValue pi ω0 ω 0 Δ = 0 := by
  unfold spectralValue
  simp only [mul_zero, zero_div]
  split <;> rfl

/-- C98: with accepted frequency points and linewidths the spectral function of a band has one value
per point, each computed from the linewidth and shift at that point. -/
theorem C98_array (pi ω0 : K) (gammas fpts deltas : List K) (hlen : gammas.length = fpts.length)
    (hd : runDelta pi gammas fpts = some deltas) (hdl : deltas.length = fpts.length) :
    ∃ spec, spectralAtBand pi ω0 gammas fpts = some spec ∧ spec.length = fpts.length ∧
      ∀ i < fpts.length, spec.getD i 0 =
        spectralValue pi ω0 (fpts.getD i 0) (gammas.getD i 0) (deltas.getD i 0) := by
  unfold spectralAtBand
  rw [hd, Option.map_some]
  refine ⟨_, rfl, ?_, fun i hi => ?_⟩
  · simp [hlen, hdl]
  · rw [List.getD_eq_getElem _ _ (by simp [hlen, hdl, hi]), List.getElem_map, List.getElem_zip,
      List.getElem_zip, List.getD_eq_getElem _ _ hi, List.getD_eq_getElem _ _ (by omega),
      List.getD_eq_getElem _ _ (by omega)]

example : spectralAtBand 3 4 peakGammas (sampleFrequencyPoints (10 : ℚ) (some 6)) ≠ none ∧
    ((spectralAtBand 3 4 peakGammas (sampleFrequencyPoints (10 : ℚ) (some 6))).map fun l =>
      decide (0 < l.getD 2 0)) = some true := by decide +kernel

end
end Phono3py.Props
