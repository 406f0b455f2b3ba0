/-
Lemmas on the isotope scattering model.
-/
import Mathlib.Algebra.BigOperators.Ring.Finset
import Mathlib.Algebra.Order.BigOperators.Group.Finset
import Mathlib.Tactic.Ring
import Mathlib.Tactic.FieldSimp
import Verif.Model.Isotope
import Verif.Spec.Isotope
import Verif.Lemmas.Adds

namespace Phono3py
open Finset Spec

theorem mapM_forall₂ {α β : Type _} (f : α → Option β) (l : List α) (vs : List β) :
    l.mapM f = some vs ↔ List.Forall₂ (fun s v => f s = some v) l vs := by
  induction l generalizing vs with
  | nil => cases vs <;> simp
  | cons s l ih =>
    rw [List.mapM_cons]
    rcases hf : f s with _ | b
    · cases vs <;> simp [hf]
    · cases vs with
      | nil => rcases l.mapM f with _ | w <;> simp
      | cons v vs =>
        rw [List.forall₂_cons, ← ih, hf]
        rcases l.mapM f with _ | w <;> simp

section
variable {K : Type _} [Field K] [LinearOrder K] [IsStrictOrderedRing K]

theorem overlap_eq (s : IsoArgs K) (i : Nat) (gp : Int) (k l : Nat) :
    isoOverlap s i gp k l =
      overlapSq (isoE0 s i) (fun c => s.eigenvectors (gp * s.numBand * s.numBand +
        (c : Int) * s.numBand + k)) l := by
  simp only [isoOverlap, overlapSq, isoE1, List.range_succ, List.range_zero, List.nil_append,
    List.foldl_append, List.foldl_cons, List.foldl_nil, Finset.sum_range_succ,
    Finset.sum_range_zero, Cplx.normSq, Cplx.add_re, Cplx.add_im, Cplx.mul_re, Cplx.mul_im,
    Cplx.zero_re, Cplx.zero_im, conj]
  push_cast
  ring

theorem foldl_add_sum {β : Type _} (f : β → K) (l : List β) (x : K) :
    l.foldl (fun s i => s + f i) x = x + (l.map f).sum := by
  induction l generalizing x with
  | nil => simp
  | cons b l ih => rw [List.foldl_cons, ih, List.map_cons, List.sum_cons, add_assoc]

theorem foldl_add_if {β : Type _} (p : β → Prop) [DecidablePred p] (f : β → K) (l : List β)
    (x : K) (step : K → β → K) (h : ∀ s b, step s b = if p b then s else s + f b) :
    l.foldl step x = x + (l.map fun b => if p b then 0 else f b).sum := by
  induction l generalizing x with
  | nil => simp
  | cons b l ih =>
    rw [List.foldl_cons, ih, List.map_cons, List.sum_cons, h]
    split <;> ring

/-- The sum of one grid point. -/
theorem sumGK_eq (s : IsoArgs K) (i : Nat) (gp : Int) (dist : Nat → K) :
    isoSumGK s i gp dist = ∑ k ∈ range s.numBand,
      if s.frequencies (gp * s.numBand + ((k : Nat) : Int)) < s.cutoff then 0
      else dist k * ∑ l ∈ range (s.numBand / 3), s.massVariances l *
        overlapSq (isoE0 s i) (fun c => s.eigenvectors (gp * s.numBand * s.numBand +
          (c : Int) * s.numBand + k)) l := by
  unfold isoSumGK
  rw [foldl_add_if (fun (k : Nat) => s.frequencies (gp * s.numBand + ((k : Nat) : Int)) < s.cutoff)
    (fun (k : Nat) => ∑ l ∈ range (s.numBand / 3), isoOverlap s i gp k l * s.massVariances l * dist k),
    sum_range_list, zero_add]
  · refine Finset.sum_congr rfl fun k _ => ?_
    split
    · rfl
    · rw [Finset.mul_sum]
      refine Finset.sum_congr rfl fun l _ => ?_
      rw [overlap_eq]
      ring
  · intro x k
    dsimp only
    split
    · rfl
    · rw [foldl_add_sum, sum_range_list]

/-- Any order of the partial sums of a reduction. -/
theorem foldl_add_perm (n : Nat) (order : List Nat) (h : order.Perm (List.range n))
    (f : Nat → K) :
    order.foldl (fun s j => s + f j) 0 = ∑ j ∈ range n, f j := by
  rw [foldl_add_sum, zero_add, (h.map f).sum_eq, sum_range_list]

theorem runWrites_each {α : Type _} (a : Int → α) (n : Nat) (v : Nat → α) (i : Nat) (hi : i < n) :
    runWrites a (loop n fun i => [(((i : Nat) : Int), v i)]) i = v i := by
  rw [runWrites_loop_only a _ _ hi]
  · simp [runWrites, upd_same]
  · intro i' _ hne w hw
    rw [List.mem_singleton] at hw
    rw [hw]
    exact fun e => hne (Int.ofNat_inj.1 e)

theorem runWrites_skip {α : Type _} (a : Int → α) (n : Nat) (p : Nat → Prop) [DecidablePred p]
    (v : Nat → α) (i : Nat) (hi : i < n) :
    runWrites a (loop n fun i => if p i then [] else [(((i : Nat) : Int), v i)]) i =
      if p i then a i else v i := by
  rw [runWrites_loop_only a _ _ hi]
  · by_cases h : p i <;> simp [runWrites, upd_same, h]
  · intro i' _ hne w hw
    by_cases h : p i'
    · simp [h] at hw
    · simp only [if_neg h, List.mem_singleton] at hw
      rw [hw]
      exact fun e => hne (Int.ofNat_inj.1 e)

theorem loop_skip_outside {α : Type _} (a : Int → α) (n : Nat) (p : Nat → Prop) [DecidablePred p]
    (v : Nat → α) (x : Int) (hx : ∀ i < n, (i : Int) ≠ x) :
    runWrites a (loop n fun i => if p i then [] else [(((i : Nat) : Int), v i)]) x = a x := by
  refine runWrites_untouched _ _ _ fun w hw => ?_
  obtain ⟨i, hi, h⟩ := mem_loop.1 hw
  by_cases hp : p i
  · simp [hp] at h
  · simp only [if_neg hp, List.mem_singleton] at h
    rw [h]
    exact hx i hi

theorem loop_each_outside {α : Type _} (a : Int → α) (n : Nat)
    (v : Nat → α) (x : Int) (hx : ∀ i < n, (i : Int) ≠ x) :
    runWrites a (loop n fun i => [(((i : Nat) : Int), v i)]) x = a x := by
  refine runWrites_untouched _ _ _ fun w hw => ?_
  obtain ⟨i, hi, h⟩ := mem_loop.1 hw
  rw [List.mem_singleton] at h
  rw [h]
  exact hx i hi

/-! Conjugation. -/

theorem conj_add (a b : Cplx K) : conj (a + b) = conj a + conj b := by
  ext <;> simp [conj]; ring

theorem conj_mul (a b : Cplx K) : conj (a * b) = conj a * conj b := by
  ext <;> simp [conj]; ring

theorem conj_sum {ι : Type _} (t : Finset ι) (f : ι → Cplx K) :
    conj (∑ i ∈ t, f i) = ∑ i ∈ t, conj (f i) := by
  classical
  induction t using Finset.induction_on with
  | empty => ext <;> simp [conj]
  | insert a t h ih => rw [Finset.sum_insert h, Finset.sum_insert h, conj_add, ih]

theorem conj_mul_self (z : Cplx K) : conj z * z = ⟨z.normSq, 0⟩ := by
  ext <;> simp [conj, Cplx.normSq] <;> ring

theorem re_sum {ι : Type _} (t : Finset ι) (f : ι → Cplx K) :
    (∑ i ∈ t, f i).re = ∑ i ∈ t, (f i).re := by
  classical
  induction t using Finset.induction_on with
  | empty => simp
  | insert a t h ih => rw [Finset.sum_insert h, Finset.sum_insert h, Cplx.add_re, ih]

theorem normSq_nonneg (z : Cplx K) : 0 ≤ z.normSq := by
  unfold Cplx.normSq
  exact add_nonneg (mul_self_nonneg _) (mul_self_nonneg _)

theorem normSq_mul (a b : Cplx K) : (a * b).normSq = a.normSq * b.normSq := by
  simp only [Cplx.normSq, Cplx.mul_re, Cplx.mul_im]
  ring

theorem normSq_conj (a : Cplx K) : (conj a).normSq = a.normSq := by
  simp [Cplx.normSq, conj]

/-- A unitary mixture of complex numbers of equal weight keeps the weighted sum of the squared
moduli. -/
theorem sum_normSq_unitary (n : Nat) (U : Nat → Nat → Cplx K) (φ : Nat → K)
    (hφ : ∀ k < n, ∀ a < n, U k a ≠ 0 → φ k = φ a)
    (hU : ∀ a < n, ∀ b < n, ∑ k ∈ range n, conj (U k a) * U k b = if a = b then 1 else 0)
    (z : Nat → Cplx K) :
    ∑ k ∈ range n, φ k * (∑ a ∈ range n, U k a * z a).normSq =
      ∑ a ∈ range n, φ a * (z a).normSq := by
  have h : ∑ k ∈ range n, (⟨φ k, 0⟩ : Cplx K) *
      (conj (∑ a ∈ range n, U k a * z a) * (∑ a ∈ range n, U k a * z a)) =
      ∑ a ∈ range n, (⟨φ a, 0⟩ : Cplx K) * (conj (z a) * z a) := by
    simp only [conj_sum, Finset.sum_mul_sum, conj_mul]
    simp only [Finset.mul_sum]
    rw [Finset.sum_comm]
    refine Finset.sum_congr rfl fun a ha => ?_
    rw [Finset.sum_comm]
    have e : ∀ b ∈ range n, ∑ k ∈ range n,
        (⟨φ k, 0⟩ : Cplx K) * (conj (U k a) * conj (z a) * (U k b * z b)) =
        if a = b then (⟨φ a, 0⟩ : Cplx K) * (conj (z a) * z b) else 0 := by
      intro b hb
      have : ∑ k ∈ range n, (⟨φ k, 0⟩ : Cplx K) * (conj (U k a) * conj (z a) * (U k b * z b)) =
          (∑ k ∈ range n, conj (U k a) * U k b) * ((⟨φ a, 0⟩ : Cplx K) * (conj (z a) * z b)) := by
        rw [Finset.sum_mul]
        refine Finset.sum_congr rfl fun k hk => ?_
        by_cases h0 : U k a = 0
        · have : conj (U k a) = 0 := by rw [h0]; ext <;> simp [conj]
          rw [this]
          ring
        · rw [hφ k (Finset.mem_range.1 hk) a (Finset.mem_range.1 ha) h0]
          ring
      rw [this, hU a (Finset.mem_range.1 ha) b (Finset.mem_range.1 hb)]
      split <;> simp
    rw [Finset.sum_congr rfl e, Finset.sum_ite_eq, if_pos ha]
  have h2 := congrArg Cplx.re h
  simpa only [re_sum, conj_mul_self, Cplx.mul_re, mul_zero, sub_zero, zero_mul] using h2

end
end Phono3py
