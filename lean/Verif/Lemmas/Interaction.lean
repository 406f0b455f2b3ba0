/- Values stored by the interaction routines. -/
import Verif.Model.Interaction
import Verif.Spec.Interaction
import Verif.Lemmas.SelfEnergy
import Mathlib.GroupTheory.Perm.Basic
import Mathlib.Data.Fintype.Perm
import Mathlib.Tactic.FieldSimp

set_option linter.unusedSectionVars false

namespace Phono3py
open Spec

section
variable {K : Type _} [Field K] [LinearOrder K] [IsStrictOrderedRing K]

theorem scale_eq (a : Cplx K) (r : K) : a.scale r = a * ⟨r, 0⟩ := by
  ext <;> simp [Cplx.scale]

theorem normSq_nonneg (a : Cplx K) : 0 ≤ a.normSq :=
  add_nonneg (mul_self_nonneg _) (mul_self_nonneg _)

theorem normSq_mul (a b : Cplx K) : (a * b).normSq = a.normSq * b.normSq := by
  simp only [Cplx.normSq, Cplx.mul_re, Cplx.mul_im]; ring

/-- The contraction as a triple sum. -/
theorem fc3Sum_eq (e0 e1 e2 : Nat → Cplx K) (fc3 : Int → Cplx K) (n : Nat) :
    fc3Sum e0 e1 e2 fc3 n = (∑ a ∈ Finset.range n, ∑ b ∈ Finset.range n, ∑ c ∈ Finset.range n,
      fc3 (at3 n n a b c : Nat) * (e0 a * e1 b * e2 c)).normSq := by
  unfold fc3Sum
  rw [sumLoop_eq]
  congr 1
  refine Finset.sum_congr rfl fun a _ => ?_
  rw [sumLoop_eq, sum_pairs, Finset.mul_sum]
  refine Finset.sum_congr rfl fun b _ => ?_
  rw [Finset.mul_sum]
  refine Finset.sum_congr rfl fun c hc => ?_
  rw [Finset.mem_range] at hc
  have hdiv : at2 n b c / n = b := by
    unfold at2
    rw [mul_comm, Nat.mul_add_div (by omega), Nat.div_eq_of_lt hc, add_zero]
  have hmod : at2 n b c % n = c := by
    unfold at2
    rw [mul_comm, Nat.mul_add_mod]
    exact Nat.mod_eq_of_lt hc
  rw [hdiv, hmod, show a * n * n + at2 n b c = at3 n n a b c by unfold at2 at3; ring]
  ring

/-- The strength of three modes as the model computes it. -/
def strengthOf (sqrt : K → K) (expi : K → Cplx K) (c : Crystal K) (freqs : Fin 3 → Int → K)
    (eigvecs : Fin 3 → Int → Cplx K) (q : Fin 3 → Q3 K) (band : Fin 3 → Nat) : K :=
  modeStrength c.cutoff c.numBand (fun a => sqrt (c.masses (a / 3)))
    (fun i j k => realToReciprocal expi c.atoms q c.fc3 c.isCompact
      (at3 c.numBand c.numBand i j k : Nat))
    (fun m => freqs m (band m : Nat))
    (fun m a => eigvecs m (at2 c.numBand a (band m) : Nat))

theorem r2n_value (sqrt : K → K) (expi : K → Cplx K) (c : Crystal K) (freqs : Fin 3 → Int → K)
    (eigvecs : Fin 3 → Int → Cplx K) (q : Fin 3 → Q3 K) (p : GPos) :
    (let f0 := freqs 0 (c.bandIndices p.b0 : Nat)
      let f1 := freqs 1 (p.b1 : Nat)
      let f2 := freqs 2 (p.b2 : Nat)
      if f0 > c.cutoff ∧ f1 > c.cutoff ∧ f2 > c.cutoff then
        fc3Sum (scaledEigenvector sqrt c.masses (eigvecs 0) c.numBand (c.bandIndices p.b0))
          (scaledEigenvector sqrt c.masses (eigvecs 1) c.numBand p.b1)
          (scaledEigenvector sqrt c.masses (eigvecs 2) c.numBand p.b2)
          (realToReciprocal expi c.atoms q c.fc3 c.isCompact) c.numBand / (f0 * f1 * f2)
      else 0) = strengthOf sqrt expi c freqs eigvecs q ![c.bandIndices p.b0, p.b1, p.b2] := by
  unfold strengthOf modeStrength
  have hc : (∀ m : Fin 3, c.cutoff < freqs m ((![c.bandIndices p.b0, p.b1, p.b2] m : Nat) : Int)) ↔
      (freqs 0 (c.bandIndices p.b0 : Nat) > c.cutoff ∧ freqs 1 (p.b1 : Nat) > c.cutoff ∧
        freqs 2 (p.b2 : Nat) > c.cutoff) := by
    constructor
    · intro h; exact ⟨h 0, h 1, h 2⟩
    · rintro ⟨h0, h1, h2⟩ m
      match m with
      | 0 => exact h0
      | 1 => exact h1
      | 2 => exact h2
  by_cases h : freqs 0 (c.bandIndices p.b0 : Nat) > c.cutoff ∧ freqs 1 (p.b1 : Nat) > c.cutoff ∧
        freqs 2 (p.b2 : Nat) > c.cutoff
  · rw [if_pos h, if_pos (hc.2 h), fc3Sum_eq]
    congr 2
    refine Finset.sum_congr rfl fun i _ => Finset.sum_congr rfl fun j _ =>
      Finset.sum_congr rfl fun k _ => ?_
    simp only [scaledEigenvector, scale_eq]
    have : (⟨1 / (sqrt (c.masses (i / 3)) * sqrt (c.masses (j / 3)) * sqrt (c.masses (k / 3))), 0⟩
        : Cplx K) = ⟨1 / sqrt (c.masses (i / 3)), 0⟩ * ⟨1 / sqrt (c.masses (j / 3)), 0⟩ *
        ⟨1 / sqrt (c.masses (k / 3)), 0⟩ := by
      ext
      · simp only [Cplx.mul_re, Cplx.mul_im, mul_zero, zero_mul, sub_zero, add_zero,
          one_div, mul_inv]
      · simp
    rw [this]
    change _ = _ * (eigvecs 0 (at2 c.numBand i (c.bandIndices p.b0) : Nat) *
      eigvecs 1 (at2 c.numBand j p.b1 : Nat) * eigvecs 2 (at2 c.numBand k p.b2 : Nat)) * _
    unfold at2
    ring
  · rw [if_neg h, if_neg (fun q => h (hc.1 q))]

theorem realToNormal_eq (sqrt : K → K) (expi : K → Cplx K) (c : Crystal K) (gPos : List GPos)
    (freqs : Fin 3 → Int → K) (eigvecs : Fin 3 → Int → Cplx K) (q : Fin 3 → Q3 K) :
    realToNormal sqrt expi c gPos freqs eigvecs q = gPos.map fun p =>
      (((p.pos : Nat) : Int),
        strengthOf sqrt expi c freqs eigvecs q ![c.bandIndices p.b0, p.b1, p.b2]) := by
  unfold realToNormal r2nStores
  refine List.map_congr_left fun p _ => ?_
  rw [← r2n_value]

theorem at3_inj {n m a b c a' b' c' : Nat} (hb : b < n) (hc : c < m) (hb' : b' < n) (hc' : c' < m)
    (h : at3 n m a b c = at3 n m a' b' c') : a = a' ∧ b = b' ∧ c = c' := by
  have h1 := digits2 hc hc' h
  have h2 := digits2 hb hb' h1.1
  exact ⟨h2.1, h2.2, h1.2⟩

/-- Stores at the listed positions. -/
theorem gPos_stores {α : Type _} (numBand0 numBand : Nat) (gZero : Int → Bool) (F : GPos → α)
    (a : Int → α) {j k l : Nat} (hj : j < numBand0) (hk : k < numBand) (hl : l < numBand) :
    runWrites a ((setGPos numBand0 numBand gZero).map fun p => (((p.pos : Nat) : Int), F p))
      (at3 numBand numBand j k l : Nat) =
    if gZero (at3 numBand numBand j k l : Nat) then a (at3 numBand numBand j k l : Nat)
    else F ⟨j, k, l, at3 numBand numBand j k l⟩ := by
  have mem : ∀ p, p ∈ setGPos numBand0 numBand gZero ↔ ∃ j < numBand0, ∃ k < numBand,
      ∃ l < numBand, gZero (at3 numBand numBand j k l : Nat) = false ∧
        p = ⟨j, k, l, at3 numBand numBand j k l⟩ := by
    intro p
    rw [setGPos_eq]
    simp only [mem_loop]
    constructor
    · rintro ⟨j, hj, k, hk, l, hl, h⟩
      cases hz : gZero (at3 numBand numBand j k l : Nat)
      · rw [hz] at h
        simp only [Bool.false_eq_true, if_false, List.mem_singleton] at h
        exact ⟨j, hj, k, hk, l, hl, hz, h⟩
      · rw [hz] at h; cases h
    · rintro ⟨j, hj, k, hk, l, hl, hz, h⟩
      refine ⟨j, hj, k, hk, l, hl, ?_⟩
      rw [hz, h]; simp
  have uniq : ∀ p ∈ setGPos numBand0 numBand gZero, p.pos = at3 numBand numBand j k l →
      p = ⟨j, k, l, at3 numBand numBand j k l⟩ ∧ gZero (at3 numBand numBand j k l : Nat) = false := by
    intro p hp e
    obtain ⟨j', hj', k', hk', l', hl', hz, rfl⟩ := (mem p).1 hp
    obtain ⟨rfl, rfl, rfl⟩ := at3_inj hk' hl' hk hl e
    exact ⟨rfl, hz⟩
  by_cases hz : gZero (at3 numBand numBand j k l : Nat) = true
  · rw [if_pos hz]
    apply runWrites_untouched
    intro w hw e
    rw [List.mem_map] at hw
    obtain ⟨p, hp, rfl⟩ := hw
    have := (uniq p hp (Int.ofNat.inj e)).2
    rw [hz] at this; cases this
  · rw [if_neg hz]
    have hp : (⟨j, k, l, at3 numBand numBand j k l⟩ : GPos) ∈ setGPos numBand0 numBand gZero :=
      (mem _).2 ⟨j, hj, k, hk, l, hl, by simpa using hz, rfl⟩
    have hw := List.mem_map_of_mem (f := fun p : GPos => (((p.pos : Nat) : Int), F p)) hp
    have agree : Agree ((setGPos numBand0 numBand gZero).map
        fun p => (((p.pos : Nat) : Int), F p)) := by
      intro u hu w hw e
      rw [List.mem_map] at hu hw
      obtain ⟨p, hp, rfl⟩ := hu
      obtain ⟨p', hp', rfl⟩ := hw
      obtain ⟨j1, hj1, k1, hk1, l1, hl1, hz1, rfl⟩ := (mem p).1 hp
      obtain ⟨j2, hj2, k2, hk2, l2, hl2, hz2, rfl⟩ := (mem p').1 hp'
      obtain ⟨rfl, rfl, rfl⟩ := at3_inj hk1 hl1 hk2 hl2 (Int.ofNat.inj e)
      rfl
    exact runWrites_value a _ agree _ hw

theorem modeStrength_nonneg (cutoff : K) (hc : 0 ≤ cutoff) (n : Nat) (s : Nat → K)
    (Phi : Nat → Nat → Nat → Cplx K) (f : Fin 3 → K) (e : Fin 3 → Nat → Cplx K) :
    0 ≤ modeStrength cutoff n s Phi f e := by
  unfold modeStrength
  split_ifs with h
  · refine div_nonneg (normSq_nonneg _) ?_
    have := fun m => hc.trans (h m).le
    exact mul_nonneg (mul_nonneg (this 0) (this 1)) (this 2)
  · exact le_refl _

/-! ### The symmetrised variant -/

/-- The six exchanges are the six permutations. -/
theorem sum_indexExchange {α : Type _} [AddCommMonoid α] (f : (Fin 3 → Fin 3) → α) :
    (indexExchange.map f).sum = ∑ σ : Equiv.Perm (Fin 3), f σ := by
  have h : (indexExchange : Multiset (Fin 3 → Fin 3)) =
      (Finset.univ : Finset (Equiv.Perm (Fin 3))).val.map (fun (σ : Equiv.Perm (Fin 3)) => (⇑σ : Fin 3 → Fin 3)) := by
    decide +kernel
  have := congrArg (fun m : Multiset (Fin 3 → Fin 3) => (m.map f).sum) h
  simp only [Multiset.map_map] at this
  rw [Finset.sum]
  simpa using this

/-- One pass over the six exchanges. -/
theorem symq_fold {S : Type _} (ex : S → (Fin 3 → Fin 3) → S) (add : S → (Fin 3 → Fin 3) →
    List (Int × K)) (xs : List (Fin 3 → Fin 3)) (a : Int → K) (s : S) (p : Int)
    (v : (Fin 3 → Fin 3) → K) (P : S → Prop) (hs : P s)
    (hP : ∀ s x, P s → P (ex s x)) (hv : ∀ s x, P s → x ∈ xs → addsAt (add (ex s x) x) p = v x) :
    (xs.foldl (fun (st : (Int → K) × S) x => (runAdds st.1 (add (ex st.2 x) x), ex st.2 x))
      (a, s)).1 p = a p + (xs.map v).sum := by
  induction xs generalizing a s with
  | nil => simp
  | cons x xs ih =>
    rw [List.foldl_cons, ih _ _ (hP s x hs) (fun s y hs hy => hv s y hs (List.mem_cons_of_mem _ hy)),
      runAdds_value, hv s x hs (List.mem_cons_self ..), List.map_cons, List.sum_cons, add_assoc]

theorem triple_loop_adds (n0 n : Nat) (x : Nat → Nat → Nat → K) {j k l : Nat} (hj : j < n0)
    (hk : k < n) (hl : l < n) :
    addsAt (loop n0 fun j => loop n fun k => loop n fun l =>
      [(((j * n * n + k * n + l : Nat) : Int), x j k l)]) (at3 n n j k l : Nat) = x j k l := by
  have e : ∀ j k l, j * n * n + k * n + l = at3 n n j k l := by intros; unfold at3; ring
  simp only [e]
  rw [addsAt_loop, Finset.sum_eq_single j, addsAt_loop, Finset.sum_eq_single k, addsAt_loop,
    Finset.sum_eq_single l, addsAt_single, if_pos rfl]
  · intro l' hl' h
    rw [addsAt_single, if_neg]
    intro q
    exact h (at3_inj hk (Finset.mem_range.1 hl') hk hl (Int.ofNat.inj q)).2.2
  · intro h; exact absurd (Finset.mem_range.2 hl) h
  · intro k' hk' h
    rw [addsAt_loop]
    refine Finset.sum_eq_zero fun l' hl' => ?_
    rw [addsAt_single, if_neg]
    intro q
    exact h (at3_inj (Finset.mem_range.1 hk') (Finset.mem_range.1 hl') hk hl (Int.ofNat.inj q)).2.1
  · intro h; exact absurd (Finset.mem_range.2 hk) h
  · intro j' hj' h
    rw [addsAt_loop]
    refine Finset.sum_eq_zero fun k' hk' => ?_
    rw [addsAt_loop]
    refine Finset.sum_eq_zero fun l' hl' => ?_
    rw [addsAt_single, if_neg]
    intro q
    exact h (at3_inj (Finset.mem_range.1 hk') (Finset.mem_range.1 hl') hk hl (Int.ofNat.inj q)).1
  · intro h; exact absurd (Finset.mem_range.2 hj) h

end
end Phono3py
