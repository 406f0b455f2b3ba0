/- Symmetrisation of arrays over the six permutations of the legs, done block by block. -/
import Mathlib.Algebra.BigOperators.Group.Finset.Basic
import Mathlib.Data.Fintype.Perm
import Mathlib.Algebra.Order.Field.Basic
import Mathlib.Tactic.FieldSimp
import Mathlib.Tactic.FinCases
import Mathlib.Tactic.Linarith
import Mathlib.Tactic.Ring
import Verif.Lemmas.Writes
import Verif.Lemmas.Interaction
import Verif.Model.Fc3
import Verif.Spec.Fc3

namespace Phono3py

open Spec

variable {K : Type _} [Field K] [LinearOrder K] [IsStrictOrderedRing K]
set_option linter.unusedSectionVars false

/-- Sum over the permutations of three legs, written out in the order of c/fc3.c. -/
theorem sum_perm3 {α : Type _} [AddCommMonoid α] (g : Legs → α) (x : Legs) :
    ∑ σ : Equiv.Perm (Fin 3), g (x ∘ σ) =
      g ![x 0, x 1, x 2] + g ![x 0, x 2, x 1] + g ![x 1, x 0, x 2] + g ![x 1, x 2, x 0] +
        g ![x 2, x 0, x 1] + g ![x 2, x 1, x 0] := by
  have hs : (Finset.univ : Finset (Equiv.Perm (Fin 3))) =
      {1, Equiv.swap 1 2, Equiv.swap 0 1, Equiv.swap 0 1 * Equiv.swap 1 2,
        Equiv.swap 1 2 * Equiv.swap 0 1, Equiv.swap 0 2} := by decide +kernel
  have hx : ∀ σ : Equiv.Perm (Fin 3), x ∘ σ = ![x (σ 0), x (σ 1), x (σ 2)] := by
    intro σ; funext s; fin_cases s <;> rfl
  rw [hs]
  repeat rw [Finset.sum_insert (by decide +kernel)]
  rw [Finset.sum_singleton]
  simp only [hx]
  have e : ∀ σ : Equiv.Perm (Fin 3), ∀ a b c : Fin 3, σ 0 = a → σ 1 = b → σ 2 = c →
      (![x (σ 0), x (σ 1), x (σ 2)] : Legs) = ![x a, x b, x c] := by
    rintro σ a b c rfl rfl rfl; rfl
  rw [e 1 0 1 2 (by decide +kernel) (by decide +kernel) (by decide +kernel),
    e (Equiv.swap 1 2) 0 2 1 (by decide +kernel) (by decide +kernel) (by decide +kernel),
    e (Equiv.swap 0 1) 1 0 2 (by decide +kernel) (by decide +kernel) (by decide +kernel),
    e (Equiv.swap 0 1 * Equiv.swap 1 2) 1 2 0 (by decide +kernel) (by decide +kernel)
      (by decide +kernel),
    e (Equiv.swap 1 2 * Equiv.swap 0 1) 2 0 1 (by decide +kernel) (by decide +kernel)
      (by decide +kernel),
    e (Equiv.swap 0 2) 2 1 0 (by decide +kernel) (by decide +kernel) (by decide +kernel)]
  simp only [add_assoc]

theorem permutationMean_perm (f : Legs → K) (x : Legs) (τ : Equiv.Perm (Fin 3)) :
    permutationMean f (x ∘ τ) = permutationMean f x := by
  unfold permutationMean
  congr 1
  have := Equiv.sum_comp (Equiv.mulLeft τ) fun σ : Equiv.Perm (Fin 3) => f (x ∘ σ)
  simpa [Function.comp_assoc] using this

theorem permutationMean_of_const (f : Legs → K) (x : Legs) (v : K)
    (h : ∀ σ : Equiv.Perm (Fin 3), f (x ∘ σ) = v) : permutationMean f x = v := by
  unfold permutationMean
  rw [sum_perm3 f x]
  have e : ∀ a b c : Fin 3, ∀ σ : Equiv.Perm (Fin 3), σ 0 = a → σ 1 = b → σ 2 = c →
      f ![x a, x b, x c] = v := by
    rintro a b c σ rfl rfl rfl
    rw [← h σ]; congr 1; funext s; fin_cases s <;> rfl
  rw [e 0 1 2 1 (by decide +kernel) (by decide +kernel) (by decide +kernel),
    e 0 2 1 (Equiv.swap 1 2) (by decide +kernel) (by decide +kernel) (by decide +kernel),
    e 1 0 2 (Equiv.swap 0 1) (by decide +kernel) (by decide +kernel) (by decide +kernel),
    e 1 2 0 (Equiv.swap 0 1 * Equiv.swap 1 2) (by decide +kernel) (by decide +kernel)
      (by decide +kernel),
    e 2 0 1 (Equiv.swap 1 2 * Equiv.swap 0 1) (by decide +kernel) (by decide +kernel)
      (by decide +kernel),
    e 2 1 0 (Equiv.swap 0 2) (by decide +kernel) (by decide +kernel) (by decide +kernel)]
  ring

/-- Where elements are stored: `pos` need not be injective on the valid legs `V`, but elements
that share a slot share it after any permutation of the legs. -/
structure Layout (V : Legs → Prop) (pos : Legs → Int) : Prop where
  perm : ∀ x, V x → ∀ σ : Equiv.Perm (Fin 3), V (x ∘ σ)
  same : ∀ x y, V x → V y → pos x = pos y → ∀ σ : Equiv.Perm (Fin 3), pos (x ∘ σ) = pos (y ∘ σ)

/-- One block of the symmetrisation: the elements with a slot of `Z` get their averages. -/
def BlockStep (V : Legs → Prop) (pos : Legs → Int) (A A' : Int → K) (Z : Legs → Prop) : Prop :=
  (∀ x, V x → Z x → A' (pos x) = permutationMean (fun y => A (pos y)) x) ∧
    (∀ k, (∀ z, V z → Z z → pos z ≠ k) → A' k = A k)

/-- The elements of `D` are symmetrised, the others are not touched. -/
def SymInv (V : Legs → Prop) (pos : Legs → Int) (A0 A : Int → K) (D : Legs → Prop) : Prop :=
  (∀ x, V x → D x → A (pos x) = permutationMean (fun y => A0 (pos y)) x) ∧
    (∀ k, (∀ z, V z → D z → pos z ≠ k) → A k = A0 k)

theorem permutationMean_congr {f g : Legs → K} {x : Legs}
    (h : ∀ σ : Equiv.Perm (Fin 3), f (x ∘ σ) = g (x ∘ σ)) :
    permutationMean f x = permutationMean g x := by
  unfold permutationMean
  rw [Finset.sum_congr rfl fun σ _ => h σ]

theorem mean_same {V : Legs → Prop} {pos : Legs → Int} (L : Layout V pos) (A : Int → K)
    {x y : Legs} (hx : V x) (hy : V y) (h : pos x = pos y) :
    permutationMean (fun z => A (pos z)) x = permutationMean (fun z => A (pos z)) y := by
  unfold permutationMean
  congr 1
  exact Finset.sum_congr rfl fun σ _ => congrArg A (L.same x y hx hy h σ)

theorem symInv_step {V : Legs → Prop} {pos : Legs → Int} (L : Layout V pos)
    {A0 A A' : Int → K} {D Z : Legs → Prop}
    (hD : ∀ x, D x → ∀ σ : Equiv.Perm (Fin 3), D (x ∘ σ))
    (hI : SymInv V pos A0 A D) (hS : BlockStep V pos A A' Z) :
    SymInv V pos A0 A' fun x => D x ∨ Z x := by
  have key : ∀ x, V x → Z x → A' (pos x) = permutationMean (fun y => A0 (pos y)) x := by
    intro x hx hz
    rw [hS.1 x hx hz]
    by_cases hd : ∃ y, V y ∧ D y ∧ pos y = pos x
    · obtain ⟨y, hy, hDy, hyx⟩ := hd
      apply permutationMean_of_const
      intro σ
      show A (pos (x ∘ σ)) = _
      rw [← L.same y x hy hx hyx σ, hI.1 _ (L.perm y hy σ) (hD y hDy σ), permutationMean_perm,
        mean_same L A0 hy hx hyx]
    · apply permutationMean_congr
      intro σ
      show A (pos (x ∘ σ)) = A0 (pos (x ∘ σ))
      apply hI.2
      intro z hz' hDz he
      apply hd
      refine ⟨z ∘ ((σ⁻¹ : Equiv.Perm (Fin 3))), L.perm z hz' _, hD z hDz _, ?_⟩
      have := L.same z (x ∘ σ) hz' (L.perm x hx σ) he σ⁻¹
      rw [this]
      congr 1
      funext s
      simp
  constructor
  · intro x hx hdz
    by_cases hz : ∃ z, V z ∧ Z z ∧ pos z = pos x
    · obtain ⟨z, hVz, hZz, he⟩ := hz
      rw [← he, key z hVz hZz, mean_same L A0 hVz hx he]
    · rcases hdz with hd | hzx
      · rw [hS.2 (pos x) fun z h1 h2 h3 => hz ⟨z, h1, h2, h3⟩, hI.1 x hx hd]
      · exact (hz ⟨x, hx, hzx, rfl⟩).elim
  · intro k hk
    rw [hS.2 k fun z h1 h2 => hk z h1 (Or.inr h2), hI.2 k fun z h1 h2 => hk z h1 (Or.inl h2)]

/-- Stores of averages make a block step. -/
theorem blockStep_stores {V : Legs → Prop} {pos : Legs → Int} (L : Layout V pos) (A : Int → K)
    (zs : List Legs) (hzs : ∀ z ∈ zs, V z) :
    BlockStep V pos A
      (runWrites A (zs.map fun z => (pos z, permutationMean (fun y => A (pos y)) z)))
      (fun x => x ∈ zs) := by
  constructor
  · intro x hx hxz
    have hag : Agree (zs.map fun z => (pos z, permutationMean (fun y => A (pos y)) z)) := by
      intro u hu w hw he
      obtain ⟨z, hz, rfl⟩ := List.mem_map.mp hu
      obtain ⟨z', hz', rfl⟩ := List.mem_map.mp hw
      exact mean_same L A (hzs z hz) (hzs z' hz') he
    exact runWrites_value A _ hag (pos x, permutationMean (fun y => A (pos y)) x)
      (List.mem_map.mpr ⟨x, hxz, rfl⟩)
  · intro k hk
    apply runWrites_untouched
    intro w hw
    obtain ⟨z, hz, rfl⟩ := List.mem_map.mp hw
    exact hk z (hzs z hz) hz

/-! ### The block of a triple of atoms -/

/-- The six permutations of one element. -/
def sixLegs (x : Legs) : List Legs :=
  [![x 0, x 1, x 2], ![x 0, x 2, x 1], ![x 1, x 0, x 2], ![x 1, x 2, x 0], ![x 2, x 0, x 1],
    ![x 2, x 1, x 0]]

theorem mem_sixLegs {x y : Legs} : y ∈ sixLegs x ↔ ∃ σ : Equiv.Perm (Fin 3), y = x ∘ σ := by
  constructor
  · intro h
    have hx : ∀ σ : Equiv.Perm (Fin 3), x ∘ σ = ![x (σ 0), x (σ 1), x (σ 2)] := by
      intro σ; funext s; fin_cases s <;> rfl
    simp only [sixLegs, List.mem_cons, List.not_mem_nil, or_false] at h
    rcases h with rfl | rfl | rfl | rfl | rfl | rfl
    · exact ⟨1, by rw [hx]; rfl⟩
    · exact ⟨Equiv.swap 1 2, by rw [hx]; rfl⟩
    · exact ⟨Equiv.swap 0 1, by rw [hx]; rfl⟩
    · exact ⟨Equiv.swap 0 1 * Equiv.swap 1 2, by rw [hx]; rfl⟩
    · exact ⟨Equiv.swap 1 2 * Equiv.swap 0 1, by rw [hx]; rfl⟩
    · exact ⟨Equiv.swap 0 2, by rw [hx]; rfl⟩
  · rintro ⟨σ, rfl⟩
    have hx : x ∘ σ = ![x (σ 0), x (σ 1), x (σ 2)] := by
      funext s; fin_cases s <;> rfl
    rw [hx]
    have hs : ∀ σ : Equiv.Perm (Fin 3), (σ 0, σ 1, σ 2) ∈
        ([(0, 1, 2), (0, 2, 1), (1, 0, 2), (1, 2, 0), (2, 0, 1), (2, 1, 0)] :
          List (Fin 3 × Fin 3 × Fin 3)) := by decide +kernel
    have := hs σ
    simp only [List.mem_cons, List.not_mem_nil, or_false, Prod.mk.injEq] at this
    rcases this with ⟨h0, h1, h2⟩ | ⟨h0, h1, h2⟩ | ⟨h0, h1, h2⟩ | ⟨h0, h1, h2⟩ | ⟨h0, h1, h2⟩ |
      ⟨h0, h1, h2⟩ <;> rw [h0, h1, h2] <;> simp [sixLegs]

/-- All elements with a given triple of atoms, in any order of the legs. -/
def blockLegs (t : Nat × Nat × Nat) : List Legs :=
  loop 3 fun i => loop 3 fun j => loop 3 fun k => sixLegs ![(t.1, i), (t.2.1, j), (t.2.2, k)]

theorem mem_blockLegs {t : Nat × Nat × Nat} {y : Legs} :
    y ∈ blockLegs t ↔ ∃ i < 3, ∃ j < 3, ∃ k < 3, ∃ σ : Equiv.Perm (Fin 3),
      y = (![(t.1, i), (t.2.1, j), (t.2.2, k)] : Legs) ∘ σ := by
  simp only [blockLegs, mem_loop, mem_sixLegs]

theorem blockLegs_perm {t : Nat × Nat × Nat} {y : Legs} (h : y ∈ blockLegs t)
    (σ : Equiv.Perm (Fin 3)) : y ∘ σ ∈ blockLegs t := by
  rw [mem_blockLegs] at h ⊢
  obtain ⟨i, hi, j, hj, k, hk, τ, rfl⟩ := h
  exact ⟨i, hi, j, hj, k, hk, τ * σ, by rw [Function.comp_assoc]; rfl⟩

theorem blockLegs_valid {n : Nat} {t : Nat × Nat × Nat} (h : t.1 < n ∧ t.2.1 < n ∧ t.2.2 < n)
    {y : Legs} (hy : y ∈ blockLegs t) : Legs.Valid n y := by
  rw [mem_blockLegs] at hy
  obtain ⟨i, hi, j, hj, k, hk, τ, rfl⟩ := hy
  intro s
  have : ∀ r : Fin 3, ((![(t.1, i), (t.2.1, j), (t.2.2, k)] : Legs) r).1 < n ∧
      ((![(t.1, i), (t.2.1, j), (t.2.2, k)] : Legs) r).2 < 3 := by
    intro r; fin_cases r
    · exact ⟨h.1, hi⟩
    · exact ⟨h.2.1, hj⟩
    · exact ⟨h.2.2, hk⟩
  exact this _

theorem mem_block_self {x : Legs} {n : Nat} (hx : Legs.Valid n x) :
    x ∈ blockLegs ((x 0).1, (x 1).1, (x 2).1) := by
  rw [mem_blockLegs]
  refine ⟨(x 0).2, (hx 0).2, (x 1).2, (hx 1).2, (x 2).2, (hx 2).2, 1, ?_⟩
  funext s; fin_cases s <;> rfl

/-- The stores of six equal averages for every choice of directions are the stores of a block. -/
theorem block_stores (pos : Legs → Int) (A : Int → K) (t : Nat × Nat × Nat) :
    (blockLegs t).map (fun z => (pos z, permutationMean (fun y => A (pos y)) z)) =
      loop 3 fun i => loop 3 fun j => loop 3 fun k =>
        (sixLegs ![(t.1, i), (t.2.1, j), (t.2.2, k)]).map fun z =>
          (pos z, permutationMean (fun y => A (pos y)) ![(t.1, i), (t.2.1, j), (t.2.2, k)]) := by
  unfold blockLegs loop
  simp only [List.map_flatMap]
  congr 1; funext i; congr 1; funext j; congr 1; funext k
  apply List.map_congr_left
  intro z hz
  obtain ⟨σ, rfl⟩ := mem_sixLegs.mp hz
  rw [permutationMean_perm]

/-! ### Full array -/

/-- Bounds that make positions unique; the first atom is unbounded. -/
def Slot (n : Nat) (x : Legs) : Prop := (x 1).1 < n ∧ (x 2).1 < n ∧ ∀ s, (x s).2 < 3

theorem Legs.Valid.slot {n : Nat} {x : Legs} (hx : Legs.Valid n x) : Slot n x :=
  ⟨(hx 1).1, (hx 2).1, fun s => (hx s).2⟩

theorem fc3Pos_inj {n : Nat} {x y : Legs} (hx : Slot n x) (hy : Slot n y)
    (h : fc3Pos n x = fc3Pos n y) : x = y := by
  unfold fc3Pos at h
  obtain ⟨h, h2⟩ := digits2 (hx.2.2 2) (hy.2.2 2) h
  obtain ⟨h, h1⟩ := digits2 (hx.2.2 1) (hy.2.2 1) h
  obtain ⟨h, h0⟩ := digits2 (hx.2.2 0) (hy.2.2 0) h
  obtain ⟨h, a2⟩ := digits2 hx.2.1 hy.2.1 h
  obtain ⟨a0, a1⟩ := digits2 hx.1 hy.1 h
  funext s
  fin_cases s
  · exact Prod.ext a0 h0
  · exact Prod.ext a1 h1
  · exact Prod.ext a2 h2

theorem Legs.Valid.perm {n : Nat} {x : Legs} (hx : Legs.Valid n x) (σ : Equiv.Perm (Fin 3)) :
    Legs.Valid n (x ∘ σ) := fun s => hx (σ s)

theorem layout_full (n : Nat) : Layout (Legs.Valid n) (fun x => ((fc3Pos n x : Nat) : Int)) where
  perm := fun _ hx σ => Legs.Valid.perm hx σ
  same := fun x y hx hy h σ => by
    rw [fc3Pos_inj (Legs.Valid.slot hx) (Legs.Valid.slot hy) (by exact_mod_cast h)]

theorem fc3Adr_eq (n a b c i j k : Nat) :
    fc3Adr n a b c i j k = ((fc3Pos n ![(a, i), (b, j), (c, k)] : Nat) : Int) := by
  unfold fc3Adr fc3Pos
  congr 1
  show _ = ((((a * n + b) * n + c) * 3 + i) * 3 + j) * 3 + k
  ring

theorem permElem_eq (n : Nat) (A : Int → K) (a b c i j k : Nat) :
    permElem n A a b c i j k =
      permutationMean (fun y => A (fc3Pos n y : Nat)) ![(a, i), (b, j), (c, k)] := by
  unfold permutationMean permElem
  rw [sum_perm3 (fun y => A ((fc3Pos n y : Nat) : Int)) ![(a, i), (b, j), (c, k)]]
  simp only [fc3Adr_eq]
  rfl

theorem permStep_eq (n : Nat) (A : Int → K) (t : Nat × Nat × Nat) :
    permStep n A t = runWrites A ((blockLegs t).map fun z =>
      (((fc3Pos n z : Nat) : Int), permutationMean (fun y => A (fc3Pos n y : Nat)) z)) := by
  unfold permStep copyPermElem
  rw [block_stores (fun z => ((fc3Pos n z : Nat) : Int)) A t]
  simp only [fc3Adr_eq, permElem_eq]
  rfl

theorem permStep_block (n : Nat) (A : Int → K) (t : Nat × Nat × Nat)
    (h : t.1 < n ∧ t.2.1 < n ∧ t.2.2 < n) :
    BlockStep (Legs.Valid n) (fun x => ((fc3Pos n x : Nat) : Int)) A (permStep n A t)
      (fun x => x ∈ blockLegs t) := by
  rw [permStep_eq]
  exact blockStep_stores (layout_full n) A _ fun z hz => blockLegs_valid h hz

theorem fold_permStep (n : Nat) (A0 : Int → K) (ts : List (Nat × Nat × Nat)) :
    ∀ (A : Int → K) (D : Legs → Prop), (∀ x, D x → ∀ σ : Equiv.Perm (Fin 3), D (x ∘ σ)) →
      (∀ t ∈ ts, t.1 < n ∧ t.2.1 < n ∧ t.2.2 < n) →
      SymInv (Legs.Valid n) (fun x => ((fc3Pos n x : Nat) : Int)) A0 A D →
      SymInv (Legs.Valid n) (fun x => ((fc3Pos n x : Nat) : Int)) A0 (ts.foldl (permStep n) A)
        (fun x => D x ∨ ∃ t ∈ ts, x ∈ blockLegs t) := by
  induction ts with
  | nil =>
    intro A D _ _ hI
    simpa using hI
  | cons t ts ih =>
    intro A D hD ht hI
    have h1 := symInv_step (layout_full n) hD hI
      (permStep_block n A t (ht t (by simp)))
    have h2 := ih _ _ (fun x hx σ => hx.imp (fun h => hD x h σ) fun h => blockLegs_perm h σ)
      (fun t' ht' => ht t' (by simp [ht'])) h1
    have e : (fun x => (D x ∨ x ∈ blockLegs t) ∨ ∃ t' ∈ ts, x ∈ blockLegs t') =
        fun x => D x ∨ ∃ t' ∈ t :: ts, x ∈ blockLegs t' := by
      funext x
      simp [or_assoc]
    rw [← e]
    exact h2

theorem mem_sortedTriples {n : Nat} {t : Nat × Nat × Nat} :
    t ∈ sortedTriples n ↔ t.1 ≤ t.2.1 ∧ t.2.1 ≤ t.2.2 ∧ t.2.2 < n := by
  obtain ⟨a, b, c⟩ := t
  simp only [sortedTriples, mem_loop, List.mem_flatMap, List.mem_map, List.mem_range', one_mul,
    Prod.mk.injEq]
  constructor
  · rintro ⟨i, hi, j, ⟨p, hp, rfl⟩, k, ⟨q, hq, rfl⟩, rfl, rfl, rfl⟩
    omega
  · rintro ⟨h1, h2, h3⟩
    exact ⟨a, by omega, b, ⟨b - a, by omega, by omega⟩, c, ⟨c - b, by omega, by omega⟩, rfl, rfl,
      rfl⟩

/-- Legs can be permuted so that the atoms are sorted. -/
theorem exists_sorted (x : Legs) : ∃ σ : Equiv.Perm (Fin 3),
    (x (σ 0)).1 ≤ (x (σ 1)).1 ∧ (x (σ 1)).1 ≤ (x (σ 2)).1 := by
  rcases le_total (x 0).1 (x 1).1 with h01 | h01 <;> rcases le_total (x 1).1 (x 2).1 with h12 | h12 <;>
    rcases le_total (x 0).1 (x 2).1 with h02 | h02
  · exact ⟨1, h01, h12⟩
  · exact ⟨1, h01, h12⟩
  · exact ⟨Equiv.swap 1 2, h02, h12⟩
  · exact ⟨Equiv.swap 1 2 * Equiv.swap 0 1, h02, h01⟩
  · exact ⟨Equiv.swap 0 1, h01, h02⟩
  · exact ⟨Equiv.swap 0 1 * Equiv.swap 1 2, h12, h02⟩
  · exact ⟨Equiv.swap 0 2, h12, h01⟩
  · exact ⟨Equiv.swap 0 2, h12, h01⟩

theorem covered_sorted {n : Nat} {x : Legs} (hx : Legs.Valid n x) :
    ∃ t ∈ sortedTriples n, x ∈ blockLegs t := by
  obtain ⟨σ, h1, h2⟩ := exists_sorted x
  refine ⟨((x (σ 0)).1, (x (σ 1)).1, (x (σ 2)).1), mem_sortedTriples.mpr ⟨h1, h2, (hx _).1⟩, ?_⟩
  have h := blockLegs_perm (mem_block_self (Legs.Valid.perm hx σ)) σ⁻¹
  have e : (x ∘ σ) ∘ (σ⁻¹ : Equiv.Perm (Fin 3)) = x := by funext s; simp
  rw [e] at h
  exact h

/-! ### Compact array -/

/-- `CompactMaps` describes the lattice translations of the supercell. -/
def CompactMaps.Ok (m : CompactMaps) : Prop :=
  Translations m.nSatom m.nPatom m.p2s m.s2pp m.trans

/-- Slot of an element in the compact array. -/
def CompactMaps.pos (m : CompactMaps) (x : Legs) : Int :=
  ((fc3Pos m.nSatom (compactLegs m.s2pp m.trans x) : Nat) : Int)

/-- Index of the block of 27 elements that contains the slot. -/
def CompactMaps.block (m : CompactMaps) (x : Legs) : Nat :=
  (m.s2pp (x 0).1 * m.nSatom + m.trans (x 0).1 (x 1).1) * m.nSatom + m.trans (x 0).1 (x 2).1

theorem compactLegs_slot {m : CompactMaps} (hm : m.Ok) {x : Legs} (hx : Legs.Valid m.nSatom x) :
    Slot m.nSatom (compactLegs m.s2pp m.trans x) := by
  refine ⟨hm.move_lt _ (hx 0).1 _ (hx 1).1, hm.move_lt _ (hx 0).1 _ (hx 2).1, ?_⟩
  intro s; fin_cases s
  · exact (hx 0).2
  · exact (hx 1).2
  · exact (hx 2).2

/-- Translating all legs does not change the slot. -/
theorem compactLegs_move {m : CompactMaps} (hm : m.Ok) {x : Legs} (hx : Legs.Valid m.nSatom x)
    {j : Nat} (hj : j < m.nSatom) :
    compactLegs m.s2pp m.trans (fun s => (m.trans j (x s).1, (x s).2)) =
      compactLegs m.s2pp m.trans x := by
  unfold compactLegs
  simp only [hm.cls_move j hj _ (hx 0).1, hm.move_move j hj _ (hx 0).1 _ (hx 1).1,
    hm.move_move j hj _ (hx 0).1 _ (hx 2).1]

/-- Two elements in one slot are translates of a common element. -/
theorem same_slot {m : CompactMaps} (hm : m.Ok) {x y : Legs} (hx : Legs.Valid m.nSatom x)
    (hy : Legs.Valid m.nSatom y)
    (h : compactLegs m.s2pp m.trans x = compactLegs m.s2pp m.trans y) :
    (fun s => (m.trans (x 0).1 (x s).1, (x s).2)) =
      fun s => (m.trans (y 0).1 (y s).1, (y s).2) := by
  have h0 : (m.s2pp (x 0).1, (x 0).2) = (m.s2pp (y 0).1, (y 0).2) := congrFun h 0
  have h1 : (m.trans (x 0).1 (x 1).1, (x 1).2) = (m.trans (y 0).1 (y 1).1, (y 1).2) := congrFun h 1
  have h2 : (m.trans (x 0).1 (x 2).1, (x 2).2) = (m.trans (y 0).1 (y 2).1, (y 2).2) := congrFun h 2
  simp only [Prod.mk.injEq] at h0
  funext s
  fin_cases s
  · show (m.trans (x 0).1 (x 0).1, (x 0).2) = (m.trans (y 0).1 (y 0).1, (y 0).2)
    rw [hm.move_self _ (hx 0).1, hm.move_self _ (hy 0).1, h0.1, h0.2]
  · exact h1
  · exact h2

theorem compactLegs_perm {m : CompactMaps} (hm : m.Ok) {x y : Legs} (hx : Legs.Valid m.nSatom x)
    (hy : Legs.Valid m.nSatom y)
    (h : compactLegs m.s2pp m.trans x = compactLegs m.s2pp m.trans y) (σ : Equiv.Perm (Fin 3)) :
    compactLegs m.s2pp m.trans (x ∘ σ) = compactLegs m.s2pp m.trans (y ∘ σ) := by
  rw [← compactLegs_move hm (Legs.Valid.perm hx σ) (hx 0).1,
    ← compactLegs_move hm (Legs.Valid.perm hy σ) (hy 0).1]
  have e := same_slot hm hx hy h
  congr 1
  funext s
  exact congrFun e (σ s)

theorem layout_compact {m : CompactMaps} (hm : m.Ok) : Layout (Legs.Valid m.nSatom) m.pos where
  perm := fun _ hx σ => Legs.Valid.perm hx σ
  same := fun x y hx hy h σ => by
    have h' := fc3Pos_inj (compactLegs_slot hm hx) (compactLegs_slot hm hy) (Int.ofNat.inj h)
    unfold CompactMaps.pos
    rw [compactLegs_perm hm hx hy h' σ]

theorem block_of_pos {m : CompactMaps} (hm : m.Ok) {x y : Legs} (hx : Legs.Valid m.nSatom x)
    (hy : Legs.Valid m.nSatom y) (h : m.pos x = m.pos y) : m.block x = m.block y := by
  have h' := fc3Pos_inj (compactLegs_slot hm hx) (compactLegs_slot hm hy) (Int.ofNat.inj h)
  have h0 : (m.s2pp (x 0).1, (x 0).2) = (m.s2pp (y 0).1, (y 0).2) := congrFun h' 0
  have h1 : (m.trans (x 0).1 (x 1).1, (x 1).2) = (m.trans (y 0).1 (y 1).1, (y 1).2) :=
    congrFun h' 1
  have h2 : (m.trans (x 0).1 (x 2).1, (x 2).2) = (m.trans (y 0).1 (y 2).1, (y 2).2) :=
    congrFun h' 2
  simp only [Prod.mk.injEq] at h0 h1 h2
  unfold CompactMaps.block
  rw [h0.1, h1.1, h2.1]

/-- Elements of one block: the same atoms up to a translation. -/
theorem pos_of_block {m : CompactMaps} (hm : m.Ok) {x y : Legs} (hx : Legs.Valid m.nSatom x)
    (hy : Legs.Valid m.nSatom y) (h : m.block x = m.block y) (hc : ∀ s, (x s).2 = (y s).2) :
    m.pos x = m.pos y := by
  unfold CompactMaps.block at h
  obtain ⟨h, a2⟩ := digits2 (hm.move_lt _ (hx 0).1 _ (hx 2).1) (hm.move_lt _ (hy 0).1 _ (hy 2).1) h
  obtain ⟨a0, a1⟩ :=
    digits2 (hm.move_lt _ (hx 0).1 _ (hx 1).1) (hm.move_lt _ (hy 0).1 _ (hy 1).1) h
  unfold CompactMaps.pos compactLegs
  rw [a0, a1, a2, hc 0, hc 1, hc 2]

/-- The three atoms of a step of the compact loops. -/
def CompactMaps.triple (m : CompactMaps) (t : Nat × Nat × Nat) : Nat × Nat × Nat :=
  (m.p2s t.1, t.2.1, t.2.2)

theorem compactAdrs_mul {m : CompactMaps} (hm : m.Ok) {ip j k : Nat} (hip : ip < m.nPatom)
    (hj : j < m.nSatom) (hk : k < m.nSatom) (a b c : Nat) :
    (((compactAdrs m ip j k 0 * 27 + a * 9 + b * 3 + c : Nat) : Int) =
      m.pos ![(m.p2s ip, a), (j, b), (k, c)]) ∧
    (((compactAdrs m ip j k 1 * 27 + a * 9 + b * 3 + c : Nat) : Int) =
      m.pos ![(m.p2s ip, a), (k, b), (j, c)]) ∧
    (((compactAdrs m ip j k 2 * 27 + a * 9 + b * 3 + c : Nat) : Int) =
      m.pos ![(j, a), (m.p2s ip, b), (k, c)]) ∧
    (((compactAdrs m ip j k 3 * 27 + a * 9 + b * 3 + c : Nat) : Int) =
      m.pos ![(j, a), (k, b), (m.p2s ip, c)]) ∧
    (((compactAdrs m ip j k 4 * 27 + a * 9 + b * 3 + c : Nat) : Int) =
      m.pos ![(k, a), (m.p2s ip, b), (j, c)]) ∧
    (((compactAdrs m ip j k 5 * 27 + a * 9 + b * 3 + c : Nat) : Int) =
      m.pos ![(k, a), (j, b), (m.p2s ip, c)]) := by
  have key : ∀ u v w : Nat, ∀ adr, adr = (m.s2pp u * m.nSatom * m.nSatom +
      m.trans u v * m.nSatom + m.trans u w) →
      ((adr * 27 + a * 9 + b * 3 + c : Nat) : Int) = m.pos ![(u, a), (v, b), (w, c)] := by
    rintro u v w adr rfl
    unfold CompactMaps.pos
    congr 1
    show _ = ((((m.s2pp u * m.nSatom + m.trans u v) * m.nSatom + m.trans u w) * 3 + a) * 3 + b)
      * 3 + c
    ring
  refine ⟨key _ _ _ _ ?_, key _ _ _ _ ?_, key _ _ _ _ rfl, key _ _ _ _ rfl, key _ _ _ _ rfl,
    key _ _ _ _ rfl⟩
  · rw [hm.cls_rep ip hip, hm.move_rep ip hip j hj, hm.move_rep ip hip k hk]; rfl
  · rw [hm.cls_rep ip hip, hm.move_rep ip hip j hj, hm.move_rep ip hip k hk]; rfl

theorem compactElem_eq {m : CompactMaps} (hm : m.Ok) (A : Int → K) {ip j k : Nat}
    (hip : ip < m.nPatom) (hj : j < m.nSatom) (hk : k < m.nSatom) (a b c : Nat) :
    compactElem A (compactAdrs m ip j k) a b c =
      permutationMean (fun y => A (m.pos y)) ![(m.p2s ip, a), (j, b), (k, c)] := by
  unfold permutationMean compactElem
  rw [sum_perm3 (fun y => A (m.pos y)) ![(m.p2s ip, a), (j, b), (k, c)]]
  have h := fun a b c => compactAdrs_mul hm hip hj hk a b c
  rw [(h a b c).1, (h a c b).2.1, (h b a c).2.2.1, (h b c a).2.2.2.1, (h c a b).2.2.2.2.1,
    (h c b a).2.2.2.2.2]
  rfl

theorem compactStores_eq {m : CompactMaps} (hm : m.Ok) (A : Int → K) {t : Nat × Nat × Nat}
    (hip : t.1 < m.nPatom) (hj : t.2.1 < m.nSatom) (hk : t.2.2 < m.nSatom) :
    compactStores (compactElem A (compactAdrs m t.1 t.2.1 t.2.2)) (compactAdrs m t.1 t.2.1 t.2.2) =
      (blockLegs (m.triple t)).map fun z =>
        (m.pos z, permutationMean (fun y => A (m.pos y)) z) := by
  rw [block_stores]
  unfold compactStores
  have h := fun a b c => compactAdrs_mul hm hip hj hk a b c
  congr 1; funext a; congr 1; funext b; congr 1; funext c
  rw [(h a b c).1, (h a c b).2.1, (h b a c).2.2.1, (h b c a).2.2.2.1, (h c a b).2.2.2.2.1,
    (h c b a).2.2.2.2.2, compactElem_eq hm A hip hj hk]
  rfl

theorem compactAdrs_block {m : CompactMaps} (hm : m.Ok) {t : Nat × Nat × Nat}
    (hip : t.1 < m.nPatom) (hj : t.2.1 < m.nSatom) (hk : t.2.2 < m.nSatom) (a : Nat) :
    (∃ l, a = compactAdrs m t.1 t.2.1 t.2.2 l) ↔ ∃ z ∈ blockLegs (m.triple t), m.block z = a := by
  have key : ∀ u v w : Nat, m.block ![(u, 0), (v, 0), (w, 0)] =
      m.s2pp u * m.nSatom * m.nSatom + m.trans u v * m.nSatom + m.trans u w := by
    intro u v w
    show (m.s2pp u * m.nSatom + m.trans u v) * m.nSatom + m.trans u w = _
    ring
  have hr : ∀ v w, v < m.nSatom → w < m.nSatom → m.block ![(m.p2s t.1, 0), (v, 0), (w, 0)] =
      t.1 * m.nSatom * m.nSatom + v * m.nSatom + w := by
    intro v w hv hw
    rw [key, hm.cls_rep _ hip, hm.move_rep _ hip v hv, hm.move_rep _ hip w hw]
  have hb : ∀ x : Legs, m.block x = m.block ![((x 0).1, 0), ((x 1).1, 0), ((x 2).1, 0)] :=
    fun x => rfl
  have e0 : compactAdrs m t.1 t.2.1 t.2.2 0 = m.block ![(m.p2s t.1, 0), (t.2.1, 0), (t.2.2, 0)] :=
    (hr _ _ hj hk).symm
  have e1 : compactAdrs m t.1 t.2.1 t.2.2 1 = m.block ![(m.p2s t.1, 0), (t.2.2, 0), (t.2.1, 0)] :=
    (hr _ _ hk hj).symm
  have e2 : compactAdrs m t.1 t.2.1 t.2.2 2 = m.block ![(t.2.1, 0), (m.p2s t.1, 0), (t.2.2, 0)] :=
    (key _ _ _).symm
  have e3 : compactAdrs m t.1 t.2.1 t.2.2 3 = m.block ![(t.2.1, 0), (t.2.2, 0), (m.p2s t.1, 0)] :=
    (key _ _ _).symm
  have e4 : compactAdrs m t.1 t.2.1 t.2.2 4 = m.block ![(t.2.2, 0), (m.p2s t.1, 0), (t.2.1, 0)] :=
    (key _ _ _).symm
  have e5 : compactAdrs m t.1 t.2.1 t.2.2 5 = m.block ![(t.2.2, 0), (t.2.1, 0), (m.p2s t.1, 0)] :=
    (key _ _ _).symm
  constructor
  · rintro ⟨l, rfl⟩
    have hm0 : ∀ y ∈ sixLegs ![(m.p2s t.1, 0), (t.2.1, 0), (t.2.2, 0)],
        y ∈ blockLegs (m.triple t) := by
      intro y hy
      rw [mem_blockLegs]
      obtain ⟨σ, rfl⟩ := mem_sixLegs.mp hy
      exact ⟨0, by omega, 0, by omega, 0, by omega, σ, rfl⟩
    fin_cases l
    · exact ⟨_, hm0 _ (by simp [sixLegs]), e0.symm⟩
    · exact ⟨_, hm0 ![(m.p2s t.1, 0), (t.2.2, 0), (t.2.1, 0)] (by simp [sixLegs]), e1.symm⟩
    · exact ⟨_, hm0 ![(t.2.1, 0), (m.p2s t.1, 0), (t.2.2, 0)] (by simp [sixLegs]), e2.symm⟩
    · exact ⟨_, hm0 ![(t.2.1, 0), (t.2.2, 0), (m.p2s t.1, 0)] (by simp [sixLegs]), e3.symm⟩
    · exact ⟨_, hm0 ![(t.2.2, 0), (m.p2s t.1, 0), (t.2.1, 0)] (by simp [sixLegs]), e4.symm⟩
    · exact ⟨_, hm0 ![(t.2.2, 0), (t.2.1, 0), (m.p2s t.1, 0)] (by simp [sixLegs]), e5.symm⟩
  · rintro ⟨z, hz, rfl⟩
    unfold blockLegs at hz
    simp only [mem_loop] at hz
    obtain ⟨a, _, b, _, c, _, hz⟩ := hz
    simp only [sixLegs, List.mem_cons, List.not_mem_nil, or_false] at hz
    rcases hz with rfl | rfl | rfl | rfl | rfl | rfl
    · exact ⟨0, e0.symm⟩
    · exact ⟨1, e1.symm⟩
    · exact ⟨2, e2.symm⟩
    · exact ⟨3, e3.symm⟩
    · exact ⟨4, e4.symm⟩
    · exact ⟨5, e5.symm⟩

/-- State of the compact loops: marked blocks are symmetrised, marks are closed under
permutations of the legs. -/
def CompactInv (m : CompactMaps) (A0 : Int → K) (st : (Int → K) × (Nat → Bool)) : Prop :=
  (∀ x, Legs.Valid m.nSatom x → st.2 (m.block x) = true →
    ∀ σ : Equiv.Perm (Fin 3), st.2 (m.block (x ∘ σ)) = true) ∧
  SymInv (Legs.Valid m.nSatom) m.pos A0 st.1
    fun x => Legs.Valid m.nSatom x ∧ st.2 (m.block x) = true

theorem marks_fold (adrs : Fin 6 → Nat) (ls : List (Fin 6)) :
    ∀ (done : Nat → Bool) (a : Nat),
      ls.foldl (fun done l => fun a => if a = adrs l then true else done a) done a = true ↔
        done a = true ∨ ∃ l ∈ ls, a = adrs l := by
  induction ls with
  | nil => simp
  | cons l ls ih =>
    intro done a
    rw [List.foldl_cons, ih]
    by_cases h : a = adrs l <;> simp [h]

theorem compactStep_inv {m : CompactMaps} (hm : m.Ok) (A0 : Int → K)
    (st : (Int → K) × (Nat → Bool)) (hI : CompactInv m A0 st) {t : Nat × Nat × Nat}
    (hip : t.1 < m.nPatom) (hj : t.2.1 < m.nSatom) (hk : t.2.2 < m.nSatom) :
    CompactInv m A0 (compactStep m st t) ∧
      (∀ a, st.2 a = true → (compactStep m st t).2 a = true) ∧
      (compactStep m st t).2 (m.block ![(m.p2s t.1, 0), (t.2.1, 0), (t.2.2, 0)]) = true := by
  have hv : (m.triple t).1 < m.nSatom ∧ (m.triple t).2.1 < m.nSatom ∧
      (m.triple t).2.2 < m.nSatom := ⟨hm.rep_lt _ hip, hj, hk⟩
  have hself : (![(m.p2s t.1, 0), (t.2.1, 0), (t.2.2, 0)] : Legs) ∈ blockLegs (m.triple t) := by
    rw [mem_blockLegs]
    exact ⟨0, by omega, 0, by omega, 0, by omega, 1, rfl⟩
  by_cases hd : ((List.finRange 6).any fun l => st.2 (compactAdrs m t.1 t.2.1 t.2.2 l)) = true
  · have e : compactStep m st t = st := by
      unfold compactStep
      exact if_pos hd
    rw [e]
    refine ⟨hI, fun a h => h, ?_⟩
    obtain ⟨l, -, hl⟩ := List.any_eq_true.mp hd
    obtain ⟨z, hz, hzb⟩ := (compactAdrs_block hm hip hj hk _).mp ⟨l, rfl⟩
    rw [← hzb] at hl
    have hzv := blockLegs_valid hv hz
    rw [mem_blockLegs] at hz
    obtain ⟨a, ha, b, hb, c, hc, σ, rfl⟩ := hz
    have := hI.1 _ hzv hl σ⁻¹
    have e2 : (((![((m.triple t).1, a), ((m.triple t).2.1, b), ((m.triple t).2.2, c)] : Legs) ∘ σ) ∘
        (σ⁻¹ : Equiv.Perm (Fin 3))) =
        ![((m.triple t).1, a), ((m.triple t).2.1, b), ((m.triple t).2.2, c)] := by
      funext s; simp
    rw [e2] at this
    exact this
  · have e : compactStep m st t =
        (runWrites st.1 (compactStores (compactElem st.1 (compactAdrs m t.1 t.2.1 t.2.2))
          (compactAdrs m t.1 t.2.1 t.2.2)),
        (List.finRange 6).foldl (fun done l => fun a =>
          if a = compactAdrs m t.1 t.2.1 t.2.2 l then true else done a) st.2) := by
      unfold compactStep
      exact if_neg hd
    rw [e]
    have hmark : ∀ a, (List.finRange 6).foldl (fun done l => fun a =>
          if a = compactAdrs m t.1 t.2.1 t.2.2 l then true else done a) st.2 a = true ↔
        st.2 a = true ∨ ∃ z ∈ blockLegs (m.triple t), m.block z = a := by
      intro a
      rw [marks_fold, ← compactAdrs_block hm hip hj hk a]
      simp
    -- marks of valid elements
    have hZ : ∀ x, Legs.Valid m.nSatom x → (∃ z ∈ blockLegs (m.triple t), m.block z = m.block x) →
        ∃ z ∈ blockLegs (m.triple t), m.pos z = m.pos x := by
      rintro x hx ⟨z, hz, hzx⟩
      have hzv := blockLegs_valid hv hz
      unfold blockLegs at hz
      simp only [mem_loop] at hz
      obtain ⟨a, _, b, _, c, _, hz⟩ := hz
      -- the element of the block with the same atoms as z and the directions of x
      refine ⟨fun s => ((z s).1, (x s).2), ?_, ?_⟩
      · obtain ⟨σ, rfl⟩ := mem_sixLegs.mp hz
        rw [mem_blockLegs]
        refine ⟨(x (σ⁻¹ 0)).2, (hx _).2, (x (σ⁻¹ 1)).2, (hx _).2, (x (σ⁻¹ 2)).2, (hx _).2, σ, ?_⟩
        funext s
        have h3 : ∀ r : Fin 3, ((![((m.triple t).1, a), ((m.triple t).2.1, b),
            ((m.triple t).2.2, c)] : Legs) r).1 = ((![((m.triple t).1, (x (σ⁻¹ 0)).2),
            ((m.triple t).2.1, (x (σ⁻¹ 1)).2), ((m.triple t).2.2, (x (σ⁻¹ 2)).2)] : Legs) r).1 ∧
            (x (σ⁻¹ r)).2 = ((![((m.triple t).1, (x (σ⁻¹ 0)).2),
            ((m.triple t).2.1, (x (σ⁻¹ 1)).2), ((m.triple t).2.2, (x (σ⁻¹ 2)).2)] : Legs) r).2 := by
          intro r; fin_cases r <;> exact ⟨rfl, rfl⟩
        have h4 := h3 (σ s)
        have h5 : σ⁻¹ (σ s) = s := Equiv.symm_apply_apply σ s
        rw [h5] at h4
        exact Prod.ext h4.1 h4.2
      · exact pos_of_block hm (fun s => ⟨(hzv s).1, (hx s).2⟩) hx hzx fun s => rfl
    have hZ' : ∀ x, Legs.Valid m.nSatom x → (∃ z ∈ blockLegs (m.triple t), m.pos z = m.pos x) →
        ∃ z ∈ blockLegs (m.triple t), m.block z = m.block x := by
      rintro x hx ⟨z, hz, hzx⟩
      exact ⟨z, hz, block_of_pos hm (blockLegs_valid hv hz) hx hzx⟩
    refine ⟨⟨?_, ?_⟩, ?_, ?_⟩
    · intro x hx hdone σ
      rw [hmark] at hdone ⊢
      rcases hdone with h | h
      · exact Or.inl (hI.1 x hx h σ)
      · right
        obtain ⟨z, hz, hzx⟩ := hZ x hx h
        exact ⟨z ∘ σ, blockLegs_perm hz σ, block_of_pos hm
          (Legs.Valid.perm (blockLegs_valid hv hz) σ) (Legs.Valid.perm hx σ)
          ((layout_compact hm).same _ _ (blockLegs_valid hv hz) hx hzx σ)⟩
    · have hs := blockStep_stores (layout_compact hm) st.1 (blockLegs (m.triple t))
        fun z hz => blockLegs_valid hv hz
      rw [← compactStores_eq hm st.1 hip hj hk] at hs
      have h2 := symInv_step (layout_compact hm)
        (fun x hx σ => ⟨Legs.Valid.perm hx.1 σ, hI.1 x hx.1 hx.2 σ⟩) hI.2 hs
      constructor
      · rintro x hx ⟨-, hdone⟩
        rw [hmark] at hdone
        rcases hdone with h | h
        · exact h2.1 x hx (Or.inl ⟨hx, h⟩)
        · obtain ⟨z, hz, hzx⟩ := hZ x hx h
          rw [← hzx]
          refine (h2.1 z (blockLegs_valid hv hz) (Or.inr hz)).trans ?_
          rw [mean_same (layout_compact hm) A0 (blockLegs_valid hv hz) hx hzx]
      · intro p hp
        apply h2.2
        rintro z hz (h | h)
        · exact hp z hz ⟨hz, (hmark _).mpr (Or.inl h.2)⟩
        · exact hp z hz ⟨hz, (hmark _).mpr (Or.inr ⟨z, h, rfl⟩)⟩
    · intro a ha
      rw [hmark]
      exact Or.inl ha
    · rw [hmark]
      exact Or.inr ⟨_, hself, rfl⟩

theorem compact_fold {m : CompactMaps} (hm : m.Ok) (A0 : Int → K) (ts : List (Nat × Nat × Nat)) :
    ∀ st : (Int → K) × (Nat → Bool), CompactInv m A0 st →
      (∀ t ∈ ts, t.1 < m.nPatom ∧ t.2.1 < m.nSatom ∧ t.2.2 < m.nSatom) →
      CompactInv m A0 (ts.foldl (compactStep m) st) ∧
        (∀ a, st.2 a = true → (ts.foldl (compactStep m) st).2 a = true) ∧
        ∀ t ∈ ts, (ts.foldl (compactStep m) st).2
          (m.block ![(m.p2s t.1, 0), (t.2.1, 0), (t.2.2, 0)]) = true := by
  induction ts with
  | nil => intro st hI _; exact ⟨hI, fun a h => h, by simp⟩
  | cons t ts ih =>
    intro st hI ht
    have h := ht t (by simp)
    obtain ⟨h1, h2, h3⟩ := compactStep_inv hm A0 st hI h.1 h.2.1 h.2.2
    obtain ⟨k1, k2, k3⟩ := ih _ h1 fun t' ht' => ht t' (by simp [ht'])
    refine ⟨k1, fun a ha => k2 a (h2 a ha), ?_⟩
    intro t' ht'
    rcases List.mem_cons.mp ht' with rfl | ht'
    · exact k2 _ h3
    · exact k3 t' ht'

end Phono3py
