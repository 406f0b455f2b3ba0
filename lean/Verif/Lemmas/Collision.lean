/- Lemmas about the collision-matrix routines. -/
import Verif.Model.Collision
import Verif.Lemmas.Blocks
import Verif.Lemmas.Adds
import Verif.Lemmas.IntegrationWeight
import Verif.Spec.Collision
import Mathlib.Algebra.Group.Action.Basic
import Mathlib.Data.Fintype.Basic
import Mathlib.Data.Fintype.BigOperators
import Mathlib.Data.Fintype.Card
import Mathlib.Algebra.BigOperators.Fin
import Mathlib.Algebra.Order.Field.Basic
import Mathlib.Tactic.FieldSimp

namespace Phono3py
open Spec

section
variable {K : Type _} [Field K] [LinearOrder K] [IsStrictOrderedRing K]

theorem nodup_loop {β : Type _} {n : Nat} {body : Nat → List β} (h1 : ∀ i < n, (body i).Nodup)
    (h2 : ∀ i < n, ∀ j < n, i ≠ j → List.Disjoint (body i) (body j)) : (loop n body).Nodup := by
  unfold loop
  rw [List.nodup_flatMap]
  refine ⟨fun i hi => h1 i (List.mem_range.1 hi), ?_⟩
  refine List.Nodup.pairwise_of_forall_ne List.nodup_range ?_
  intro i hi j hj hne
  exact h2 i (List.mem_range.1 hi) j (List.mem_range.1 hj) hne

/-! ### Symmetrisation -/

theorem mem_symmetrizeRounds {n T S : Nat} {t : Nat × Nat × Nat × Nat} :
    t ∈ symmetrizeRounds n T S ↔ t.1 < S ∧ t.2.1 < T ∧ t.2.2.1 < t.2.2.2 ∧ t.2.2.2 < n := by
  obtain ⟨i, j, k, l⟩ := t
  unfold symmetrizeRounds
  simp only [mem_loop, List.mem_map, List.mem_range'_1, Prod.mk.injEq]
  constructor
  · rintro ⟨i, hi, j, hj, k, hk, l, hl, rfl, rfl, rfl, rfl⟩
    exact ⟨hi, hj, by omega, by omega⟩
  · rintro ⟨hi, hj, hk, hl⟩
    exact ⟨i, hi, j, hj, k, by omega, l, by omega, rfl, rfl, rfl, rfl⟩

theorem nodup_symmetrizeRounds (n T S : Nat) : (symmetrizeRounds n T S).Nodup := by
  unfold symmetrizeRounds
  refine nodup_loop (fun i _ => nodup_loop (fun j _ => nodup_loop (fun k _ => ?_) ?_) ?_) ?_
  · exact List.Nodup.map (fun a b h => by simpa using h) List.nodup_range'
  · intro k _ k' _ hne x hx hx'
    simp only [List.mem_map] at hx hx'
    obtain ⟨l, _, rfl⟩ := hx
    obtain ⟨l', _, e⟩ := hx'
    simp only [Prod.mk.injEq] at e
    omega
  · intro k _ k' _ hne x hx hx'
    simp only [mem_loop, List.mem_map] at hx hx'
    obtain ⟨_, _, l, _, rfl⟩ := hx
    obtain ⟨_, _, l', _, e⟩ := hx'
    simp only [Prod.mk.injEq] at e
    omega
  · intro k _ k' _ hne x hx hx'
    simp only [mem_loop, List.mem_map] at hx hx'
    obtain ⟨_, _, _, _, l, _, rfl⟩ := hx
    obtain ⟨_, _, _, _, l', _, e⟩ := hx'
    simp only [Prod.mk.injEq] at e
    omega

theorem symmetrizeStep_eq (n T : Nat) (a : Int → K) (i j k l : Nat) :
    symmetrizeStep n T a (i, j, k, l) =
      upd (upd a (at4 T n n i j k l : Nat) ((a (at4 T n n i j k l : Nat)
          + a (at4 T n n i j l k : Nat)) / 2)) (at4 T n n i j l k : Nat)
        ((a (at4 T n n i j k l : Nat) + a (at4 T n n i j l k : Nat)) / 2) := by
  have e : ∀ k l, i * n * n * T + j * n * n + k * n + l = at4 T n n i j k l := by
    intros; unfold at4; ring
  unfold symmetrizeStep
  simp only [e]

/-- The cells of one round. -/
def symmetrizeCells (n T : Nat) (t : Nat × Nat × Nat × Nat) (p : Int) : Prop :=
  p = (at4 T n n t.1 t.2.1 t.2.2.1 t.2.2.2 : Nat) ∨ p = (at4 T n n t.1 t.2.1 t.2.2.2 t.2.2.1 : Nat)

theorem symmetrize_footprint (n T : Nat) :
    Footprint (symmetrizeStep (K := K) n T) (symmetrizeCells n T) where
  out := by
    rintro a ⟨i, j, k, l⟩ p hp
    unfold symmetrizeCells at hp
    push Not at hp
    rw [symmetrizeStep_eq, upd_other _ _ hp.2, upd_other _ _ hp.1]
  read := by
    rintro a a' ⟨i, j, k, l⟩ h p hp
    rw [symmetrizeStep_eq, symmetrizeStep_eq, h _ (Or.inl rfl), h _ (Or.inr rfl)]
    rcases hp with rfl | rfl
    · by_cases e : ((at4 T n n i j k l : Nat) : Int) = (at4 T n n i j l k : Nat)
      · show upd _ _ _ ((at4 T n n i j k l : Nat) : Int) = upd _ _ _ _
        rw [e, upd_same, upd_same]
      · show upd _ _ _ ((at4 T n n i j k l : Nat) : Int) = upd _ _ _ _
        rw [upd_other _ _ e, upd_other _ _ e, upd_same, upd_same]
    · show upd _ _ _ ((at4 T n n i j l k : Nat) : Int) = upd _ _ _ _
      rw [upd_same, upd_same]

theorem symmetrize_apart (n T S : Nat) : Apart (symmetrizeCells n T) (symmetrizeRounds n T S) := by
  refine apart_of_nodup (nodup_symmetrizeRounds n T S) ?_
  rintro ⟨i, j, k, l⟩ ht ⟨i', j', k', l'⟩ hu p hp hq
  obtain ⟨_, h1, h2, h3⟩ := mem_symmetrizeRounds.1 ht
  obtain ⟨_, h1', h2', h3'⟩ := mem_symmetrizeRounds.1 hu
  simp only at h1 h2 h3 h1' h2' h3'
  have k1 : k < n := by omega
  have k1' : k' < n := by omega
  unfold symmetrizeCells at hp hq
  simp only at hp hq
  rcases hp with rfl | rfl <;> rcases hq with e | e
  · obtain ⟨rfl, rfl, rfl, rfl⟩ := at4_inj h1 k1 h3 h1' k1' h3' (Int.ofNat.inj e)
    rfl
  · obtain ⟨rfl, rfl, rfl, rfl⟩ := at4_inj h1 k1 h3 h1' h3' k1' (Int.ofNat.inj e)
    omega
  · obtain ⟨rfl, rfl, rfl, rfl⟩ := at4_inj h1 h3 k1 h1' k1' h3' (Int.ofNat.inj e)
    omega
  · obtain ⟨rfl, rfl, rfl, rfl⟩ := at4_inj h1 h3 k1 h1' h3' k1' (Int.ofNat.inj e)
    rfl

theorem symmetrize_value (n T S : Nat) (a : Int → K) {i j k l : Nat} (hi : i < S) (hj : j < T)
    (hk : k < n) (hl : l < n) :
    symmetrizeCollisionMatrix n T S a (at4 T n n i j k l : Nat) =
      (a (at4 T n n i j k l : Nat) + a (at4 T n n i j l k : Nat)) / 2 := by
  unfold symmetrizeCollisionMatrix
  rcases lt_trichotomy k l with h | rfl | h
  · rw [foldl_block (symmetrize_footprint n T) _ (symmetrize_apart n T S) a (t := (i, j, k, l))
      (mem_symmetrizeRounds.2 ⟨hi, hj, h, hl⟩) (Or.inl rfl), symmetrizeStep_eq]
    rw [upd_other, upd_same]
    intro e
    obtain ⟨_, _, e1, _⟩ := at4_inj hj hk hl hj hl hk (Int.ofNat.inj e)
    omega
  · rw [foldl_untouched (symmetrize_footprint n T)]
    · field_simp; ring
    · rintro ⟨i', j', k', l'⟩ ht hc
      obtain ⟨_, h1', h2', h3'⟩ := mem_symmetrizeRounds.1 ht
      simp only at h1' h2' h3'
      have k1' : k' < n := by omega
      rcases hc with e | e
      · obtain ⟨_, _, e1, e2⟩ := at4_inj hj hk hl h1' k1' h3' (Int.ofNat.inj e)
        omega
      · obtain ⟨_, _, e1, e2⟩ := at4_inj hj hk hl h1' h3' k1' (Int.ofNat.inj e)
        omega
  · rw [foldl_block (symmetrize_footprint n T) _ (symmetrize_apart n T S) a (t := (i, j, l, k))
      (mem_symmetrizeRounds.2 ⟨hi, hj, h, hk⟩) (Or.inr rfl), symmetrizeStep_eq, upd_same,
      add_comm]

theorem at4_lt' {n0 n1 n2 n3 a b c d : Nat} (ha : a < n0) (hb : b < n1) (hc : c < n2)
    (hd : d < n3) : at4 n1 n2 n3 a b c d < n0 * n1 * n2 * n3 :=
  digits_lt (digits_lt (digits_lt ha hb) hc) hd

theorem symmetrize_outside (n T S : Nat) (a : Int → K) {p : Int}
    (hp : p < 0 ∨ ((S * T * n * n : Nat) : Int) ≤ p) :
    symmetrizeCollisionMatrix n T S a p = a p := by
  unfold symmetrizeCollisionMatrix
  apply foldl_untouched (symmetrize_footprint n T)
  rintro ⟨i, j, k, l⟩ ht hc
  obtain ⟨h0, h1, h2, h3⟩ := mem_symmetrizeRounds.1 ht
  simp only at h0 h1 h2 h3
  rcases hc with rfl | rfl
  · have := at4_lt' h0 h1 (show k < n by omega) h3
    simp only at hp
    omega
  · have := at4_lt' h0 h1 h3 (show k < n by omega)
    simp only at hp
    omega

/-! ### Expansion -/

theorem at6_inj {n1 n2 n3 n4 n5 a b c d e f a' b' c' d' e' f' : Nat} (hb : b < n1) (hc : c < n2)
    (hd : d < n3) (he : e < n4) (hf : f < n5) (hb' : b' < n1) (hc' : c' < n2) (hd' : d' < n3)
    (he' : e' < n4) (hf' : f' < n5)
    (h : at6 n1 n2 n3 n4 n5 a b c d e f = at6 n1 n2 n3 n4 n5 a' b' c' d' e' f') :
    a = a' ∧ b = b' ∧ c = c' ∧ d = d' ∧ e = e' ∧ f = f' := by
  unfold at6 at h
  obtain ⟨h, h5⟩ := digits2 hf hf' h
  obtain ⟨h, h4⟩ := digits2 he he' h
  obtain ⟨h, h3⟩ := digits2 hd hd' h
  obtain ⟨h, h2⟩ := digits2 hc hc' h
  obtain ⟨h, h1⟩ := digits2 hb hb' h
  exact ⟨h, h1, h2, h3, h4, h5⟩

section expand
variable {G : Type _} [Group G] {numGp numRot : Nat} [MulAction G (Fin numGp)]

/-- Sums over the operations by number and by group element. -/
theorem sum_ops [Fintype G] {α : Type _} [AddCommMonoid α] (op : Fin numRot ≃ G) (f : Nat → α)
    (F : G → α) (h : ∀ l : Fin numRot, f l = F (op l)) :
    ∑ l ∈ Finset.range numRot, f l = ∑ g : G, F g := by
  rw [Finset.sum_range, ← Equiv.sum_comp op]
  exact Finset.sum_congr rfl fun l _ => h l

theorem countP_range (n : Nat) (P : Nat → Prop) [DecidablePred P] :
    (List.range n).countP (fun j => decide (P j)) = ∑ j ∈ Finset.range n, if P j then 1 else 0 := by
  induction n with
  | zero => simp
  | succ n ih =>
    rw [List.range_succ, List.countP_append, ih, Finset.sum_range_succ]
    simp [List.countP_cons]

theorem multiplicity_eq [Fintype G] {op : Fin numRot ≃ G} {rot : Int → Int}
    (h : TableOf numGp op rot) (r : Fin numGp) :
    multiplicity rot numGp numRot ((r : Nat) : Int) = ∑ g : G, if g • r = r then 1 else 0 := by
  unfold multiplicity
  rw [countP_range]
  refine sum_ops op _ _ ?_
  intro l
  have e := h l r
  push_cast at e ⊢
  rw [e]
  simp only [Nat.cast_inj, Fin.val_inj]

theorem multiplicity_pos [Fintype G] {op : Fin numRot ≃ G} {rot : Int → Int}
    (h : TableOf numGp op rot) (r : Fin numGp) :
    0 < multiplicity rot numGp numRot ((r : Nat) : Int) := by
  rw [multiplicity_eq h, Finset.sum_pos_iff]
  exact ⟨1, Finset.mem_univ _, by simp⟩

/-- The additions of one round. -/
theorem expand_adds [Fintype G] {op : Fin numRot ≃ G} {rot : Int → Int}
    (h : TableOf numGp op rot) (T nb i j : Nat) (r0 : Fin numGp) (copy : Nat → K) (r n : Fin numGp)
    {m p : Nat} (hm : m < nb) (hp : p < nb) (hj : j < T) :
    addsAt (loop numRot fun (l : Nat) => loop nb fun (m : Nat) => loop numGp fun (n : Nat) =>
      loop nb fun (p : Nat) =>
        [(((i * (numGp * nb) * (numGp * nb) * T + j * (numGp * nb) * (numGp * nb) : Nat) : Int)
          + rot ((l * numGp : Nat) + ((r0 : Nat) : Int)) * (nb * numGp * nb : Nat)
          + (m * numGp * nb : Nat) + rot ((l * numGp + n : Nat) : Int) * nb + (p : Int),
          copy (m * numGp * nb + n * nb + p))])
      (at6 T numGp nb numGp nb i j r m n p : Nat) =
    ∑ g : G, if g • r0 = r then copy (m * numGp * nb + ((g⁻¹ • n : Fin numGp) : Nat) * nb + p)
      else 0 := by
  rw [addsAt_loop]
  refine sum_ops op _ _ ?_
  intro l
  have e0 : rot (((l : Nat) * numGp : Nat) + ((r0 : Nat) : Int)) = ((op l • r0 : Fin numGp) : Nat) := by
    rw [← h l r0]; push_cast; rfl
  have key : ∀ (m' : Nat) (n' : Fin numGp) (p' : Nat), m' < nb → p' < nb →
      ((((i * (numGp * nb) * (numGp * nb) * T + j * (numGp * nb) * (numGp * nb) : Nat) : Int)
          + rot (((l : Nat) * numGp : Nat) + ((r0 : Nat) : Int)) * (nb * numGp * nb : Nat)
          + (m' * numGp * nb : Nat) + rot (((l : Nat) * numGp + (n' : Nat) : Nat) : Int) * nb
          + (p' : Int) = (at6 T numGp nb numGp nb i j r m n p : Nat)) ↔
        op l • r0 = r ∧ m' = m ∧ n' = (op l)⁻¹ • n ∧ p' = p) := by
    intro m' n' p' hm' hp'
    rw [e0, h l n']
    have e1 : ((i * (numGp * nb) * (numGp * nb) * T + j * (numGp * nb) * (numGp * nb) : Nat) : Int)
        + ((op l • r0 : Fin numGp) : Nat) * (nb * numGp * nb : Nat) + (m' * numGp * nb : Nat)
        + ((op l • n' : Fin numGp) : Nat) * nb + (p' : Int)
        = (at6 T numGp nb numGp nb i j (op l • r0 : Fin numGp) m' (op l • n' : Fin numGp) p' : Nat) := by
      unfold at6; push_cast; ring
    rw [e1]
    constructor
    · intro q
      obtain ⟨_, _, q1, q2, q3, q4⟩ := at6_inj hj (op l • r0).2 hm' (op l • n').2 hp' hj r.2 hm n.2 hp
        (Int.ofNat.inj q)
      refine ⟨Fin.ext q1, q2, ?_, q4⟩
      rw [eq_inv_smul_iff]
      exact Fin.ext q3
    · rintro ⟨q1, rfl, rfl, rfl⟩
      rw [q1, smul_inv_smul]
  have zero : ∀ m' < nb, ∀ n' < numGp, ∀ p' < nb, ¬ (op l • r0 = r ∧ m' = m ∧
      n' = ((op l)⁻¹ • n : Fin numGp) ∧ p' = p) →
      addsAt [(((i * (numGp * nb) * (numGp * nb) * T + j * (numGp * nb) * (numGp * nb) : Nat) : Int)
          + rot (((l : Nat) * numGp : Nat) + ((r0 : Nat) : Int)) * (nb * numGp * nb : Nat)
          + (m' * numGp * nb : Nat) + rot (((l : Nat) * numGp + n' : Nat) : Int) * nb + (p' : Int),
          copy (m' * numGp * nb + n' * nb + p'))] (at6 T numGp nb numGp nb i j r m n p : Nat) = 0 := by
    intro m' hm' n' hn' p' hp' hne
    rw [addsAt_single, if_neg]
    intro q
    obtain ⟨q1, q2, q3, q4⟩ := (key m' ⟨n', hn'⟩ p' hm' hp').1 q
    exact hne ⟨q1, q2, by rw [← q3], q4⟩
  by_cases hr : op l • r0 = r
  · rw [if_pos hr, addsAt_loop, Finset.sum_eq_single m, addsAt_loop,
      Finset.sum_eq_single (((op l)⁻¹ • n : Fin numGp) : Nat), addsAt_loop,
      Finset.sum_eq_single p, addsAt_single, if_pos]
    · exact (key m ((op l)⁻¹ • n) p hm hp).2 ⟨hr, rfl, rfl, rfl⟩
    · intro p' hp' hne
      exact zero m hm _ ((op l)⁻¹ • n).2 p' (Finset.mem_range.1 hp') (fun q => hne q.2.2.2)
    · intro q; exact absurd (Finset.mem_range.2 hp) q
    · intro n' hn' hne
      rw [addsAt_loop]
      refine Finset.sum_eq_zero fun p' hp' => ?_
      exact zero m hm n' (Finset.mem_range.1 hn') p' (Finset.mem_range.1 hp') (fun q => hne q.2.2.1)
    · intro q; exact absurd (Finset.mem_range.2 ((op l)⁻¹ • n).2) q
    · intro m' hm' hne
      rw [addsAt_loop]
      refine Finset.sum_eq_zero fun n' hn' => ?_
      rw [addsAt_loop]
      refine Finset.sum_eq_zero fun p' hp' => ?_
      exact zero m' (Finset.mem_range.1 hm') n' (Finset.mem_range.1 hn') p' (Finset.mem_range.1 hp')
        (fun q => hne q.2.1)
    · intro q; exact absurd (Finset.mem_range.2 hm) q
  · rw [if_neg hr, addsAt_loop]
    refine Finset.sum_eq_zero fun m' hm' => ?_
    rw [addsAt_loop]
    refine Finset.sum_eq_zero fun n' hn' => ?_
    rw [addsAt_loop]
    refine Finset.sum_eq_zero fun p' hp' => ?_
    exact zero m' (Finset.mem_range.1 hm') n' (Finset.mem_range.1 hn') p' (Finset.mem_range.1 hp')
      (fun q => hr q.1)

theorem addsAt_zero {α : Type _} [AddCommMonoid α] (ws : List (Int × α)) (k : Int)
    (h : ∀ w ∈ ws, w.1 ≠ k) : addsAt ws k = 0 := by
  unfold addsAt
  induction ws with
  | nil => rfl
  | cons w ws ih =>
    rw [List.map_cons, List.sum_cons, if_neg (h w (by simp)), zero_add,
      ih fun u hu => h u (by simp [hu])]

/-- Splitting a position within a row. -/
theorem row_digits {nb numGp l : Nat} (h : l < nb * numGp * nb) :
    ∃ m < nb, ∃ n < numGp, ∃ p < nb, l = m * numGp * nb + n * nb + p := by
  have hnb : 0 < nb := Nat.pos_of_ne_zero fun e => by subst e; simp at h
  have h1 : l / nb < nb * numGp := Nat.div_lt_of_lt_mul (by rw [mul_comm]; exact h)
  have hG : 0 < numGp := Nat.pos_of_ne_zero fun e => by subst e; simp at h1
  refine ⟨l / nb / numGp, Nat.div_lt_of_lt_mul (by rw [mul_comm]; exact h1), l / nb % numGp,
    Nat.mod_lt _ hG, l % nb, Nat.mod_lt _ hnb, ?_⟩
  have e1 := Nat.div_add_mod l nb
  have e2 := Nat.div_add_mod (l / nb) numGp
  calc l = nb * (l / nb) + l % nb := e1.symm
    _ = nb * (numGp * (l / nb / numGp) + l / nb % numGp) + l % nb := by rw [e2]
    _ = _ := by ring

variable {numIr : Nat}

/-- The cells of one round of the expansion. -/
def expandCells (G : Type _) [Group G] {numGp numIr : Nat} [MulAction G (Fin numGp)]
    (ir : Fin numIr → Fin numGp) (T nb : Nat) (t : Nat × Nat × Nat) (q : Int) : Prop :=
  ∀ hk : t.2.2 < numIr, t.2.1 < T → ∃ g : G, ∃ m < nb, ∃ n : Fin numGp, ∃ p < nb,
    q = (at6 T numGp nb numGp nb t.1 t.2.1 (g • ir ⟨t.2.2, hk⟩ : Fin numGp) m n p : Nat)

theorem expandStep_value [Fintype G] {op : Fin numRot ≃ G} {rot irArr : Int → Int}
    (h : TableOf numGp op rot) {ir : Fin numIr → Fin numGp}
    (hir : ∀ k : Fin numIr, irArr ((k : Nat) : Int) = ((ir k : Nat) : Int)) (T nb i j : Nat)
    (k : Fin numIr) (a : Int → K) (r n : Fin numGp) {m p : Nat} (hm : m < nb) (hp : p < nb)
    (hj : j < T) :
    expandStep rot irArr numGp numRot T nb a (i, j, k) (at6 T numGp nb numGp nb i j r m n p : Nat) =
      (if r = ir k then 0 else a (at6 T numGp nb numGp nb i j r m n p : Nat)) +
        ∑ g : G, if g • ir k = r then
          a (at6 T numGp nb numGp nb i j (ir k) m (g⁻¹ • n : Fin numGp) p : Nat) /
            (multiplicity rot numGp numRot ((ir k : Nat) : Int) : K) else 0 := by
  unfold expandStep
  simp only [hir]
  rw [runAdds_value]
  congr 1
  · split_ifs with hr
    · subst hr
      have hl : m * numGp * nb + n * nb + p < nb * numGp * nb := by
        have := digits_lt (digits_lt hm n.2) hp
        rwa [add_mul] at this
      have e : ((at6 T numGp nb numGp nb i j (ir k) m n p : Nat) : Int)
          = (((i * (numGp * nb) * (numGp * nb) * T + j * (numGp * nb) * (numGp * nb) : Nat) : Int)
            + ((ir k : Nat) : Int) * (nb * numGp * nb : Nat)
            + ((m * numGp * nb + n * nb + p : Nat) : Int)) := by
        unfold at6; push_cast; ring
      rw [e]
      refine runWrites_value a _ ?_ (_, (0 : K)) ?_
      · intro u hu w hw _
        obtain ⟨_, _, hu⟩ := mem_loop.1 hu
        obtain ⟨_, _, hw⟩ := mem_loop.1 hw
        rw [List.mem_singleton] at hu hw
        rw [hu, hw]
      · exact mem_loop.2 ⟨_, hl, List.mem_singleton.2 rfl⟩
    · apply runWrites_untouched
      intro w hw q
      obtain ⟨l, hl, hw⟩ := mem_loop.1 hw
      rw [List.mem_singleton] at hw
      subst hw
      obtain ⟨m', hm', n', hn', p', hp', rfl⟩ := row_digits hl
      have e : (((i * (numGp * nb) * (numGp * nb) * T + j * (numGp * nb) * (numGp * nb) : Nat) : Int)
            + ((ir k : Nat) : Int) * (nb * numGp * nb : Nat)
            + ((m' * numGp * nb + n' * nb + p' : Nat) : Int))
          = ((at6 T numGp nb numGp nb i j (ir k) m' n' p' : Nat) : Int) := by
        unfold at6; push_cast; ring
      simp only at q
      rw [e] at q
      obtain ⟨_, _, q1, _⟩ := at6_inj hj (ir k).2 hm' hn' hp' hj r.2 hm n.2 hp (Int.ofNat.inj q)
      exact hr (Fin.ext q1.symm)
  · rw [expand_adds h T nb i j (ir k) (fun l =>
      a (((i * (numGp * nb) * (numGp * nb) * T + j * (numGp * nb) * (numGp * nb) : Nat) : Int)
        + ((ir k : Nat) : Int) * (nb * numGp * nb : Nat) + (l : Int)) /
        (multiplicity rot numGp numRot ((ir k : Nat) : Int) : K)) r n hm hp hj]
    refine Finset.sum_congr rfl fun g _ => ?_
    split_ifs
    · congr 2
      unfold at6; push_cast; ring
    · rfl

theorem expand_footprint [Fintype G] {op : Fin numRot ≃ G} {rot irArr : Int → Int}
    (h : TableOf numGp op rot) {ir : Fin numIr → Fin numGp}
    (hir : ∀ k : Fin numIr, irArr ((k : Nat) : Int) = ((ir k : Nat) : Int)) (T nb : Nat) :
    Footprint (expandStep (K := K) rot irArr numGp numRot T nb) (expandCells G ir T nb) where
  out := by
    rintro a ⟨i, j, k⟩ q hq
    unfold expandCells at hq
    push Not at hq
    obtain ⟨hk, hj, hq⟩ := hq
    simp only at hk hj hq
    have hir' := hir ⟨k, hk⟩
    simp only at hir'
    unfold expandStep
    simp only [hir']
    rw [runAdds_value, addsAt_zero, add_zero]
    · apply runWrites_untouched
      intro w hw
      obtain ⟨l, hl, hw⟩ := mem_loop.1 hw
      rw [List.mem_singleton] at hw
      subst hw
      obtain ⟨m', hm', n', hn', p', hp', rfl⟩ := row_digits hl
      have := hq 1 m' hm' ⟨n', hn'⟩ p' hp'
      rw [one_smul] at this
      intro q'
      apply this
      rw [← q']
      unfold at6; push_cast; ring
    · intro w hw
      obtain ⟨l, hl, hw⟩ := mem_loop.1 hw
      obtain ⟨m', hm', hw⟩ := mem_loop.1 hw
      obtain ⟨n', hn', hw⟩ := mem_loop.1 hw
      obtain ⟨p', hp', hw⟩ := mem_loop.1 hw
      rw [List.mem_singleton] at hw
      subst hw
      have := hq (op ⟨l, hl⟩) m' hm' (op ⟨l, hl⟩ • ⟨n', hn'⟩) p' hp'
      intro q'
      apply this
      rw [← q']
      have e1 := h ⟨l, hl⟩ (ir ⟨k, hk⟩)
      have e2 := h ⟨l, hl⟩ ⟨n', hn'⟩
      simp only at e1 e2
      rw [e2]
      rw [show (((l * numGp : Nat) : Int) + ((ir ⟨k, hk⟩ : Nat) : Int))
        = ((l * numGp + (ir ⟨k, hk⟩ : Nat) : Nat) : Int) by push_cast; rfl, e1]
      unfold at6; push_cast; ring
  read := by
    rintro a a' ⟨i, j, k⟩ ha q hq
    by_cases hv : k < numIr ∧ j < T
    · obtain ⟨hk, hj⟩ := hv
      obtain ⟨g, m, hm, n, p, hp, rfl⟩ := hq hk hj
      simp only at *
      have v1 := expandStep_value (K := K) h hir T nb i j ⟨k, hk⟩ a (g • ir ⟨k, hk⟩) n hm hp hj
      have v2 := expandStep_value (K := K) h hir T nb i j ⟨k, hk⟩ a' (g • ir ⟨k, hk⟩) n hm hp hj
      simp only at v1 v2
      rw [v1, v2]
      have c : ∀ (g' : G) (n' : Fin numGp), a (at6 T numGp nb numGp nb i j
          (g' • ir ⟨k, hk⟩ : Fin numGp) m n' p : Nat) = a' (at6 T numGp nb numGp nb i j
          (g' • ir ⟨k, hk⟩ : Fin numGp) m n' p : Nat) :=
        fun g' n' => ha _ fun _ _ => ⟨g', m, hm, n', p, hp, rfl⟩
      have c1 : ∀ n' : Fin numGp, a (at6 T numGp nb numGp nb i j
          (ir ⟨k, hk⟩ : Fin numGp) m n' p : Nat) = a' (at6 T numGp nb numGp nb i j
          (ir ⟨k, hk⟩ : Fin numGp) m n' p : Nat) := by
        intro n'
        have := c 1 n'
        rwa [one_smul] at this
      rw [c]
      simp only [c1]
    · have : a = a' := by
        funext q
        apply ha
        intro hk hj
        exact absurd ⟨hk, hj⟩ hv
      rw [this]

theorem mem_expandRounds {S T numIr : Nat} {t : Nat × Nat × Nat} :
    t ∈ (loop S fun i => loop T fun j => (List.range numIr).map fun k => (i, j, k)) ↔
      t.1 < S ∧ t.2.1 < T ∧ t.2.2 < numIr := by
  obtain ⟨i, j, k⟩ := t
  simp only [mem_loop, List.mem_map, List.mem_range, Prod.mk.injEq]
  constructor
  · rintro ⟨i, hi, j, hj, k, hk, rfl, rfl, rfl⟩; exact ⟨hi, hj, hk⟩
  · rintro ⟨hi, hj, hk⟩; exact ⟨i, hi, j, hj, k, hk, rfl, rfl, rfl⟩

theorem nodup_expandRounds (S T numIr : Nat) :
    (loop S fun i => loop T fun j => (List.range numIr).map fun k => (i, j, k)).Nodup := by
  refine nodup_loop (fun i _ => nodup_loop (fun j _ => ?_) ?_) ?_
  · exact List.Nodup.map (fun a b h => by simpa using h) List.nodup_range
  · intro k _ k' _ hne x hx hx'
    simp only [List.mem_map] at hx hx'
    obtain ⟨l, _, rfl⟩ := hx
    obtain ⟨l', _, e⟩ := hx'
    simp only [Prod.mk.injEq] at e
    omega
  · intro k _ k' _ hne x hx hx'
    simp only [mem_loop, List.mem_map] at hx hx'
    obtain ⟨_, _, l, _, rfl⟩ := hx
    obtain ⟨_, _, l', _, e⟩ := hx'
    simp only [Prod.mk.injEq] at e
    omega

theorem expand_apart {ir : Fin numIr → Fin numGp} (hd : DifferentStars G ir) (S T nb : Nat) :
    Apart (expandCells G ir T nb)
      (loop S fun i => loop T fun j => (List.range numIr).map fun k => (i, j, k)) := by
  refine apart_of_nodup (nodup_expandRounds S T numIr) ?_
  rintro ⟨i, j, k⟩ ht ⟨i', j', k'⟩ hu q hc hq
  obtain ⟨h0, h1, h2⟩ := mem_expandRounds.1 ht
  obtain ⟨h0', h1', h2'⟩ := mem_expandRounds.1 hu
  obtain ⟨g, m, hm, n, p, hp, rfl⟩ := hc h2 h1
  obtain ⟨g', m', hm', n', p', hp', e⟩ := hq h2' h1'
  simp only at *
  obtain ⟨rfl, rfl, e1, _⟩ := at6_inj h1 (g • ir ⟨k, h2⟩).2 hm n.2 hp h1' (g' • ir ⟨k', h2'⟩).2 hm'
    n'.2 hp' (Int.ofNat.inj e)
  have e2 : g • ir ⟨k, h2⟩ = g' • ir ⟨k', h2'⟩ := Fin.ext e1
  have e3 := hd ⟨k, h2⟩ ⟨k', h2'⟩ ⟨g'⁻¹ * g, by rw [mul_smul, e2, inv_smul_smul]⟩
  rw [Fin.mk.injEq] at e3
  rw [e3]

theorem expand_value [Fintype G] {op : Fin numRot ≃ G} {rot irArr : Int → Int}
    (h : TableOf numGp op rot) {ir : Fin numIr → Fin numGp}
    (hir : ∀ k : Fin numIr, irArr ((k : Nat) : Int) = ((ir k : Nat) : Int))
    (hd : DifferentStars G ir) {S T nb i j : Nat} (hi : i < S) (hj : j < T)
    (k : Fin numIr) (a : Int → K) (g : G) (n : Fin numGp) {m p : Nat} (hm : m < nb) (hp : p < nb) :
    expandCollisionMatrix rot irArr numIr numGp numRot S T nb a
        (at6 T numGp nb numGp nb i j (g • ir k : Fin numGp) m n p : Nat) =
      (if g • ir k = ir k then 0 else
        a (at6 T numGp nb numGp nb i j (g • ir k : Fin numGp) m n p : Nat)) +
        ∑ h : G, if h • ir k = g • ir k then
          a (at6 T numGp nb numGp nb i j (ir k) m (h⁻¹ • n : Fin numGp) p : Nat) /
            (multiplicity rot numGp numRot ((ir k : Nat) : Int) : K) else 0 := by
  unfold expandCollisionMatrix
  rw [foldl_block (expand_footprint h hir T nb) _ (expand_apart hd S T nb) a (t := (i, j, k))
    (mem_expandRounds.2 ⟨hi, hj, k.2⟩) (fun _ _ => ⟨g, m, hm, n, p, hp, rfl⟩),
    expandStep_value h hir T nb i j k a _ n hm hp hj]

/-- Sums over a coset of the stabiliser. -/
theorem sum_coset [Fintype G] {α X : Type _} [AddCommMonoid α] [MulAction G X] [DecidableEq X]
    (r : X) (g : G) (f : G → α) :
    (∑ h : G, if h • r = g • r then f h else 0) = ∑ h : G, if h • r = r then f (g * h) else 0 := by
  rw [← Equiv.sum_comp (Equiv.mulLeft g)]
  refine Finset.sum_congr rfl fun h _ => ?_
  simp only [Equiv.coe_mulLeft, mul_smul, smul_left_cancel_iff]

/-! ### Local values -/

theorem expandLocalStep_value [Fintype G] {op : Fin numRot ≃ G} {rot : Int → Int}
    (h : TableOf numGp op rot) {β : Type _} [AddCommMonoid β] (act : Nat → β → β)
    (actG : G → β → β) (hact : ∀ l : Fin numRot, act l = actG (op l)) (divide : β → Nat → β)
    (a : Int → β) (r0 r : Fin numGp) :
    expandLocalStep rot numGp numRot act divide a ((r0 : Nat) : Int) ((r : Nat) : Int) =
      (if r = r0 then 0 else a ((r : Nat) : Int)) +
        ∑ g : G, if g • r0 = r then divide (actG g (a ((r0 : Nat) : Int)))
          (multiplicity rot numGp numRot ((r0 : Nat) : Int)) else 0 := by
  unfold expandLocalStep
  rw [runAdds_value]
  congr 1
  · unfold upd
    simp only [Nat.cast_inj, Fin.val_inj]
  · unfold addsAt
    rw [List.map_map, sum_range_list]
    refine sum_ops op _ _ ?_
    intro l
    have e := h l r0
    push_cast at e
    simp only [Function.comp_apply]
    push_cast
    rw [e, hact]
    simp only [Nat.cast_inj, Fin.val_inj]

theorem expandLocal_footprint [Fintype G] {op : Fin numRot ≃ G} {rot : Int → Int}
    (h : TableOf numGp op rot) {β : Type _} [AddCommMonoid β] (act : Nat → β → β)
    (divide : β → Nat → β) :
    Footprint (fun a (r0 : Fin numGp) =>
        expandLocalStep rot numGp numRot act divide a ((r0 : Nat) : Int))
      (fun r0 q => ∃ g : G, q = ((g • r0 : Fin numGp) : Nat)) where
  out := by
    intro a r0 q hq
    push Not at hq
    show runAdds _ _ q = _
    rw [runAdds_value, addsAt_zero, add_zero, upd_other]
    · have := hq 1
      rwa [one_smul] at this
    · intro w hw
      obtain ⟨l, hl, rfl⟩ := List.mem_map.1 hw
      rw [List.mem_range] at hl
      have e := h ⟨l, hl⟩ r0
      push_cast at e
      simp only
      push_cast
      rw [e]
      exact (hq (op ⟨l, hl⟩)).symm
  read := by
    rintro a a' r0 ha q ⟨g, rfl⟩
    have hact : ∀ l : Fin numRot, act l = (fun g : G => act (op.symm g)) (op l) := by
      intro l; simp
    have h0 : a ((r0 : Nat) : Int) = a' ((r0 : Nat) : Int) := by
      apply ha; exact ⟨1, by rw [one_smul]⟩
    have hg := ha _ ⟨g, rfl⟩
    rw [expandLocalStep_value h act (fun g : G => act (op.symm g)) hact,
      expandLocalStep_value h act (fun g : G => act (op.symm g)) hact, h0, hg]

theorem expandLocal_value [Fintype G] {op : Fin numRot ≃ G} {rot : Int → Int}
    (h : TableOf numGp op rot) {β : Type _} [AddCommMonoid β] (act : Nat → β → β)
    (actG : G → β → β) (hact : ∀ l : Fin numRot, act l = actG (op l)) (divide : β → Nat → β)
    {ir : Fin numIr → Fin numGp} (hd : DifferentStars G ir) (a : Int → β) (k : Fin numIr) (g : G) :
    expandLocal rot numGp numRot act divide (List.ofFn fun k => ((ir k : Nat) : Int)) a
        ((g • ir k : Fin numGp) : Nat) =
      (if g • ir k = ir k then 0 else a ((g • ir k : Fin numGp) : Nat)) +
        ∑ g' : G, if g' • ir k = g • ir k then divide (actG g' (a ((ir k : Nat) : Int)))
          (multiplicity rot numGp numRot ((ir k : Nat) : Int)) else 0 := by
  unfold expandLocal
  have e : List.ofFn (fun k => ((ir k : Nat) : Int))
      = (List.ofFn ir).map fun (r : Fin numGp) => ((r : Nat) : Int) := by
    rw [List.map_ofFn]; rfl
  rw [e, List.foldl_map]
  have hinj : Function.Injective ir := fun k k' hh => hd k k' ⟨1, by rw [one_smul, hh]⟩
  rw [foldl_block (expandLocal_footprint (G := G) h act divide) _ ?_ a (t := ir k)
    ((List.mem_ofFn' ir _).2 ⟨k, rfl⟩) ⟨g, rfl⟩]
  · exact expandLocalStep_value h act actG hact divide a (ir k) _
  · refine apart_of_nodup (List.nodup_ofFn.2 hinj) ?_
    rintro r hr r' hr' q ⟨g1, rfl⟩ ⟨g2, e2⟩
    obtain ⟨k1, rfl⟩ := (List.mem_ofFn' ir _).1 hr
    obtain ⟨k2, rfl⟩ := (List.mem_ofFn' ir _).1 hr'
    have e3 : g1 • ir k1 = g2 • ir k2 := Fin.ext (Int.ofNat.inj e2)
    rw [hd k1 k2 ⟨g2⁻¹ * g1, by rw [mul_smul, e3, inv_smul_smul]⟩]

end expand

end
end Phono3py
