/-
C173: the Python variants of expanding and symmetrising the collision matrix give what the C functions give.
-/
import Verif.Spec.ExpandPy
import Verif.Props.Collision

set_option linter.unusedSectionVars false

namespace Phono3py.Props
open Phono3py Phono3py.Spec

section
variable {K : Type} [Field K] [LinearOrder K] [IsStrictOrderedRing K]

theorem pyAdds_inner (gpR : Nat) (gpC : Nat → Nat) (copy : Nat → Nat → Nat → K) (N : Nat) (A : CollisionBlock K)
    (r m n p : Nat) :
    (List.range N).foldl (fun B k => pyExpandAdd gpR (gpC k) copy k B) A r m n p =
      A r m n p + ∑ k ∈ Finset.range N, if gpR = r ∧ gpC k = n then copy m k p else 0 := by
  induction N with
  | zero => simp
  | succ N ih =>
    rw [List.range_succ, List.foldl_append, List.foldl_cons, List.foldl_nil, Finset.sum_range_succ, ← add_assoc,
      ← ih]
    unfold pyExpandAdd
    by_cases h : r = gpR ∧ n = gpC N
    · rw [if_pos h, if_pos ⟨h.1.symm, h.2.symm⟩]
    · rw [if_neg h, if_neg fun h' => h ⟨h'.1.symm, h'.2.symm⟩, add_zero]

theorem pyAdds_outer (gpR : Nat → Nat) (gpC : Nat → Nat → Nat) (copy : Nat → Nat → Nat → K) (L N : Nat)
    (A : CollisionBlock K) (r m n p : Nat) :
    (List.range L).foldl (fun B j =>
        (List.range N).foldl (fun B k => pyExpandAdd (gpR j) (gpC j k) copy k B) B) A r m n p =
      A r m n p + ∑ j ∈ Finset.range L, ∑ k ∈ Finset.range N,
        if gpR j = r ∧ gpC j k = n then copy m k p else 0 := by
  induction L with
  | zero => simp
  | succ L ih =>
    rw [List.range_succ, List.foldl_append, List.foldl_cons, List.foldl_nil, Finset.sum_range_succ, ← add_assoc,
      ← ih, pyAdds_inner]

theorem pyExpandStep_value (rot : Nat → Nat → Nat) (numGp numRot : Nat) (A : CollisionBlock K) (irGp r m n p : Nat) :
    pyExpandStep rot numGp numRot A irGp r m n p =
      (if r = irGp then 0 else A r m n p) + ∑ j ∈ Finset.range numRot, ∑ k ∈ Finset.range numGp,
        if rot j irGp = r ∧ rot j k = n then
          A irGp m k p / (((List.range numRot).countP fun j => decide (rot j irGp = irGp) : Nat) : K) else 0 := by
  unfold pyExpandStep
  exact pyAdds_outer (fun j => rot j irGp) rot _ numRot numGp _ r m n p

theorem multiplicity_table {numGp numRot : Nat} {rot : Int → Int} {table : Nat → Nat → Nat}
    (h : TableIn numGp numRot rot table) {ir : Nat} (hir : ir < numGp) :
    multiplicity rot numGp numRot (ir : Int) =
      (List.range numRot).countP fun j => decide (table j ir = ir) := by
  unfold multiplicity
  refine List.countP_congr fun j hj => ?_
  have := (h j (List.mem_range.1 hj) ir hir).2
  push_cast at this ⊢
  rw [this]
  simp only [decide_eq_true_eq, Nat.cast_inj]

/-- One round of the C function on a block: the round in Python for its own sigma and temperature, nothing for the
others. -/
theorem expandStep_block {numGp numRot : Nat} {rot irArr : Int → Int} {table : Nat → Nat → Nat}
    (h : TableIn numGp numRot rot table) {T nb i j i' j' k ir : Nat} (hir : irArr (k : Int) = (ir : Int))
    (hi : ir < numGp) (hj : j < T) (hj' : j' < T) (a : Int → K) {r m n p : Nat} (hr : r < numGp) (hm : m < nb)
    (hn : n < numGp) (hp : p < nb) :
    expandStep rot irArr numGp numRot T nb a (i', j', k) (at6 T numGp nb numGp nb i j r m n p : Nat) =
      if i' = i ∧ j' = j then pyExpandStep table numGp numRot (blockOf T numGp nb a i j) ir r m n p
      else blockOf T numGp nb a i j r m n p := by
  have hclear : runWrites a (loop (nb * numGp * nb) fun (l : Nat) =>
      [(((i' * (numGp * nb) * (numGp * nb) * T + j' * (numGp * nb) * (numGp * nb) : Nat) : Int) +
        (ir : Int) * (nb * numGp * nb : Nat) + (l : Int), (0 : K))]) (at6 T numGp nb numGp nb i j r m n p : Nat) =
      if (i' = i ∧ j' = j) ∧ r = ir then 0 else a (at6 T numGp nb numGp nb i j r m n p : Nat) := by
    split_ifs with hc
    · obtain ⟨⟨rfl, rfl⟩, rfl⟩ := hc
      have hl : m * numGp * nb + n * nb + p < nb * numGp * nb := by
        have := digits_lt (digits_lt hm hn) hp
        rwa [add_mul] at this
      have e : ((at6 T numGp nb numGp nb i' j' r m n p : Nat) : Int)
          = (((i' * (numGp * nb) * (numGp * nb) * T + j' * (numGp * nb) * (numGp * nb) : Nat) : Int)
            + (r : Int) * (nb * numGp * nb : Nat) + ((m * numGp * nb + n * nb + p : Nat) : Int)) := by
        unfold at6; push_cast; ring
      rw [e]
      refine runWrites_value a _ ?_ (_, (0 : K)) ?_
      · intro u hu w hw _
        obtain ⟨_, _, hu⟩ := mem_loop.1 hu
        obtain ⟨_, _, hw⟩ := mem_loop.1 hw
        rw [List.mem_singleton] at hu hw
        rw [hu, hw]
      · exact mem_loop.2 ⟨_, hl, List.mem_singleton.2 rfl⟩
    · apply runWrites_untouched
      intro w hw q
      obtain ⟨l, hl, hw⟩ := mem_loop.1 hw
      rw [List.mem_singleton] at hw
      subst hw
      obtain ⟨m', hm', n', hn', p', hp', rfl⟩ := row_digits hl
      have e : (((i' * (numGp * nb) * (numGp * nb) * T + j' * (numGp * nb) * (numGp * nb) : Nat) : Int)
            + (ir : Int) * (nb * numGp * nb : Nat) + ((m' * numGp * nb + n' * nb + p' : Nat) : Int))
          = ((at6 T numGp nb numGp nb i' j' ir m' n' p' : Nat) : Int) := by
        unfold at6; push_cast; ring
      simp only at q
      rw [e] at q
      obtain ⟨q0, q1, q2, _⟩ := at6_inj hj' hi hm' hn' hp' hj hr hm hn hp (Int.ofNat.inj q)
      exact hc ⟨⟨q0, q1⟩, q2.symm⟩
  have hadd : ∀ copy : Nat → K, addsAt (loop numRot fun (l : Nat) =>
      loop nb fun (m : Nat) => loop numGp fun (n : Nat) => loop nb fun (p : Nat) =>
        [(((i' * (numGp * nb) * (numGp * nb) * T + j' * (numGp * nb) * (numGp * nb) : Nat) : Int) +
            rot ((l * numGp : Nat) + (ir : Int)) * (nb * numGp * nb : Nat) + (m * numGp * nb : Nat)
            + rot ((l * numGp + n : Nat) : Int) * nb + (p : Int),
          copy (m * numGp * nb + n * nb + p))]) (at6 T numGp nb numGp nb i j r m n p : Nat) =
      if i' = i ∧ j' = j then ∑ l ∈ Finset.range numRot, ∑ n' ∈ Finset.range numGp,
        if table l ir = r ∧ table l n' = n then copy (m * numGp * nb + n' * nb + p) else 0 else 0 := by
    intro copy
    have hpt : ∀ l < numRot, ∀ m' < nb, ∀ n' < numGp, ∀ p' < nb,
        addsAt [(((i' * (numGp * nb) * (numGp * nb) * T + j' * (numGp * nb) * (numGp * nb) : Nat) : Int) +
            rot ((l * numGp : Nat) + (ir : Int)) * (nb * numGp * nb : Nat) + (m' * numGp * nb : Nat)
            + rot ((l * numGp + n' : Nat) : Int) * nb + (p' : Int),
          copy (m' * numGp * nb + n' * nb + p'))] (at6 T numGp nb numGp nb i j r m n p : Nat) =
        if p' = p then (if m' = m then (if (i' = i ∧ j' = j) ∧ table l ir = r ∧ table l n' = n then
          copy (m' * numGp * nb + n' * nb + p') else 0) else 0) else 0 := by
      intro l hl m' hm' n' hn' p' hp'
      rw [addsAt_single]
      obtain ⟨t1, e1⟩ := h l hl ir hi
      obtain ⟨t2, e2⟩ := h l hl n' hn'
      have e : (((i' * (numGp * nb) * (numGp * nb) * T + j' * (numGp * nb) * (numGp * nb) : Nat) : Int) +
            rot ((l * numGp : Nat) + (ir : Int)) * (nb * numGp * nb : Nat) + (m' * numGp * nb : Nat)
            + rot ((l * numGp + n' : Nat) : Int) * nb + (p' : Int)) =
          ((at6 T numGp nb numGp nb i' j' (table l ir) m' (table l n') p' : Nat) : Int) := by
        rw [e2, show (((l * numGp : Nat) : Int) + (ir : Int)) = ((l * numGp + ir : Nat) : Int) by push_cast; rfl, e1]
        unfold at6; push_cast; ring
      rw [e]
      by_cases hq : ((at6 T numGp nb numGp nb i' j' (table l ir) m' (table l n') p' : Nat) : Int) =
          ((at6 T numGp nb numGp nb i j r m n p : Nat) : Int)
      · obtain ⟨q0, q1, q2, q3, q4, q5⟩ := at6_inj hj' t1 hm' t2 hp' hj hr hm hn hp (Int.ofNat.inj hq)
        rw [if_pos hq, if_pos q5, if_pos q3, if_pos ⟨⟨q0, q1⟩, q2, q4⟩]
      · rw [if_neg hq]
        split_ifs with c1 c2 c3
        · obtain ⟨⟨rfl, rfl⟩, rfl, rfl⟩ := c3
          subst c1 c2
          exact absurd rfl hq
        · rfl
        · rfl
        · rfl
    rw [addsAt_loop]
    have hl : ∀ l ∈ Finset.range numRot, addsAt (loop nb fun (m' : Nat) => loop numGp fun (n' : Nat) =>
        loop nb fun (p' : Nat) =>
        [(((i' * (numGp * nb) * (numGp * nb) * T + j' * (numGp * nb) * (numGp * nb) : Nat) : Int) +
            rot ((l * numGp : Nat) + (ir : Int)) * (nb * numGp * nb : Nat) + (m' * numGp * nb : Nat)
            + rot ((l * numGp + n' : Nat) : Int) * nb + (p' : Int),
          copy (m' * numGp * nb + n' * nb + p'))]) (at6 T numGp nb numGp nb i j r m n p : Nat) =
        ∑ n' ∈ Finset.range numGp, if (i' = i ∧ j' = j) ∧ table l ir = r ∧ table l n' = n then
          copy (m * numGp * nb + n' * nb + p) else 0 := by
      intro l hl
      rw [addsAt_loop]
      rw [Finset.sum_eq_single m]
      · rw [addsAt_loop]
        refine Finset.sum_congr rfl fun n' hn' => ?_
        rw [addsAt_loop, Finset.sum_eq_single p]
        · rw [hpt l (Finset.mem_range.1 hl) m hm n' (Finset.mem_range.1 hn') p hp, if_pos rfl, if_pos rfl]
        · intro p' hp' hne
          rw [hpt l (Finset.mem_range.1 hl) m hm n' (Finset.mem_range.1 hn') p' (Finset.mem_range.1 hp'), if_neg hne]
        · intro hno
          exact absurd (Finset.mem_range.2 hp) hno
      · intro m' hm' hne
        rw [addsAt_loop]
        refine Finset.sum_eq_zero fun n' hn' => ?_
        rw [addsAt_loop]
        refine Finset.sum_eq_zero fun p' hp' => ?_
        rw [hpt l (Finset.mem_range.1 hl) m' (Finset.mem_range.1 hm') n' (Finset.mem_range.1 hn') p'
          (Finset.mem_range.1 hp'), if_neg hne, ite_self]
      · intro hno
        exact absurd (Finset.mem_range.2 hm) hno
    rw [Finset.sum_congr rfl hl]
    split_ifs with hc
    · simp only [hc, and_self, true_and]
    · simp only [hc, false_and, if_false, Finset.sum_const_zero]
  unfold expandStep
  simp only [hir]
  rw [runAdds_value, hclear, hadd (fun l =>
    a (((i' * (numGp * nb) * (numGp * nb) * T + j' * (numGp * nb) * (numGp * nb) : Nat) : Int)
      + (ir : Int) * (nb * numGp * nb : Nat) + (l : Int)) / (multiplicity rot numGp numRot (ir : Int) : K))]
  by_cases hc : i' = i ∧ j' = j
  · rw [if_pos hc, if_pos hc, pyExpandStep_value, multiplicity_table h hi]
    obtain ⟨rfl, rfl⟩ := hc
    congr 1
    · simp only [and_self, true_and]
      rfl
    · refine Finset.sum_congr rfl fun l _ => Finset.sum_congr rfl fun n' _ => ?_
      split_ifs
      · congr 1
        unfold blockOf
        congr 1
        unfold at6; push_cast; ring
      · rfl
  · rw [if_neg hc, if_neg hc, if_neg fun h => hc h.1, add_zero]
    rfl

theorem pyExpandStep_same {numGp numRot nb : Nat} {table : Nat → Nat → Nat} {A B : CollisionBlock K}
    (h : SameBlock numGp nb A B) {ir : Nat} (hi : ir < numGp) :
    SameBlock numGp nb (pyExpandStep table numGp numRot A ir) (pyExpandStep table numGp numRot B ir) := by
  intro r hr m hm n hn p hp
  rw [pyExpandStep_value, pyExpandStep_value]
  congr 1
  · rw [h r hr m hm n hn p hp]
  · refine Finset.sum_congr rfl fun l _ => Finset.sum_congr rfl fun k hk => ?_
    rw [h ir hi m hm k (Finset.mem_range.1 hk) p hp]

theorem expand_fold {numGp numRot : Nat} {rot irArr : Int → Int} {table : Nat → Nat → Nat}
    (h : TableIn numGp numRot rot table) {T nb : Nat} (ir : Nat → Nat) (N : Nat)
    (hir : ∀ k < N, irArr (k : Int) = (ir k : Int) ∧ ir k < numGp) {i j : Nat} (hj : j < T)
    (rounds : List (Nat × Nat × Nat)) (hrounds : ∀ t ∈ rounds, t.2.1 < T ∧ t.2.2 < N) (a : Int → K)
    (B : CollisionBlock K) (hB : SameBlock numGp nb (blockOf T numGp nb a i j) B) :
    SameBlock numGp nb (blockOf T numGp nb (rounds.foldl (expandStep rot irArr numGp numRot T nb) a) i j)
      (((rounds.filter fun t => t.1 = i ∧ t.2.1 = j).map fun t => ir t.2.2).foldl
        (pyExpandStep table numGp numRot) B) := by
  induction rounds generalizing a B with
  | nil => exact hB
  | cons t rounds ih =>
    obtain ⟨i', j', k⟩ := t
    have ht := hrounds _ List.mem_cons_self
    obtain ⟨e1, e2⟩ := hir k ht.2
    rw [List.foldl_cons]
    have hstep : ∀ r < numGp, ∀ m < nb, ∀ n < numGp, ∀ p < nb, _ := fun r hr m hm n hn p hp =>
      expandStep_block (i := i) (i' := i') h e1 e2 hj ht.1 a hr hm hn hp
    by_cases hc : i' = i ∧ j' = j
    · rw [List.filter_cons_of_pos (by simpa using hc), List.map_cons, List.foldl_cons]
      refine ih (fun t ht => hrounds t (List.mem_cons_of_mem _ ht)) _ _ ?_
      intro r hr m hm n hn p hp
      have := hstep r hr m hm n hn p hp
      rw [if_pos hc] at this
      unfold blockOf at this ⊢
      rw [this]
      exact pyExpandStep_same hB e2 r hr m hm n hn p hp
    · rw [List.filter_cons_of_neg (by simpa using hc)]
      refine ih (fun t ht => hrounds t (List.mem_cons_of_mem _ ht)) _ _ ?_
      intro r hr m hm n hn p hp
      have := hstep r hr m hm n hn p hp
      rw [if_neg hc] at this
      rw [← hB r hr m hm n hn p hp]
      exact this

theorem rounds_block (S T N i j : Nat) (hi : i < S) (hj : j < T) (ir : Nat → Nat) :
    (((loop S fun i => loop T fun j => (List.range N).map fun k => (i, j, k)).filter
      fun t => t.1 = i ∧ t.2.1 = j).map fun t => ir t.2.2) = (List.range N).map ir := by
  unfold loop
  rw [List.filter_flatMap, List.map_flatMap]
  have hz : ∀ (M x : Nat) (hx : x < M) (f : Nat → List Nat) (l : List Nat), f x = l → (∀ y, y ≠ x → f y = []) →
      (List.range M).flatMap f = l := by
    intro M x hx f l h1 h2
    induction M with
    | zero => cases hx
    | succ M ih =>
      rw [List.range_succ, List.flatMap_append, List.flatMap_singleton]
      by_cases hM : x = M
      · subst hM
        rw [h1, List.flatMap_eq_nil_iff.2 fun y hy => h2 y (ne_of_lt (List.mem_range.1 hy)), List.nil_append]
      · rw [ih (by omega), h2 M (Ne.symm hM), List.append_nil]
  refine hz S i hi _ _ ?_ ?_
  · rw [List.filter_flatMap, List.map_flatMap]
    refine hz T j hj _ _ ?_ ?_
    · rw [List.filter_eq_self.2, List.map_map]
      · rfl
      · intro t ht
        obtain ⟨k, _, rfl⟩ := List.mem_map.1 ht
        simp
    · intro y hy
      rw [List.filter_eq_nil_iff.2, List.map_nil]
      intro t ht
      obtain ⟨k, _, rfl⟩ := List.mem_map.1 ht
      simp [hy]
  · intro y hy
    rw [List.filter_eq_nil_iff.2, List.map_nil]
    intro t ht
    obtain ⟨x, _, ht⟩ := List.mem_flatMap.1 ht
    obtain ⟨k, _, rfl⟩ := List.mem_map.1 ht
    simp [hy]

/-- C173: expanding the collision matrix in Python and in C gives the same matrix for every sigma and temperature, for
any table of rotated grid points and any list of irreducible points. -/
theorem C173_expand (rot irArr : Int → Int) (table : Nat → Nat → Nat) (numGp numRot : Nat)
    (h : TableIn numGp numRot rot table) (ir : Nat → Nat) (numIr : Nat)
    (hir : ∀ k < numIr, irArr (k : Int) = (ir k : Int) ∧ ir k < numGp) (S T nb i j : Nat) (hi : i < S) (hj : j < T)
    (a : Int → K) :
    SameBlock numGp nb
      (blockOf T numGp nb (expandCollisionMatrix rot irArr numIr numGp numRot S T nb a) i j)
      (pyExpand table numGp numRot ((List.range numIr).map ir) (blockOf T numGp nb a i j)) := by
  have := expand_fold h ir numIr hir hj (i := i)
    (loop S fun i => loop T fun j => (List.range numIr).map fun k => (i, j, k)) (fun t ht => by
      have := mem_expandRounds.1 ht
      exact ⟨this.2.1, this.2.2⟩) a (blockOf T numGp nb a i j) (fun _ _ _ _ _ _ _ _ => rfl)
  rw [rounds_block S T numIr i j hi hj ir] at this
  exact this

/-- C173: symmetrising with numpy gives what the C function gives. -/
theorem C173_symmetrize (n T S : Nat) (a : Int → K) (i j k l : Nat) (hi : i < S) (hj : j < T) (hk : k < n)
    (hl : l < n) :
    npSymmetrize (fun k l => a (at4 T n n i j k l : Nat)) k l =
      symmetrizeCollisionMatrix n T S a (at4 T n n i j k l : Nat) :=
  (C35_value n T S a i j k l hi hj hk hl).symm

theorem pySymmetrize_fold (rounds : List (Nat × Nat)) (M : Nat → Nat → K) (k l : Nat) :
    rounds.foldl pySymmetrizeElement M k l =
      if (k, l) ∈ rounds ∨ (l, k) ∈ rounds then (M k l + M l k) / 2 else M k l := by
  have key : ∀ (rounds : List (Nat × Nat)) (M' : Nat → Nat → K) (x y : K),
      (M' k l = x ∧ M' l k = y ∨ M' k l = (x + y) / 2 ∧ M' l k = (x + y) / 2) →
      rounds.foldl pySymmetrizeElement M' k l =
        if (k, l) ∈ rounds ∨ (l, k) ∈ rounds then (x + y) / 2 else M' k l := by
    intro rounds
    induction rounds with
    | nil => intro M' x y _; simp
    | cons t rounds ih =>
      intro M' x y hxy
      rw [List.foldl_cons]
      by_cases ht : (k, l) = t ∨ (l, k) = t
      · have hm : (k, l) ∈ t :: rounds ∨ (l, k) ∈ t :: rounds := by
          rcases ht with rfl | rfl
          · exact Or.inl List.mem_cons_self
          · exact Or.inr List.mem_cons_self
        have hval : (M' t.1 t.2 + M' t.2 t.1) / 2 = (x + y) / 2 := by
          have hsum : M' t.1 t.2 + M' t.2 t.1 = M' k l + M' l k := by
            rcases ht with rfl | rfl
            · rfl
            · exact add_comm _ _
          rw [hsum]
          rcases hxy with ⟨h1, h2⟩ | ⟨h1, h2⟩
          · rw [h1, h2]
          · rw [h1, h2]; ring
        have e1 : pySymmetrizeElement M' t k l = (x + y) / 2 := by
          unfold pySymmetrizeElement
          rw [if_pos ht, hval]
        have e2 : pySymmetrizeElement M' t l k = (x + y) / 2 := by
          unfold pySymmetrizeElement
          rw [if_pos ht.symm, hval]
        rw [if_pos hm, ih _ x y (Or.inr ⟨e1, e2⟩), e1, ite_self]
      · have e1 : pySymmetrizeElement M' t k l = M' k l := by
          unfold pySymmetrizeElement
          rw [if_neg ht]
        have e2 : pySymmetrizeElement M' t l k = M' l k := by
          unfold pySymmetrizeElement
          rw [if_neg fun h => ht h.symm]
        rw [ih _ x y (by rw [e1, e2]; exact hxy), e1]
        push Not at ht
        simp only [List.mem_cons, ht.1, ht.2, false_or]
  exact key rounds M _ _ (Or.inl ⟨rfl, rfl⟩)

/-- C173: the Python loops over all pairs give it too, although they visit each pair of elements twice. -/
theorem C173_symmetrize_loops (size : Nat) (M : Nat → Nat → K) (k l : Nat) (hk : k < size) (hl : l < size) :
    pySymmetrize size M k l = npSymmetrize M k l := by
  unfold pySymmetrize
  rw [pySymmetrize_fold, if_pos]
  · rfl
  · exact Or.inl (mem_loop.2 ⟨k, hk, List.mem_map.2 ⟨l, List.mem_range.2 hl, rfl⟩⟩)

end

section Examples

/-- Three grid points, the irreducible ones 0 and 1, and the operations 1 and the exchange of 1 and 2. -/
def toyTable : Nat → Nat → Nat := fun l n => if l = 0 then n else if n = 0 then 0 else 3 - n

example : TableIn 3 2 (fun x => if x < 3 then x else if x = 3 then 0 else if x = 4 then 2 else 1) toyTable := by
  unfold TableIn
  decide +kernel

/-- The row of point 2 is that of point 1 with points exchanged; the row of point 0 is averaged. -/
example : (List.range 9).map (fun x => pyExpand toyTable 3 2 [0, 1]
      (fun r _ n _ => if r = 2 then 0 else ((1 + 3 * r + n * n : Nat) : ℚ)) (x / 3) 0 (x % 3) 0) =
    [1, 7 / 2, 7 / 2, 4, 5, 8, 4, 8, 5] := by
  decide +kernel

end Examples
end Phono3py.Props
