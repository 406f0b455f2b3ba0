/- The lattice Fourier transform of fc3. -/
import Verif.Lemmas.Interaction
import Mathlib.Algebra.BigOperators.Group.Finset.Basic

set_option linter.unusedSectionVars false

namespace Phono3py
open Spec

theorem loop_congr {β : Type _} {n : Nat} {f g : Nat → List β} (h : ∀ i < n, f i = g i) :
    loop n f = loop n g := by
  unfold loop
  induction n with
  | zero => rfl
  | succ n ih =>
    rw [List.range_succ, List.flatMap_append, List.flatMap_append, ih fun i hi => h i (by omega)]
    simp [h n (by omega)]

theorem loop_mul {β : Type _} (n m : Nat) (f : Nat → List β) :
    loop (n * m) f = loop n fun i => loop m fun j => f (at2 m i j) := by
  have succ : ∀ (n : Nat) (g : Nat → List β), loop (n + 1) g = loop n g ++ g n := by
    intro n g; simp [loop, List.range_succ]
  have add : ∀ (a b : Nat) (g : Nat → List β),
      loop (a + b) g = loop a g ++ loop b fun j => g (a + j) := by
    intro a b g
    induction b with
    | zero => simp [loop]
    | succ b ih => rw [← Nat.add_assoc, succ, ih, succ, List.append_assoc]
  induction n with
  | zero => simp [loop]
  | succ n ih => rw [Nat.add_mul, Nat.one_mul, add, ih, succ]; rfl

section
variable {K : Type _} [Field K] [LinearOrder K] [IsStrictOrderedRing K]

theorem fold_skip {α : Type _} [AddCommMonoid α] (n : Nat) (p : Nat → Prop) [DecidablePred p]
    (f : Nat → α) (s : α) :
    (List.range n).foldl (fun s k => if p k then s else s + f k) s =
      s + ∑ k ∈ Finset.range n, if p k then 0 else f k := by
  induction n with
  | zero => simp
  | succ n ih =>
    rw [List.range_succ, List.foldl_append, ih, Finset.sum_range_succ]
    simp only [List.foldl_cons, List.foldl_nil]
    split_ifs
    · simp
    · rw [add_assoc]

/-- The factor of one pair of supercell atoms in `real_to_reciprocal_elements`. -/
def legFactor (at' : AtomTriplets K) (pi0 leg j k : Nat) : K :=
  if at'.allShortest (pi0 * at'.numSatom * at'.numSatom + j * at'.numSatom + k) = true then
    (if leg = 1 then 3 else if leg > 1 then 0 else 1) else 1

theorem r2rElement_eq (at' : AtomTriplets K) (phase1 phase2 : Nat → Cplx K) (fc3 : Int → K)
    (isCompact : Bool) (pi0 pi1 pi2 leg l : Nat) :
    r2rElement at' phase1 phase2 fc3 isCompact pi0 pi1 pi2 leg l =
      ∑ j ∈ Finset.range at'.numSatom, ∑ k ∈ Finset.range at'.numSatom,
        if at'.s2p j = at'.p2s pi1 ∧ at'.s2p k = at'.p2s pi2 then
          (phase1 j * phase2 k).scale
            (fc3 ((if isCompact then (pi0 : Int) else at'.p2s pi0) * 27 * at'.numSatom * at'.numSatom
              + j * 27 * at'.numSatom + k * 27 + l) * legFactor at' pi0 leg j k) else 0 := by
  unfold r2rElement
  simp only
  set i : Int := if isCompact then (pi0 : Int) else at'.p2s pi0
  set n := at'.numSatom with hn
  have inner : ∀ (j : Nat) (s : Cplx K), (List.range n).foldl (fun s k =>
      if at'.s2p k ≠ at'.p2s pi2 then s
      else if leg > 1 ∧ at'.allShortest (pi0 * n * n + j * n + k) = true then s
      else if leg = 1 ∧ at'.allShortest (pi0 * n * n + j * n + k) = true then
          s + ⟨(phase1 j * phase2 k).re * fc3 (i * 27 * n * n + j * 27 * n + k * 27 + l) * 3,
            (phase1 j * phase2 k).im * fc3 (i * 27 * n * n + j * 27 * n + k * 27 + l) * 3⟩
        else s + ⟨(phase1 j * phase2 k).re * fc3 (i * 27 * n * n + j * 27 * n + k * 27 + l),
            (phase1 j * phase2 k).im * fc3 (i * 27 * n * n + j * 27 * n + k * 27 + l)⟩) s =
      s + ∑ k ∈ Finset.range n, if at'.s2p k ≠ at'.p2s pi2 then 0 else
        (phase1 j * phase2 k).scale (fc3 (i * 27 * n * n + j * 27 * n + k * 27 + l) *
          legFactor at' pi0 leg j k) := by
    intro j s
    rw [← fold_skip]
    congr 1
    funext s k
    by_cases h1 : at'.s2p k ≠ at'.p2s pi2
    · rw [if_pos h1, if_pos h1]
    · rw [if_neg h1, if_neg h1]
      unfold legFactor
      rw [← hn]
      by_cases hs : at'.allShortest (pi0 * n * n + j * n + k) = true
      · simp only [hs, and_true, if_true]
        by_cases hl : leg > 1
        · rw [if_pos hl, if_neg (show ¬leg = 1 by omega), if_pos hl]
          ext <;> simp [Cplx.scale]
        · rw [if_neg hl]
          by_cases hl1 : leg = 1
          · rw [if_pos hl1, if_pos hl1]
            ext <;> simp [Cplx.scale] <;> ring
          · rw [if_neg hl1, if_neg hl1, if_neg hl]
            ext <;> simp [Cplx.scale]
      · simp only [hs, and_false, if_false]
        ext <;> simp [Cplx.scale]
  simp only [inner]
  rw [fold_skip, zero_add]
  refine Finset.sum_congr rfl fun j _ => ?_
  by_cases hj : at'.s2p j ≠ at'.p2s pi1
  · rw [if_pos hj]
    symm
    refine Finset.sum_eq_zero fun k _ => ?_
    rw [if_neg (fun h => hj h.1)]
  · rw [if_neg hj]
    refine Finset.sum_congr rfl fun k _ => ?_
    push Not at hj
    by_cases hk : at'.s2p k = at'.p2s pi2
    · rw [if_neg (not_not.2 hk), if_pos ⟨hj, hk⟩]
    · rw [if_pos hk, if_neg (fun h => hk h.2)]

/-- The stores of the transform as nested loops. -/
theorem r2r_ijk (np : Nat) {β : Type _} (F : Nat → Nat → Nat → List β) :
    (loop (np * np * np) fun ijk =>
      F (ijk / (np * np)) ((ijk - ijk / (np * np) * np * np) / np) (ijk % np)) =
    loop np fun i => loop np fun j => loop np fun k => F i j k := by
  rw [loop_mul, loop_mul]
  refine loop_congr fun i _ => loop_congr fun j hj => loop_congr fun k hk => ?_
  have e : at2 np (at2 np i j) k = np * np * i + at2 np j k := by unfold at2; ring
  have hjk : at2 np j k < np * np := digits_lt hj hk
  have hp : 0 < np * np := by omega
  have h1 : at2 np (at2 np i j) k / (np * np) = i := by
    rw [e, Nat.mul_add_div hp, Nat.div_eq_of_lt hjk, add_zero]
  have h2 : at2 np (at2 np i j) k - i * np * np = at2 np j k := by
    rw [e, show i * np * np = np * np * i by ring]; omega
  have h3 : at2 np j k / np = j := by
    unfold at2
    rw [mul_comm, Nat.mul_add_div (by omega), Nat.div_eq_of_lt hk, add_zero]
  have h4 : at2 np (at2 np i j) k % np = k := by
    unfold at2
    rw [mul_comm, Nat.mul_add_mod]
    exact Nat.mod_eq_of_lt hk
  rw [h1, h2, h3, h4]

theorem r2rPos_eq (nb i j k l m n : Nat) :
    r2rPos nb i j k l m n = (at3 nb nb (at2 3 i l) (at2 3 j m) (at2 3 k n) : Nat) := by
  unfold r2rPos at3 at2
  congr 1
  ring

theorem r2rPos_inj {np i j k l m n i' j' k' l' m' n' : Nat} (hj : j < np)
    (hk : k < np) (hl : l < 3) (hm : m < 3) (hn : n < 3) (hj' : j' < np) (hk' : k' < np)
    (hl' : l' < 3) (hm' : m' < 3) (hn' : n' < 3)
    (h : r2rPos (np * 3) i j k l m n = r2rPos (np * 3) i' j' k' l' m' n') :
    i = i' ∧ j = j' ∧ k = k' ∧ l = l' ∧ m = m' ∧ n = n' := by
  rw [r2rPos_eq, r2rPos_eq] at h
  have h1 := at3_inj (digits_lt hj hm) (digits_lt hk hn) (digits_lt hj' hm') (digits_lt hk' hn')
    (Int.ofNat.inj h)
  have a := digits2 hl hl' h1.1
  have b := digits2 hm hm' h1.2.1
  have c := digits2 hn hn' h1.2.2
  exact ⟨a.1, b.1, c.1, a.2, b.2, c.2⟩

/-- Six nested loops that store one value each. -/
def sixLoop (np : Nat) (v : Nat → Nat → Nat → Nat → Nat → Nat → Cplx K) : List (Int × Cplx K) :=
  loop np fun i => loop np fun j => loop np fun k =>
    loop 3 fun l => loop 3 fun m => loop 3 fun n =>
      [(r2rPos (np * 3) i j k l m n, v i j k l m n)]

theorem mem_sixLoop {np : Nat} {v : Nat → Nat → Nat → Nat → Nat → Nat → Cplx K} {w : Int × Cplx K} :
    w ∈ sixLoop np v ↔ ∃ i < np, ∃ j < np, ∃ k < np, ∃ l < 3, ∃ m < 3, ∃ n < 3,
      w = (r2rPos (np * 3) i j k l m n, v i j k l m n) := by
  simp only [sixLoop, mem_loop, List.mem_singleton]

theorem sixLoop_agree (np : Nat) (v : Nat → Nat → Nat → Nat → Nat → Nat → Cplx K) :
    Agree (sixLoop np v) := by
  intro u hu w hw e
  obtain ⟨i, hi, j, hj, k, hk, l, hl, m, hm, n, hn, rfl⟩ := mem_sixLoop.1 hu
  obtain ⟨i', hi', j', hj', k', hk', l', hl', m', hm', n', hn', rfl⟩ := mem_sixLoop.1 hw
  obtain ⟨rfl, rfl, rfl, rfl, rfl, rfl⟩ := r2rPos_inj hj hk hl hm hn hj' hk' hl' hm' hn' e
  rfl

theorem sixLoop_value (a : Int → Cplx K) {np : Nat}
    (v : Nat → Nat → Nat → Nat → Nat → Nat → Cplx K) {i j k l m n : Nat} (hi : i < np)
    (hj : j < np) (hk : k < np) (hl : l < 3) (hm : m < 3) (hn : n < 3) :
    runWrites a (sixLoop np v) (r2rPos (np * 3) i j k l m n) = v i j k l m n :=
  runWrites_value a _ (sixLoop_agree np v) _
    (mem_sixLoop.2 ⟨i, hi, j, hj, k, hk, l, hl, m, hm, n, hn, rfl⟩)

theorem r2rLegacy_eq (expi : K → Cplx K) (at' : AtomTriplets K) (q : Fin 3 → Q3 K)
    (fc3 : Int → K) (isCompact : Bool) :
    r2rLegacy expi at' q fc3 isCompact = sixLoop at'.numPatom fun i j k l m n =>
      r2rElement at' (phaseTable expi at' q 1 i) (phaseTable expi at' q 2 i) fc3 isCompact i j k 0
        (l * 9 + m * 3 + n) * prePhaseFactor expi at' q i :=
  r2r_ijk at'.numPatom fun i j k => loop 3 fun l => loop 3 fun m => loop 3 fun n =>
    [(r2rPos (at'.numPatom * 3) i j k l m n,
      r2rElement at' (phaseTable expi at' q 1 i) (phaseTable expi at' q 2 i) fc3 isCompact i j k 0
        (l * 9 + m * 3 + n) * prePhaseFactor expi at' q i)]

/-- Sum of the additions at a place, by permuting appended loops. -/
theorem addsAt_sixLoop (np : Nat) (v : Nat → Nat → Nat → Nat → Nat → Nat → Cplx K)
    {i j k l m n : Nat} (hi : i < np) (hj : j < np) (hk : k < np) (hl : l < 3) (hm : m < 3)
    (hn : n < 3) :
    addsAt (sixLoop np v) (r2rPos (np * 3) i j k l m n) = v i j k l m n := by
  have zero : ∀ i' j' k' l' m' n', i' < np → j' < np → k' < np → l' < 3 → m' < 3 → n' < 3 →
      ¬(i' = i ∧ j' = j ∧ k' = k ∧ l' = l ∧ m' = m ∧ n' = n) →
      addsAt [(r2rPos (np * 3) i' j' k' l' m' n', v i' j' k' l' m' n')]
        (r2rPos (np * 3) i j k l m n) = 0 := by
    intro i' j' k' l' m' n' _ hj' hk' hl' hm' hn' h
    rw [addsAt_single, if_neg]
    intro e
    exact h (r2rPos_inj hj' hk' hl' hm' hn' hj hk hl hm hn e)
  unfold sixLoop
  rw [addsAt_loop, Finset.sum_eq_single i, addsAt_loop, Finset.sum_eq_single j, addsAt_loop,
    Finset.sum_eq_single k, addsAt_loop, Finset.sum_eq_single l, addsAt_loop,
    Finset.sum_eq_single m, addsAt_loop, Finset.sum_eq_single n, addsAt_single, if_pos rfl]
  · exact fun n' hn' h => zero _ _ _ _ _ _ hi hj hk hl hm (Finset.mem_range.1 hn') (fun q => h q.2.2.2.2.2)
  · exact fun h => absurd (Finset.mem_range.2 hn) h
  · intro m' hm' h
    rw [addsAt_loop]
    exact Finset.sum_eq_zero fun n' hn' => zero _ _ _ _ _ _ hi hj hk hl (Finset.mem_range.1 hm')
      (Finset.mem_range.1 hn') (fun q => h q.2.2.2.2.1)
  · exact fun h => absurd (Finset.mem_range.2 hm) h
  · intro l' hl' h
    rw [addsAt_loop]
    refine Finset.sum_eq_zero fun m' hm' => ?_
    rw [addsAt_loop]
    exact Finset.sum_eq_zero fun n' hn' => zero _ _ _ _ _ _ hi hj hk (Finset.mem_range.1 hl')
      (Finset.mem_range.1 hm') (Finset.mem_range.1 hn') (fun q => h q.2.2.2.1)
  · exact fun h => absurd (Finset.mem_range.2 hl) h
  · intro k' hk' h
    rw [addsAt_loop]
    refine Finset.sum_eq_zero fun l' hl' => ?_
    rw [addsAt_loop]
    refine Finset.sum_eq_zero fun m' hm' => ?_
    rw [addsAt_loop]
    exact Finset.sum_eq_zero fun n' hn' => zero _ _ _ _ _ _ hi hj (Finset.mem_range.1 hk')
      (Finset.mem_range.1 hl') (Finset.mem_range.1 hm') (Finset.mem_range.1 hn') (fun q => h q.2.2.1)
  · exact fun h => absurd (Finset.mem_range.2 hk) h
  · intro j' hj' h
    rw [addsAt_loop]
    refine Finset.sum_eq_zero fun k' hk' => ?_
    rw [addsAt_loop]
    refine Finset.sum_eq_zero fun l' hl' => ?_
    rw [addsAt_loop]
    refine Finset.sum_eq_zero fun m' hm' => ?_
    rw [addsAt_loop]
    exact Finset.sum_eq_zero fun n' hn' => zero _ _ _ _ _ _ hi (Finset.mem_range.1 hj')
      (Finset.mem_range.1 hk') (Finset.mem_range.1 hl') (Finset.mem_range.1 hm')
      (Finset.mem_range.1 hn') (fun q => h q.2.1)
  · exact fun h => absurd (Finset.mem_range.2 hj) h
  · intro i' hi' h
    rw [addsAt_loop]
    refine Finset.sum_eq_zero fun j' hj' => ?_
    rw [addsAt_loop]
    refine Finset.sum_eq_zero fun k' hk' => ?_
    rw [addsAt_loop]
    refine Finset.sum_eq_zero fun l' hl' => ?_
    rw [addsAt_loop]
    refine Finset.sum_eq_zero fun m' hm' => ?_
    rw [addsAt_loop]
    exact Finset.sum_eq_zero fun n' hn' => zero _ _ _ _ _ _ (Finset.mem_range.1 hi')
      (Finset.mem_range.1 hj') (Finset.mem_range.1 hk') (Finset.mem_range.1 hl')
      (Finset.mem_range.1 hm') (Finset.mem_range.1 hn') (fun q => h q.1)
  · exact fun h => absurd (Finset.mem_range.2 hi) h

theorem addsAt_loop_append {α : Type _} [AddCommMonoid α] (n : Nat)
    (f g : Nat → List (Int × α)) (p : Int) :
    addsAt (loop n fun i => f i ++ g i) p = addsAt (loop n f) p + addsAt (loop n g) p := by
  rw [addsAt_loop, addsAt_loop, addsAt_loop, ← Finset.sum_add_distrib]
  exact Finset.sum_congr rfl fun i _ => addsAt_append _ _ _

/-- The value left by the averaged variant before the division by three. -/
theorem r2rR0Average_value (expi : K → Cplx K) (at' : AtomTriplets K) (q : Fin 3 → Q3 K)
    (fc3 : Int → K) (isCompact : Bool) {i j k l m n : Nat} (hi : i < at'.numPatom)
    (hj : j < at'.numPatom) (hk : k < at'.numPatom) (hl : l < 3) (hm : m < 3) (hn : n < 3) :
    addsAt (r2rR0Average expi at' q fc3 isCompact) (r2rPos (at'.numPatom * 3) i j k l m n) =
      r2rElement at' (phaseTable expi at' q 1 i) (phaseTable expi at' q 2 i) fc3
        isCompact i j k 1 (l * 9 + m * 3 + n) * prePhaseFactor expi at' q i +
      r2rElement at' (phaseTable expi at' q 0 j) (phaseTable expi at' q 2 j) fc3
        isCompact j i k 2 (m * 9 + l * 3 + n) * prePhaseFactor expi at' q j +
      r2rElement at' (phaseTable expi at' q 1 k) (phaseTable expi at' q 0 k) fc3
        isCompact k j i 3 (n * 9 + m * 3 + l) * prePhaseFactor expi at' q k := by
  set np := at'.numPatom with hnp
  have e : r2rR0Average expi at' q fc3 isCompact = loop np fun i => loop np fun j => loop np fun k =>
      ((loop 3 fun l => loop 3 fun m => loop 3 fun n =>
        [(r2rPos (np * 3) i j k l m n,
          r2rElement at' (phaseTable expi at' q 1 i) (phaseTable expi at' q 2 i) fc3
            isCompact i j k 1 (l * 9 + m * 3 + n) * prePhaseFactor expi at' q i)]) ++
      (loop 3 fun l => loop 3 fun m => loop 3 fun n =>
        [(r2rPos (np * 3) i j k l m n,
          r2rElement at' (phaseTable expi at' q 0 j) (phaseTable expi at' q 2 j) fc3
            isCompact j i k 2 (m * 9 + l * 3 + n) * prePhaseFactor expi at' q j)])) ++
      (loop 3 fun l => loop 3 fun m => loop 3 fun n =>
        [(r2rPos (np * 3) i j k l m n,
          r2rElement at' (phaseTable expi at' q 1 k) (phaseTable expi at' q 0 k) fc3
            isCompact k j i 3 (n * 9 + m * 3 + l) * prePhaseFactor expi at' q k)]) := by
    rw [← r2r_ijk]
    rfl
  rw [e]
  have split : ∀ (A B C : Nat → Nat → Nat → List (Int × Cplx K)) (p : Int),
      addsAt (loop np fun i => loop np fun j => loop np fun k => (A i j k ++ B i j k) ++ C i j k) p =
      addsAt (loop np fun i => loop np fun j => loop np fun k => A i j k) p +
      addsAt (loop np fun i => loop np fun j => loop np fun k => B i j k) p +
      addsAt (loop np fun i => loop np fun j => loop np fun k => C i j k) p := by
    intro A B C p
    simp only [addsAt_loop, addsAt_append, Finset.sum_add_distrib]
  rw [split]
  congr 1
  · congr 1
    · exact addsAt_sixLoop np (fun i j k l m n => r2rElement at' (phaseTable expi at' q 1 i)
        (phaseTable expi at' q 2 i) fc3 isCompact i j k 1 (l * 9 + m * 3 + n) *
          prePhaseFactor expi at' q i) hi hj hk hl hm hn
    · exact addsAt_sixLoop np (fun i j k l m n => r2rElement at' (phaseTable expi at' q 0 j)
        (phaseTable expi at' q 2 j) fc3 isCompact j i k 2 (m * 9 + l * 3 + n) *
          prePhaseFactor expi at' q j) hi hj hk hl hm hn
  · exact addsAt_sixLoop np (fun i j k l m n => r2rElement at' (phaseTable expi at' q 1 k)
      (phaseTable expi at' q 0 k) fc3 isCompact k j i 3 (n * 9 + m * 3 + l) *
        prePhaseFactor expi at' q k) hi hj hk hl hm hn

end
end Phono3py
