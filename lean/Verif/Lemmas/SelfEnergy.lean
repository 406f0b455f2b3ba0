/- Sums computed by the self-energy routines. -/
import Verif.Model.SelfEnergy
import Verif.Spec.SelfEnergy
import Verif.Lemmas.Adds
import Mathlib.Algebra.BigOperators.Ring.Finset

set_option linter.unusedSectionVars false

namespace Phono3py
open Spec

/-- The positions with `g_zero` unset, in row-major order. -/
theorem setGPos_eq (numBand0 numBand : Nat) (gZero : Int → Bool) :
    setGPos numBand0 numBand gZero = loop numBand0 fun j => loop numBand fun k =>
      loop numBand fun l =>
        if gZero (at3 numBand numBand j k l : Nat) then []
        else [⟨j, k, l, at3 numBand numBand j k l⟩] := by
  have e1 : ∀ (j k : Nat), (fun (st : List GPos × Nat) (l : Nat) =>
      (if !gZero (st.2 : Nat) then st.1 ++ [(⟨j, k, l, st.2⟩ : GPos)] else st.1, st.2 + 1)) =
      fun st l => (st.1 ++ (if gZero (st.2 : Nat) then [] else [(⟨j, k, l, st.2⟩ : GPos)]),
        st.2 + 1) := by
    intro j k
    funext st l
    cases gZero (st.2 : Nat) <;> simp
  unfold setGPos
  simp only [e1]
  have e2 : ∀ (j k : Nat) (st : List GPos × Nat), (List.range numBand).foldl
      (fun (st : List GPos × Nat) (l : Nat) =>
        (st.1 ++ (if gZero (st.2 : Nat) then [] else [(⟨j, k, l, st.2⟩ : GPos)]), st.2 + 1)) st =
      (st.1 ++ loop numBand (fun l => if gZero ((st.2 + l : Nat) : Int) then []
        else [(⟨j, k, l, st.2 + l⟩ : GPos)]), st.2 + numBand) := by
    intro j k st
    have := fold_count numBand 1 (fun l c => if gZero (c : Nat) then []
      else [(⟨j, k, l, c⟩ : GPos)]) st.1 st.2
    simpa only [mul_one] using this
  simp only [e2]
  have e3 : ∀ (j : Nat) (st : List GPos × Nat), (List.range numBand).foldl
      (fun (st : List GPos × Nat) (k : Nat) =>
        (st.1 ++ loop numBand (fun l => if gZero ((st.2 + l : Nat) : Int) then []
        else [(⟨j, k, l, st.2 + l⟩ : GPos)]), st.2 + numBand)) st =
      (st.1 ++ loop numBand (fun k => loop numBand (fun l =>
        if gZero ((st.2 + k * numBand + l : Nat) : Int) then []
        else [(⟨j, k, l, st.2 + k * numBand + l⟩ : GPos)])), st.2 + numBand * numBand) := by
    intro j st
    exact fold_count numBand numBand (fun k c => loop numBand (fun l =>
      if gZero ((c + l : Nat) : Int) then [] else [(⟨j, k, l, c + l⟩ : GPos)])) st.1 st.2
  simp only [e3]
  have e4 := fold_count numBand0 (numBand * numBand) (fun j c => loop numBand (fun k =>
    loop numBand (fun l => if gZero ((c + k * numBand + l : Nat) : Int) then []
        else [(⟨j, k, l, c + k * numBand + l⟩ : GPos)]))) [] 0
  rw [e4]
  simp only [List.nil_append]
  have : ∀ j k l, 0 + j * (numBand * numBand) + k * numBand + l = at3 numBand numBand j k l := by
    intro j k l; unfold at3; ring
  simp only [this]

theorem setGPosFrequencyPoint_eq (numBand0 numBand : Nat) (gZero : Int → Bool) :
    setGPosFrequencyPoint numBand0 numBand gZero = loop numBand0 fun j => loop numBand fun k =>
      loop numBand fun l =>
        if gZero (at2 numBand k l : Nat) then []
        else [⟨j, k, l, at3 numBand numBand j k l⟩] := by
  have fc : ∀ (n w : Nat) (F : Nat → Nat → Nat → List GPos) (out : List GPos) (c d : Nat),
      (List.range n).foldl (fun (st : List GPos × Nat × Nat) x =>
        (st.1 ++ F x st.2.1 st.2.2, st.2.1 + w, st.2.2 + w)) (out, c, d) =
      (out ++ loop n (fun x => F x (c + x * w) (d + x * w)), c + n * w, d + n * w) := by
    intro n w F out c d
    induction n with
    | zero => simp [loop]
    | succ n ih =>
      rw [List.range_succ, List.foldl_append, ih]
      simp only [List.foldl_cons, List.foldl_nil, loop, List.range_succ, List.flatMap_append,
        List.flatMap_cons, List.flatMap_nil, List.append_nil, List.append_assoc]
      rw [show c + n * w + w = c + (n + 1) * w by ring, show d + n * w + w = d + (n + 1) * w by ring]
  have e1 : ∀ (j k : Nat), (fun (st : List GPos × Nat × Nat) (l : Nat) =>
      (if !gZero (st.2.2 : Nat) then st.1 ++ [(⟨j, k, l, st.2.1⟩ : GPos)] else st.1,
        st.2.1 + 1, st.2.2 + 1)) =
      fun st l => (st.1 ++ (if gZero (st.2.2 : Nat) then [] else [(⟨j, k, l, st.2.1⟩ : GPos)]),
        st.2.1 + 1, st.2.2 + 1) := by
    intro j k
    funext st l
    cases gZero (st.2.2 : Nat) <;> simp
  unfold setGPosFrequencyPoint
  simp only [e1]
  have e2 : ∀ (j k : Nat) (st : List GPos × Nat × Nat), (List.range numBand).foldl
      (fun (st : List GPos × Nat × Nat) (l : Nat) =>
        (st.1 ++ (if gZero (st.2.2 : Nat) then [] else [(⟨j, k, l, st.2.1⟩ : GPos)]),
          st.2.1 + 1, st.2.2 + 1)) st =
      (st.1 ++ loop numBand (fun l => if gZero ((st.2.2 + l : Nat) : Int) then []
        else [(⟨j, k, l, st.2.1 + l⟩ : GPos)]), st.2.1 + numBand, st.2.2 + numBand) := by
    intro j k st
    have := fc numBand 1 (fun l c d => if gZero (d : Nat) then []
      else [(⟨j, k, l, c⟩ : GPos)]) st.1 st.2.1 st.2.2
    simpa only [mul_one] using this
  simp only [e2]
  have e3 : ∀ (j : Nat) (out : List GPos) (c : Nat), (List.range numBand).foldl
      (fun (st : List GPos × Nat × Nat) (k : Nat) =>
        (st.1 ++ loop numBand (fun l => if gZero ((st.2.2 + l : Nat) : Int) then []
        else [(⟨j, k, l, st.2.1 + l⟩ : GPos)]), st.2.1 + numBand, st.2.2 + numBand)) (out, c, 0) =
      (out ++ loop numBand (fun k => loop numBand (fun l =>
        if gZero ((0 + k * numBand + l : Nat) : Int) then []
        else [(⟨j, k, l, c + k * numBand + l⟩ : GPos)])), c + numBand * numBand,
          0 + numBand * numBand) := by
    intro j out c
    exact fc numBand numBand (fun k c d => loop numBand (fun l =>
      if gZero ((d + l : Nat) : Int) then [] else [(⟨j, k, l, c + l⟩ : GPos)])) out c 0
  simp only [e3]
  have e4 : ∀ (n : Nat), (List.range n).foldl (fun (st : List GPos × Nat × Nat) j =>
      (st.1 ++ loop numBand (fun k => loop numBand (fun l =>
        if gZero ((0 + k * numBand + l : Nat) : Int) then []
        else [(⟨j, k, l, st.2.1 + k * numBand + l⟩ : GPos)])), st.2.1 + numBand * numBand,
          0 + numBand * numBand)) ([], 0, 0) =
      (loop n (fun j => loop numBand (fun k => loop numBand (fun l =>
        if gZero ((at2 numBand k l : Nat) : Int) then []
        else [(⟨j, k, l, at3 numBand numBand j k l⟩ : GPos)]))), n * (numBand * numBand),
          if n = 0 then 0 else numBand * numBand) := by
    intro n
    induction n with
    | zero => simp [loop]
    | succ n ih =>
      rw [List.range_succ, List.foldl_append, ih]
      simp only [List.foldl_cons, List.foldl_nil, loop, List.range_succ, List.flatMap_append,
        List.flatMap_cons, List.flatMap_nil, List.append_nil]
      have a : ∀ k l, 0 + k * numBand + l = at2 numBand k l := by intro k l; unfold at2; ring
      have b : ∀ k l, n * (numBand * numBand) + k * numBand + l = at3 numBand numBand n k l := by
        intro k l; unfold at3; ring
      simp only [a, b]
      simp
      ring
  rw [e4]

section
variable {K : Type _} [Field K] [LinearOrder K] [IsStrictOrderedRing K]

/-- Sum over the listed positions of one band. -/
theorem gPos_band_sum {numBand0 numBand : Nat} (skip : Nat → Nat → Nat → Bool) (x : GPos → K)
    {b : Nat} (hb : b < numBand0) :
    (((loop numBand0 fun j => loop numBand fun k => loop numBand fun l =>
        if skip j k l then [] else [(⟨j, k, l, at3 numBand numBand j k l⟩ : GPos)]).map
        fun p => if p.b0 = b then x p else 0).sum) =
      ∑ k ∈ Finset.range numBand, ∑ l ∈ Finset.range numBand,
        if skip b k l then 0 else x ⟨b, k, l, at3 numBand numBand b k l⟩ := by
  rw [sum_map_loop, Finset.sum_eq_single b]
  · rw [sum_map_loop]
    refine Finset.sum_congr rfl fun k _ => ?_
    rw [sum_map_loop]
    refine Finset.sum_congr rfl fun l _ => ?_
    split_ifs <;> simp
  · intro j _ hj
    rw [sum_map_loop]
    refine Finset.sum_eq_zero fun k _ => ?_
    rw [sum_map_loop]
    refine Finset.sum_eq_zero fun l _ => ?_
    split_ifs
    · rfl
    · simp [hj]
  · intro h
    exact absurd (Finset.mem_range.2 hb) h

/-- `ise_imag_self_energy_at_triplet` over a list of positions. -/
theorem iseAtTriplet_value (bose : K → K → K) {numBand0 numBand : Nat} (fc3 : Int → K)
    (frequencies : Int → K) (triplet : Fin 3 → Int) (w : Int) (g1 g23 : Int → K)
    (skip : Nat → Nat → Nat → Bool) (temperatures : Nat → K) {numTemps : Nat} (cutoff : K)
    (at' : Bool) {t b : Nat} (ht : t < numTemps) (hb : b < numBand0) :
    iseAtTriplet bose numBand0 numBand fc3 frequencies triplet w g1 g23
      (loop numBand0 fun j => loop numBand fun k => loop numBand fun l =>
        if skip j k l then [] else [(⟨j, k, l, at3 numBand numBand j k l⟩ : GPos)])
      temperatures numTemps cutoff at' ((at2 numBand0 t b : Nat) : Int) =
    ∑ k ∈ Finset.range numBand, ∑ l ∈ Finset.range numBand,
      if skip b k l then 0 else
        iseAtGPos numBand fc3
          (setOccupations bose cutoff frequencies numBand triplet 1 (temperatures t))
          (setOccupations bose cutoff frequencies numBand triplet 2 (temperatures t))
          (temperatures t) w g1 g23 at' ⟨b, k, l, at3 numBand numBand b k l⟩ := by
  unfold iseAtTriplet
  rw [runAdds_value, zero_add, addsAt_flatMap]
  rw [← gPos_band_sum skip _ hb]
  congr 1
  apply List.map_congr_left
  intro p hp
  have hp0 : p.b0 < numBand0 := by
    rw [mem_loop] at hp
    obtain ⟨j, hj, hp⟩ := hp
    rw [mem_loop] at hp
    obtain ⟨k, hk, hp⟩ := hp
    rw [mem_loop] at hp
    obtain ⟨l, hl, hp⟩ := hp
    split_ifs at hp
    · cases hp
    · rw [List.mem_singleton] at hp; subst hp; exact hj
  rw [addsAt_loop, Finset.sum_eq_single t]
  · rw [addsAt_single]
    by_cases h : p.b0 = b
    · rw [if_pos h, if_pos]; unfold at2; rw [h]
    · rw [if_neg h, if_neg]
      intro e
      exact h (digits2 hp0 hb (Int.ofNat.inj e)).2
  · intro t' _ ht'
    rw [addsAt_single, if_neg]
    intro e
    exact ht' (digits2 hp0 hb (Int.ofNat.inj e)).1
  · intro h; exact absurd (Finset.mem_range.2 ht) h

/-- The value at one position, given non-negative occupations above the cutoff. -/
theorem iseAtGPos_eq (bose : K → K → K) {numBand : Nat} (fc3 : Int → K) (frequencies : Int → K)
    (triplet : Fin 3 → Int) (w : Int) (g1 g23 : Int → K) (T cutoff : K) (at' : Bool) (b k l : Nat)
    (hk : k < numBand) (hl : l < numBand) (hbose : ∀ f, cutoff < f → 0 ≤ bose f T) :
    let f1 := frequencies (triplet 1 * numBand + k)
    let f2 := frequencies (triplet 2 * numBand + l)
    let q : Nat := if at' then at2 numBand k l else at3 numBand numBand b k l
    iseAtGPos numBand fc3 (setOccupations bose cutoff frequencies numBand triplet 1 T)
      (setOccupations bose cutoff frequencies numBand triplet 2 T) T w g1 g23 at'
      ⟨b, k, l, at3 numBand numBand b k l⟩ =
    w * if cutoff < f1 ∧ cutoff < f2 then
      modePair T (bose f1 T) (bose f2 T) (g1 q) (g23 q) (fc3 (at3 numBand numBand b k l : Nat))
      else 0 := by
  intro f1 f2 q
  have hq : (if at' then (at3 numBand numBand b k l) % (numBand * numBand)
      else at3 numBand numBand b k l) = q := by
    cases at'
    · rfl
    · change at3 numBand numBand b k l % (numBand * numBand) = at2 numBand k l
      have e : at3 numBand numBand b k l = at2 numBand k l + numBand * numBand * b := by
        unfold at3 at2; ring
      rw [e, Nat.add_mul_mod_self_left]
      exact Nat.mod_eq_of_lt (digits_lt hk hl)
  unfold iseAtGPos modePair
  simp only [hq]
  have o1 : setOccupations bose cutoff frequencies numBand triplet 1 T k =
      if cutoff < f1 then bose f1 T else -1 := rfl
  have o2 : setOccupations bose cutoff frequencies numBand triplet 2 T l =
      if cutoff < f2 then bose f2 T else -1 := rfl
  rw [o1, o2]
  by_cases h1 : cutoff < f1
  · by_cases h2 : cutoff < f2
    · have hn : ¬(bose f1 T < 0 ∨ bose f2 T < 0) := by
        rintro (h | h)
        · exact absurd h (not_lt.2 (hbose _ h1))
        · exact absurd h (not_lt.2 (hbose _ h2))
      rw [if_pos h1, if_pos h2, if_neg hn, if_pos (⟨h1, h2⟩ : cutoff < f1 ∧ cutoff < f2)]
      by_cases hT : 0 < T
      · rw [if_pos hT, if_pos hT]; ring
      · rw [if_neg hT, if_neg hT]; ring
    · rw [if_neg h2, if_pos (Or.inr (by norm_num)), if_neg (fun h => h2 h.2), mul_zero]
  · rw [if_neg h1, if_pos (Or.inl (by norm_num)), if_neg (fun h => h1 h.1), mul_zero]

theorem modePair_zero (T n1 n2 v : K) : modePair T n1 n2 0 0 v = 0 := by
  unfold modePair; split_ifs <;> ring

/-- `ise_imag_self_energy_at_triplet` is the full sum over band pairs. -/
theorem iseAtTriplet_pairSum (bose : K → K → K) {numBand0 numBand : Nat} (fc3 : Int → K)
    (frequencies : Int → K) (triplet : Fin 3 → Int) (w : Int) (g1 g23 : Int → K)
    (skip : Nat → Nat → Nat → Bool) (temperatures : Nat → K) {numTemps : Nat} (cutoff : K)
    (at' : Bool) {t b : Nat} (ht : t < numTemps) (hb : b < numBand0)
    (hbose : ∀ f, cutoff < f → 0 ≤ bose f (temperatures t))
    (hskip : ∀ k < numBand, ∀ l < numBand, skip b k l = true →
      let q : Nat := if at' then at2 numBand k l else at3 numBand numBand b k l
      g1 q = 0 ∧ g23 q = 0 ∨ fc3 (at3 numBand numBand b k l : Nat) = 0) :
    iseAtTriplet bose numBand0 numBand fc3 frequencies triplet w g1 g23
      (loop numBand0 fun j => loop numBand fun k => loop numBand fun l =>
        if skip j k l then [] else [(⟨j, k, l, at3 numBand numBand j k l⟩ : GPos)])
      temperatures numTemps cutoff at' ((at2 numBand0 t b : Nat) : Int) =
    w * pairSum bose cutoff (temperatures t) numBand
      (fun k => frequencies (triplet 1 * numBand + k))
      (fun l => frequencies (triplet 2 * numBand + l))
      (fun k l => g1 ((if at' then at2 numBand k l else at3 numBand numBand b k l : Nat) : Int))
      (fun k l => g23 ((if at' then at2 numBand k l else at3 numBand numBand b k l : Nat) : Int))
      (fun k l => fc3 (at3 numBand numBand b k l : Nat)) := by
  rw [iseAtTriplet_value _ _ _ _ _ _ _ _ _ _ _ ht hb]
  unfold pairSum
  rw [Finset.mul_sum]
  refine Finset.sum_congr rfl fun k hk => ?_
  rw [Finset.mul_sum]
  refine Finset.sum_congr rfl fun l hl => ?_
  rw [Finset.mem_range] at hk hl
  rw [iseAtGPos_eq bose fc3 frequencies triplet w g1 g23 (temperatures t) cutoff at' b k l hk hl
    hbose]
  by_cases h : skip b k l = true
  · rw [if_pos h]
    beta_reduce
    rcases hskip k hk l hl h with h | h
    · rw [h.1, h.2, modePair_zero]; simp
    · rw [h]; unfold modePair; simp
  · rw [if_neg h]

theorem collectDetailed_sum (numBand : Nat) (fc3 : Int → K) (n1 n2 : Nat → K) (T : K)
    (g1 g23 : Int → K) (gZero : Int → Bool) (base : Nat) :
    (collectDetailed numBand fc3 n1 n2 T g1 g23 gZero base).2 =
      ∑ ij ∈ Finset.range (numBand * numBand),
        (detailedEntry numBand fc3 n1 n2 T g1 g23 gZero ij).getD 0 := by
  unfold collectDetailed
  simp only
  rw [← sumLoop_eq]
  unfold sumLoop
  congr 1
  funext s ij
  cases h : detailedEntry numBand fc3 n1 n2 T g1 g23 gZero ij <;> simp [h]

theorem collectDetailed_mem (numBand : Nat) (fc3 : Int → K) (n1 n2 : Nat → K) (T : K)
    (g1 g23 : Int → K) (gZero : Int → Bool) (base : Nat) (w : Int × K)
    (hw : w ∈ (collectDetailed numBand fc3 n1 n2 T g1 g23 gZero base).1) :
    ∃ ij < numBand * numBand, w.1 = ((base + ij : Nat) : Int) := by
  unfold collectDetailed at hw
  simp only at hw
  rw [mem_loop] at hw
  obtain ⟨ij, hij, hw⟩ := hw
  refine ⟨ij, hij, ?_⟩
  rw [List.mem_cons] at hw
  rcases hw with rfl | hw
  · rfl
  · revert hw
    cases detailedEntry numBand fc3 n1 n2 T g1 g23 gZero ij
    · intro h; cases h
    · intro h; rw [List.mem_singleton] at h; rw [h]

theorem collectDetailed_store (numBand : Nat) (fc3 : Int → K) (n1 n2 : Nat → K) (T : K)
    (g1 g23 : Int → K) (gZero : Int → Bool) (base : Nat) (a : Int → K) {ij : Nat}
    (hij : ij < numBand * numBand) :
    runWrites a (collectDetailed numBand fc3 n1 n2 T g1 g23 gZero base).1
      ((base + ij : Nat) : Int) =
      (detailedEntry numBand fc3 n1 n2 T g1 g23 gZero ij).getD 0 := by
  unfold collectDetailed
  simp only
  rw [runWrites_loop_only a _ _ hij]
  · cases h : detailedEntry numBand fc3 n1 n2 T g1 g23 gZero ij
    · exact upd_same _ _ _
    · exact upd_same _ _ _
  · intro i' _ hne w hw e
    apply hne
    rw [List.mem_cons] at hw
    rcases hw with rfl | hw
    · have := Int.ofNat.inj e; omega
    · revert hw
      cases detailedEntry numBand fc3 n1 n2 T g1 g23 gZero i'
      · intro h; cases h
      · intro h
        rw [List.mem_singleton] at h
        rw [h] at e
        have := Int.ofNat.inj e; omega

/-- One detailed entry. -/
theorem detailedEntry_eq (bose : K → K → K) {numBand : Nat} (fc3 : Int → K)
    (frequencies : Int → K) (triplet : Fin 3 → Int) (g1 g23 : Int → K) (gZero : Int → Bool)
    (T cutoff : K) {k l : Nat} (hl : l < numBand)
    (hbose : ∀ f, cutoff < f → 0 ≤ bose f T)
    (hskip : gZero ((at2 numBand k l : Nat) : Int) = true →
      g1 ((at2 numBand k l : Nat) : Int) = 0 ∧ g23 ((at2 numBand k l : Nat) : Int) = 0 ∨
        fc3 ((at2 numBand k l : Nat) : Int) = 0) :
    let f1 := frequencies (triplet 1 * numBand + k)
    let f2 := frequencies (triplet 2 * numBand + l)
    (detailedEntry numBand fc3 (setOccupations bose cutoff frequencies numBand triplet 1 T)
      (setOccupations bose cutoff frequencies numBand triplet 2 T) T g1 g23 gZero
      (at2 numBand k l)).getD 0 =
    if cutoff < f1 ∧ cutoff < f2 then
      modePair T (bose f1 T) (bose f2 T) (g1 ((at2 numBand k l : Nat) : Int))
        (g23 ((at2 numBand k l : Nat) : Int)) (fc3 ((at2 numBand k l : Nat) : Int)) else 0 := by
  intro f1 f2
  have hdiv : at2 numBand k l / numBand = k := by
    unfold at2
    rw [mul_comm, Nat.mul_add_div (by omega), Nat.div_eq_of_lt hl, add_zero]
  have hmod : at2 numBand k l % numBand = l := by
    unfold at2
    rw [mul_comm, Nat.mul_add_mod]
    exact Nat.mod_eq_of_lt hl
  unfold detailedEntry
  rw [hdiv, hmod]
  by_cases hz : gZero ((at2 numBand k l : Nat) : Int) = true
  · rw [if_pos hz]
    rcases hskip hz with h | h
    · rw [h.1, h.2, modePair_zero]; simp
    · rw [h]; unfold modePair; simp
  · rw [if_neg hz]
    have o1 : setOccupations bose cutoff frequencies numBand triplet 1 T k =
        if cutoff < f1 then bose f1 T else -1 := rfl
    have o2 : setOccupations bose cutoff frequencies numBand triplet 2 T l =
        if cutoff < f2 then bose f2 T else -1 := rfl
    rw [o1, o2]
    by_cases h1 : cutoff < f1
    · by_cases h2 : cutoff < f2
      · have hn : ¬(bose f1 T < 0 ∨ bose f2 T < 0) := by
          rintro (h | h)
          · exact absurd h (not_lt.2 (hbose _ h1))
          · exact absurd h (not_lt.2 (hbose _ h2))
        rw [if_pos h1, if_pos h2, if_neg hn, if_pos (⟨h1, h2⟩ : cutoff < f1 ∧ cutoff < f2)]
        unfold modePair
        by_cases hT : 0 < T
        · rw [if_pos hT, if_pos hT]; rfl
        · rw [if_neg hT, if_neg hT]; rfl
      · rw [if_neg h2, if_pos (Or.inr (by norm_num)), if_neg (fun h => h2 h.2)]; rfl
    · rw [if_neg h1, if_pos (Or.inl (by norm_num)), if_neg (fun h => h1 h.1)]; rfl

theorem isNormal_iff (triplet : Fin 3 → Int) (addresses : Int → V3) :
    isNormal triplet addresses = true ↔
      SumsToZero (addresses (triplet 0)) (addresses (triplet 1)) (addresses (triplet 2)) := by
  unfold isNormal SumsToZero
  rw [V3.ext_iff]
  simp only [V3.add_x, V3.add_y, V3.add_z, V3.zero_x, V3.zero_y, V3.zero_z, zero_add]
  split_ifs with h1 h2 h3 <;> simp_all

/-- The two accumulators of the N/U split. -/
theorem nu_fold (n : Nat) (p : Nat → Bool) (f : Nat → K) :
    (List.range n).foldl (fun (nu : K × K) j =>
      if p j then (nu.1 + f j, nu.2) else (nu.1, nu.2 + f j)) (0, 0) =
    (∑ j ∈ Finset.range n, if p j then f j else 0, ∑ j ∈ Finset.range n, if p j then 0 else f j) := by
  induction n with
  | zero => simp
  | succ n ih =>
    rw [List.range_succ, List.foldl_append, ih, Finset.sum_range_succ, Finset.sum_range_succ]
    simp only [List.foldl_cons, List.foldl_nil]
    split_ifs <;> simp

end
end Phono3py
