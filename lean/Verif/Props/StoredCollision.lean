import Verif.Model.StoredGamma
import Verif.Spec.StoredGamma
import Verif.Lemmas.StoredGamma
import Verif.Props.StoredGamma
import Mathlib.Tactic.IntervalCases

/-!
# C55: stored collision data is restored
-/

namespace Phono3py.Props

open Phono3py Phono3py.Spec

variable {K : Type}

/-- The kind of file. -/
abbrev colKind : List Char := "collision".toList

/-! ### One piece -/

theorem index_time {p : Piece} {t t' i b : Nat} (h : (p.index t i b).isSome) :
    (p.index t' i b).isSome := by
  revert h
  cases p <;> simp only [Piece.index]
  · simp
  · split <;> simp
  · split <;> simp

/-- The index at another temperature. -/
theorem index_shift {p : Piece} {t i b : Nat} {idx : List Nat} (h : p.index t i b = some idx) :
    ∃ rest, idx = t :: rest ∧ ∀ t', p.index t' i b = some (t' :: rest) := by
  cases p with
  | all =>
    simp only [Piece.index, Option.some.injEq] at h; subst h
    exact ⟨_, rfl, fun _ => rfl⟩
  | point i' =>
    simp only [Piece.index] at h ⊢
    split at h
    · rename_i hi
      simp only [Option.some.injEq] at h; subst h
      exact ⟨_, rfl, fun _ => by rw [if_pos hi]⟩
    · simp at h
  | band i' b' =>
    simp only [Piece.index] at h ⊢
    split at h
    · rename_i hi
      simp only [Option.some.injEq] at h; subst h
      exact ⟨_, rfl, fun _ => by rw [if_pos hi]⟩
    · simp at h

theorem dims_cons (numGp numBand : Nat) (p : Piece) :
    ∃ ds, ∀ n, p.dims n numGp numBand = n :: ds := by
  cases p <;> exact ⟨_, fun _ => rfl⟩

/-- Assigning the whole piece. -/
theorem store_gamma {numT numSlot numBand : Nat} {truth : Nat → Nat → Nat → K}
    (arr : Nat → Nat → Nat → Nat → K) {j : Nat} {p : Piece} {a : NdArr K}
    (ha : Carries numT numSlot numBand p truth a) :
    ∃ arr', storeGamma numT numSlot numBand j p a arr = some arr' ∧
      ∀ j' t i b, t < numT → i < numSlot → b < numBand →
        arr' j' t i b = if j' = j ∧ (p.index 0 i b).isSome then truth t i b else arr j' t i b := by
  obtain ⟨v, hv, hval⟩ := assign_same a _ ha.1
  refine ⟨_, by unfold storeGamma; rw [hv]; rfl, ?_⟩
  intro j' t i b ht hi hb
  beta_reduce
  by_cases hj : j' = j
  · rw [if_pos hj]
    cases hidx : p.index t i b with
    | none =>
      have : ¬ (p.index 0 i b).isSome := fun h => by
        have := index_time (t' := t) h; rw [hidx] at this; simp at this
      rw [if_neg (by simp [this])]
    | some idx =>
      have : (p.index 0 i b).isSome := index_time (t := t) (by rw [hidx]; rfl)
      rw [if_pos ⟨hj, this⟩]
      show v idx = _
      rw [hval idx (index_range hidx ht hi hb), ha.2 t i b idx ht hi hb hidx]
  · rw [if_neg hj, if_neg (by simp [hj])]

/-- Assigning only the first temperature: repeated for all temperatures. -/
theorem store_first {numT numSlot numBand : Nat} {truth : Nat → Nat → Nat → K}
    (arr : Nat → Nat → Nat → Nat → K) {j : Nat} {p : Piece} {a : NdArr K} (hT : 0 < numT)
    (ha : Carries numT numSlot numBand p truth a) :
    ∃ a' arr', a.first = some a' ∧ storeGamma numT numSlot numBand j p a' arr = some arr' ∧
      ∀ j' t i b, t < numT → i < numSlot → b < numBand →
        arr' j' t i b = if j' = j ∧ (p.index 0 i b).isSome then truth 0 i b else arr j' t i b := by
  obtain ⟨ds, hds⟩ := dims_cons numSlot numBand p
  have hdims : a.dims = numT :: ds := ha.1.trans (hds numT)
  obtain ⟨n, rfl⟩ : ∃ n, numT = n + 1 := ⟨numT - 1, by omega⟩
  have hfirst : a.first = some { dims := ds, val := fun idx => a.val (0 :: idx) } := by
    unfold NdArr.first; rw [hdims]
  obtain ⟨v, hv, hval⟩ := assign_repeat
    ({ dims := ds, val := fun idx => a.val (0 :: idx) } : NdArr K) (n + 1)
  refine ⟨_, _, hfirst, by unfold storeGamma; rw [hds, hv]; rfl, ?_⟩
  intro j' t i b ht hi hb
  beta_reduce
  by_cases hj : j' = j
  · rw [if_pos hj]
    cases hidx : p.index t i b with
    | none =>
      have : ¬ (p.index 0 i b).isSome := fun h => by
        have := index_time (t' := t) h; rw [hidx] at this; simp at this
      rw [if_neg (by simp [this])]
    | some idx =>
      have : (p.index 0 i b).isSome := index_time (t := t) (by rw [hidx]; rfl)
      rw [if_pos ⟨hj, this⟩]
      obtain ⟨rest, rfl, hshift⟩ := index_shift hidx
      have hr := index_range hidx ht hi hb
      rw [hds] at hr
      have hr' : List.Forall₂ (· < ·) rest ds := (List.forall₂_cons.1 hr).2
      show v (t :: rest) = _
      rw [hval t rest hr']
      exact ha.2 0 i b _ (by omega) hi hb (hshift 0)
  · rw [if_neg hj, if_neg (by simp [hj])]

/-- Assigning a piece of the matrix. -/
theorem store_colmat {numT numSlot numBand : Nat} {rowDims : List Nat}
    {truth : Nat → Nat → Nat → List Nat → K}
    (arr : Nat → Nat → Nat → Nat → List Nat → K) {j : Nat} {p : Piece} {a : NdArr K}
    (hdims : a.dims = p.dims numT numSlot numBand ++ rowDims)
    (ha : ∀ t i b idx row, t < numT → i < numSlot → b < numBand → p.index t i b = some idx →
      List.Forall₂ (· < ·) row rowDims → a.val (idx ++ row) = truth t i b row) :
    ∃ a' arr', (leadingAxis a).first = some a' ∧
      storeColmat numT numSlot numBand j rowDims p a' arr = some arr' ∧
      ∀ j' t i b row, t < numT → i < numSlot → b < numBand → List.Forall₂ (· < ·) row rowDims →
        arr' j' t i b row =
          if j' = j ∧ (p.index 0 i b).isSome then truth t i b row else arr j' t i b row := by
  have hfirst : (leadingAxis a).first = some a := by
    unfold NdArr.first leadingAxis
    simp
  obtain ⟨v, hv, hval⟩ := assign_same a _ hdims
  refine ⟨a, _, hfirst, by unfold storeColmat; rw [hv]; rfl, ?_⟩
  intro j' t i b row ht hi hb hrow
  beta_reduce
  by_cases hj : j' = j
  · rw [if_pos hj]
    cases hidx : p.index t i b with
    | none =>
      have : ¬ (p.index 0 i b).isSome := fun h => by
        have := index_time (t' := t) h; rw [hidx] at this; simp at this
      rw [if_neg (by simp [this])]
    | some idx =>
      have : (p.index 0 i b).isSome := index_time (t := t) (by rw [hidx]; rfl)
      rw [if_pos ⟨hj, this⟩]
      show v (idx ++ row) = _
      rw [hval _ (List.rel_append (index_range hidx ht hi hb) hrow), ha t i b idx row ht hi hb hidx hrow]
  · rw [if_neg hj, if_neg (by simp [hj])]

/-! ### What one file does to the state -/

variable {r : StoreArgs} {temps : List ℚ} {rowDims : List Nat} {numSlot : Nat} {slot : Nat → Nat}
  {w : Collisions K} {d : Disk (ColFile K)}

/-- The effect of taking over a piece at the `j`-th sigma: the matrix everywhere in the piece, the
linewidths as `g` says, nothing else. -/
def Takes (r : StoreArgs) (rowDims : List Nat) (numSlot : Nat) (w : Collisions K) (j : Nat)
    (q : Piece) (time : Nat → Nat) (st st' : ColRead K) : Prop :=
  st'.temps = st.temps ∧
    (∀ j' t i b, t < r.numT → i < numSlot → b < r.numBand → st'.gamma j' t i b =
      if j' = j ∧ (q.index 0 i b).isSome then w.gamma j (time t) i b else st.gamma j' t i b) ∧
    ∀ j' t i b row, t < r.numT → i < numSlot → b < r.numBand → List.Forall₂ (· < ·) row rowDims →
      st'.colmat j' t i b row =
        if j' = j ∧ (q.index 0 i b).isSome then w.colmat j t i b row else st.colmat j' t i b row

theorem takePoint_takes {j i : Nat} {f : ColFile K} {st : ColRead K}
    (hlen : temps.length = r.numT) (hst : st.temps = some temps)
    (hf : ColGood r temps rowDims numSlot slot w j (.point i) f) :
    ∃ st', takePoint r numSlot rowDims j (slot i) f st = some st' ∧
      Takes r rowDims numSlot w j (.point (slot i)) (fun t => t) st st' := by
  obtain ⟨-, hg, hd, hc⟩ := hf
  have hT : (st.temps.getD []).length = r.numT := by rw [hst]; exact hlen
  obtain ⟨gm, h1, h2⟩ := store_gamma st.gamma (j := j) hg
  obtain ⟨c, cm, h3, h4, h5⟩ := store_colmat st.colmat (j := j) hd hc
  refine ⟨{ st with gamma := gm, colmat := cm }, ?_, rfl, h2, h5⟩
  unfold takePoint
  simp only [hT, h1, h3, h4, Option.bind_some, Option.map_some]

theorem takeBand_takes {j i b : Nat} {f : ColFile K} {st : ColRead K} (hT0 : 0 < r.numT)
    (hlen : temps.length = r.numT) (hst : st.temps = some temps)
    (hf : ColGood r temps rowDims numSlot slot w j (.band i b) f) :
    ∃ st', takeBand r numSlot rowDims j (slot i) b f st = some st' ∧
      Takes r rowDims numSlot w j (.band (slot i) b) (fun _ => 0) st st' := by
  obtain ⟨-, hg, hd, hc⟩ := hf
  have hT : (st.temps.getD []).length = r.numT := by rw [hst]; exact hlen
  obtain ⟨g, gm, h0, h1, h2⟩ := store_first st.gamma (j := j) hT0 hg
  obtain ⟨c, cm, h3, h4, h5⟩ := store_colmat st.colmat (j := j) hd hc
  refine ⟨{ st with gamma := gm, colmat := cm }, ?_, rfl, h2, h5⟩
  unfold takeBand
  simp only [hT, h0, h1, h3, h4, Option.bind_some, Option.map_some]

/-! ### Which files were read -/

/-- Restored so far at the places `D` (sigma, position, band). -/
structure ColRestored (r : StoreArgs) (temps : List ℚ) (rowDims : List Nat) (numSlot : Nat)
    (w : Collisions K) (time : Nat → Nat → Nat → Nat) (D : Nat → Nat → Nat → Prop)
    (st : ColRead K) : Prop where
  temps : st.temps = some temps
  gamma : ∀ j t i b, t < r.numT → i < numSlot → b < r.numBand → D j i b →
    st.gamma j t i b = w.gamma j (time j i t) i b
  colmat : ∀ j t i b row, t < r.numT → i < numSlot → b < r.numBand →
    List.Forall₂ (· < ·) row rowDims → D j i b → st.colmat j t i b row = w.colmat j t i b row

theorem ColRestored.mono {time : Nat → Nat → Nat → Nat} {D D' : Nat → Nat → Nat → Prop}
    {st : ColRead K} (h : ColRestored r temps rowDims numSlot w time D st)
    (hD : ∀ j i b, i < numSlot → b < r.numBand → D' j i b → D j i b) :
    ColRestored r temps rowDims numSlot w time D' st where
  temps := h.temps
  gamma j t i b ht hi hb hd := h.gamma j t i b ht hi hb (hD j i b hi hb hd)
  colmat j t i b row ht hi hb hrow hd := h.colmat j t i b row ht hi hb hrow (hD j i b hi hb hd)

theorem takes_restores {time : Nat → Nat → Nat → Nat} {D : Nat → Nat → Nat → Prop}
    {st st' : ColRead K} (h : ColRestored r temps rowDims numSlot w time D st) {j : Nat} {q : Piece}
    {tm : Nat → Nat} (ht : Takes r rowDims numSlot w j q tm st st')
    (htm : ∀ i b t, i < numSlot → (q.index 0 i b).isSome → time j i t = tm t) :
    ColRestored r temps rowDims numSlot w time
      (fun j' i b => D j' i b ∨ (j' = j ∧ (q.index 0 i b).isSome)) st' where
  temps := ht.1.trans h.temps
  gamma j' t i b h1 h2 h3 hd := by
    rw [ht.2.1 j' t i b h1 h2 h3]
    split
    · rename_i hc
      rw [hc.1, htm i b t h2 hc.2]
    · rename_i hc
      exact h.gamma j' t i b h1 h2 h3 (hd.resolve_right hc)
  colmat j' t i b row h1 h2 h3 h4 hd := by
    rw [ht.2.2 j' t i b row h1 h2 h3 h4]
    split
    · rename_i hc
      rw [hc.1]
    · rename_i hc
      exact h.colmat j' t i b row h1 h2 h3 h4 (hd.resolve_right hc)

theorem lookup_col (hd : Holds colKind r (ColGood r temps rowDims numSlot slot w) d) {j : Nat}
    {p : Piece} {n : List Char} (hn : keyName colKind r j p = some n) :
    (Present colKind r d j p ∧ ∃ f, d n = some f ∧ ColGood r temps rowDims numSlot slot w j p f) ∨
      (¬ Present colKind r d j p ∧ d n = none) := by
  cases h : d n with
  | none =>
    right
    refine ⟨?_, rfl⟩
    rintro ⟨m, hm, hs⟩
    rw [hn] at hm
    simp only [Option.some.injEq] at hm
    subst hm
    rw [h] at hs; simp at hs
  | some f => exact .inl ⟨⟨n, hn, by rw [h]; rfl⟩, f, rfl, hd j p n f hn h⟩

/-- The temperature from which linewidths are taken at each sigma and position: the first one, except
at the positions of grid points with a file of their own when there is no whole-sigma file. -/
def TimeRule (r : StoreArgs) (slot : Nat → Nat) (d : Disk (ColFile K))
    (time : Nat → Nat → Nat → Nat) : Prop :=
  (∀ j i t, Present colKind r d j .all → time j i t = 0) ∧
    ∀ j i t, ¬ Present colKind r d j .all → i < r.gridPoints.length →
      (Present colKind r d j (.point i) → time j (slot i) t = t) ∧
      (¬ Present colKind r d j (.point i) → time j (slot i) t = 0)

theorem collectPoints_spec (hT0 : 0 < r.numT) (hlen : temps.length = r.numT)
    (hd : Holds colKind r (ColGood r temps rowDims numSlot slot w) d)
    {time : Nat → Nat → Nat → Nat} (htime : TimeRule r slot d time) {j : Nat} {s : Option ℚ}
    (hs : r.sigmas[j]? = some s) (hfull : ¬ Present colKind r d j .all)
    {D : Nat → Nat → Nat → Prop} {st : ColRead K}
    (h : ColRestored r temps rowDims numSlot w time D st) :
    ((∀ i < r.gridPoints.length, Present colKind r d j (.point i) ∨
        ∀ b < r.numBand, Present colKind r d j (.band i b)) →
      ∃ st', collectPoints r numSlot slot rowDims d j s st = some st' ∧
        ColRestored r temps rowDims numSlot w time
          (fun j' i' b' => D j' i' b' ∨ (j' = j ∧ ∃ i < r.gridPoints.length, i' = slot i)) st') ∧
    ((∃ i < r.gridPoints.length, ¬ Present colKind r d j (.point i) ∧
        ∃ b < r.numBand, ¬ Present colKind r d j (.band i b)) →
      collectPoints r numSlot slot rowDims d j s st = none) := by
  have bands : ∀ (i gp : Nat), r.gridPoints[i]? = some gp → ¬ Present colKind r d j (.point i) →
      ∀ (l : List Nat) (D : Nat → Nat → Nat → Prop) (st : ColRead K),
      ColRestored r temps rowDims numSlot w time D st →
      ((∀ b ∈ l, Present colKind r d j (.band i b)) →
        ∃ st', l.foldlM (fun (st : ColRead K) (b : Nat) =>
          match d (pieceName "collision".toList r s (some gp) (some b)) with
          | some f => takeBand r numSlot rowDims j (slot i) b f st
          | none => none) st = some st' ∧
        ColRestored r temps rowDims numSlot w time
          (fun j' i' b' => D j' i' b' ∨ (j' = j ∧ i' = slot i ∧ b' ∈ l)) st') ∧
      ((∃ b ∈ l, ¬ Present colKind r d j (.band i b)) →
        l.foldlM (fun (st : ColRead K) (b : Nat) =>
          match d (pieceName "collision".toList r s (some gp) (some b)) with
          | some f => takeBand r numSlot rowDims j (slot i) b f st
          | none => none) st = none) := by
    intro i gp hgp hnp l
    have hi : i < r.gridPoints.length := (List.getElem?_eq_some_iff.1 hgp).1
    induction l with
    | nil =>
      intro D st h
      exact ⟨fun _ => ⟨st, rfl, h.mono (by simp)⟩, by simp⟩
    | cons b l ih =>
      intro D st h
      have hn : keyName colKind r j (.band i b) =
          some (pieceName "collision".toList r s (some gp) (some b)) := by
        unfold keyName; rw [hs]; simp only [Option.bind_some]; rw [hgp]; rfl
      rcases lookup_col hd hn with ⟨hp, f, hf, hgood⟩ | ⟨hp, hf⟩
      · obtain ⟨st1, h1, h2⟩ := takeBand_takes hT0 hlen h.temps hgood
        have h3 := takes_restores h h2 (by
          intro i' b' t hi' hidx
          have : i' = slot i := by
            simp only [Piece.index] at hidx
            split at hidx
            · rename_i hh; exact hh.1
            · simp at hidx
          subst this
          exact (htime.2 j i t hfull hi).2 hnp)
        obtain ⟨ih1, ih2⟩ := ih _ st1 h3
        have hstep : (b :: l).foldlM (fun (st : ColRead K) (b : Nat) =>
            match d (pieceName "collision".toList r s (some gp) (some b)) with
            | some f => takeBand r numSlot rowDims j (slot i) b f st
            | none => none) st = l.foldlM (fun (st : ColRead K) (b : Nat) =>
            match d (pieceName "collision".toList r s (some gp) (some b)) with
            | some f => takeBand r numSlot rowDims j (slot i) b f st
            | none => none) st1 := by
          rw [List.foldlM_cons, hf]
          show (takeBand r numSlot rowDims j (slot i) b f st).bind _ = _
          rw [h1]; rfl
        constructor
        · intro hall
          obtain ⟨st2, h4, h5⟩ := ih1 (fun b' hb' => hall b' (by simp [hb']))
          refine ⟨st2, hstep.trans h4, h5.mono ?_⟩
          rintro j' i' b' - - (hD | ⟨rfl, rfl, hb⟩)
          · exact .inl (.inl hD)
          · rcases List.mem_cons.1 hb with rfl | hb
            · exact .inl (.inr ⟨rfl, by simp [Piece.index]⟩)
            · exact .inr ⟨rfl, rfl, hb⟩
        · rintro ⟨b', hb', hnb⟩
          rw [hstep]
          apply ih2
          rcases List.mem_cons.1 hb' with rfl | hb'
          · exact absurd hp hnb
          · exact ⟨b', hb', hnb⟩
      · refine ⟨fun hall => absurd (hall b (by simp)) hp, fun _ => ?_⟩
        rw [List.foldlM_cons, hf]
        rfl
  unfold collectPoints
  have key : ∀ (l : List (Nat × Nat)), (∀ g ∈ l, r.gridPoints[g.2]? = some g.1) →
      ∀ (D : Nat → Nat → Nat → Prop) (st : ColRead K),
      ColRestored r temps rowDims numSlot w time D st →
      ((∀ g ∈ l, Present colKind r d j (.point g.2) ∨
          ∀ b < r.numBand, Present colKind r d j (.band g.2 b)) →
        ∃ st', l.foldlM (fun (st : ColRead K) (g : Nat × Nat) =>
          match d (pieceName "collision".toList r s (some g.1) none) with
          | some f => takePoint r numSlot rowDims j (slot g.2) f st
          | none =>
            (List.range r.numBand).foldlM (fun (st : ColRead K) (b : Nat) =>
              match d (pieceName "collision".toList r s (some g.1) (some b)) with
              | some f => takeBand r numSlot rowDims j (slot g.2) b f st
              | none => none) st) st = some st' ∧
        ColRestored r temps rowDims numSlot w time
          (fun j' i' b' => D j' i' b' ∨ (j' = j ∧ ∃ g ∈ l, i' = slot g.2)) st') ∧
      ((∃ g ∈ l, ¬ Present colKind r d j (.point g.2) ∧
          ∃ b < r.numBand, ¬ Present colKind r d j (.band g.2 b)) →
        l.foldlM (fun (st : ColRead K) (g : Nat × Nat) =>
          match d (pieceName "collision".toList r s (some g.1) none) with
          | some f => takePoint r numSlot rowDims j (slot g.2) f st
          | none =>
            (List.range r.numBand).foldlM (fun (st : ColRead K) (b : Nat) =>
              match d (pieceName "collision".toList r s (some g.1) (some b)) with
              | some f => takeBand r numSlot rowDims j (slot g.2) b f st
              | none => none) st) st = none) := by
    intro l
    induction l with
    | nil =>
      intro _ D st h
      exact ⟨fun _ => ⟨st, rfl, h.mono (by simp)⟩, by simp⟩
    | cons g l ih =>
      intro hl D st h
      have hg := hl g (by simp)
      have hi : g.2 < r.gridPoints.length := (List.getElem?_eq_some_iff.1 hg).1
      have hl' : ∀ g ∈ l, r.gridPoints[g.2]? = some g.1 := fun g' h' => hl g' (by simp [h'])
      have hn : keyName colKind r j (.point g.2) =
          some (pieceName "collision".toList r s (some g.1) none) := by
        unfold keyName; rw [hs]; simp only [Option.bind_some]; rw [hg]; rfl
      rcases lookup_col hd hn with ⟨hp, f, hf, hgood⟩ | ⟨hp, hf⟩
      · obtain ⟨st1, h1, h2⟩ := takePoint_takes hlen h.temps hgood
        have h3 := takes_restores h h2 (by
          intro i' b' t hi' hidx
          have : i' = slot g.2 := by
            simp only [Piece.index] at hidx
            split at hidx
            · assumption
            · simp at hidx
          subst this
          exact (htime.2 j g.2 t hfull hi).1 hp)
        obtain ⟨ih1, ih2⟩ := ih hl' _ st1 h3
        constructor
        · intro hall
          obtain ⟨st2, h4, h5⟩ := ih1 (fun g' hg' => hall g' (by simp [hg']))
          refine ⟨st2, ?_, h5.mono ?_⟩
          · rw [List.foldlM_cons, hf]
            show (takePoint r numSlot rowDims j (slot g.2) f st).bind _ = _
            rw [h1]; exact h4
          · rintro j' i' b' - - (hD | ⟨rfl, g', hg', rfl⟩)
            · exact .inl (.inl hD)
            · rcases List.mem_cons.1 hg' with rfl | hg'
              · exact .inl (.inr ⟨rfl, by simp [Piece.index]⟩)
              · exact .inr ⟨rfl, g', hg', rfl⟩
        · rintro ⟨g', hg', hnp, hnb⟩
          rw [List.foldlM_cons, hf]
          show (takePoint r numSlot rowDims j (slot g.2) f st).bind _ = _
          rw [h1]
          apply ih2
          rcases List.mem_cons.1 hg' with rfl | hg'
          · exact absurd hp hnp
          · exact ⟨g', hg', hnp, hnb⟩
      · obtain ⟨b1, b2⟩ := bands g.2 g.1 hg hp (List.range r.numBand) D st h
        by_cases hband : ∀ b ∈ List.range r.numBand, Present colKind r d j (.band g.2 b)
        · obtain ⟨st1, h1, h3⟩ := b1 hband
          obtain ⟨ih1, ih2⟩ := ih hl' _ st1 h3
          constructor
          · intro hall
            obtain ⟨st2, h4, h5⟩ := ih1 (fun g' hg' => hall g' (by simp [hg']))
            refine ⟨st2, ?_, h5.mono ?_⟩
            · rw [List.foldlM_cons, hf]
              exact (congrArg (fun o => Option.bind o _) h1).trans h4
            · rintro j' i' b' - hb' (hD | ⟨rfl, g', hg', rfl⟩)
              · exact .inl (.inl hD)
              · rcases List.mem_cons.1 hg' with rfl | hg'
                · exact .inl (.inr ⟨rfl, rfl, List.mem_range.2 hb'⟩)
                · exact .inr ⟨rfl, g', hg', rfl⟩
          · rintro ⟨g', hg', hnp, b, hb, hnb⟩
            rw [List.foldlM_cons, hf]
            refine (congrArg (fun o => Option.bind o _) h1).trans ?_
            apply ih2
            rcases List.mem_cons.1 hg' with rfl | hg'
            · exact absurd (hband b (List.mem_range.2 hb)) hnb
            · exact ⟨g', hg', hnp, b, hb, hnb⟩
        · have hband' : ∃ b ∈ List.range r.numBand, ¬ Present colKind r d j (.band g.2 b) := by
            push Not at hband; exact hband
          constructor
          · intro hall
            rcases hall g (by simp) with h' | h'
            · exact absurd h' hp
            · exact absurd (fun b hb => h' b (List.mem_range.1 hb)) hband
          · intro _
            rw [List.foldlM_cons, hf]
            exact congrArg (fun o => Option.bind o _) (b2 hband')
  obtain ⟨k1, k2⟩ := key r.gridPoints.zipIdx (fun g hg => zipIdx_getElem? hg) D st h
  have hex : ∀ i < r.gridPoints.length, ∃ g ∈ r.gridPoints.zipIdx, g.2 = i := by
    intro i hi
    exact ⟨(r.gridPoints[i], i), List.mem_zipIdx_iff_getElem?.2 (by simp [hi]), rfl⟩
  constructor
  · intro hall
    obtain ⟨st', h1, h2⟩ := k1 (fun g hg =>
      hall g.2 (List.getElem?_eq_some_iff.1 (zipIdx_getElem? hg)).1)
    refine ⟨st', h1, h2.mono ?_⟩
    rintro j' i' b' - - (hD | ⟨rfl, i, hi, rfl⟩)
    · exact .inl hD
    · obtain ⟨g, hg, rfl⟩ := hex i hi
      exact .inr ⟨rfl, g, hg, rfl⟩
  · rintro ⟨i, hi, hnp, hnb⟩
    obtain ⟨g, hg, rfl⟩ := hex i hi
    exact k2 ⟨g, hg, hnp, hnb⟩

/-! ### Sigma after sigma -/

section Reading

variable [Zero K]

theorem takeFull_takes {j : Nat} {f : ColFile K} {st : ColRead K} (hT0 : 0 < r.numT)
    (hlen : temps.length = r.numT) (hst : (allocateOnce temps st).temps = some temps)
    (hf : ColGood r temps rowDims numSlot slot w j .all f) :
    ∃ st', takeFull r numSlot rowDims j f st = some st' ∧
      Takes r rowDims numSlot w j .all (fun _ => 0) (allocateOnce temps st) st' := by
  obtain ⟨ht, hg, hd, hc⟩ := hf
  have hT : ((allocateOnce temps st).temps.getD []).length = r.numT := by rw [hst]; exact hlen
  obtain ⟨g, gm, h0, h1, h2⟩ := store_first (allocateOnce temps st).gamma (j := j) hT0 hg
  obtain ⟨c, cm, h3, h4, h5⟩ := store_colmat (allocateOnce temps st).colmat (j := j) hd hc
  refine ⟨{ allocateOnce temps st with gamma := gm, colmat := cm }, ?_, rfl, h2, h5⟩
  unfold takeFull
  simp only [ht, hT, h0, h1, h3, h4, Option.bind_some, Option.map_some]

theorem allocate_restored {time : Nat → Nat → Nat → Nat} {D : Nat → Nat → Nat → Prop}
    {st : ColRead K} (h : ColRestored r temps rowDims numSlot w time D st) :
    allocateOnce temps st = st := by
  unfold allocateOnce; rw [h.temps]

/-- All the data of one sigma is there. -/
def SigmaThere (r : StoreArgs) (d : Disk (ColFile K)) (j : Nat) : Prop :=
  Present colKind r d j .all ∨ ∀ i < r.gridPoints.length, Present colKind r d j (.point i) ∨
    ∀ b < r.numBand, Present colKind r d j (.band i b)

/-- The start is there: the whole-sigma file, or for the first grid point its file or that of its
first band. -/
def StartThere (r : StoreArgs) (d : Disk (ColFile K)) (j : Nat) : Prop :=
  Present colKind r d j .all ∨ Present colKind r d j (.point 0) ∨ Present colKind r d j (.band 0 0)

omit [Zero K] in
theorem start_of_there (hgp : 0 < r.gridPoints.length) (hB : 0 < r.numBand) {j : Nat}
    (h : SigmaThere r d j) : StartThere r d j := by
  rcases h with h | h
  · exact .inl h
  · rcases h 0 hgp with h | h
    · exact .inr (.inl h)
    · exact .inr (.inr (h 0 hB))

omit [Zero K] in
theorem firstTemperatures_spec (hd : Holds colKind r (ColGood r temps rowDims numSlot slot w) d)
    (hgp : 0 < r.gridPoints.length) {j : Nat} {s : Option ℚ} (hs : r.sigmas[j]? = some s)
    (hfull : ¬ Present colKind r d j .all) :
    (StartThere r d j → firstTemperatures r d s = some temps) ∧
    (¬ StartThere r d j → firstTemperatures r d s = none) := by
  obtain ⟨g, l, hg⟩ : ∃ g l, r.gridPoints = g :: l := by
    cases h : r.gridPoints with
    | nil => rw [h] at hgp; simp at hgp
    | cons g l => exact ⟨g, l, rfl⟩
  have hn : keyName colKind r j (.point 0) =
      some (pieceName "collision".toList r s (some g) none) := by
    unfold keyName; rw [hs]; simp only [Option.bind_some]; rw [hg]; rfl
  have hn0 : keyName colKind r j (.band 0 0) =
      some (pieceName "collision".toList r s (some g) (some 0)) := by
    unfold keyName; rw [hs]; simp only [Option.bind_some]; rw [hg]; rfl
  unfold firstTemperatures
  rw [hg]
  simp only [List.head?_cons, Option.bind_some]
  rcases lookup_col hd hn with ⟨hp, f, hf, hgood⟩ | ⟨hp, hf⟩
  · rw [hf]
    exact ⟨fun _ => congrArg some hgood.1, fun h => absurd (.inr (.inl hp)) h⟩
  · rw [hf]
    rcases lookup_col hd hn0 with ⟨hp0, f0, hf0, hgood0⟩ | ⟨hp0, hf0⟩
    · show (_ → Option.map _ (d _) = _) ∧ (_ → Option.map _ (d _) = _)
      rw [hf0]
      exact ⟨fun _ => congrArg some hgood0.1, fun h => absurd (.inr (.inr hp0)) h⟩
    · show (_ → Option.map _ (d _) = _) ∧ (_ → Option.map _ (d _) = _)
      rw [hf0]
      refine ⟨?_, fun _ => rfl⟩
      rintro (h | h | h)
      · exact absurd h hfull
      · exact absurd h hp
      · exact absurd h hp0

theorem collectSigma_spec (hT0 : 0 < r.numT) (hlen : temps.length = r.numT)
    (hgp : 0 < r.gridPoints.length) (hB : 0 < r.numBand)
    (hd : Holds colKind r (ColGood r temps rowDims numSlot slot w) d)
    {time : Nat → Nat → Nat → Nat} (htime : TimeRule r slot d time) {j : Nat} {s : Option ℚ}
    (hs : r.sigmas[j]? = some s) {D : Nat → Nat → Nat → Prop} {st : ColRead K}
    (h : ColRestored r temps rowDims numSlot w time D (allocateOnce temps st)) :
    (SigmaThere r d j → ∃ st', collectSigma r numSlot slot rowDims d j s st = some (some st') ∧
      ColRestored r temps rowDims numSlot w time
        (fun j' i' b' => D j' i' b' ∨ (j' = j ∧ ∃ i < r.gridPoints.length, i' = slot i)) st') ∧
    (¬ StartThere r d j → collectSigma r numSlot slot rowDims d j s st = some none) ∧
    (StartThere r d j → ¬ SigmaThere r d j →
      collectSigma r numSlot slot rowDims d j s st = none) := by
  have hn : keyName colKind r j .all = some (pieceName "collision".toList r s none none) := by
    unfold keyName; rw [hs]; rfl
  unfold collectSigma
  rcases lookup_col hd hn with ⟨hp, f, hf, hgood⟩ | ⟨hp, hf⟩
  · rw [hf]
    refine ⟨fun _ => ?_, fun h' => absurd (.inl hp) h', fun _ h' => absurd (.inl hp) h'⟩
    obtain ⟨st', h1, h2⟩ := takeFull_takes hT0 hlen h.temps hgood
    refine ⟨st', congrArg (Option.map some) h1, ?_⟩
    refine (takes_restores h h2 (fun i b t _ _ => htime.1 j i t hp)).mono ?_
    rintro j' i' b' - - (hD | ⟨rfl, -⟩)
    · exact .inl hD
    · exact .inr ⟨rfl, rfl⟩
  · rw [hf]
    obtain ⟨f1, f2⟩ := firstTemperatures_spec hd hgp hs hp
    obtain ⟨c1, c2⟩ := collectPoints_spec hT0 hlen hd htime hs hp h
    refine ⟨fun hth => ?_, fun hns => ?_, fun hst hth => ?_⟩
    · obtain ⟨st', h1, h2⟩ := c1 (hth.resolve_left hp)
      refine ⟨st', ?_, h2⟩
      dsimp only
      rw [f1 (start_of_there hgp hB hth)]
      exact congrArg (Option.map some) h1
    · dsimp only
      rw [f2 hns]
    · dsimp only
      rw [f1 hst]
      refine congrArg (Option.map some) (c2 ?_)
      unfold SigmaThere at hth
      push Not at hth
      exact hth.2

theorem foldlM_false (l : List (Option ℚ × Nat)) :
    l.foldlM (fun (o : Option (ColRead K)) (s : Option ℚ × Nat) =>
      match o with
      | none => some none
      | some st => collectSigma r numSlot slot rowDims d s.2 s.1 st) none = some none := by
  induction l with
  | nil => rfl
  | cons s l ih => exact ih

theorem collectSigmas_spec (hT0 : 0 < r.numT) (hlen : temps.length = r.numT)
    (hgp : 0 < r.gridPoints.length) (hB : 0 < r.numBand)
    (hd : Holds colKind r (ColGood r temps rowDims numSlot slot w) d)
    {time : Nat → Nat → Nat → Nat} (htime : TimeRule r slot d time) (l : List (Option ℚ × Nat))
    (hl : ∀ s ∈ l, r.sigmas[s.2]? = some s.1) {D : Nat → Nat → Nat → Prop} {st : ColRead K}
    (h : ColRestored r temps rowDims numSlot w time D (allocateOnce temps st)) :
    ((∀ s ∈ l, SigmaThere r d s.2) → ∃ st',
      l.foldlM (fun (o : Option (ColRead K)) (s : Option ℚ × Nat) =>
        match o with
        | none => some none
        | some st => collectSigma r numSlot slot rowDims d s.2 s.1 st) (some st) = some (some st') ∧
      ColRestored r temps rowDims numSlot w time
        (fun j' i' b' => D j' i' b' ∨
          ((∃ s ∈ l, j' = s.2) ∧ ∃ i < r.gridPoints.length, i' = slot i))
        (allocateOnce temps st') ∧ ((l ≠ [] ∨ st.temps ≠ none) → st'.temps ≠ none)) ∧
    ∀ l1 s l2, l = l1 ++ s :: l2 → (∀ s' ∈ l1, SigmaThere r d s'.2) →
      (¬ StartThere r d s.2 → l.foldlM (fun (o : Option (ColRead K)) (s : Option ℚ × Nat) =>
        match o with
        | none => some none
        | some st => collectSigma r numSlot slot rowDims d s.2 s.1 st) (some st) = some none) ∧
      (StartThere r d s.2 → ¬ SigmaThere r d s.2 →
        l.foldlM (fun (o : Option (ColRead K)) (s : Option ℚ × Nat) =>
        match o with
        | none => some none
        | some st => collectSigma r numSlot slot rowDims d s.2 s.1 st) (some st) = none) := by
  induction l generalizing D st with
  | nil =>
    refine ⟨fun _ => ⟨st, rfl, h.mono ?_, by simp⟩, ?_⟩
    · rintro j i b - - (hD | ⟨⟨s, hs, -⟩, -⟩)
      · exact hD
      · simp at hs
    · intro l1 s l2 heq; simp at heq
  | cons s l ih =>
    have hl' : ∀ s ∈ l, r.sigmas[s.2]? = some s.1 := fun s' h' => hl s' (by simp [h'])
    obtain ⟨c1, c2, c3⟩ := collectSigma_spec hT0 hlen hgp hB hd htime (hl s (by simp)) h
    constructor
    · intro hall
      obtain ⟨st1, h1, h2⟩ := c1 (hall s (by simp))
      obtain ⟨st2, h3, h4, h5⟩ := (ih hl' (st := st1) (by rw [allocate_restored h2]; exact h2)).1
        (fun s' h' => hall s' (by simp [h']))
      refine ⟨st2, ?_, h4.mono ?_, fun _ => h5 (.inr (by rw [h2.temps]; simp))⟩
      · rw [List.foldlM_cons]
        exact (congrArg (fun o => Option.bind o _) h1).trans h3
      · rintro j' i' b' - - (hD | ⟨⟨s', hs', rfl⟩, hi⟩)
        · exact .inl (.inl hD)
        · rcases List.mem_cons.1 hs' with rfl | hs'
          · exact .inl (.inr ⟨rfl, hi⟩)
          · exact .inr ⟨⟨s', hs', rfl⟩, hi⟩
    · intro l1 s0 l2 heq hpre
      cases l1 with
      | nil =>
        simp only [List.nil_append, List.cons.injEq] at heq
        obtain ⟨rfl, rfl⟩ := heq
        constructor
        · intro hns
          rw [List.foldlM_cons]
          exact (congrArg (fun o => Option.bind o _) (c2 hns)).trans (foldlM_false l)
        · intro h1 h2
          rw [List.foldlM_cons]
          exact congrArg (fun o => Option.bind o _) (c3 h1 h2)
      | cons s1 l1 =>
        simp only [List.cons_append, List.cons.injEq] at heq
        obtain ⟨rfl, rfl⟩ := heq
        obtain ⟨st1, h1, h2⟩ := c1 (hpre s (by simp))
        obtain ⟨i1, i2⟩ := (ih hl' (st := st1) (by rw [allocate_restored h2]; exact h2)).2 l1 s0 l2 rfl
          (fun s' h' => hpre s' (by simp [h']))
        constructor
        · intro hns
          rw [List.foldlM_cons]
          exact (congrArg (fun o => Option.bind o _) h1).trans (i1 hns)
        · intro h3 h4
          rw [List.foldlM_cons]
          exact (congrArg (fun o => Option.bind o _) h1).trans (i2 h3 h4)

omit [Zero K] in
theorem exists_time (hslot : ∀ i i', i < r.gridPoints.length → i' < r.gridPoints.length →
    slot i = slot i' → i = i') : ∃ time, TimeRule r slot d time := by
  classical
  refine ⟨fun j i t => if Present colKind r d j .all then 0 else
    if ∃ i0 < r.gridPoints.length, slot i0 = i ∧ Present colKind r d j (.point i0) then t else 0,
    ?_, ?_⟩
  · intro j i t hp
    exact if_pos hp
  · intro j i t hp hi
    beta_reduce
    rw [if_neg hp]
    constructor
    · intro h; rw [if_pos ⟨i, hi, rfl, h⟩]
    · intro h
      rw [if_neg]
      rintro ⟨i0, h0, hs, hp0⟩
      rw [hslot i0 i h0 hi hs] at hp0
      exact h hp0

/-! ### The theorems -/

/-- A calculation whose data may be stored: at least one temperature, grid point and band, and
positions of the grid points in the arrays that are different and within range. -/
structure ColSetting (r : StoreArgs) (temps : List ℚ) (numSlot : Nat) (slot : Nat → Nat) : Prop where
  /-- Temperatures. -/
  temps : temps.length = r.numT
  /-- At least one. -/
  some_temp : 0 < r.numT
  /-- At least one sigma. -/
  some_sigma : 0 < r.sigmas.length
  /-- At least one grid point. -/
  some_point : 0 < r.gridPoints.length
  /-- At least one band. -/
  some_band : 0 < r.numBand
  /-- Different positions. -/
  slot_inj : ∀ i i', i < r.gridPoints.length → i' < r.gridPoints.length → slot i = slot i' → i = i'
  /-- Positions in range. -/
  slot_lt : ∀ i < r.gridPoints.length, slot i < numSlot

/-- When all the data is there, in whichever layout for each sigma and grid point, reading succeeds,
takes over the temperatures, and restores the collision matrix of every grid point at every
temperature.  The linewidths are restored at every temperature only where they come from a file of
the grid point; else every temperature gets those of the first one. -/
theorem C55_read (hx : ColSetting r temps numSlot slot)
    (hd : Holds colKind r (ColGood r temps rowDims numSlot slot w) d) (hc : ColCovered r d)
    {st : ColRead K} (hst : st.temps = none) :
    ∃ out, setCollisionFromFile r numSlot slot rowDims d st = some (some out) ∧
      out.temps = some temps ∧
      ∀ j < r.sigmas.length, ∀ t < r.numT, ∀ i < r.gridPoints.length, ∀ b < r.numBand,
        (∀ row, List.Forall₂ (· < ·) row rowDims →
          out.colmat j t (slot i) b row = w.colmat j t (slot i) b row) ∧
        (¬ Present colKind r d j .all → Present colKind r d j (.point i) →
          out.gamma j t (slot i) b = w.gamma j t (slot i) b) ∧
        (Present colKind r d j .all ∨ ¬ Present colKind r d j (.point i) →
          out.gamma j t (slot i) b = w.gamma j 0 (slot i) b) := by
  obtain ⟨time, htime⟩ := exists_time (d := d) hx.slot_inj
  obtain ⟨st', h1, h2, h3⟩ := (collectSigmas_spec hx.some_temp hx.temps hx.some_point hx.some_band hd
    htime r.sigmas.zipIdx (fun s hs => zipIdx_getElem? hs) (D := fun _ _ _ => False) (st := st)
    ⟨by unfold allocateOnce; rw [hst], by simp, by simp⟩).1 (fun s hs =>
      hc s.2 (List.getElem?_eq_some_iff.1 (zipIdx_getElem? hs)).1)
  have hne : st'.temps ≠ none := h3 (.inl (by
    intro h
    have := congrArg List.length h
    rw [List.length_zipIdx] at this
    have := hx.some_sigma
    simp_all))
  have hal : allocateOnce temps st' = st' := by
    unfold allocateOnce
    split
    · rfl
    · rename_i h; exact absurd h hne
  rw [hal] at h2
  refine ⟨st', h1, h2.temps, ?_⟩
  intro j hj t ht i hi b hb
  have hD : False ∨ ((∃ s ∈ r.sigmas.zipIdx, j = s.2) ∧ ∃ i' < r.gridPoints.length, slot i = slot i') :=
    .inr ⟨⟨(r.sigmas[j], j), List.mem_zipIdx_iff_getElem?.2 (by simp [hj]), rfl⟩, i, hi, rfl⟩
  have hg := h2.gamma j t (slot i) b ht (hx.slot_lt i hi) hb hD
  refine ⟨fun row hrow => h2.colmat j t (slot i) b row ht (hx.slot_lt i hi) hb hrow hD, ?_, ?_⟩
  · intro h4 h5
    rw [hg, (htime.2 j i t h4 hi).1 h5]
  · intro h4
    rw [hg]
    by_cases hp : Present colKind r d j .all
    · rw [htime.1 j (slot i) t hp]
    · rw [(htime.2 j i t hp hi).2 (h4.resolve_left hp)]

/-- The collision matrix is restored in every layout. -/
theorem C55_matrix (hx : ColSetting r temps numSlot slot)
    (hd : Holds colKind r (ColGood r temps rowDims numSlot slot w) d) (hc : ColCovered r d)
    {st : ColRead K} (hst : st.temps = none) :
    ∃ out, setCollisionFromFile r numSlot slot rowDims d st = some (some out) ∧
      out.temps = some temps ∧
      ∀ j < r.sigmas.length, ∀ t < r.numT, ∀ i < r.gridPoints.length, ∀ b < r.numBand,
        ∀ row, List.Forall₂ (· < ·) row rowDims →
          out.colmat j t (slot i) b row = w.colmat j t (slot i) b row := by
  obtain ⟨out, h1, h2, h3⟩ := C55_read hx hd hc hst
  exact ⟨out, h1, h2, fun j hj t ht i hi b hb => (h3 j hj t ht i hi b hb).1⟩

/-- The linewidths are restored at every temperature when each grid point has a file of its own and
no sigma has a file for everything, or when there is one temperature only.

Full claim: in every layout.  Missing: the other layouts with several temperatures, for which it is
false (`C55_linewidths_first`, `C55_wrong`). -/
theorem C55_linewidths_partial (hx : ColSetting r temps numSlot slot)
    (hd : Holds colKind r (ColGood r temps rowDims numSlot slot w) d) (hc : ColCovered r d)
    (hl : r.numT = 1 ∨ ∀ j < r.sigmas.length, ¬ Present colKind r d j .all ∧
      ∀ i < r.gridPoints.length, Present colKind r d j (.point i))
    {st : ColRead K} (hst : st.temps = none) :
    ∃ out, setCollisionFromFile r numSlot slot rowDims d st = some (some out) ∧
      ∀ j < r.sigmas.length, ∀ t < r.numT, ∀ i < r.gridPoints.length, ∀ b < r.numBand,
        out.gamma j t (slot i) b = w.gamma j t (slot i) b := by
  obtain ⟨out, h1, h2, h3⟩ := C55_read hx hd hc hst
  refine ⟨out, h1, ?_⟩
  intro j hj t ht i hi b hb
  obtain ⟨-, h5, h6⟩ := h3 j hj t ht i hi b hb
  rcases hl with hl | hl
  · have : t = 0 := by omega
    subst this
    by_cases hp : Present colKind r d j .all ∨ ¬ Present colKind r d j (.point i)
    · exact h6 hp
    · push Not at hp
      exact h5 hp.1 hp.2
  · exact h5 (hl j hj).1 ((hl j hj).2 i hi)

/-- From a file for everything at a sigma, or from band files, every temperature gets the linewidths
of the first temperature. -/
theorem C55_linewidths_first (hx : ColSetting r temps numSlot slot)
    (hd : Holds colKind r (ColGood r temps rowDims numSlot slot w) d) (hc : ColCovered r d)
    {st : ColRead K} (hst : st.temps = none) {out : ColRead K}
    (hout : setCollisionFromFile r numSlot slot rowDims d st = some (some out)) {j t i b : Nat}
    (hj : j < r.sigmas.length) (ht : t < r.numT) (hi : i < r.gridPoints.length) (hb : b < r.numBand)
    (hp : Present colKind r d j .all ∨ ¬ Present colKind r d j (.point i)) :
    out.gamma j t (slot i) b = w.gamma j 0 (slot i) b := by
  obtain ⟨out', h1, -, h3⟩ := C55_read hx hd hc hst
  rw [hout] at h1
  simp only [Option.some.injEq] at h1
  subst h1
  exact (h3 j hj t ht i hi b hb).2.2 hp

/-- When data is missing: at the first sigma for which some is, reading reports failure if not even
the start is there, and raises if the start is there. -/
theorem C55_missing (hx : ColSetting r temps numSlot slot)
    (hd : Holds colKind r (ColGood r temps rowDims numSlot slot w) d) {j : Nat}
    (hj : j < r.sigmas.length)
    (hbefore : ∀ j' < j, Present colKind r d j' .all ∨ ∀ i < r.gridPoints.length,
      Present colKind r d j' (.point i) ∨ ∀ b < r.numBand, Present colKind r d j' (.band i b))
    (hall : ¬ Present colKind r d j .all)
    {st : ColRead K} (hst : st.temps = none) :
    (¬ Present colKind r d j (.point 0) → ¬ Present colKind r d j (.band 0 0) →
      setCollisionFromFile r numSlot slot rowDims d st = some none) ∧
    (Present colKind r d j (.point 0) ∨ Present colKind r d j (.band 0 0) →
      ∀ i < r.gridPoints.length, ∀ b < r.numBand, ¬ Present colKind r d j (.point i) →
        ¬ Present colKind r d j (.band i b) →
        setCollisionFromFile r numSlot slot rowDims d st = none) := by
  obtain ⟨time, htime⟩ := exists_time (d := d) hx.slot_inj
  have hsplit : r.sigmas.zipIdx = r.sigmas.zipIdx.take j ++ (r.sigmas[j], j) ::
      r.sigmas.zipIdx.drop (j + 1) := by
    have hj' : j < r.sigmas.zipIdx.length := by simpa using hj
    have : r.sigmas.zipIdx[j] = (r.sigmas[j], j) := by simp
    rw [← this, List.getElem_cons_drop, List.take_append_drop]
  have hpre : ∀ s' ∈ r.sigmas.zipIdx.take j, SigmaThere r d s'.2 := by
    intro s' hs'
    obtain ⟨k, hk, rfl⟩ := List.mem_iff_getElem.1 hs'
    simp only [List.length_take, List.length_zipIdx] at hk
    have : ((r.sigmas.zipIdx.take j)[k]).2 = k := by simp
    rw [this]
    exact hbefore k (by omega)
  obtain ⟨c1, c2⟩ := (collectSigmas_spec hx.some_temp hx.temps hx.some_point hx.some_band hd
    htime r.sigmas.zipIdx (fun s hs => zipIdx_getElem? hs) (D := fun _ _ _ => False) (st := st)
    ⟨by unfold allocateOnce; rw [hst], by simp, by simp⟩).2 _ _ _ hsplit hpre
  constructor
  · intro h1 h2
    apply c1
    rintro (h | h | h)
    · exact hall h
    · exact h1 h
    · exact h2 h
  · intro h1 i hi b hb hnp hnb
    apply c2 (.inr h1)
    rintro (h | h)
    · exact hall h
    · rcases h i hi with h | h
      · exact hnp h
      · exact hnb (h b hb)

end Reading

/-! ### Writing -/

/-- Files written by the calculation, as a whole or in any order of parts, hold what belongs in
them. -/
theorem C55_written (hr : Separate r) (h : ColWritten r temps rowDims numSlot slot w d) :
    Holds colKind r (ColGood r temps rowDims numSlot slot w) d := by
  induction h with
  | empty => intro j p n f _ hf; simp at hf
  | @point d d' bands numSlot' slot' w' i hw _ hd ih =>
    unfold writeCollision at hd
    obtain ⟨gp, hgp, hd⟩ := Option.map_eq_some_iff.1 hd
    subst hd
    split
    · rename_i hb
      apply foldl_keep _ _ _ ih
      intro d s hs hd
      have hsig := zipIdx_getElem? hs
      have hn : keyName colKind r s.2 (.point i) =
          some (pieceName "collision".toList r s.1 (some gp) none) := by
        unfold keyName; rw [hsig]; simp only [Option.bind_some]; rw [hgp]; rfl
      have hbk : ∀ b < r.numBand, bands[b]? = some b := by
        intro b hb'; rw [hb]; simp [hb']
      refine holds_put hr hd hn ⟨rfl, ⟨rfl, ?_⟩, rfl, ?_⟩
      · intro t i' b idx ht hi hb' hidx
        simp only [Piece.index] at hidx
        split at hidx
        · rename_i hi'; subst hi'
          simp only [Option.some.injEq] at hidx; subst hidx
          exact (hw b b (hbk b hb')).1 _ _
        · simp at hidx
      · intro t i' b idx row ht hi hb' hidx hrow
        simp only [Piece.index] at hidx
        split at hidx
        · rename_i hi'; subst hi'
          simp only [Option.some.injEq] at hidx; subst hidx
          exact (hw b b (hbk b hb')).2 _ _ _
        · simp at hidx
    · apply foldl_keep _ _ _ ih
      intro d s hs hd
      have hsig := zipIdx_getElem? hs
      apply foldl_keep _ _ _ hd
      intro d b hb hd
      have hbk := zipIdx_getElem? hb
      obtain ⟨hw1, hw2⟩ := hw b.2 b.1 hbk
      have hn : keyName colKind r s.2 (.band i b.1) =
          some (pieceName "collision".toList r s.1 (some gp) (some b.1)) := by
        unfold keyName; rw [hsig]; simp only [Option.bind_some]; rw [hgp]; rfl
      refine holds_put hr hd hn ⟨rfl, ⟨rfl, ?_⟩, rfl, ?_⟩
      · intro t i' b' idx ht hi hb' hidx
        simp only [Piece.index] at hidx
        split at hidx
        · rename_i hi'
          simp only [Option.some.injEq] at hidx; subst hidx
          rw [hi'.1, hi'.2]
          exact hw1 _ _
        · simp at hidx
      · intro t i' b' idx row ht hi hb' hidx hrow
        simp only [Piece.index] at hidx
        split at hidx
        · rename_i hi'
          simp only [Option.some.injEq] at hidx; subst hidx
          rw [hi'.1, hi'.2]
          exact hw2 _ _ _
        · simp at hidx
  | @all d d' bands _ hd ih =>
    unfold writeCollision at hd
    simp only [Option.some.injEq] at hd
    subst hd
    apply foldl_keep _ _ _ ih
    intro d s hs hd
    have hsig := zipIdx_getElem? hs
    have hn : keyName colKind r s.2 .all =
        some (pieceName "collision".toList r s.1 none none) := by
      unfold keyName; rw [hsig]; rfl
    refine holds_put hr hd hn ⟨rfl, ⟨rfl, ?_⟩, rfl, ?_⟩
    · intro t i b idx _ _ _ hidx
      simp only [Piece.index, Option.some.injEq] at hidx; subst hidx
      rfl
    · intro t i b idx row _ _ _ hidx _
      simp only [Piece.index, Option.some.injEq] at hidx; subst hidx
      rfl


/-! ### A case, and a wrong result -/

/-- Linewidths and collision matrix of a calculation with two temperatures, two grid points and two
bands, with rows `2 × 2`. -/
def exampleCollisions : Collisions ℚ where
  gamma j t i b := j + 10 * t + 100 * i + b / 2
  colmat j t i b row := j + 10 * t + 100 * i + b / 2 + row.sum / 7

theorem exampleSetting : ColSetting exampleStore [300, 400] 2 id where
  temps := rfl
  some_temp := by decide
  some_sigma := by decide
  some_point := by decide
  some_band := by decide
  slot_inj _ _ _ _ h := h
  slot_lt _ h := h

/-- After writing everything, the file of every sigma is there. -/
theorem present_all {bands : List Nat} {d' : Disk (ColFile K)}
    (hd : writeCollision r temps rowDims numSlot slot bands w none d = some d') {j : Nat}
    (hj : j < r.sigmas.length) : Present colKind r d' j .all := by
  unfold writeCollision at hd
  simp only [Option.some.injEq] at hd
  subst hd
  refine foldl_reach (P := fun d => Present colKind r d j .all) _ _ _ (r.sigmas[j], j)
    (List.mem_zipIdx_iff_getElem?.2 (by simp [hj])) ?_ (fun d s _ hd => present_put hd _ _)
  intro d
  apply present_self
  unfold keyName
  rw [List.getElem?_eq_getElem hj]; rfl

/-- After writing a grid point with all bands, its file is there for every sigma, and nothing is
lost. -/
theorem present_point {d' : Disk (ColFile K)} {i : Nat}
    (hd : writeCollision r temps rowDims numSlot slot (List.range r.numBand) w (some i) d = some d')
    {j : Nat} (hj : j < r.sigmas.length) :
    Present colKind r d' j (.point i) ∧
      ∀ j p, Present colKind r d j p → Present colKind r d' j p := by
  unfold writeCollision at hd
  obtain ⟨gp, hgp, hd⟩ := Option.map_eq_some_iff.1 hd
  subst hd
  rw [if_pos rfl]
  constructor
  · refine foldl_reach (P := fun d => Present colKind r d j (.point i)) _ _ _ (r.sigmas[j], j)
      (List.mem_zipIdx_iff_getElem?.2 (by simp [hj])) ?_ (fun d s _ hd => present_put hd _ _)
    intro d
    apply present_self
    unfold keyName
    rw [List.getElem?_eq_getElem hj]; simp only [Option.bind_some]; rw [hgp]; rfl
  · intro j' p h
    exact foldl_keep (P := fun d => Present colKind r d j' p) _ _ _ h
      (fun d s _ hd => present_put hd _ _)

/-- A calculation with two temperatures writes all its collision data and reads it back: reading
succeeds, and the linewidths at the second temperature are wrong. -/
theorem C55_wrong : ∃ d out,
    writeCollision exampleStore [300, 400] [2, 2] 2 id [0, 1] exampleCollisions none (fun _ => none) =
      some d ∧
    setCollisionFromFile exampleStore 2 id [2, 2] d
      { gamma := fun _ _ _ _ => 0, colmat := fun _ _ _ _ _ => 0 } = some (some out) ∧
    out.gamma 0 1 0 0 = 0 ∧ exampleCollisions.gamma 0 1 0 0 = 10 := by
  obtain ⟨d, hd⟩ : ∃ d, writeCollision exampleStore [300, 400] [2, 2] 2 id [0, 1] exampleCollisions
      none (fun _ => none) = some d := ⟨_, rfl⟩
  have hh := C55_written exampleStore_separate (.all _ .empty hd)
  have hp : ∀ j < exampleStore.sigmas.length, Present colKind exampleStore d j .all :=
    fun j hj => present_all hd hj
  obtain ⟨out, h1, h2, h3⟩ := C55_read exampleSetting hh (fun j hj => .inl (hp j hj))
    (st := { gamma := fun _ _ _ _ => 0, colmat := fun _ _ _ _ _ => 0 }) rfl
  refine ⟨d, out, hd, h1, ?_, by norm_num [exampleCollisions]⟩
  refine ((h3 0 (by decide) 1 (by decide) 0 (by decide) 0 (by decide)).2.2
    (.inl (hp 0 (by decide)))).trans ?_
  norm_num [exampleCollisions]

example : ∃ d d' out,
    writeCollision exampleStore [300, 400] [2, 2] 2 id (List.range 2) exampleCollisions (some 1)
      (fun _ => none) = some d ∧
    writeCollision exampleStore [300, 400] [2, 2] 2 id (List.range 2) exampleCollisions (some 0) d =
      some d' ∧
    setCollisionFromFile exampleStore 2 id [2, 2] d'
      { gamma := fun _ _ _ _ => 0, colmat := fun _ _ _ _ _ => 0 } = some (some out) ∧
    out.colmat 1 1 1 0 [0, 1] = exampleCollisions.colmat 1 1 1 0 [0, 1] := by
  obtain ⟨d, hd⟩ : ∃ d, writeCollision exampleStore [300, 400] [2, 2] 2 id (List.range 2)
      exampleCollisions (some 1) (fun _ => none) = some d := ⟨_, rfl⟩
  obtain ⟨d', hd'⟩ : ∃ d', writeCollision exampleStore [300, 400] [2, 2] 2 id (List.range 2)
      exampleCollisions (some 0) d = some d' := ⟨_, rfl⟩
  have hsame : ∀ (i k b : Nat), (List.range 2)[k]? = some b →
      (∀ j t, exampleCollisions.gamma j t (id i) k = exampleCollisions.gamma j t (id i) b) ∧
        ∀ j t row, exampleCollisions.colmat j t (id i) k row =
          exampleCollisions.colmat j t (id i) b row := by
    intro i k b h
    have : k = b := by simpa using (List.getElem?_eq_some_iff.1 h).2
    subst this
    exact ⟨fun _ _ => rfl, fun _ _ _ => rfl⟩
  have hw : ColWritten exampleStore [300, 400] [2, 2] 2 id exampleCollisions d' :=
    .point _ 2 id _ 0 (hsame 0) (.point _ 2 id _ 1 (hsame 1) .empty hd) hd'
  have hc : ColCovered exampleStore d' := by
    intro j hj
    right
    intro i hi
    left
    have hi' : i < 2 := hi
    interval_cases i
    · exact (present_point hd' hj).1
    · exact (present_point hd' hj).2 _ _ (present_point hd hj).1
  obtain ⟨out, h1, -, h3⟩ := C55_matrix exampleSetting (C55_written exampleStore_separate hw) hc
    (st := { gamma := fun _ _ _ _ => 0, colmat := fun _ _ _ _ _ => 0 }) rfl
  exact ⟨d, d', out, hd, hd', h1, h3 1 (by decide) 1 (by decide) 1 (by decide) 0 (by decide) _
    (by simp)⟩

end Phono3py.Props
