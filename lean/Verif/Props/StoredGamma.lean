import Verif.Model.StoredGamma
import Verif.Spec.StoredGamma
import Verif.Lemmas.StoredGamma

/-!
# C56: stored linewidths are restored
-/

namespace Phono3py.Props

open Phono3py Phono3py.Spec

variable {K : Type}

/-- The kind of file. -/
abbrev kappaKind : List Char := "kappa".toList

/-! ### One piece -/

theorem index_range {numT numGp numBand t i b : Nat} {p : Piece} {idx : List Nat}
    (h : p.index t i b = some idx) (ht : t < numT) (hi : i < numGp) (hb : b < numBand) :
    List.Forall₂ (· < ·) idx (p.dims numT numGp numBand) := by
  cases p with
  | all =>
    simp only [Piece.index, Option.some.injEq] at h; subst h
    simp [Piece.dims, ht, hi, hb]
  | point i' =>
    simp only [Piece.index] at h
    split at h
    · simp only [Option.some.injEq] at h; subst h
      simp [Piece.dims, ht, hb]
    · simp at h
  | band i' b' =>
    simp only [Piece.index] at h
    split at h
    · simp only [Option.some.injEq] at h; subst h
      simp [Piece.dims, ht]
    · simp at h

theorem store_piece {r : StoreArgs} {truth : Nat → Nat → Nat → Nat → K}
    (arr : Nat → Nat → Nat → Nat → K) {j : Nat} {p : Piece} {a : NdArr K}
    (ha : Carries r.numT r.gridPoints.length r.numBand p (truth j) a) :
    ∃ arr', storePiece r j p a arr = some arr' ∧
      ∀ j' t i b, t < r.numT → i < r.gridPoints.length → b < r.numBand →
        (j' = j → (p.index t i b).isSome → arr' j' t i b = truth j' t i b) ∧
        (arr j' t i b = truth j' t i b → arr' j' t i b = truth j' t i b) := by
  obtain ⟨v, hv, hval⟩ := assign_same a _ ha.1
  refine ⟨_, by unfold storePiece; rw [hv]; rfl, ?_⟩
  intro j' t i b ht hi hb
  beta_reduce
  constructor
  · rintro rfl hs
    obtain ⟨idx, hidx⟩ := Option.isSome_iff_exists.1 hs
    rw [if_pos rfl, hidx]
    show v idx = _
    rw [hval idx (index_range hidx ht hi hb), ha.2 t i b idx ht hi hb hidx]
  · intro h
    split
    · rename_i hj
      subst hj
      split
      · rename_i idx hidx
        rw [hval idx (index_range hidx ht hi hb), ha.2 t i b idx ht hi hb hidx]
      · exact h
    · exact h

/-- What has been restored so far: at the places `D`, the right values; whether the two parts have
been seen. -/
structure Restored (r : StoreArgs) (w : Linewidths K) (D : Nat → Nat → Nat → Prop)
    (st : GammaRead K) : Prop where
  gamma : ∀ j t i b, t < r.numT → i < r.gridPoints.length → b < r.numBand → D j i b →
    st.gamma j t i b = w.gamma j t i b
  parts : ∀ q, w.nu = some q → ∀ j t i b, t < r.numT → i < r.gridPoints.length → b < r.numBand →
    D j i b → st.gammaN j t i b = q.1 j t i b ∧ st.gammaU j t i b = q.2 j t i b
  flag : ∀ j i b, i < r.gridPoints.length → b < r.numBand → D j i b → w.nu.isSome → st.isNU = true
  flag' : st.isNU = true → w.nu.isSome

theorem Restored.mono {r : StoreArgs} {w : Linewidths K} {D D' : Nat → Nat → Nat → Prop}
    {st : GammaRead K} (h : Restored r w D st)
    (hD : ∀ j i b, i < r.gridPoints.length → b < r.numBand → D' j i b → D j i b) :
    Restored r w D' st where
  gamma j t i b ht hi hb hd := h.gamma j t i b ht hi hb (hD j i b hi hb hd)
  parts q hq j t i b ht hi hb hd := h.parts q hq j t i b ht hi hb (hD j i b hi hb hd)
  flag j i b hi hb hd := h.flag j i b hi hb (hD j i b hi hb hd)
  flag' := h.flag'

theorem absorb_restores {r : StoreArgs} {w : Linewidths K} {D : Nat → Nat → Nat → Prop}
    {st : GammaRead K} (h : Restored r w D st) {j : Nat} {p : Piece} {f : KappaFile K}
    (hf : KappaGood r w j p f) :
    ∃ st', absorb r j p f st = some st' ∧ st'.ok = st.ok ∧
      Restored r w (fun j' i b => D j' i b ∨ (j' = j ∧ ∃ t, (p.index t i b).isSome)) st' := by
  have hidx : ∀ {t t' i b : Nat}, (p.index t i b).isSome → (p.index t' i b).isSome := by
    intro t t' i b
    cases p <;> simp only [Piece.index]
    · simp
    · split <;> simp
    · split <;> simp
  obtain ⟨g, hg, hg2⟩ := store_piece st.gamma hf.1
  have hf2 := hf.2
  rcases hnu : w.nu with _ | ⟨n, u⟩
  · refine ⟨{ st with gamma := g }, ?_, rfl, ?_⟩
    · simp only [hnu] at hf2
      simp only [absorb, hf2, hg, Option.bind_some]
    · constructor
      · rintro j' t i b ht hi hb (hd | ⟨rfl, t', ht'⟩)
        · exact (hg2 j' t i b ht hi hb).2 (h.gamma j' t i b ht hi hb hd)
        · exact (hg2 j' t i b ht hi hb).1 rfl (hidx ht')
      · intro q hq; rw [hnu] at hq; simp at hq
      · intro j' i b _ _ _ hs; rw [hnu] at hs; simp at hs
      · intro hs; exact h.flag' hs
  · simp only [hnu] at hf2
    obtain ⟨an, au, hn1, hu1, hn2, hu2⟩ := hf2
    obtain ⟨gn, hgn, hgn2⟩ := store_piece st.gammaN hn2
    obtain ⟨gu, hgu, hgu2⟩ := store_piece st.gammaU hu2
    refine ⟨{ gamma := g, gammaN := gn, gammaU := gu, isNU := true, ok := st.ok }, ?_, rfl, ?_⟩
    · simp only [absorb, hn1, hu1, Option.map_some, hg, Option.bind_some, hgn, hgu]
    · constructor
      · rintro j' t i b ht hi hb (hd | ⟨rfl, t', ht'⟩)
        · exact (hg2 j' t i b ht hi hb).2 (h.gamma j' t i b ht hi hb hd)
        · exact (hg2 j' t i b ht hi hb).1 rfl (hidx ht')
      · rintro q hq j' t i b ht hi hb (hd | ⟨rfl, t', ht'⟩)
        · have := h.parts q hq j' t i b ht hi hb hd
          rw [hnu] at hq; simp only [Option.some.injEq] at hq; subst hq
          exact ⟨(hgn2 j' t i b ht hi hb).2 this.1, (hgu2 j' t i b ht hi hb).2 this.2⟩
        · rw [hnu] at hq; simp only [Option.some.injEq] at hq; subst hq
          exact ⟨(hgn2 j' t i b ht hi hb).1 rfl (hidx ht'), (hgu2 j' t i b ht hi hb).1 rfl (hidx ht')⟩
      · intro _ _ _ _ _ _ _; rfl
      · intro _; rw [hnu]; rfl

/-! ### The loops -/

variable {r : StoreArgs} {w : Linewidths K} {d : Disk (KappaFile K)}

/-- A lookup, by presence. -/
theorem lookup_piece (hd : Holds kappaKind r (KappaGood r w) d) {j : Nat} {p : Piece}
    {n : List Char} (hn : keyName kappaKind r j p = some n) :
    (Present kappaKind r d j p ∧ ∃ f, d n = some f ∧ KappaGood r w j p f) ∨
      (¬ Present kappaKind r d j p ∧ d n = none) := by
  cases h : d n with
  | none =>
    right
    refine ⟨?_, rfl⟩
    rintro ⟨m, hm, hs⟩
    rw [hn] at hm
    simp only [Option.some.injEq] at hm
    subst hm
    rw [h] at hs; simp at hs
  | some f => exact .inl ⟨⟨n, hn, by rw [h]; rfl⟩, f, rfl, hd j p n f hn h⟩

theorem readBands_spec (hd : Holds kappaKind r (KappaGood r w) d) {j i gp : Nat}
    {s : Option ℚ} (hs : r.sigmas[j]? = some s) (hgp : r.gridPoints[i]? = some gp)
    {D : Nat → Nat → Nat → Prop} {st : GammaRead K} (h : Restored r w D st) :
    ∃ st', readBands r d j s i gp st = some st' ∧
      (st'.ok = true ↔ st.ok = true ∧ ∀ b < r.numBand, Present kappaKind r d j (.band i b)) ∧
      Restored r w (fun j' i' b' => D j' i' b' ∨
        (j' = j ∧ i' = i ∧ Present kappaKind r d j (.band i b'))) st' := by
  unfold readBands
  have key : ∀ (l : List Nat) (D : Nat → Nat → Nat → Prop) (st : GammaRead K), Restored r w D st →
      ∃ st', l.foldlM (fun (st : GammaRead K) (b : Nat) =>
        match d (pieceName "kappa".toList r s (some gp) (some b)) with
        | some f => absorb r j (.band i b) f st
        | none => some { st with ok := false }) st = some st' ∧
      (st'.ok = true ↔ st.ok = true ∧ ∀ b ∈ l, Present kappaKind r d j (.band i b)) ∧
      Restored r w (fun j' i' b' => D j' i' b' ∨
        (j' = j ∧ i' = i ∧ b' ∈ l ∧ Present kappaKind r d j (.band i b'))) st' := by
    intro l
    induction l with
    | nil => intro D st h; exact ⟨st, rfl, by simp, h.mono (by simp)⟩
    | cons b l ih =>
      intro D st h
      have hn : keyName kappaKind r j (.band i b) =
          some (pieceName "kappa".toList r s (some gp) (some b)) := by
        unfold keyName; rw [hs]; simp only [Option.bind_some]; rw [hgp]; rfl
      rcases lookup_piece hd hn with ⟨hp, f, hf, hgood⟩ | ⟨hp, hf⟩
      · obtain ⟨st1, h1, h2, h3⟩ := absorb_restores h hgood
        obtain ⟨st2, h4, h5, h6⟩ := ih _ st1 h3
        refine ⟨st2, ?_, ?_, ?_⟩
        · rw [List.foldlM_cons, hf]
          show (absorb r j (.band i b) f st).bind _ = _
          rw [h1]
          exact h4
        · rw [h5, h2]
          simp [hp]
        · refine h6.mono ?_
          rintro j' i' b' - - (hD | ⟨rfl, rfl, hb, hp'⟩)
          · exact .inl (.inl hD)
          · rcases List.mem_cons.1 hb with rfl | hb
            · exact .inl (.inr ⟨rfl, 0, by simp [Piece.index]⟩)
            · exact .inr ⟨rfl, rfl, hb, hp'⟩
      · have h3 : Restored r w D { st with ok := false } :=
          ⟨h.gamma, h.parts, h.flag, h.flag'⟩
        obtain ⟨st2, h4, h5, h6⟩ := ih _ _ h3
        refine ⟨st2, ?_, ?_, ?_⟩
        · rw [List.foldlM_cons, hf]
          exact h4
        · rw [h5]
          simp [hp]
        · refine h6.mono ?_
          rintro j' i' b' - - (hD | ⟨rfl, rfl, hb, hp'⟩)
          · exact .inl hD
          · rcases List.mem_cons.1 hb with rfl | hb
            · exact absurd hp' hp
            · exact .inr ⟨rfl, rfl, hb, hp'⟩
  obtain ⟨st', h1, h2, h3⟩ := key (List.range r.numBand) D st h
  refine ⟨st', h1, by simpa using h2, h3.mono ?_⟩
  rintro j' i' b' - hb (hD | ⟨rfl, rfl, hp⟩)
  · exact .inl hD
  · exact .inr ⟨rfl, rfl, List.mem_range.2 hb, hp⟩

theorem readPoints_spec (hd : Holds kappaKind r (KappaGood r w) d) {j : Nat}
    {s : Option ℚ} (hs : r.sigmas[j]? = some s)
    {D : Nat → Nat → Nat → Prop} {st : GammaRead K} (h : Restored r w D st) :
    ∃ st', readPoints r d j s st = some st' ∧
      (st'.ok = true ↔ st.ok = true ∧ ∀ i < r.gridPoints.length,
        Present kappaKind r d j (.point i) ∨
          ∀ b < r.numBand, Present kappaKind r d j (.band i b)) ∧
      Restored r w (fun j' i' b' => D j' i' b' ∨
        (j' = j ∧ (Present kappaKind r d j (.point i') ∨ Present kappaKind r d j (.band i' b'))))
        st' := by
  unfold readPoints
  have key : ∀ (l : List (Nat × Nat)), (∀ g ∈ l, r.gridPoints[g.2]? = some g.1) →
      ∀ (D : Nat → Nat → Nat → Prop) (st : GammaRead K), Restored r w D st →
      ∃ st', l.foldlM (fun (st : GammaRead K) (g : Nat × Nat) =>
        match d (pieceName "kappa".toList r s (some g.1) none) with
        | some f => absorb r j (.point g.2) f st
        | none => readBands r d j s g.2 g.1 st) st = some st' ∧
      (st'.ok = true ↔ st.ok = true ∧ ∀ g ∈ l, Present kappaKind r d j (.point g.2) ∨
        ∀ b < r.numBand, Present kappaKind r d j (.band g.2 b)) ∧
      Restored r w (fun j' i' b' => D j' i' b' ∨
        (j' = j ∧ (∃ g ∈ l, g.2 = i') ∧ (Present kappaKind r d j (.point i') ∨
          Present kappaKind r d j (.band i' b')))) st' := by
    intro l
    induction l with
    | nil => intro _ D st h; exact ⟨st, rfl, by simp, h.mono (by simp)⟩
    | cons g l ih =>
      intro hl D st h
      have hg := hl g (by simp)
      have hl' : ∀ g ∈ l, r.gridPoints[g.2]? = some g.1 := fun g' h' => hl g' (by simp [h'])
      have hn : keyName kappaKind r j (.point g.2) =
          some (pieceName "kappa".toList r s (some g.1) none) := by
        unfold keyName; rw [hs]; simp only [Option.bind_some]; rw [hg]; rfl
      rcases lookup_piece hd hn with ⟨hp, f, hf, hgood⟩ | ⟨hp, hf⟩
      · obtain ⟨st1, h1, h2, h3⟩ := absorb_restores h hgood
        obtain ⟨st2, h4, h5, h6⟩ := ih hl' _ st1 h3
        refine ⟨st2, ?_, ?_, ?_⟩
        · rw [List.foldlM_cons, hf]
          show (absorb r j (.point g.2) f st).bind _ = _
          rw [h1]
          exact h4
        · rw [h5, h2]
          simp [hp]
        · refine h6.mono ?_
          rintro j' i' b' - - (hD | ⟨rfl, ⟨g', hg', rfl⟩, hp'⟩)
          · exact .inl (.inl hD)
          · rcases List.mem_cons.1 hg' with rfl | hg'
            · exact .inl (.inr ⟨rfl, 0, by simp [Piece.index]⟩)
            · exact .inr ⟨rfl, ⟨g', hg', rfl⟩, hp'⟩
      · obtain ⟨st1, h1, h2, h3⟩ := readBands_spec hd hs hg h
        obtain ⟨st2, h4, h5, h6⟩ := ih hl' _ st1 h3
        refine ⟨st2, ?_, ?_, ?_⟩
        · rw [List.foldlM_cons, hf]
          show (readBands r d j s g.2 g.1 st).bind _ = _
          rw [h1]
          exact h4
        · rw [h5, h2]
          simp [hp, and_assoc]
        · refine h6.mono ?_
          rintro j' i' b' - - (hD | ⟨rfl, ⟨g', hg', rfl⟩, hp'⟩)
          · exact .inl (.inl hD)
          · rcases List.mem_cons.1 hg' with rfl | hg'
            · exact .inl (.inr ⟨rfl, rfl, hp'.resolve_left hp⟩)
            · exact .inr ⟨rfl, ⟨g', hg', rfl⟩, hp'⟩
  obtain ⟨st', h1, h2, h3⟩ := key r.gridPoints.zipIdx (fun g hg => zipIdx_getElem? hg) D st h
  have hex : ∀ i < r.gridPoints.length, ∃ g ∈ r.gridPoints.zipIdx, g.2 = i := by
    intro i hi
    exact ⟨(r.gridPoints[i], i), List.mem_zipIdx_iff_getElem?.2 (by simp [hi]), rfl⟩
  refine ⟨st', h1, ?_, h3.mono ?_⟩
  · rw [h2]
    constructor
    · rintro ⟨ho, hall⟩
      refine ⟨ho, fun i hi => ?_⟩
      obtain ⟨g, hg, rfl⟩ := hex i hi
      exact hall g hg
    · rintro ⟨ho, hall⟩
      refine ⟨ho, fun g hg => hall g.2 ?_⟩
      exact (List.getElem?_eq_some_iff.1 (zipIdx_getElem? hg)).1
  · rintro j' i' b' hi - (hD | ⟨rfl, hp⟩)
    · exact .inl hD
    · exact .inr ⟨rfl, hex i' hi, hp⟩

theorem readSigmas_spec (hd : Holds kappaKind r (KappaGood r w) d) {st : GammaRead K}
    (h : Restored r w (fun _ _ _ => False) st) :
    ∃ st', readSigmas r d st = some st' ∧
      (st'.ok = true ↔ st.ok = true ∧ Covered kappaKind r d) ∧
      Restored r w (fun j' i' b' => j' < r.sigmas.length ∧ (Present kappaKind r d j' .all ∨
        Present kappaKind r d j' (.point i') ∨ Present kappaKind r d j' (.band i' b'))) st' := by
  unfold readSigmas
  have key : ∀ (l : List (Option ℚ × Nat)), (∀ s ∈ l, r.sigmas[s.2]? = some s.1) →
      ∀ (D : Nat → Nat → Nat → Prop) (st : GammaRead K), Restored r w D st →
      ∃ st', l.foldlM (fun (st : GammaRead K) (s : Option ℚ × Nat) =>
        match d (pieceName "kappa".toList r s.1 none none) with
        | some f => absorb r s.2 .all f st
        | none => readPoints r d s.2 s.1 st) st = some st' ∧
      (st'.ok = true ↔ st.ok = true ∧ ∀ s ∈ l, Present kappaKind r d s.2 .all ∨
        ∀ i < r.gridPoints.length, Present kappaKind r d s.2 (.point i) ∨
          ∀ b < r.numBand, Present kappaKind r d s.2 (.band i b)) ∧
      Restored r w (fun j' i' b' => D j' i' b' ∨ ((∃ s ∈ l, s.2 = j') ∧
        (Present kappaKind r d j' .all ∨ Present kappaKind r d j' (.point i') ∨
          Present kappaKind r d j' (.band i' b')))) st' := by
    intro l
    induction l with
    | nil => intro _ D st h; exact ⟨st, rfl, by simp, h.mono (by simp)⟩
    | cons g l ih =>
      intro hl D st h
      have hg := hl g (by simp)
      have hl' : ∀ g ∈ l, r.sigmas[g.2]? = some g.1 := fun g' h' => hl g' (by simp [h'])
      have hn : keyName kappaKind r g.2 .all =
          some (pieceName "kappa".toList r g.1 none none) := by
        unfold keyName; rw [hg]; rfl
      rcases lookup_piece hd hn with ⟨hp, f, hf, hgood⟩ | ⟨hp, hf⟩
      · obtain ⟨st1, h1, h2, h3⟩ := absorb_restores h hgood
        obtain ⟨st2, h4, h5, h6⟩ := ih hl' _ st1 h3
        refine ⟨st2, ?_, ?_, ?_⟩
        · rw [List.foldlM_cons, hf]
          show (absorb r g.2 .all f st).bind _ = _
          rw [h1]
          exact h4
        · rw [h5, h2]
          simp [hp]
        · refine h6.mono ?_
          rintro j' i' b' - - (hD | ⟨⟨g', hg', rfl⟩, hp'⟩)
          · exact .inl (.inl hD)
          · rcases List.mem_cons.1 hg' with rfl | hg'
            · exact .inl (.inr ⟨rfl, 0, by simp [Piece.index]⟩)
            · exact .inr ⟨⟨g', hg', rfl⟩, hp'⟩
      · obtain ⟨st1, h1, h2, h3⟩ := readPoints_spec hd hg h
        obtain ⟨st2, h4, h5, h6⟩ := ih hl' _ st1 h3
        refine ⟨st2, ?_, ?_, ?_⟩
        · rw [List.foldlM_cons, hf]
          show (readPoints r d g.2 g.1 st).bind _ = _
          rw [h1]
          exact h4
        · rw [h5, h2]
          simp [hp, and_assoc]
        · refine h6.mono ?_
          rintro j' i' b' - - (hD | ⟨⟨g', hg', rfl⟩, hp'⟩)
          · exact .inl (.inl hD)
          · rcases List.mem_cons.1 hg' with rfl | hg'
            · exact .inl (.inr ⟨rfl, hp'.resolve_left hp⟩)
            · exact .inr ⟨⟨g', hg', rfl⟩, hp'⟩
  obtain ⟨st', h1, h2, h3⟩ := key r.sigmas.zipIdx (fun g hg => zipIdx_getElem? hg) _ st h
  have hex : ∀ i < r.sigmas.length, ∃ g ∈ r.sigmas.zipIdx, g.2 = i := by
    intro i hi
    exact ⟨(r.sigmas[i], i), List.mem_zipIdx_iff_getElem?.2 (by simp [hi]), rfl⟩
  refine ⟨st', h1, ?_, h3.mono ?_⟩
  · rw [h2]
    constructor
    · rintro ⟨ho, hall⟩
      refine ⟨ho, fun i hi => ?_⟩
      obtain ⟨g, hg, rfl⟩ := hex i hi
      exact hall g hg
    · rintro ⟨ho, hall⟩
      refine ⟨ho, fun g hg => hall g.2 ?_⟩
      exact (List.getElem?_eq_some_iff.1 (zipIdx_getElem? hg)).1
  · rintro j' i' b' hi - ⟨hj, hp⟩
    exact .inr ⟨hex j' hj, hp⟩

/-! ### The theorems -/

variable [Zero K]

/-- If every file that is there holds what belongs in it, then reading succeeds exactly when all
the data is there, and then every linewidth is restored into its place. -/
theorem C56_read (hd : Holds kappaKind r (KappaGood r w) d) :
    (Covered kappaKind r d →
      ∃ w', setGammaFromFile r d = some (some w') ∧ SameLinewidths r w w') ∧
    (¬ Covered kappaKind r d → setGammaFromFile r d = some none) := by
  obtain ⟨st', h1, h2, h3⟩ := readSigmas_spec hd
    (st := { gamma := fun _ _ _ _ => 0, gammaN := fun _ _ _ _ => 0, gammaU := fun _ _ _ _ => 0 })
    ⟨by simp, by simp, by simp, by simp⟩
  simp only [true_and] at h2
  constructor
  · intro hc
    refine ⟨_, by unfold setGammaFromFile; rw [h1, Option.map_some, if_pos (h2.2 hc)], ?_⟩
    intro j hj t ht i hi b hb
    have hD : j < r.sigmas.length ∧ (Present kappaKind r d j .all ∨
        Present kappaKind r d j (.point i) ∨ Present kappaKind r d j (.band i b)) := by
      refine ⟨hj, ?_⟩
      rcases hc j hj with h | h
      · exact .inl h
      · rcases h i hi with h | h
        · exact .inr (.inl h)
        · exact .inr (.inr (h b hb))
    refine ⟨h3.gamma j t i b ht hi hb hD, ?_⟩
    intro q hq
    refine ⟨(st'.gammaN, st'.gammaU), ?_, h3.parts q hq j t i b ht hi hb hD⟩
    rw [if_pos (h3.flag j i b hi hb hD (by rw [hq]; rfl))]
  · intro hc
    unfold setGammaFromFile
    rw [h1, Option.map_some, if_neg (fun h => hc (h2.1 h))]

/-- The two parts are restored only if they were computed. -/
theorem C56_no_parts (hd : Holds kappaKind r (KappaGood r w) d) (hnu : w.nu = none)
    {w' : Linewidths K} (h : setGammaFromFile r d = some (some w')) : w'.nu = none := by
  obtain ⟨st', h1, h2, h3⟩ := readSigmas_spec hd
    (st := { gamma := fun _ _ _ _ => 0, gammaN := fun _ _ _ _ => 0, gammaU := fun _ _ _ _ => 0 })
    ⟨by simp, by simp, by simp, by simp⟩
  unfold setGammaFromFile at h
  rw [h1, Option.map_some] at h
  split at h
  · simp only [Option.some.injEq] at h
    subst h
    have : st'.isNU ≠ true := fun hs => by have := h3.flag' hs; rw [hnu] at this; simp at this
    simp [this]
  · simp at h

omit [Zero K] in
/-- Files written by the calculation, as a whole or in any order of parts, hold what belongs in
them. -/
theorem C56_written (hr : Separate r) (h : Written r w d) :
    Holds kappaKind r (KappaGood r w) d := by
  induction h with
  | empty => intro j p n f _ hf; simp at hf
  | @gamma d d' bands w' i hw hnu _ hd ih =>
    unfold writeGamma at hd
    obtain ⟨gp, hgp, hd⟩ := Option.map_eq_some_iff.1 hd
    subst hd
    split
    · rename_i hb
      apply foldl_keep _ _ _ ih
      intro d s hs hd
      have hsig := zipIdx_getElem? hs
      have hn : keyName kappaKind r s.2 (.point i) =
          some (pieceName "kappa".toList r s.1 (some gp) none) := by
        unfold keyName; rw [hsig]; simp only [Option.bind_some]; rw [hgp]; rfl
      have hbk : ∀ b < r.numBand, bands[b]? = some b := by
        intro b hb'; rw [hb]; simp [hb']
      have hall : ∀ a a' : Nat → Nat → Nat → Nat → K,
          (∀ k b, bands[k]? = some b → ∀ j t, a' j t i k = a j t i b) →
          Carries r.numT r.gridPoints.length r.numBand (.point i) (a s.2)
            (pointSlice r a' s.2 i) := by
        intro a a' haa
        refine ⟨rfl, ?_⟩
        intro t i' b idx ht hi hb' hidx
        simp only [Piece.index] at hidx
        split at hidx
        · rename_i hi'; subst hi'
          simp only [Option.some.injEq] at hidx; subst hidx
          exact haa b b (hbk b hb') _ _
        · simp at hidx
      refine holds_put hr hd hn ⟨hall _ _ (fun k b h => (hw k b h).1), ?_⟩
      rcases hq : w.nu with _ | q
      · rcases hq' : w'.nu with _ | q'
        · rfl
        · rw [hq, hq'] at hnu; simp at hnu
      · rcases hq' : w'.nu with _ | q'
        · rw [hq, hq'] at hnu; simp at hnu
        · exact ⟨_, _, rfl, rfl, hall _ _ (fun k b h j t => ((hw k b h).2 q q' hq hq' j t).1),
            hall _ _ (fun k b h j t => ((hw k b h).2 q q' hq hq' j t).2)⟩
    · apply foldl_keep _ _ _ ih
      intro d s hs hd
      have hsig := zipIdx_getElem? hs
      apply foldl_keep _ _ _ hd
      intro d b hb hd
      have hbk := zipIdx_getElem? hb
      obtain ⟨hw1, hw3⟩ := hw b.2 b.1 hbk
      have hn : keyName kappaKind r s.2 (.band i b.1) =
          some (pieceName "kappa".toList r s.1 (some gp) (some b.1)) := by
        unfold keyName; rw [hsig]; simp only [Option.bind_some]; rw [hgp]; rfl
      have hall : ∀ a a' : Nat → Nat → Nat → Nat → K, (∀ j t, a' j t i b.2 = a j t i b.1) →
          Carries r.numT r.gridPoints.length r.numBand (.band i b.1) (a s.2)
            (bandSlice r a' s.2 i b.2) := by
        intro a a' haa
        refine ⟨rfl, ?_⟩
        intro t i' b' idx ht hi hb' hidx
        simp only [Piece.index] at hidx
        split at hidx
        · rename_i hi'
          simp only [Option.some.injEq] at hidx; subst hidx
          rw [hi'.1, hi'.2]
          exact haa _ _
        · simp at hidx
      refine holds_put hr hd hn ⟨hall _ _ hw1, ?_⟩
      rcases hq : w.nu with _ | q
      · rcases hq' : w'.nu with _ | q'
        · rfl
        · rw [hq, hq'] at hnu; simp at hnu
      · rcases hq' : w'.nu with _ | q'
        · rw [hq, hq'] at hnu; simp at hnu
        · exact ⟨_, _, rfl, rfl, hall _ _ (fun j t => (hw3 q q' hq hq' j t).1),
            hall _ _ (fun j t => (hw3 q q' hq hq' j t).2)⟩
  | @kappa d hone _ ih =>
    unfold writeKappa
    apply foldl_keep _ _ _ ih
    intro d s hs hd
    have hsig := zipIdx_getElem? hs
    have hsum : summaryPoint r.gridPoints = none := by
      unfold summaryPoint
      split
      · rename_i g hg; rw [hg] at hone; simp at hone
      · rfl
    have hn : keyName kappaKind r s.2 .all =
        some (pieceName "kappa".toList r s.1 (summaryPoint r.gridPoints) none) := by
      unfold keyName; rw [hsig, hsum]; rfl
    have hall : ∀ a : Nat → Nat → Nat → Nat → K, Carries r.numT r.gridPoints.length r.numBand .all
        (a s.2) (allSlice r a s.2) := by
      intro a
      refine ⟨rfl, ?_⟩
      intro t i b idx _ _ _ hidx
      simp only [Piece.index, Option.some.injEq] at hidx; subst hidx
      rfl
    refine holds_put hr hd hn ⟨hall _, ?_⟩
    rcases hq : w.nu with _ | q
    · rfl
    · exact ⟨_, _, rfl, rfl, hall _, hall _⟩

/-- The whole way: whatever parts of the calculation were written, in whatever order, reading
succeeds exactly when all the data is there and restores every linewidth.

Full claim: for every calculation.  Missing: sigmas closer than a millionth, whose files overwrite
each other (`Separate` excludes them), and the summary of a calculation with a single grid point,
for which the claim is false (`C56_single_point`). -/
theorem C56_round_trip_partial (hr : Separate r) (h : Written r w d) :
    (Covered kappaKind r d →
      ∃ w', setGammaFromFile r d = some (some w') ∧ SameLinewidths r w w') ∧
    (¬ Covered kappaKind r d → setGammaFromFile r d = some none) :=
  C56_read (C56_written hr h)

omit [Zero K] in
theorem present_writeGamma {bands : List Nat} {w' : Linewidths K} {i : Nat}
    {d' : Disk (KappaFile K)} (hd : writeGamma r bands w' i d = some d') {j : Nat} {p : Piece}
    (h : Present kappaKind r d j p) : Present kappaKind r d' j p := by
  unfold writeGamma at hd
  obtain ⟨gp, hgp, hd⟩ := Option.map_eq_some_iff.1 hd
  subst hd
  split
  · exact foldl_keep (P := fun d => Present kappaKind r d j p) _ _ _ h
      (fun d s _ hd => present_put hd _ _)
  · exact foldl_keep (P := fun d => Present kappaKind r d j p) _ _ _ h
      (fun d s _ hd => foldl_keep (P := fun d => Present kappaKind r d j p) _ _ _ hd
        (fun d b _ hd => present_put hd _ _))

omit [Zero K] in
/-- After writing a grid point with all bands its files are there for every sigma. -/
theorem C56_point_present {w' : Linewidths K} {i : Nat} {d' : Disk (KappaFile K)}
    (hd : writeGamma r (List.range r.numBand) w' i d = some d') {j : Nat}
    (hj : j < r.sigmas.length) : Present kappaKind r d' j (.point i) := by
  unfold writeGamma at hd
  obtain ⟨gp, hgp, hd⟩ := Option.map_eq_some_iff.1 hd
  subst hd
  rw [if_pos rfl]
  refine foldl_reach (P := fun d => Present kappaKind r d j (.point i)) _ _ _ (r.sigmas[j], j)
    (List.mem_zipIdx_iff_getElem?.2 (by simp [hj])) ?_ (fun d s _ hd => present_put hd _ _)
  intro d
  apply present_self
  unfold keyName
  rw [List.getElem?_eq_getElem hj]; simp only [Option.bind_some]; rw [hgp]; rfl

omit [Zero K] in
/-- After writing a grid point in a run with selected bands, the file of each of these bands is
there for every sigma. -/
theorem C56_band_present {bands : List Nat} {w' : Linewidths K} {i : Nat}
    {d' : Disk (KappaFile K)} (hne : bands ≠ List.range r.numBand)
    (hd : writeGamma r bands w' i d = some d') {j : Nat} (hj : j < r.sigmas.length) {b : Nat}
    (hb : b ∈ bands) : Present kappaKind r d' j (.band i b) := by
  unfold writeGamma at hd
  obtain ⟨gp, hgp, hd⟩ := Option.map_eq_some_iff.1 hd
  subst hd
  rw [if_neg hne]
  refine foldl_reach (P := fun d => Present kappaKind r d j (.band i b)) _ _ _ (r.sigmas[j], j)
    (List.mem_zipIdx_iff_getElem?.2 (by simp [hj])) ?_
    (fun d s _ hd => foldl_keep (P := fun d => Present kappaKind r d j (.band i b)) _ _ _ hd
        (fun d b _ hd => present_put hd _ _))
  intro d
  obtain ⟨k, hk, hkb⟩ := List.mem_iff_getElem.1 hb
  refine foldl_reach (P := fun d => Present kappaKind r d j (.band i b)) _ _ _ (b, k)
    (List.mem_zipIdx_iff_getElem?.2 (by simp [hk, hkb])) ?_ (fun d s _ hd => present_put hd _ _)
  intro d
  apply present_self
  unfold keyName
  rw [List.getElem?_eq_getElem hj]; simp only [Option.bind_some]; rw [hgp]; rfl

/-- A run that stores its linewidths at the grid points `pts`, one after the other. -/
def writePoints (r : StoreArgs) (w : Linewidths K) (pts : List Nat) (d : Disk (KappaFile K)) :
    Option (Disk (KappaFile K)) :=
  pts.foldlM (fun (d : Disk (KappaFile K)) (i : Nat) =>
    writeGamma r (List.range r.numBand) w i d) d

omit [Zero K] in
theorem writePoints_spec (pts : List Nat) (hp : ∀ i ∈ pts, i < r.gridPoints.length)
    (h : Written r w d) : ∃ d', writePoints r w pts d = some d' ∧ Written r w d' ∧
      (∀ j p, Present kappaKind r d j p → Present kappaKind r d' j p) ∧
      ∀ i ∈ pts, ∀ j < r.sigmas.length, Present kappaKind r d' j (.point i) := by
  unfold writePoints
  induction pts generalizing d with
  | nil => exact ⟨d, rfl, h, fun _ _ h => h, by simp⟩
  | cons i pts ih =>
    have hi := hp i (by simp)
    obtain ⟨d1, h1⟩ : ∃ d1, writeGamma r (List.range r.numBand) w i d = some d1 := by
      unfold writeGamma
      rw [List.getElem?_eq_getElem hi]
      exact ⟨_, rfl⟩
    have hw1 : Written r w d1 := Written.gamma _ w i (by
      intro k b hk
      have : k = b := by
        have := List.getElem?_eq_some_iff.1 hk
        simpa using this.2
      subst this
      refine ⟨fun _ _ => rfl, ?_⟩
      intro q q' hq hq'
      rw [hq] at hq'; simp only [Option.some.injEq] at hq'; subst hq'
      exact fun _ _ => ⟨rfl, rfl⟩) rfl h h1
    obtain ⟨d2, h2, h3, h4, h5⟩ := ih (fun x hx => hp x (by simp [hx])) hw1
    refine ⟨d2, ?_, h3, fun j p hpr => h4 j p (present_writeGamma h1 hpr), ?_⟩
    · rw [List.foldlM_cons]
      show (writeGamma r (List.range r.numBand) w i d).bind _ = _
      rw [h1]; exact h2
    · intro x hx j hj
      rcases List.mem_cons.1 hx with rfl | hx
      · exact h4 j _ (C56_point_present h1 hj)
      · exact h5 x hx j hj

/-- A calculation that stored every grid point, in any order and over any number of restarts, is
restored completely. -/
theorem C56_all_points (hr : Separate r) (pts : List Nat)
    (hp : ∀ i ∈ pts, i < r.gridPoints.length) (hall : ∀ i < r.gridPoints.length, i ∈ pts) :
    ∃ d', writePoints r w pts (fun _ => none) = some d' ∧
      ∃ w', setGammaFromFile r d' = some (some w') ∧ SameLinewidths r w w' := by
  obtain ⟨d', h1, h2, -, h3⟩ := writePoints_spec pts hp (Written.empty (r := r) (w := w))
  refine ⟨d', h1, (C56_round_trip_partial hr h2).1 ?_⟩
  intro j hj
  exact .inr (fun i hi => .inl (h3 i (hall i hi) j hj))

/-- A missing grid point makes the reading fail (return `False`), if no summary was written. -/
theorem C56_missing_point (hr : Separate r) (hs : 0 < r.sigmas.length) (hB : 0 < r.numBand)
    (h : Written r w d) {i : Nat} (hi : i < r.gridPoints.length)
    (h1 : ¬ Present kappaKind r d 0 .all) (h2 : ¬ Present kappaKind r d 0 (.point i))
    {b : Nat} (hb : b < r.numBand) (h3 : ¬ Present kappaKind r d 0 (.band i b)) :
    setGammaFromFile r d = some none := by
  apply (C56_round_trip_partial hr h).2
  intro hc
  rcases hc 0 hs with h | h
  · exact h1 h
  · rcases h i hi with h | h
    · exact h2 h
    · exact h3 (h b hb)

/-- An example: two sigmas, one of them the tetrahedron method, two grid points, two bands. -/
def exampleStore : StoreArgs where
  mesh := (3, 3, 3)
  sigmas := [none, some (1 / 10)]
  numT := 2
  gridPoints := [0, 7]
  numBand := 2

theorem exampleStore_separate : Separate exampleStore where
  sigma_nonneg := by
    intro s hs v hv
    simp only [exampleStore, List.mem_cons, List.not_mem_nil, or_false] at hs
    rcases hs with rfl | rfl
    · simp at hv
    · simp only [Option.some.injEq] at hv; subst hv; norm_num
  cutoff_nonneg := by intro v hv; simp [exampleStore] at hv
  sigma_apart := by
    intro j j' s s' h h' hw
    match j, j' with
    | 0, 0 => rfl
    | 1, 1 => rfl
    | 0, 1 =>
      simp [exampleStore] at h h'; subst h h'; simp [WithinMillionth] at hw
    | 1, 0 =>
      simp [exampleStore] at h h'; subst h h'; simp [WithinMillionth] at hw
    | n + 2, _ => simp [exampleStore] at h
    | 0, n + 2 => simp [exampleStore] at h'
    | 1, n + 2 => simp [exampleStore] at h'
  points := by decide

/-- Its linewidths. -/
def exampleWidths : Linewidths ℚ where
  gamma j t i b := 1000 * j + 100 * t + 10 * i + b

example : ∃ d', writePoints exampleStore exampleWidths [1, 0] (fun _ => none) = some d' ∧
    ∃ w', setGammaFromFile exampleStore d' = some (some w') ∧
      SameLinewidths exampleStore exampleWidths w' :=
  C56_all_points exampleStore_separate [1, 0] (by decide) (by decide)

/-- A calculation with a single grid point. -/
def exampleOnePoint : StoreArgs where
  mesh := (1, 1, 1)
  sigmas := [none]
  numT := 2
  gridPoints := [0]
  numBand := 2

/-- With a single grid point (a 1x1x1 mesh) the summary file gets the name of a grid-point file,
although its arrays have one axis more, and is not found under its own name: reading it back
raises an exception (here for two temperatures). -/
theorem C56_single_point :
    setGammaFromFile exampleOnePoint (writeKappa exampleOnePoint exampleWidths (fun _ => none)) =
      none := by
  have hne : pieceName "kappa".toList exampleOnePoint none none none ≠
      pieceName "kappa".toList exampleOnePoint none (some 0) none := by
    decide +kernel
  have h0 : readSigmas exampleOnePoint (writeKappa exampleOnePoint exampleWidths (fun _ => none))
      { gamma := fun _ _ _ _ => 0, gammaN := fun _ _ _ _ => 0, gammaU := fun _ _ _ _ => 0 } =
      none := by
    unfold readSigmas writeKappa
    have hz : exampleOnePoint.sigmas.zipIdx = [(none, 0)] := rfl
    have hs : summaryPoint exampleOnePoint.gridPoints = some 0 := rfl
    have hg : exampleOnePoint.gridPoints.zipIdx = [(0, 0)] := rfl
    simp only [hz, hs, List.foldl_cons, List.foldl_nil, List.foldlM_cons, List.foldlM_nil]
    have h1 : (Disk.put (fun _ => none) (pieceName "kappa".toList exampleOnePoint none (some 0) none)
        ({ gamma := allSlice exampleOnePoint exampleWidths.gamma 0
           gammaN := exampleWidths.nu.map (fun p => allSlice exampleOnePoint p.1 0)
           gammaU := exampleWidths.nu.map (fun p => allSlice exampleOnePoint p.2 0) } :
          KappaFile ℚ)) (pieceName "kappa".toList exampleOnePoint none none none) = none := by
      unfold Disk.put; rw [if_neg hne]
    rw [h1]
    unfold readPoints
    simp only [hg, List.foldlM_cons, List.foldlM_nil, Disk.put, if_true]
    simp [absorb, storePiece, NdArr.assign, Piece.dims, allSlice, fitsRev, exampleOnePoint]
  unfold setGammaFromFile
  rw [h0]; rfl

end Phono3py.Props
