import Verif.Props.Dataset
import Mathlib.Data.List.Nodup
import Mathlib.Algebra.Group.Prod
import Mathlib.Data.Int.Basic
import Mathlib.Algebra.Group.Int.Defs
import Mathlib.Data.Rat.Cast.Defs
import Mathlib.Tactic.NormNum

/-!
# Supercells reported as duplicates (C85)
-/

namespace Phono3py.Props

open Phono3py

section
variable {D V K : Type}

/-- The dictionaries hold the element `p` for the atoms `n` and `m`. -/
def HasPair (sets : DirSets D) (n m : Nat) (p : PairDir D) : Prop :=
  ∃ l, sets n m = some l ∧ p ∈ l

/-- The pair of displacements stamped with the id of `p`. -/
def StampedPair (cart : D → V) (firsts : List (Disp1 V K)) (n m : Nat) (p : PairDir D) : Prop :=
  ∃ d1 ∈ firsts, d1.number = n ∧ d1.displacement = cart p.first ∧
    ∃ d2 ∈ d1.second, d2.number = m ∧ d2.displacement = cart p.second ∧ d2.id = p.id

theorem mem_stampDirections (cart : D → V) (num : Nat) (r : K) (inc : Option Bool) (c : Nat)
    (ds : List D) (d1 : D) (p : PairDir D)
    (h : p ∈ ds.mapIdx (fun i d2 => (⟨d1, d2, c + i⟩ : PairDir D))) :
    p.first = d1 ∧ ∃ d2 ∈ stampDirections cart num r inc c ds, d2.number = num ∧
      d2.displacement = cart p.second ∧ d2.id = p.id := by
  induction ds generalizing c with
  | nil => simp at h
  | cons d ds ih =>
    rw [List.mapIdx_cons, List.mem_cons] at h
    rcases h with rfl | h
    · exact ⟨rfl, ⟨c, num, cart d, r, inc, none, none⟩, by simp [stampDirections], rfl, rfl, rfl⟩
    · have h' : p ∈ ds.mapIdx (fun i d2 => (⟨d1, d2, c + 1 + i⟩ : PairDir D)) := by
        have : (fun (i : Nat) (d2 : D) => (⟨d1, d2, c + (i + 1)⟩ : PairDir D)) =
            (fun i d2 => ⟨d1, d2, c + 1 + i⟩) := by
          funext i d2
          rw [show c + (i + 1) = c + 1 + i by omega]
        rw [← this]
        exact h
      obtain ⟨h1, d2, h2, h3⟩ := ih (c + 1) h'
      exact ⟨h1, d2, by simp [stampDirections, h2], h3⟩

theorem addPairDirs_fold [LT K] [DecidableLT K] (cart : D → V) (cutoff : Option K) (n1 : Nat)
    (d1 : D) (ss : List (DirSecond D K)) (s : DirSets D × Nat) :
    (ss.foldl (addPairDirs n1 d1) s).2 = s.2 + (ss.map (fun x => x.directions.length)).sum ∧
    ∀ n m p, HasPair (ss.foldl (addPairDirs n1 d1) s).1 n m p → HasPair s.1 n m p ∨
      (n = n1 ∧ p.first = d1 ∧ ∃ d2 ∈ stampSecond cart cutoff s.2 ss, d2.number = m ∧
        d2.displacement = cart p.second ∧ d2.id = p.id) := by
  induction ss generalizing s with
  | nil => exact ⟨by simp, fun n m p h => Or.inl h⟩
  | cons x ss ih =>
    have := ih (addPairDirs n1 d1 s x)
    have hs2 : (addPairDirs n1 d1 s x).2 = s.2 + x.directions.length := rfl
    refine ⟨?_, ?_⟩
    · rw [List.foldl_cons, this.1, hs2, List.map_cons, List.sum_cons]
      omega
    · intro n m p h
      rw [List.foldl_cons] at h
      rcases this.2 n m p h with ⟨l, hl, hp⟩ | ⟨h1, h2, d2, h3, h4⟩
      · simp only [addPairDirs] at hl
        by_cases hk : n = n1 ∧ m = x.number
        · rw [if_pos hk, Option.some.injEq] at hl
          subst hl
          rcases List.mem_append.1 hp with hp | hp
          · left
            rw [hk.1, hk.2]
            cases ho : s.1 n1 x.number with
            | none => simp [ho] at hp
            | some l0 => exact ⟨l0, ho, by simpa [ho] using hp⟩
          · right
            obtain ⟨a, d2, b, c⟩ := mem_stampDirections cart x.number x.distance
              (cutoff.map (fun r => decide (x.distance < r))) s.2 x.directions d1 p hp
            refine ⟨hk.1, a, d2, ?_, by rw [hk.2]; exact c.1, c.2⟩
            rw [stampSecond]
            exact List.mem_append_left _ b
        · rw [if_neg hk] at hl
          exact Or.inl ⟨l, hl, hp⟩
      · right
        refine ⟨h1, h2, d2, ?_, h4⟩
        rw [stampSecond]
        exact List.mem_append_right _ h3

theorem collect_fold [LT K] [DecidableLT K] (cart : D → V) (cutoff : Option K) (i : Nat)
    (ds : List (DirFirst D K)) (s : DirSets D × Nat) :
    ∀ n m p, HasPair (ds.foldl (fun s f => f.second.foldl (addPairDirs f.number f.direction) s)
        s).1 n m p → HasPair s.1 n m p ∨ StampedPair cart (stampFirst cart cutoff i s.2 ds) n m p := by
  induction ds generalizing s i with
  | nil => exact fun n m p h => Or.inl h
  | cons f ds ih =>
    intro n m p h
    rw [List.foldl_cons] at h
    have h1 := addPairDirs_fold cart cutoff f.number f.direction f.second s
    rcases ih (i + 1) _ n m p h with h2 | ⟨d1, h2, h3⟩
    · rcases h1.2 n m p h2 with h3 | ⟨h3, h4, h5⟩
      · exact Or.inl h3
      · right
        refine ⟨⟨i + 1, f.number, cart f.direction, none, none,
          stampSecond cart cutoff s.2 f.second⟩, by simp [stampFirst], h3.symm, by rw [h4], h5⟩
    · right
      refine ⟨d1, ?_, h3⟩
      rw [h1.1] at h2
      rw [stampFirst]
      exact List.mem_cons_of_mem _ h2

theorem collect_stamped [LT K] [DecidableLT K] (cart : D → V) (cutoff : Option K)
    (ds : List (DirFirst D K)) (n m : Nat) (p : PairDir D)
    (h : HasPair (collectDirSets ds).1 n m p) :
    StampedPair cart (stampFirst cart cutoff 0 (ds.length + 1) ds) n m p := by
  rcases collect_fold cart cutoff 0 ds ((fun _ _ => none), ds.length + 1) n m p h with h | h
  · obtain ⟨l, hl, -⟩ := h
    simp at hl
  · exact h

variable [AddGroup D] [DecidableEq D]

/-- A pair of ids reported by the comparison of flipped directions. -/
def FlippedIds (sets : DirSets D) (x : Nat × Nat) : Prop :=
  x.2 < x.1 ∧ ∃ n m p q, HasPair sets n m p ∧ HasPair sets m n q ∧ n < m ∧ x.1 = q.id ∧
    x.2 = p.id ∧ q.second = p.first ∧ q.first = p.second

/-- A pair of ids reported by the comparison of opposite directions. -/
def OppositeIds (sets : DirSets D) (x : Nat × Nat) : Prop :=
  x.2 = 0 ∧ ∃ n p q, HasPair sets n n p ∧ HasPair sets n n q ∧ x.1 = q.id ∧
    q.second = -p.first ∧ q.first = -p.second

theorem flipped_fold (sets : DirSets D) (ks : List (Nat × Nat))
    (s : Option (List (Nat × Nat) × List (Nat × Nat)))
    (hs : ∀ t, s = some t → ∀ x ∈ t.2, FlippedIds sets x) (t)
    (ht : ks.foldl (flippedStep sets) s = some t) : ∀ x ∈ t.2, FlippedIds sets x := by
  induction ks generalizing s with
  | nil => exact hs t ht
  | cons k ks ih =>
    rw [List.foldl_cons] at ht
    refine ih _ ?_ ht
    intro u hu x hx
    unfold flippedStep at hu
    obtain ⟨s0, hs0, hu⟩ := Option.bind_eq_some_iff.1 hu
    cases hb : sets k.2 k.1 with
    | none =>
      simp only [hb, Option.some.injEq] at hu
      subst hu
      exact hs _ hs0 x hx
    | some back =>
      simp only [hb] at hu
      by_cases hc : k.1 < k.2 ∧ (k.2, k.1) ∉ s0.1
      · rw [if_pos hc] at hu
        obtain ⟨here, hh, hu⟩ := Option.bind_eq_some_iff.1 hu
        obtain ⟨l, hl, rfl⟩ := Option.map_eq_some_iff.1 hu
        rcases List.mem_append.1 hx with hx | hx
        · exact hs _ hs0 x hx
        · unfold compareFlipped at hl
          by_cases he : back = []
          · simp [he] at hl
          · rw [if_neg he, Option.some.injEq] at hl
            subst hl
            obtain ⟨hx, hlt⟩ := List.mem_filter.1 hx
            obtain ⟨p, hp, hx⟩ := List.mem_flatMap.1 hx
            obtain ⟨q, hq, rfl⟩ := List.mem_map.1 hx
            obtain ⟨hq, hqe⟩ := List.mem_filter.1 hq
            have hqe := of_decide_eq_true hqe
            exact ⟨of_decide_eq_true hlt, k.1, k.2, p, q, ⟨here, hh, hp⟩, ⟨back, hb, hq⟩, hc.1,
              rfl, rfl, sub_eq_zero.1 hqe.1, sub_eq_zero.1 hqe.2⟩
      · rw [if_neg hc, Option.some.injEq] at hu
        subst hu
        exact hs _ hs0 x hx

theorem opposite_fold (sets : DirSets D) (P : Nat × Nat → Prop) (ks : List (Nat × Nat))
    (s : Option (List Nat × List (Nat × Nat)))
    (hs : ∀ t, s = some t → ∀ x ∈ t.2, P x ∨ OppositeIds sets x) (t)
    (ht : ks.foldl (oppositeStep sets) s = some t) : ∀ x ∈ t.2, P x ∨ OppositeIds sets x := by
  induction ks generalizing s with
  | nil => exact hs t ht
  | cons k ks ih =>
    rw [List.foldl_cons] at ht
    refine ih _ ?_ ht
    intro u hu x hx
    unfold oppositeStep at hu
    obtain ⟨s0, hs0, hu⟩ := Option.bind_eq_some_iff.1 hu
    by_cases hc : k.1 = k.2 ∧ k.1 ∉ s0.1
    · rw [if_pos hc] at hu
      obtain ⟨here, hh, hu⟩ := Option.bind_eq_some_iff.1 hu
      obtain ⟨l, hl, rfl⟩ := Option.map_eq_some_iff.1 hu
      rcases List.mem_append.1 hx with hx | hx
      · exact hs _ hs0 x hx
      · right
        unfold compareOpposite at hl
        by_cases he : here = []
        · simp [he] at hl
        · rw [if_neg he, Option.some.injEq] at hl
          subst hl
          obtain ⟨hx, hlt⟩ := List.mem_filter.1 hx
          obtain ⟨p, hp, hx⟩ := List.mem_flatMap.1 hx
          obtain ⟨q, hq, rfl⟩ := List.mem_map.1 hx
          obtain ⟨hq, hqe⟩ := List.mem_filter.1 hq
          have hqe := of_decide_eq_true hqe
          exact ⟨rfl, k.1, p, q, ⟨here, hh, hp⟩, ⟨here, hh, hq⟩, rfl,
            eq_neg_of_add_eq_zero_left hqe.1, eq_neg_of_add_eq_zero_left hqe.2⟩
    · rw [if_neg hc, Option.some.injEq] at hu
      subst hu
      exact hs _ hs0 x hx

theorem findDuplicates_sound (ds : List (DirFirst D K)) (l : List (Nat × Nat))
    (h : findDuplicates ds = some l) :
    ∀ x ∈ l, FlippedIds (collectDirSets ds).1 x ∨ OppositeIds (collectDirSets ds).1 x := by
  unfold findDuplicates at h
  obtain ⟨s, hs, h⟩ := Option.bind_eq_some_iff.1 h
  obtain ⟨t, ht, rfl⟩ := Option.map_eq_some_iff.1 h
  have h1 := flipped_fold (collectDirSets ds).1 (pairKeys ds) (some ([], []))
    (by rintro t rfl' x hx; cases rfl'; simp at hx) s hs
  exact opposite_fold (collectDirSets ds).1 (FlippedIds (collectDirSets ds).1) (pairKeys ds)
    (some ([], s.2)) (by rintro t rfl' x hx; cases rfl'; exact Or.inl (h1 x hx)) t ht

theorem stamped_displaced [AddMonoid V] {cart : D → V} {ds : DispDataset V K} {n m : Nat}
    {p : PairDir D} (h : StampedPair cart ds.first n m p) :
    ∃ e ∈ displacedCells ds, e.id = p.id ∧
      ∀ k, e.field k = oneAtom n (cart p.first) k + oneAtom m (cart p.second) k := by
  obtain ⟨d1, h1, rfl, h3, d2, h4, rfl, h6, h7⟩ := h
  refine ⟨pairCell d1 d2, ?_, h7, ?_⟩
  · rw [displacedCells_eq]
    exact List.mem_append_right _ (List.mem_flatMap.2 ⟨d1, h1, List.mem_map_of_mem h4⟩)
  · intro k
    rw [← h3, ← h6]
    rfl

/-- **C85**. Two different supercells reported as duplicates of each other have the same
displacements of all atoms. -/
theorem C85_pairs [AddCommMonoid V] [LT K] [DecidableLT K] {cart : D → V} {natom : Nat}
    {cutoff : Option K} {dirs : List (DirFirst D K)} {ds : DispDataset V K}
    (h : directionToDisplacement cart natom cutoff dirs = some ds) (i j : Nat)
    (hx : (i, j) ∈ ds.duplicates) (hj : j ≠ 0) :
    j < i ∧ ∃ e ∈ displacedCells ds, ∃ f ∈ displacedCells ds, e.id = i ∧ f.id = j ∧
      e.field = f.field := by
  obtain ⟨-, -, hd, hf⟩ := directionToDisplacement_eq h
  rcases findDuplicates_sound dirs _ hd (i, j) hx with ⟨hlt, n, m, p, q, hp, hq, -, rfl, rfl, h1, h2⟩ |
    ⟨h0, -⟩
  · have sp := collect_stamped cart cutoff dirs n m p hp
    have sq := collect_stamped cart cutoff dirs m n q hq
    rw [← hf] at sp sq
    obtain ⟨f, hf1, hf2, hf3⟩ := stamped_displaced sp
    obtain ⟨e, he1, he2, he3⟩ := stamped_displaced sq
    refine ⟨hlt, e, he1, f, hf1, he2, hf2, ?_⟩
    funext k
    rw [he3, hf3, h1, h2, add_comm]
  · exact absurd h0 hj

/-- **C85**. If no atom is the first displaced atom in two entries, a supercell reported as a
duplicate of number 0 is the undisplaced one. Missing: the same when an atom has several first
displacements, which is false, see `C85_not_undisplaced`. -/
theorem C85_undisplaced_partial [AddCommGroup V] [LT K] [DecidableLT K] {cart : D → V}
    {natom : Nat} {cutoff : Option K} {dirs : List (DirFirst D K)} {ds : DispDataset V K}
    (h : directionToDisplacement cart natom cutoff dirs = some ds)
    (hc : ∀ d, cart (-d) = -cart d) (hinj : Function.Injective cart)
    (hone : (dirs.map (fun f => f.number)).Nodup) (i : Nat) (hx : (i, 0) ∈ ds.duplicates) :
    ∃ e ∈ displacedCells ds, e.id = i ∧ ∀ k, e.field k = 0 := by
  obtain ⟨-, -, hd, hf⟩ := directionToDisplacement_eq h
  rcases findDuplicates_sound dirs _ hd (i, 0) hx with ⟨hlt, n, m, p, q, hp, hq, -, h1, h2, h3, h4⟩ |
    ⟨-, n, p, q, hp, hq, rfl, h1, h2⟩
  · have sp := collect_stamped cart cutoff dirs n m p hp
    obtain ⟨f, hf1, hf2, -⟩ := stamped_displaced (ds := ds) (by rw [hf]; exact sp)
    have hid := (C48_ids h).1
    have : f.id ∈ (displacedCells ds).map (fun e => e.id) := List.mem_map_of_mem hf1
    rw [hid, List.mem_range'_1] at this
    rw [hf2, ← h2] at this
    simp at this
  · have sp := collect_stamped cart cutoff dirs n n p hp
    have sq := collect_stamped cart cutoff dirs n n q hq
    have hsame : p.first = q.first := by
      obtain ⟨a, ha, han, had, -⟩ := sp
      obtain ⟨b, hb, hbn, hbd, -⟩ := sq
      have hnd : ((stampFirst cart cutoff 0 (dirs.length + 1) dirs).map
          (fun d => d.number)).Nodup := by
        have := stampFirst_map cart cutoff 0 (dirs.length + 1) dirs (fun n _ => n)
        rw [this]
        exact hone
      have hab : a = b := List.inj_on_of_nodup_map hnd ha hb (by rw [han, hbn])
      rw [hab, hbd] at had
      exact hinj had.symm
    rw [← hf] at sq
    obtain ⟨e, he1, he2, he3⟩ := stamped_displaced sq
    refine ⟨e, he1, he2, fun k => ?_⟩
    rw [he3, h1, hsame, hc]
    unfold oneAtom
    split <;> simp

end

section Total
variable {D V K : Type} [AddGroup D] [DecidableEq D]

theorem addPairDirs_total (n1 : Nat) (d1 : D) (ss : List (DirSecond D K)) (s : DirSets D × Nat)
    (hd : ∀ x ∈ ss, x.directions ≠ []) (hs : ∀ n m l, s.1 n m = some l → l ≠ []) :
    (∀ n m l, (ss.foldl (addPairDirs n1 d1) s).1 n m = some l → l ≠ []) ∧
    (∀ n m l, s.1 n m = some l → ∃ l', (ss.foldl (addPairDirs n1 d1) s).1 n m = some l') ∧
    ∀ x ∈ ss, ∃ l, (ss.foldl (addPairDirs n1 d1) s).1 n1 x.number = some l := by
  induction ss generalizing s with
  | nil => exact ⟨hs, fun n m l h => ⟨l, h⟩, by simp⟩
  | cons x ss ih =>
    rw [List.foldl_cons]
    have hx : (addPairDirs n1 d1 s x).1 n1 x.number = some ((s.1 n1 x.number).getD [] ++
        x.directions.mapIdx (fun i d2 => ⟨d1, d2, s.2 + i⟩)) := by simp [addPairDirs]
    have h1 := ih (addPairDirs n1 d1 s x) (fun y hy => hd y (by simp [hy])) (by
      intro n m l hl
      by_cases hk : n = n1 ∧ m = x.number
      · rw [hk.1, hk.2, hx, Option.some.injEq] at hl
        subst hl
        intro h0
        have := List.append_eq_nil_iff.1 h0
        have hne := hd x (by simp)
        rw [List.mapIdx_eq_nil_iff] at this
        exact hne this.2
      · simp only [addPairDirs, if_neg hk] at hl
        exact hs n m l hl)
    refine ⟨h1.1, ?_, ?_⟩
    · intro n m l hl
      by_cases hk : n = n1 ∧ m = x.number
      · rw [hk.1, hk.2]
        exact h1.2.1 _ _ _ hx
      · exact h1.2.1 n m l (by simp only [addPairDirs, if_neg hk]; exact hl)
    · intro y hy
      rcases List.mem_cons.1 hy with rfl | hy
      · exact h1.2.1 _ _ _ hx
      · exact h1.2.2 y hy

theorem collect_total (ds : List (DirFirst D K)) (s : DirSets D × Nat)
    (hd : ∀ f ∈ ds, ∀ x ∈ f.second, x.directions ≠ []) (hs : ∀ n m l, s.1 n m = some l → l ≠ []) :
    let r := ds.foldl (fun s f => f.second.foldl (addPairDirs f.number f.direction) s) s
    (∀ n m l, r.1 n m = some l → l ≠ []) ∧
    (∀ n m l, s.1 n m = some l → ∃ l', r.1 n m = some l') ∧
    ∀ k ∈ pairKeys ds, ∃ l, r.1 k.1 k.2 = some l := by
  induction ds generalizing s with
  | nil => exact ⟨hs, fun n m l h => ⟨l, h⟩, by simp [pairKeys]⟩
  | cons f ds ih =>
    have h0 := addPairDirs_total f.number f.direction f.second s (hd f (by simp)) hs
    have h1 := ih (f.second.foldl (addPairDirs f.number f.direction) s)
      (fun g hg => hd g (by simp [hg])) h0.1
    refine ⟨h1.1, ?_, ?_⟩
    · intro n m l hl
      obtain ⟨l', hl'⟩ := h0.2.1 n m l hl
      exact h1.2.1 n m l' hl'
    · intro k hk
      have hk : k ∈ f.second.map (fun s => (f.number, s.number)) ∨ k ∈ pairKeys ds := by
        simpa [pairKeys] using hk
      rcases hk with hk | hk
      · obtain ⟨x, hx, rfl⟩ := List.mem_map.1 hk
        obtain ⟨l, hl⟩ := h0.2.2 x hx
        exact h1.2.1 _ _ l hl
      · exact h1.2.2 k hk

/-- **C48**. If every listed second atom has a direction, the conversion succeeds. -/
theorem C48_total [LT K] [DecidableLT K] (cart : D → V) (natom : Nat) (cutoff : Option K)
    (dirs : List (DirFirst D K)) (hd : ∀ f ∈ dirs, ∀ x ∈ f.second, x.directions ≠ []) :
    ∃ ds, directionToDisplacement cart natom cutoff dirs = some ds := by
  have ht := collect_total dirs ((fun _ _ => none), dirs.length + 1) hd (by simp)
  have h1 : ∀ (ks : List (Nat × Nat)) (s : Option (List (Nat × Nat) × List (Nat × Nat))),
      s.isSome → (∀ k ∈ ks, ∃ l, (collectDirSets dirs).1 k.1 k.2 = some l) →
      (ks.foldl (flippedStep (collectDirSets dirs).1) s).isSome := by
    intro ks
    induction ks with
    | nil => intro s hs _; exact hs
    | cons k ks ih =>
      intro s hs hk
      rw [List.foldl_cons]
      apply ih _ _ (fun k' hk' => hk k' (by simp [hk']))
      obtain ⟨s0, rfl⟩ := Option.isSome_iff_exists.1 hs
      obtain ⟨l, hl⟩ := hk k (by simp)
      simp only [flippedStep, Option.bind_some]
      cases hb : (collectDirSets dirs).1 k.2 k.1 with
      | none => rfl
      | some back =>
        simp only []
        split
        · rw [hl, Option.bind_some, compareFlipped, if_neg (ht.1 _ _ _ hb)]
          rfl
        · rfl
  have h2 : ∀ (ks : List (Nat × Nat)) (s : Option (List Nat × List (Nat × Nat))),
      s.isSome → (∀ k ∈ ks, ∃ l, (collectDirSets dirs).1 k.1 k.2 = some l) →
      (ks.foldl (oppositeStep (collectDirSets dirs).1) s).isSome := by
    intro ks
    induction ks with
    | nil => intro s hs _; exact hs
    | cons k ks ih =>
      intro s hs hk
      rw [List.foldl_cons]
      apply ih _ _ (fun k' hk' => hk k' (by simp [hk']))
      obtain ⟨s0, rfl⟩ := Option.isSome_iff_exists.1 hs
      obtain ⟨l, hl⟩ := hk k (by simp)
      simp only [oppositeStep, Option.bind_some]
      split
      · rename_i hc
        rw [← hc.1] at hl
        rw [hl, Option.bind_some, compareOpposite, if_neg (ht.1 _ _ _ hl)]
        rfl
      · rfl
  obtain ⟨s, hs⟩ := Option.isSome_iff_exists.1 (h1 (pairKeys dirs) (some ([], [])) rfl ht.2.2)
  obtain ⟨t, ht'⟩ := Option.isSome_iff_exists.1 (h2 (pairKeys dirs) (some ([], s.2)) rfl ht.2.2)
  refine ⟨⟨natom, t.2, cutoff, stampFirst cart cutoff 0 (dirs.length + 1) dirs⟩, ?_⟩
  unfold directionToDisplacement findDuplicates
  simp only [hs, ht', Option.bind_some, Option.map_some]

end Total

/-- Directions for one atom at a site without symmetry: displacements along `+x` and `-x`, second
displacements of the same atom along `+x`, `-x`. -/
def examplePlusMinus : List (DirFirst ℤ ℚ) :=
  [⟨0, 1, [⟨0, 0, [1, -1]⟩]⟩, ⟨0, -1, [⟨0, 0, [1, -1]⟩]⟩]

/-- **C85**, what fails. With a plus and a minus displacement of the same atom the supercells in
which this atom is displaced twice in the same direction are reported as duplicates of the
undisplaced supercell. -/
theorem C85_not_undisplaced :
    ∃ ds, directionToDisplacement (fun d : ℤ => (d : ℚ)) 1 none examplePlusMinus = some ds ∧
      (3, 0) ∈ ds.duplicates ∧ (6, 0) ∈ ds.duplicates ∧
      ∃ e ∈ displacedCells ds, e.id = 3 ∧ e.field 0 = 2 := by
  have hdup : findDuplicates examplePlusMinus = some [(6, 0), (4, 0), (5, 0), (3, 0)] := by
    decide +kernel
  refine ⟨⟨1, [(6, 0), (4, 0), (5, 0), (3, 0)], none,
    stampFirst (fun d : ℤ => (d : ℚ)) none 0 3 examplePlusMinus⟩, ?_, by simp, by simp, ?_⟩
  · unfold directionToDisplacement
    rw [hdup]
    rfl
  · refine ⟨⟨3, true, fun k => oneAtom 0 ((1 : ℤ) : ℚ) k + oneAtom 0 ((1 : ℤ) : ℚ) k, none⟩, ?_, rfl,
      ?_⟩
    · simp [displacedCells, examplePlusMinus, stampFirst, stampSecond, stampDirections]
    · norm_num [oneAtom]

/-- Two first atoms and pairs between them, one of them beyond a cutoff of 2. -/
def exampleDirs : List (DirFirst ℤ ℚ) :=
  [⟨0, 1, [⟨0, 0, [1, -1]⟩, ⟨1, 1, [1]⟩]⟩, ⟨1, 1, [⟨0, 1, [1]⟩, ⟨2, 3, [1, -1]⟩]⟩]

/-- The dataset for `exampleDirs`. -/
def exampleDataset : DispDataset ℚ ℚ :=
  ⟨3, [(6, 5), (4, 0)], some 2, stampFirst (fun d : ℤ => (d : ℚ)) (some 2) 0 3 exampleDirs⟩

theorem exampleDataset_eq :
    directionToDisplacement (fun d : ℤ => (d : ℚ)) 3 (some 2) exampleDirs = some exampleDataset := by
  have : findDuplicates exampleDirs = some [(6, 5), (4, 0)] := by decide +kernel
  unfold directionToDisplacement
  rw [this]
  rfl

/-- Hypotheses of `C48_ids`, `C48_requested`, `C48_files`, `C85_pairs` and
`C85_undisplaced_partial` are met: eight displacements, of which the last two are excluded. -/
example : (displacedCells exampleDataset).map (fun e => (e.id, e.included)) =
      [(1, true), (2, true), (3, true), (4, true), (5, true), (6, true), (7, false), (8, false)] ∧
    (6, 5) ∈ exampleDataset.duplicates ∧ (4, 0) ∈ exampleDataset.duplicates ∧
    (exampleDirs.map (fun f => f.number)).Nodup ∧
    ((displacedCells exampleDataset).map (fun e => e.field 0)) = [1, 0, 2, 0, 1, 1, 0, 0] ∧
    ((displacedCells exampleDataset).map (fun e => e.field 1)) = [0, 1, 0, 0, 1, 1, 1, 1] := by
  decide +kernel

/-- Hypotheses of `C48_total`. -/
example : ∀ f ∈ exampleDirs, ∀ x ∈ f.second, x.directions ≠ [] := by decide +kernel

/-- Hypotheses of `C45_round_trip`: forces for the six included supercells of three atoms. -/
example : 0 < exampleDataset.natom ∧
    ([[1, 2, 3], [4, 5, 6], [7, 8, 9], [1, 1, 1], [2, 2, 2], [3, 3, 3]] : List (List ℚ)).length =
      ((displacedCells exampleDataset).filter (fun e => e.included)).length ∧
    ∀ g ∈ ([[1, 2, 3], [4, 5, 6], [7, 8, 9], [1, 1, 1], [2, 2, 2], [3, 3, 3]] : List (List ℚ)),
      g.length = exampleDataset.natom := by decide +kernel

/-- The file written for these forces and what is read back, forces of the fifth and seventh
supercell. -/
example : ∃ file ds', writeForcesFc3 id exampleDataset
      (some [[1, 2, 3], [4, 5, 6], [7, 8, 9], [1, 1, 1], [2, 2, 2], [3, 3, 3]]) = some file ∧
    parseForcesFc3 none exampleDataset file = some ds' ∧
    ((displacedCells ds').map (fun e => e.forces))[4]? = some (some [2, 2, 2]) ∧
    ((displacedCells ds').map (fun e => e.forces))[6]? = some (some [0, 0, 0]) := by
  refine ⟨_, _, rfl, rfl, ?_, ?_⟩ <;> decide +kernel

/-- Hypotheses of `C45_truncated` and `C46_short_file_partial`: a file with one force line. -/
example : (forceRows [ForceLine.row (1 : ℚ)]).length <
      (displacedCells exampleDataset).length * exampleDataset.natom ∧
    (forceRows [ForceLine.row (1 : ℚ)]).length <
      exampleDataset.first.length * exampleDataset.natom := by decide +kernel

/-- Hypotheses of `C50_round_trip` and `C46_round_trip`. -/
example : exampleDataset.first ≠ [] ∧
    (List.replicate 8 [(1 : ℚ), 2, 3]).length = (displacedCells exampleDataset).length ∧
    (List.replicate 2 [(1 : ℚ), 2, 3]).length = exampleDataset.first.length ∧
    ∀ v ∈ List.replicate 8 [(1 : ℚ), 2, 3], v.length = 3 := by
  refine ⟨by simp [exampleDataset, exampleDirs, stampFirst], ?_, ?_, ?_⟩ <;> decide +kernel

/-- A dataset with pairs on distinct atoms, forces for all. -/
def exampleDistinct : DispDataset ℚ ℚ :=
  ⟨2, [], none, [⟨1, 0, 1, some [1, 2], none, [⟨2, 1, 1, 1, none, some [3, 4], none⟩,
    ⟨3, 1, -1, 1, some false, some [0, 0], none⟩]⟩]⟩

/-- Hypotheses of `C49_rows_partial`, `C45_stored` and `C49_getter_drops_first`. -/
example : DistinctPairs exampleDistinct ∧ exampleDistinct.first ≠ [] ∧
    (displacedCells exampleDistinct).map (fun e => e.forces) =
      [some [1, 2], some [3, 4], some [0, 0]] ∧
    (displacedCells exampleDistinct).map (fun e => e.included) = [true, true, false] ∧
    ∃ d1 ∈ exampleDistinct.first, ∃ d2 ∈ d1.second, d1.number ≠ d2.number ∧
      d1.displacement ≠ 0 := by
  refine ⟨?_, by simp [exampleDistinct], by decide +kernel, by decide +kernel, ?_⟩
  · intro d1 h1 d2 h2
    simp only [exampleDistinct, List.mem_singleton] at h1
    subst h1
    simp only [List.mem_cons, List.not_mem_nil, or_false] at h2
    rcases h2 with rfl | rfl <;> simp
  · exact ⟨_, List.mem_singleton.2 rfl, _, List.mem_cons_self, by simp, by simp⟩

end Phono3py.Props
