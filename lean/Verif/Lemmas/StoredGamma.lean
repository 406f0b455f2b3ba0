import Verif.Model.StoredGamma
import Verif.Props.FileName
import Verif.Spec.StoredGamma

/-!
# Assignment, names and directories
-/

namespace Phono3py

open Phono3py.Props Phono3py.Spec

variable {K F : Type}

/-! ### Assignment -/

theorem fitsRev_append (l m : List Nat) : fitsRev l (l ++ m) = true := by
  induction l with
  | nil => rfl
  | cons s l ih => simp [fitsRev, ih]

theorem indexRev_append {idx l : List Nat} (h : List.Forall₂ (· < ·) idx l) (m : List Nat) :
    indexRev l (idx ++ m) = idx := by
  induction h with
  | nil => rfl
  | @cons i s idx l hi _ ih =>
    simp only [List.cons_append, indexRev, ih]
    split
    · rename_i h1; subst h1
      rw [Nat.lt_one_iff.1 hi]
    · rfl

theorem reverse_lt {idx l : List Nat} (h : List.Forall₂ (· < ·) idx l) :
    List.Forall₂ (· < ·) idx.reverse l.reverse := List.rel_reverse h

/-- An array assigned to a region of its own shape. -/
theorem assign_same (a : NdArr K) (dst : List Nat) (h : a.dims = dst) :
    ∃ v, a.assign dst = some v ∧ ∀ idx, List.Forall₂ (· < ·) idx dst → v idx = a.val idx := by
  subst h
  have h0 := fitsRev_append a.dims.reverse []
  rw [List.append_nil] at h0
  refine ⟨_, by unfold NdArr.assign; rw [h0, if_pos rfl], ?_⟩
  intro idx hidx
  have := indexRev_append (reverse_lt hidx) []
  rw [List.append_nil] at this
  rw [this, List.reverse_reverse]

/-- An array assigned to a region with one more leading axis: repeated along this axis. -/
theorem assign_repeat (a : NdArr K) (n : Nat) :
    ∃ v, a.assign (n :: a.dims) = some v ∧
      ∀ t idx, List.Forall₂ (· < ·) idx a.dims → v (t :: idx) = a.val idx := by
  have h0 := fitsRev_append a.dims.reverse [n]
  rw [← List.reverse_cons] at h0
  refine ⟨_, by unfold NdArr.assign; rw [h0, if_pos rfl], ?_⟩
  intro t idx hidx
  have := indexRev_append (reverse_lt hidx) [t]
  rw [List.reverse_cons, this, List.reverse_reverse]

/-! ### Names and directories -/

theorem pieceName_inj {kind : List Char} {r : StoreArgs} (hr : Separate r) {s s' : Option ℚ}
    {g g' b b' : Option Nat} (hs : s ∈ r.sigmas) (hs' : s' ∈ r.sigmas)
    (h : pieceName kind r s g b = pieceName kind r s' g' b') :
    g = g' ∧ b = b' ∧ WithinMillionth s s' := by
  obtain ⟨-, h1, h2, h3, -⟩ := C47_distinct_partial kind
    { mesh := r.mesh, gridPoint := g, bands := b.map (fun b => [b]), sigma := s,
      cutoff := r.cutoff, name := r.name }
    { mesh := r.mesh, gridPoint := g', bands := b'.map (fun b => [b]), sigma := s',
      cutoff := r.cutoff, name := r.name }
    ⟨hr.sigma_nonneg s hs, hr.cutoff_nonneg, by simp⟩
    ⟨hr.sigma_nonneg s' hs', hr.cutoff_nonneg, by simp⟩ rfl ⟨rfl, rfl, rfl⟩ h
  refine ⟨h1, ?_, h3⟩
  cases b <;> cases b' <;> simp at h2 ⊢
  exact h2

theorem keyName_inj {kind : List Char} {r : StoreArgs} (hr : Separate r) {j j' : Nat} {p p' : Piece}
    {n : List Char} (h : keyName kind r j p = some n) (h' : keyName kind r j' p' = some n) :
    j = j' ∧ p = p' := by
  unfold keyName at h h'
  obtain ⟨s, hs, h⟩ := Option.bind_eq_some_iff.1 h
  obtain ⟨s', hs', h'⟩ := Option.bind_eq_some_iff.1 h'
  have hm := List.mem_of_getElem? hs
  have hm' := List.mem_of_getElem? hs'
  have hgp : ∀ {i i' g : Nat}, r.gridPoints[i]? = some g → r.gridPoints[i']? = some g → i = i' := by
    intro i i' g h1 h2
    have hi := (List.getElem?_eq_some_iff.1 h1).1
    exact (List.getElem?_inj hi hr.points).1 (h1.trans h2.symm)
  cases p with
  | all =>
    cases p' with
    | all =>
      simp only [Option.some.injEq] at h h'
      obtain ⟨-, -, h3⟩ := pieceName_inj hr hm hm' (h.trans h'.symm)
      exact ⟨hr.sigma_apart _ _ _ _ hs hs' h3, rfl⟩
    | point i' =>
      obtain ⟨g', -, h'⟩ := Option.map_eq_some_iff.1 h'
      simp only [Option.some.injEq] at h
      obtain ⟨h1, -⟩ := pieceName_inj hr hm hm' (h.trans h'.symm)
      simp at h1
    | band i' b' =>
      obtain ⟨g', -, h'⟩ := Option.map_eq_some_iff.1 h'
      simp only [Option.some.injEq] at h
      obtain ⟨h1, -⟩ := pieceName_inj hr hm hm' (h.trans h'.symm)
      simp at h1
  | point i =>
    obtain ⟨g, hg, h⟩ := Option.map_eq_some_iff.1 h
    cases p' with
    | all =>
      simp only [Option.some.injEq] at h'
      obtain ⟨h1, -⟩ := pieceName_inj hr hm hm' (h.trans h'.symm)
      simp at h1
    | point i' =>
      obtain ⟨g', hg', h'⟩ := Option.map_eq_some_iff.1 h'
      obtain ⟨h1, -, h3⟩ := pieceName_inj hr hm hm' (h.trans h'.symm)
      simp only [Option.some.injEq] at h1
      subst h1
      exact ⟨hr.sigma_apart _ _ _ _ hs hs' h3, by rw [hgp hg hg']⟩
    | band i' b' =>
      obtain ⟨g', -, h'⟩ := Option.map_eq_some_iff.1 h'
      obtain ⟨-, h1, -⟩ := pieceName_inj hr hm hm' (h.trans h'.symm)
      simp at h1
  | band i b =>
    obtain ⟨g, hg, h⟩ := Option.map_eq_some_iff.1 h
    cases p' with
    | all =>
      simp only [Option.some.injEq] at h'
      obtain ⟨h1, -⟩ := pieceName_inj hr hm hm' (h.trans h'.symm)
      simp at h1
    | point i' =>
      obtain ⟨g', -, h'⟩ := Option.map_eq_some_iff.1 h'
      obtain ⟨-, h1, -⟩ := pieceName_inj hr hm hm' (h.trans h'.symm)
      simp at h1
    | band i' b' =>
      obtain ⟨g', hg', h'⟩ := Option.map_eq_some_iff.1 h'
      obtain ⟨h1, h2, h3⟩ := pieceName_inj hr hm hm' (h.trans h'.symm)
      simp only [Option.some.injEq] at h1 h2
      subst h1 h2
      exact ⟨hr.sigma_apart _ _ _ _ hs hs' h3, by rw [hgp hg hg']⟩

theorem holds_put {kind : List Char} {r : StoreArgs} (hr : Separate r)
    {good : Nat → Piece → F → Prop} {d : Disk F} (h : Holds kind r good d) {j : Nat} {p : Piece}
    {n : List Char} {f : F} (hn : keyName kind r j p = some n) (hf : good j p f) :
    Holds kind r good (d.put n f) := by
  intro j' p' n' f' hn' hf'
  unfold Disk.put at hf'
  split at hf'
  · rename_i he
    subst he
    obtain ⟨rfl, rfl⟩ := keyName_inj hr hn hn'
    simp only [Option.some.injEq] at hf'
    subst hf'
    exact hf
  · exact h j' p' n' f' hn' hf'

theorem present_put {kind : List Char} {r : StoreArgs} {d : Disk F} {j : Nat} {p : Piece}
    (h : Present kind r d j p) (n : List Char) (f : F) : Present kind r (d.put n f) j p := by
  obtain ⟨m, hm, hd⟩ := h
  refine ⟨m, hm, ?_⟩
  unfold Disk.put
  split
  · rfl
  · exact hd

theorem present_self {kind : List Char} {r : StoreArgs} {d : Disk F} {j : Nat} {p : Piece}
    {n : List Char} (hn : keyName kind r j p = some n) (f : F) :
    Present kind r (d.put n f) j p := ⟨n, hn, by simp [Disk.put]⟩

/-- Induction along a fold. -/
theorem foldl_keep {A B : Type} {P : A → Prop} (f : A → B → A) (l : List B) (a : A) (h : P a)
    (hstep : ∀ a, ∀ x ∈ l, P a → P (f a x)) : P (l.foldl f a) := by
  induction l generalizing a with
  | nil => exact h
  | cons x l ih =>
    exact ih (f a x) (hstep a x (by simp) h) (fun a y hy => hstep a y (by simp [hy]))

theorem foldl_reach {A B : Type} {P : A → Prop} (f : A → B → A) (l : List B) (a : A) (x : B)
    (hx : x ∈ l) (hset : ∀ a, P (f a x)) (hstep : ∀ a, ∀ y ∈ l, P a → P (f a y)) :
    P (l.foldl f a) := by
  induction l generalizing a with
  | nil => simp at hx
  | cons y l ih =>
    rw [List.foldl_cons]
    rcases List.mem_cons.1 hx with rfl | hx
    · exact foldl_keep f l _ (hset a) (fun a z hz => hstep a z (by simp [hz]))
    · exact ih (f a y) hx (fun a z hz => hstep a z (by simp [hz]))

theorem zipIdx_getElem? {A : Type} {l : List A} {x : A × Nat} (h : x ∈ l.zipIdx) :
    l[x.2]? = some x.1 := by
  rw [List.mem_zipIdx_iff_getElem?] at h
  exact h

end Phono3py
