/- Type 2 transposition, half translations and subtraction of drifts. -/
import Mathlib.Algebra.BigOperators.Ring.Finset
import Mathlib.Algebra.BigOperators.Field
import Mathlib.Tactic.FieldSimp
import Verif.Lemmas.Adds
import Verif.Lemmas.Transpose

namespace Phono3py

open Spec

variable {K : Type _} [Field K] [LinearOrder K] [IsStrictOrderedRing K]
set_option linter.unusedSectionVars false

/-! ### Translations -/

theorem trans_left_inv {m : CompactMaps} (hm : m.Ok) {a k : Nat} (ha : a < m.nSatom)
    (hk : k < m.nSatom) :
    m.trans (m.trans a (m.p2s (m.s2pp a))) (m.trans a k) = k := by
  have hc := hm.cls_lt a ha
  rw [hm.move_move a ha _ (hm.rep_lt _ hc) k hk, hm.move_rep _ hc k hk]

theorem trans_inj {m : CompactMaps} (hm : m.Ok) {a k l : Nat} (ha : a < m.nSatom)
    (hk : k < m.nSatom) (hl : l < m.nSatom) (h : m.trans a k = m.trans a l) : k = l := by
  rw [← trans_left_inv hm ha hk, h, trans_left_inv hm ha hl]

/-- Translations that agree on one atom and come from one class are the same. -/
theorem trans_eq {m : CompactMaps} (hm : m.Ok) {a b k : Nat} (ha : a < m.nSatom)
    (hb : b < m.nSatom) (hk : k < m.nSatom) (h : m.trans a k = m.trans b k) :
    ∀ l < m.nSatom, m.trans a l = m.trans b l := by
  intro l hl
  have hinv : ∀ c < m.nSatom, m.trans k l = m.trans (m.trans c k) (m.trans c l) := fun c hc =>
    (hm.move_move c hc k hk l hl).symm
  have h1 := hinv a ha
  have h2 := hinv b hb
  rw [h] at h1
  exact trans_inj hm (hm.move_lt b hb k hk) (hm.move_lt a ha l hl) (hm.move_lt b hb l hl)
    (h1.symm.trans h2)

theorem halfPair_iff {m : CompactMaps} (hm : m.Ok) {r o : Fin 3} {s : Equiv.Perm (Fin 3)}
    (hs0 : s 0 = r) (hsr : s r = 0) (hso : s o = o) {x : Legs} (hx : Legs.Valid m.nSatom x) :
    HalfPair m r o s x ↔ (x 0).1 ≠ (x r).1 ∧ m.s2pp (x 0).1 = m.s2pp (x r).1 ∧
      m.trans (x 0).1 (x r).1 = m.trans (x r).1 (x 0).1 := by
  unfold HalfPair CompactMaps.row CompactMaps.col
  simp only [Function.comp, hs0, hsr, hso]
  constructor
  · rintro ⟨h1, h2⟩
    obtain ⟨h3, h4⟩ := digits2 (hm.move_lt _ (hx 0).1 _ (hx r).1)
      (hm.move_lt _ (hx r).1 _ (hx 0).1) h1
    exact ⟨fun h => h2 (by rw [h]), h3, h4⟩
  · rintro ⟨h1, h2, h3⟩
    refine ⟨by rw [h2, h3], ?_⟩
    intro h4
    have h5 := trans_eq hm (hx 0).1 (hx r).1 (hx o).1 h4 _ (hx 0).1
    rw [hm.move_self _ (hx 0).1, h2, ← hm.move_self _ (hx r).1] at h5
    exact h1 (trans_inj hm (hx r).1 (hx r).1 (hx 0).1 h5).symm

/-! ### Type 2 -/

/-- Loops `i_p`, `j`, `k >= j`. -/
def type2Triples (m : CompactMaps) : List (Nat × Nat × Nat) :=
  loop m.nPatom fun ip => loop m.nSatom fun j =>
    (List.range' j (m.nSatom - j)).map fun k => (ip, j, k)

theorem mem_type2Triples {m : CompactMaps} {t : Nat × Nat × Nat} :
    t ∈ type2Triples m ↔ t.1 < m.nPatom ∧ t.2.1 ≤ t.2.2 ∧ t.2.2 < m.nSatom := by
  obtain ⟨a, b, c⟩ := t
  simp only [type2Triples, mem_loop, List.mem_map, List.mem_range', one_mul, Prod.mk.injEq]
  constructor
  · rintro ⟨i, hi, j, hj, k, ⟨q, hq, rfl⟩, rfl, rfl, rfl⟩
    omega
  · rintro ⟨h1, h2, h3⟩
    exact ⟨a, by omega, b, by omega, c, ⟨c - b, by omega, by omega⟩, rfl, rfl, rfl⟩

theorem nodup_type2Triples (m : CompactMaps) : (type2Triples m).Nodup := by
  unfold type2Triples loop
  rw [List.nodup_flatMap]
  refine ⟨fun ip _ => ?_, ?_⟩
  · rw [List.nodup_flatMap]
    refine ⟨fun j _ => ?_, ?_⟩
    · refine List.Nodup.map ?_ List.nodup_range'
      intro k k' h
      simpa using h
    · refine List.Pairwise.imp ?_ List.nodup_range
      intro j j' hjj
      rw [Function.onFun, List.disjoint_left]
      intro t h1 h2
      simp only [List.mem_map] at h1 h2
      obtain ⟨k, -, rfl⟩ := h1
      obtain ⟨k', -, h⟩ := h2
      simp only [Prod.mk.injEq] at h
      exact hjj h.2.1.symm
  · refine List.Pairwise.imp ?_ List.nodup_range
    intro j j' hjj
    rw [Function.onFun, List.disjoint_left]
    intro t h1 h2
    simp only [List.mem_flatMap, List.mem_map] at h1 h2
    obtain ⟨k, -, q, -, rfl⟩ := h1
    obtain ⟨k', -, q', -, h⟩ := h2
    simp only [Prod.mk.injEq] at h
    exact hjj h.1.symm

theorem xor_fold_not {α : Type _} [DecidableEq α] (a : α) (l : List α) (h : a ∉ l) :
    ∀ p : Bool, l.foldl (fun q t => xor q (decide (t = a))) p = p := by
  induction l with
  | nil => simp
  | cons b l ih =>
    intro p
    have h1 : ¬ b = a := fun e => h (by simp [e])
    rw [List.foldl_cons, ih (fun e => h (by simp [e]))]
    simp [h1]

theorem xor_fold {α : Type _} [DecidableEq α] (a : α) (l : List α) (hl : l.Nodup) (h : a ∈ l) :
    ∀ p : Bool, l.foldl (fun q t => xor q (decide (t = a))) p = !p := by
  induction l with
  | nil => simp at h
  | cons b l ih =>
    intro p
    rw [List.foldl_cons]
    have hb := List.nodup_cons.mp hl
    by_cases e : b = a
    · subst e
      rw [xor_fold_not b l hb.1]
      simp
    · rw [ih hb.2 ((List.mem_cons.mp h).resolve_left fun e' => e e'.symm)]
      simp [e]

theorem type2_fold {m : CompactMaps} (hm : m.Ok) (A0 : Int → K) (ts : List (Nat × Nat × Nat))
    (hts : ∀ t ∈ ts, t.1 < m.nPatom ∧ t.2.1 ≤ t.2.2 ∧ t.2.2 < m.nSatom) :
    ∀ (A : Int → K) (par : Legs → Bool), SwapInv m (Equiv.swap 1 2) A0 A par →
      ∃ par', SwapInv m (Equiv.swap 1 2) A0 (ts.foldl (fun fc3 t =>
        swapBlocks (fun c => (c.1, c.2.2, c.2.1)) fc3
        ((t.1 * m.nSatom * m.nSatom + t.2.1 * m.nSatom + t.2.2) * 27)
        ((t.1 * m.nSatom * m.nSatom + t.2.2 * m.nSatom + t.2.1) * 27)) A) par' ∧
      ∀ x, Legs.Valid m.nSatom x → par' x = ts.foldl (fun q t => xor q (decide (t =
        (m.s2pp (x 0).1, min (m.trans (x 0).1 (x 1).1) (m.trans (x 0).1 (x 2).1),
          max (m.trans (x 0).1 (x 1).1) (m.trans (x 0).1 (x 2).1))))) (par x) := by
  induction ts with
  | nil => intro A par hI; exact ⟨par, hI, fun _ _ => rfl⟩
  | cons t ts ih =>
    intro A par hI
    obtain ⟨h1, h2, h3⟩ := hts t (by simp)
    have hlt : t.2.1 < m.nSatom := by omega
    let y : Legs := ![(m.p2s t.1, 0), (t.2.1, 0), (t.2.2, 0)]
    have hy : Legs.Valid m.nSatom y := by
      intro q; fin_cases q
      · exact ⟨hm.rep_lt _ h1, Nat.zero_lt_succ 2⟩
      · exact ⟨hlt, Nat.zero_lt_succ 2⟩
      · exact ⟨h3, Nat.zero_lt_succ 2⟩
    have e1 : m.block y * 27 = (t.1 * m.nSatom * m.nSatom + t.2.1 * m.nSatom + t.2.2) * 27 := by
      show ((m.s2pp (m.p2s t.1) * m.nSatom + m.trans (m.p2s t.1) t.2.1) * m.nSatom +
        m.trans (m.p2s t.1) t.2.2) * 27 = _
      rw [hm.cls_rep _ h1, hm.move_rep _ h1 _ hlt, hm.move_rep _ h1 _ h3]
      ring
    have e2 : m.block (y ∘ (Equiv.swap 1 2)) * 27 =
        (t.1 * m.nSatom * m.nSatom + t.2.2 * m.nSatom + t.2.1) * 27 := by
      show ((m.s2pp (m.p2s t.1) * m.nSatom + m.trans (m.p2s t.1) t.2.2) * m.nSatom +
        m.trans (m.p2s t.1) t.2.1) * 27 = _
      rw [hm.cls_rep _ h1, hm.move_rep _ h1 _ hlt, hm.move_rep _ h1 _ h3]
      ring
    have hI' := swapInv_step hm (Equiv.swap 1 2) (by decide) (fun c => (c.1, c.2.2, c.2.1))
      (fun c hc => by
        obtain ⟨g0, g1, g2⟩ := mem_cart27.mp hc
        exact mem_cart27.mpr ⟨g0, g2, g1⟩) (fun _ => rfl) (fun _ => rfl) A0 A par hI y hy
    rw [e1, e2] at hI'
    obtain ⟨par', k1, k2⟩ := ih (fun t' ht' => hts t' (by simp [ht'])) _ _ hI'
    refine ⟨par', k1, ?_⟩
    intro x hx
    rw [k2 x hx, List.foldl_cons]
    congr 2
    apply decide_eq_decide.mpr
    have hby : m.block y = (t.1 * m.nSatom + t.2.1) * m.nSatom + t.2.2 := by
      have : m.block y * 27 = ((t.1 * m.nSatom + t.2.1) * m.nSatom + t.2.2) * 27 := by
        rw [e1]; ring
      omega
    have c1 : m.trans (x 0).1 (x 1).1 < m.nSatom := hm.move_lt _ (hx 0).1 _ (hx 1).1
    have c2 : m.trans (x 0).1 (x 2).1 < m.nSatom := hm.move_lt _ (hx 0).1 _ (hx 2).1
    have hbx : m.block x = (m.s2pp (x 0).1 * m.nSatom + m.trans (x 0).1 (x 1).1) * m.nSatom +
      m.trans (x 0).1 (x 2).1 := rfl
    have hbx' : m.block (x ∘ (Equiv.swap 1 2)) =
      (m.s2pp (x 0).1 * m.nSatom + m.trans (x 0).1 (x 2).1) * m.nSatom +
      m.trans (x 0).1 (x 1).1 := rfl
    rw [hby, hbx, hbx']
    generalize m.trans (x 0).1 (x 1).1 = p at c1 ⊢
    generalize m.trans (x 0).1 (x 2).1 = q at c2 ⊢
    generalize m.s2pp (x 0).1 = w
    obtain ⟨t0, t1, t2⟩ := t
    simp only [Prod.mk.injEq] at *
    constructor
    · rintro (h | h)
      · obtain ⟨h, g2⟩ := digits2 c2 h3 h
        obtain ⟨g0, g1⟩ := digits2 c1 hlt h
        exact ⟨g0.symm, by omega, by omega⟩
      · obtain ⟨h, g2⟩ := digits2 c1 h3 h
        obtain ⟨g0, g1⟩ := digits2 c2 hlt h
        exact ⟨g0.symm, by omega, by omega⟩
    · rintro ⟨g0, g1, g2⟩
      rcases le_total p q with hpq | hpq
      · left
        rw [min_eq_left hpq] at g1
        rw [max_eq_right hpq] at g2
        rw [g0, g1, g2]
      · right
        rw [min_eq_right hpq] at g1
        rw [max_eq_left hpq] at g2
        rw [g0, g1, g2]

theorem transpose2_value {m : CompactMaps} (hm : m.Ok) (A : Int → K) :
    (∀ x, Legs.Valid m.nSatom x → transposeCompactType2 m A (m.pos x) =
      A (m.pos (x ∘ (Equiv.swap 1 2)))) ∧
    ∀ p, (∀ x, Legs.Valid m.nSatom x → m.pos x ≠ p) → transposeCompactType2 m A p = A p := by
  obtain ⟨par, hS, hpar⟩ := type2_fold hm A (type2Triples m)
    (fun t ht => mem_type2Triples.mp ht) A (fun _ => false)
    ⟨fun _ _ => rfl, fun _ _ => rfl, fun _ _ => rfl⟩
  refine ⟨?_, fun p hp => hS.2.2 p hp⟩
  intro x hx
  have e := hS.1 x hx
  have c1 : m.trans (x 0).1 (x 1).1 < m.nSatom := hm.move_lt _ (hx 0).1 _ (hx 1).1
  have c2 : m.trans (x 0).1 (x 2).1 < m.nSatom := hm.move_lt _ (hx 0).1 _ (hx 2).1
  have hp : par x = true := by
    rw [hpar x hx, xor_fold _ _ (nodup_type2Triples m)]
    · rfl
    · rw [mem_type2Triples]
      refine ⟨hm.cls_lt _ (hx 0).1, ?_, ?_⟩ <;> dsimp only <;> omega
  rw [hp] at e
  exact e

/-! ### Drifts -/

/-- Atoms in range of an array of shape `(n0, n, n, 3, 3, 3)`. -/
def InShape (n0 n : Nat) (x : Legs) : Prop :=
  (x 0).1 < n0 ∧ (x 1).1 < n ∧ (x 2).1 < n ∧ ∀ s, (x s).2 < 3

theorem InShape.slot {n0 n : Nat} {x : Legs} (hx : InShape n0 n x) : Slot n x :=
  ⟨hx.2.1, hx.2.2.1, hx.2.2.2⟩

/-- Indices `(i, j, k, ll, m)` of the loops for the line through `x` along leg `s`. -/
def lineKey (s : Fin 3) (x : Legs) : Nat × Nat × Nat × Nat × Nat :=
  ((x (s + 1)).1, (x (s + 2)).1, (x 0).2, (x 1).2, (x 2).2)

theorem setAtom_self (x : Legs) (s : Fin 3) : setAtom x s (x s).1 = x := by
  unfold setAtom
  exact Function.update_eq_self s x

theorem inShape_set {n0 n : Nat} {x : Legs} (hx : InShape n0 n x) (s : Fin 3) {a : Nat}
    (ha : a < fc3Shape n0 n s) : InShape n0 n (setAtom x s a) := by
  have h3 : ∀ q, ((setAtom x s a) q).2 < 3 := by
    intro q
    unfold setAtom
    by_cases h : q = s
    · subst h; simp [hx.2.2.2 q]
    · simp [Function.update_of_ne h, hx.2.2.2 q]
  obtain ⟨h0, h1, h2, -⟩ := hx
  fin_cases s
  · exact ⟨ha, h1, h2, h3⟩
  · exact ⟨h0, ha, h2, h3⟩
  · exact ⟨h0, h1, ha, h3⟩

theorem linePos_eq (n : Nat) (s : Fin 3) (x : Legs) (a : Nat) :
    linePos n s (lineKey s x) a = ((fc3Pos n (setAtom x s a) : Nat) : Int) := by
  have e0 : setAtom x 0 a = ![(a, (x 0).2), x 1, x 2] := by
    funext q; fin_cases q <;> rfl
  have e1 : setAtom x 1 a = ![x 0, (a, (x 1).2), x 2] := by
    funext q; fin_cases q <;> rfl
  have e2 : setAtom x 2 a = ![x 0, x 1, (a, (x 2).2)] := by
    funext q; fin_cases q <;> rfl
  fin_cases s
  · show fc3Adr n a (x 1).1 (x 2).1 (x 0).2 (x 1).2 (x 2).2 = ((fc3Pos n (setAtom x 0 a) : Nat) : Int)
    rw [e0, fc3Adr_eq]
  · show fc3Adr n (x 0).1 a (x 2).1 (x 0).2 (x 1).2 (x 2).2 = ((fc3Pos n (setAtom x 1 a) : Nat) : Int)
    rw [e1, fc3Adr_eq]
  · show fc3Adr n (x 0).1 (x 1).1 a (x 0).2 (x 1).2 (x 2).2 = ((fc3Pos n (setAtom x 2 a) : Nat) : Int)
    rw [e2, fc3Adr_eq]

/-- Every loop index is the line of some element. -/
def keyLegs (s : Fin 3) (c : Nat × Nat × Nat × Nat × Nat) : Legs :=
  if s = 0 then ![(0, c.2.2.1), (c.1, c.2.2.2.1), (c.2.1, c.2.2.2.2)]
  else if s = 1 then ![(c.2.1, c.2.2.1), (0, c.2.2.2.1), (c.1, c.2.2.2.2)]
  else ![(c.1, c.2.2.1), (c.2.1, c.2.2.2.1), (0, c.2.2.2.2)]

theorem lineKey_keyLegs (s : Fin 3) (c : Nat × Nat × Nat × Nat × Nat) :
    lineKey s (keyLegs s c) = c := by
  fin_cases s <;> rfl

/-- The line of `c` is inside the array. -/
def KeyOk (n0 n : Nat) (s : Fin 3) (c : Nat × Nat × Nat × Nat × Nat) : Prop :=
  c.1 < fc3Shape n0 n (s + 1 : Fin 3) ∧ c.2.1 < fc3Shape n0 n (s + 2 : Fin 3) ∧ c.2.2.1 < 3 ∧
    c.2.2.2.1 < 3 ∧ c.2.2.2.2 < 3

theorem keyLegs_shape {n0 n : Nat} {s : Fin 3} {c : Nat × Nat × Nat × Nat × Nat}
    (hc : KeyOk n0 n s c) {a : Nat} (ha : a < fc3Shape n0 n s) :
    InShape n0 n (setAtom (keyLegs s c) s a) := by
  obtain ⟨h1, h2, h3, h4, h5⟩ := hc
  fin_cases s
  · refine ⟨ha, h1, h2, ?_⟩
    intro q; fin_cases q
    · exact h3
    · exact h4
    · exact h5
  · refine ⟨h2, ha, h1, ?_⟩
    intro q; fin_cases q
    · exact h3
    · exact h4
    · exact h5
  · refine ⟨h1, h2, ha, ?_⟩
    intro q; fin_cases q
    · exact h3
    · exact h4
    · exact h5

theorem lineKey_set (s : Fin 3) (x : Legs) (a : Nat) : lineKey s (setAtom x s a) = lineKey s x := by
  fin_cases s <;> rfl

theorem subtractMean_value {n0 n : Nat} (s : Fin 3) (A : Int → K)
    {c : Nat × Nat × Nat × Nat × Nat} (hc : KeyOk n0 n s c) (x : Legs) (hx : InShape n0 n x) :
    subtractMean n0 n s A c ((fc3Pos n x : Nat) : Int) =
      if lineKey s x = c then A ((fc3Pos n x : Nat) : Int) -
        (∑ a ∈ Finset.range (fc3Shape n0 n s), A ((fc3Pos n (setAtom x s a) : Nat) : Int)) /
          (fc3Shape n0 n s : K)
      else A ((fc3Pos n x : Nat) : Int) := by
  have hval : subtractMean n0 n s A c = runWrites A (loop (fc3Shape n0 n s) fun a =>
      [(linePos n s c a, A (linePos n s c a) -
        (∑ a ∈ Finset.range (fc3Shape n0 n s), A (linePos n s c a)) / (fc3Shape n0 n s : K))]) := by
    unfold subtractMean
    simp only [sumLoop_eq]
  rw [hval]
  by_cases h : lineKey s x = c
  · rw [if_pos h]
    have hsa : (x s).1 < fc3Shape n0 n s := by
      obtain ⟨h0, h1, h2, -⟩ := hx
      fin_cases s
      · exact h0
      · exact h1
      · exact h2
    have hpx : ((fc3Pos n x : Nat) : Int) = linePos n s c (x s).1 := by
      rw [← h, linePos_eq, setAtom_self]
    have hsum : (∑ a ∈ Finset.range (fc3Shape n0 n s), A ((fc3Pos n (setAtom x s a) : Nat) : Int)) =
        ∑ a ∈ Finset.range (fc3Shape n0 n s), A (linePos n s c a) := by
      apply Finset.sum_congr rfl
      intro a _
      rw [← h, linePos_eq]
    rw [hsum, hpx]
    refine runWrites_value A _ ?_ (linePos n s c (x s).1, A (linePos n s c (x s).1) -
      (∑ a ∈ Finset.range (fc3Shape n0 n s), A (linePos n s c a)) / (fc3Shape n0 n s : K)) ?_
    · intro u hu w hw he
      simp only [mem_loop, List.mem_singleton] at hu hw
      obtain ⟨a, -, rfl⟩ := hu
      obtain ⟨a', -, rfl⟩ := hw
      have he' : linePos n s c a = linePos n s c a' := he
      show _ - _ = _ - _
      rw [he']
    · simp only [mem_loop, List.mem_singleton]
      exact ⟨_, hsa, rfl⟩
  · rw [if_neg h]
    apply runWrites_untouched
    intro w hw
    simp only [mem_loop, List.mem_singleton] at hw
    obtain ⟨a, ha, rfl⟩ := hw
    show linePos n s c a ≠ _
    intro he
    apply h
    rw [← lineKey_keyLegs s c] at he ⊢
    rw [linePos_eq] at he
    have := fc3Pos_inj (keyLegs_shape hc ha).slot hx.slot (Int.ofNat.inj he)
    rw [← this, lineKey_set]

theorem subtractMean_frame {n0 n : Nat} (s : Fin 3) (A : Int → K)
    {c : Nat × Nat × Nat × Nat × Nat} (hc : KeyOk n0 n s c) (p : Int)
    (hp : ∀ x, InShape n0 n x → ((fc3Pos n x : Nat) : Int) ≠ p) :
    subtractMean n0 n s A c p = A p := by
  unfold subtractMean
  apply runWrites_untouched
  intro w hw
  simp only [mem_loop, List.mem_singleton] at hw
  obtain ⟨a, ha, rfl⟩ := hw
  show linePos n s c a ≠ p
  rw [← lineKey_keyLegs s c, linePos_eq]
  exact hp _ (keyLegs_shape hc ha)

/-- Difference from the mean along leg `s`. -/
def centred (n0 n : Nat) (s : Fin 3) (A : Int → K) (x : Legs) : K :=
  A ((fc3Pos n x : Nat) : Int) -
    (∑ a ∈ Finset.range (fc3Shape n0 n s), A ((fc3Pos n (setAtom x s a) : Nat) : Int)) /
      (fc3Shape n0 n s : K)

theorem setAtom_set (x : Legs) (s : Fin 3) (a b : Nat) :
    setAtom (setAtom x s a) s b = setAtom x s b := by
  unfold setAtom
  simp

theorem centred_sum {n0 n : Nat} (s : Fin 3) (A : Int → K) (x : Legs)
    (h0 : fc3Shape n0 n s ≠ 0) :
    ∑ a ∈ Finset.range (fc3Shape n0 n s), centred n0 n s A (setAtom x s a) = 0 := by
  unfold centred
  simp only [setAtom_set]
  rw [Finset.sum_sub_distrib, Finset.sum_const, Finset.card_range, nsmul_eq_mul]
  have : ((fc3Shape n0 n s : Nat) : K) ≠ 0 := by exact_mod_cast h0
  field_simp
  ring

theorem perIndex_fold {n0 n : Nat} (s : Fin 3) (A0 : Int → K)
    (cs : List (Nat × Nat × Nat × Nat × Nat)) (hcs : ∀ c ∈ cs, KeyOk n0 n s c) :
    ∀ (A : Int → K) (D : Nat × Nat × Nat × Nat × Nat → Prop) [DecidablePred D],
      (∀ x, InShape n0 n x → A ((fc3Pos n x : Nat) : Int) =
        if D (lineKey s x) then centred n0 n s A0 x else A0 ((fc3Pos n x : Nat) : Int)) →
      (∀ x, InShape n0 n x → D (lineKey s x) ∨ lineKey s x ∈ cs) →
      ∀ x, InShape n0 n x →
        cs.foldl (subtractMean n0 n s) A ((fc3Pos n x : Nat) : Int) = centred n0 n s A0 x := by
  induction cs with
  | nil =>
    intro A D _ hA hD x hx
    rw [List.foldl_nil, hA x hx, if_pos ((hD x hx).resolve_right (by simp))]
  | cons c cs ih =>
    intro A D _ hA hD x hx
    rw [List.foldl_cons]
    have hc := hcs c (by simp)
    refine ih (fun c' hc' => hcs c' (by simp [hc'])) (subtractMean n0 n s A c)
      (fun k => D k ∨ k = c) ?_ ?_ x hx
    · intro x hx
      rw [subtractMean_value s A hc x hx]
      have hsa : (x s).1 < fc3Shape n0 n s := by
        obtain ⟨h0, h1, h2, -⟩ := hx
        fin_cases s
        · exact h0
        · exact h1
        · exact h2
      by_cases h : lineKey s x = c
      · rw [if_pos h, if_pos (Or.inr h)]
        by_cases hd : D (lineKey s x)
        · have hs : (∑ a ∈ Finset.range (fc3Shape n0 n s),
              A ((fc3Pos n (setAtom x s a) : Nat) : Int)) = 0 := by
            rw [← centred_sum s A0 x (by omega : fc3Shape n0 n s ≠ 0)]
            apply Finset.sum_congr rfl
            intro a ha
            rw [hA _ (inShape_set hx s (Finset.mem_range.mp ha)), lineKey_set, if_pos hd]
          rw [hs, hA x hx, if_pos hd]
          simp
        · unfold centred
          rw [hA x hx, if_neg hd]
          congr 2
          apply Finset.sum_congr rfl
          intro a ha
          rw [hA _ (inShape_set hx s (Finset.mem_range.mp ha)), lineKey_set, if_neg hd]
      · rw [if_neg h, hA x hx]
        by_cases hd : D (lineKey s x)
        · rw [if_pos hd, if_pos (Or.inl hd)]
        · rw [if_neg hd, if_neg (by tauto)]
    · intro x hx
      rcases hD x hx with h | h
      · exact Or.inl (Or.inl h)
      · rcases List.mem_cons.mp h with h | h
        · exact Or.inl (Or.inr h)
        · exact Or.inr h

theorem perIndex_keys {n0 n : Nat} (s : Fin 3) {c : Nat × Nat × Nat × Nat × Nat} :
    c ∈ (loop (fc3Shape n0 n ((1 + (s : Nat)) % 3)) fun i =>
      loop (fc3Shape n0 n ((2 + (s : Nat)) % 3)) fun j =>
      cart27.map fun c => (i, j, c.1, c.2.1, c.2.2)) ↔ KeyOk n0 n s c := by
  have e1 : (1 + (s : Nat)) % 3 = ((s + 1 : Fin 3) : Nat) := by fin_cases s <;> rfl
  have e2 : (2 + (s : Nat)) % 3 = ((s + 2 : Fin 3) : Nat) := by fin_cases s <;> rfl
  rw [e1, e2]
  obtain ⟨i, j, k, l, q⟩ := c
  simp only [mem_loop, List.mem_map, mem_cart27, KeyOk, Prod.mk.injEq]
  constructor
  · rintro ⟨a, ha, b, hb, ⟨u, v, w⟩, ⟨hu, hv, hw⟩, rfl, rfl, rfl, rfl, rfl⟩
    exact ⟨ha, hb, hu, hv, hw⟩
  · rintro ⟨ha, hb, hu, hv, hw⟩
    exact ⟨i, ha, j, hb, (k, l, q), ⟨hu, hv, hw⟩, rfl, rfl, rfl, rfl, rfl⟩

theorem perIndex_value {n0 n : Nat} (s : Fin 3) (A : Int → K) (x : Legs) (hx : InShape n0 n x) :
    translationalInvariancePerIndex n0 n s A ((fc3Pos n x : Nat) : Int) = centred n0 n s A x := by
  unfold translationalInvariancePerIndex
  refine perIndex_fold s A _ (fun c hc => (perIndex_keys s).mp hc) A (fun _ => False) ?_ ?_ x hx
  · intro x _; simp
  · intro x hx
    right
    rw [perIndex_keys]
    obtain ⟨h0, h1, h2, h3⟩ := hx
    fin_cases s
    · exact ⟨h1, h2, h3 0, h3 1, h3 2⟩
    · exact ⟨h2, h0, h3 0, h3 1, h3 2⟩
    · exact ⟨h0, h1, h3 0, h3 1, h3 2⟩

end Phono3py
