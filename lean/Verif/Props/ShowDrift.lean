import Verif.Model.ShowDrift
import Verif.Spec.ShowDrift
import Verif.Props.ReadFc3

/-!
# C160: printed drifts
-/

namespace Phono3py.Props

open Phono3py Spec

section
variable {K : Type} [Field K] [LinearOrder K] [IsStrictOrderedRing K]
set_option linter.unusedSectionVars false

theorem scan_from (val : Nat × Nat × Nat × Nat × Nat → K)
    (idx : List (Nat × Nat × Nat × Nat × Nat)) (b : K × Nat × Nat × Nat) :
    let r := idx.foldl (fun best c => keepLargest best (val c) c.2.2) b
    |b.1| ≤ |r.1| ∧ (∀ c ∈ idx, |val c| ≤ |r.1|) ∧
      (r = b ∨ ∃ c ∈ idx, val c = r.1 ∧ c.2.2 = r.2) := by
  induction idx generalizing b with
  | nil => exact ⟨le_rfl, by simp, .inl rfl⟩
  | cons c l ih =>
    simp only [List.foldl_cons]
    obtain ⟨h1, h2, h3⟩ := ih (keepLargest b (val c) c.2.2)
    by_cases h : |b.1| < |val c|
    · have e : keepLargest b (val c) c.2.2 = (val c, c.2.2) := by
        unfold keepLargest; rw [if_pos h]
      rw [e] at h1 h2 h3 ⊢
      refine ⟨h.le.trans h1, fun d hd => ?_, .inr ?_⟩
      · rcases List.mem_cons.mp hd with rfl | hd
        · exact h1
        · exact h2 d hd
      · rcases h3 with h3 | ⟨d, hd, hv⟩
        · exact ⟨c, by simp, by rw [h3], by rw [h3]⟩
        · exact ⟨d, by simp [hd], hv⟩
    · have e : keepLargest b (val c) c.2.2 = b := by
        unfold keepLargest; rw [if_neg h]
      rw [e] at h1 h2 h3 ⊢
      refine ⟨h1, fun d hd => ?_, ?_⟩
      · rcases List.mem_cons.mp hd with rfl | hd
        · exact (not_lt.mp h).trans h1
        · exact h2 d hd
      · rcases h3 with h3 | ⟨d, hd, hv⟩
        · exact .inl h3
        · exact .inr ⟨d, by simp [hd], hv⟩

theorem scan_largest {n : Nat} {s : Fin 3} {f : Legs → K}
    {idx : List (Nat × Nat × Nat × Nat × Nat)} {val : Nat × Nat × Nat × Nat × Nat → K}
    (hc : ∀ x, Legs.Valid n x → ∃ c ∈ idx, val c = drift n s f x)
    (hb : ∀ c ∈ idx, ∃ x, Legs.Valid n x ∧ drift n s f x = val c ∧
      ((x 0).2, (x 1).2, (x 2).2) = c.2.2) : LargestDrift n s f (scanDrift idx val) := by
  obtain ⟨-, h2, h3⟩ := scan_from val idx (0, 0, 0, 0)
  refine ⟨fun x hx => ?_, ?_⟩
  · obtain ⟨c, hm, e⟩ := hc x hx
    rw [← e]
    exact h2 c hm
  · rcases h3 with h3 | ⟨c, hm, hv, hl⟩
    · exact .inl h3
    · obtain ⟨x, hx, e, hd⟩ := hb c hm
      exact .inr ⟨x, hx, e.trans hv, hd.trans hl⟩

theorem mem_driftIndices {n0 n : Nat} {c : Nat × Nat × Nat × Nat × Nat} :
    c ∈ driftIndices n0 n ↔ c.1 < n0 ∧ c.2.1 < n ∧ c.2.2.1 < 3 ∧ c.2.2.2.1 < 3 ∧ c.2.2.2.2 < 3 := by
  obtain ⟨i, j, k, l, m⟩ := c
  simp only [driftIndices, mem_loop, List.mem_map, List.mem_range, Prod.mk.injEq]
  constructor
  · rintro ⟨i', hi, j', hj, k', hk, l', hl, m', hm, rfl, rfl, rfl, rfl, rfl⟩
    exact ⟨hi, hj, hk, hl, hm⟩
  · rintro ⟨hi, hj, hk, hl, hm⟩
    exact ⟨i, hi, j, hj, k, hk, l, hl, m, hm, rfl, rfl, rfl, rfl, rfl⟩

/-- The indices of the line of leg `s` through `x`. -/
def lineOf (s : Fin 3) (x : Legs) : Nat × Nat × Nat × Nat × Nat :=
  ((x (if s = 0 then 1 else 0)).1, (x (if s = 2 then 1 else 2)).1, (x 0).2, (x 1).2, (x 2).2)

/-- An element of the line. -/
def onLine (s : Fin 3) (c : Nat × Nat × Nat × Nat × Nat) : Legs :=
  if s = 0 then ![(0, c.2.2.1), (c.1, c.2.2.2.1), (c.2.1, c.2.2.2.2)]
  else if s = 1 then ![(c.1, c.2.2.1), (0, c.2.2.2.1), (c.2.1, c.2.2.2.2)]
  else ![(c.1, c.2.2.1), (c.2.1, c.2.2.2.1), (0, c.2.2.2.2)]

theorem fc3Adr_pos (n a b c i j k : Nat) :
    fc3Adr n a b c i j k = ((fc3Pos n ![(a, i), (b, j), (c, k)] : Nat) : Int) := by
  unfold fc3Adr fc3Pos
  congr 1
  show _ = ((((a * n + b) * n + c) * 3 + i) * 3 + j) * 3 + k
  ring

theorem driftPos_eq (n : Nat) (s : Fin 3) (x : Legs) (a : Nat) :
    driftPos n s (lineOf s x) a = ((fc3Pos n (setAtom x s a) : Nat) : Int) := by
  fin_cases s
  · show fc3Adr n a (x 1).1 (x 2).1 (x 0).2 (x 1).2 (x 2).2 = _
    rw [fc3Adr_pos]
    rfl
  · show fc3Adr n (x 0).1 a (x 2).1 (x 0).2 (x 1).2 (x 2).2 = _
    rw [fc3Adr_pos]
    rfl
  · show fc3Adr n (x 0).1 (x 1).1 a (x 0).2 (x 1).2 (x 2).2 = _
    rw [fc3Adr_pos]
    rfl

theorem driftVal_eq (n : Nat) (s : Fin 3) (A : Int → K) (x : Legs) :
    driftVal n s A (lineOf s x) = ∑ a ∈ Finset.range n, A ((fc3Pos n (setAtom x s a) : Nat) : Int) := by
  unfold driftVal
  rw [sumLoop_eq]
  exact Finset.sum_congr rfl fun a _ => by rw [driftPos_eq]

theorem lineOf_onLine (s : Fin 3) (c : Nat × Nat × Nat × Nat × Nat) : lineOf s (onLine s c) = c := by
  fin_cases s <;> rfl

theorem onLine_letters (s : Fin 3) (c : Nat × Nat × Nat × Nat × Nat) :
    (((onLine s c) 0).2, ((onLine s c) 1).2, ((onLine s c) 2).2) = c.2.2 := by
  fin_cases s <;> rfl

/-- **C160 (full arrays).** Each printed value is the largest sum over the atoms of its index, with the
directions at which it is found, and the array is untouched. -/
theorem C160_full (m : CompactMaps) (A : Int → K) (s : Fin 3) :
    LargestDrift m.nSatom s (fun x => A (fc3Pos m.nSatom x))
      ((showDrift m m.nSatom A).shown s) ∧ (showDrift m m.nSatom A).array = A := by
  have hsd : showDrift m m.nSatom A = showDriftFull m.nSatom A := by
    unfold showDrift; rw [if_pos rfl]
  rw [hsd]
  refine ⟨scan_largest (fun x hx => ⟨lineOf s x, ?_, driftVal_eq _ s A x⟩) fun c hc => ?_, rfl⟩
  · exact mem_driftIndices.mpr ⟨(hx _).1, (hx _).1, (hx 0).2, (hx 1).2, (hx 2).2⟩
  · obtain ⟨h1, h2, h3, h4, h5⟩ := mem_driftIndices.mp hc
    refine ⟨onLine s c, ?_, ?_, onLine_letters s c⟩
    · intro q
      have h0 : 0 < m.nSatom := by omega
      fin_cases s <;> fin_cases q <;> simp [onLine, *]
    · have := driftVal_eq m.nSatom s A (onLine s c)
      rw [lineOf_onLine] at this
      exact this.symm

/-- Sums along the second and the third index of a compact array are those of the force constants it
describes. -/
theorem compact_sum {m : CompactMaps} (hm : m.Ok) (A : Int → K) (s : Fin 3) (hs : s ≠ 0) (x : Legs)
    (hx : Legs.Valid m.nSatom x) :
    driftVal m.nSatom s A (lineOf s (compactLegs m.s2pp m.trans x)) =
      drift m.nSatom s (expandCompact m A) x := by
  rw [driftVal_eq, sum_trans hm (hx 0).1]
  unfold drift expandCompact
  refine Finset.sum_congr rfl fun a _ => ?_
  have h12 : s = 1 ∨ s = 2 := by
    have : ∀ s : Fin 3, s ≠ 0 → s = 1 ∨ s = 2 := by decide
    exact this s hs
  have hset : setAtom (compactLegs m.s2pp m.trans x) s (m.trans (x 0).1 a) =
      compactLegs m.s2pp m.trans (setAtom x s a) := by
    rcases h12 with rfl | rfl
    · funext q; fin_cases q <;> rfl
    · funext q; fin_cases q <;> rfl
  rw [hset]

theorem compact_scan {m : CompactMaps} (hm : m.Ok) (A : Int → K) (s : Fin 3) (hs : s ≠ 0) :
    LargestDrift m.nSatom s (expandCompact m A)
      (scanDrift (driftIndices m.nPatom m.nSatom) (driftVal m.nSatom s A)) := by
  have h12 : s = 1 ∨ s = 2 := by
    have : ∀ s : Fin 3, s ≠ 0 → s = 1 ∨ s = 2 := by decide
    exact this s hs
  refine scan_largest (fun x hx => ⟨_, ?_, compact_sum hm A s hs x hx⟩) fun c hc => ?_
  · have hslot := compactLegs_slot hm hx
    refine mem_driftIndices.mpr ⟨?_, ?_, (hx 0).2, (hx 1).2, (hx 2).2⟩
    · rcases h12 with rfl | rfl <;> exact hm.cls_lt _ (hx 0).1
    · rcases h12 with rfl | rfl
      · exact hslot.2.1
      · exact hslot.1
  · obtain ⟨h1, h2, h3, h4, h5⟩ := mem_driftIndices.mp hc
    have hp := hm.rep_lt _ h1
    have h0 : 0 < m.nSatom := by omega
    have hv : Legs.Valid m.nSatom (onLine s (m.p2s c.1, c.2)) := by
      intro q
      rcases h12 with rfl | rfl <;> fin_cases q <;> simp [onLine, *]
    refine ⟨onLine s (m.p2s c.1, c.2), hv, ?_, onLine_letters s _⟩
    rw [← compact_sum hm A s hs _ hv]
    have e : lineOf s (compactLegs m.s2pp m.trans (onLine s (m.p2s c.1, c.2))) = c := by
      rcases h12 with rfl | rfl
      · show (m.s2pp (m.p2s c.1), m.trans (m.p2s c.1) c.2.1, c.2.2.1, c.2.2.2.1, c.2.2.2.2) = c
        rw [hm.cls_rep _ h1, hm.move_rep _ h1 _ h2]
      · show (m.s2pp (m.p2s c.1), m.trans (m.p2s c.1) c.2.1, c.2.2.1, c.2.2.2.1, c.2.2.2.2) = c
        rw [hm.cls_rep _ h1, hm.move_rep _ h1 _ h2]
    rw [e]

/-- **C160 (compact arrays).** The second and the third value printed are right, and the array of the
caller, transposed and transposed back, is what it was.  Partial: the first value is not always right
(`C160_first_missed`, `C160_first_invented`). -/
theorem C160_compact_partial (m : CompactMaps)
    (hm : Translations m.nSatom m.nPatom m.p2s m.s2pp m.trans) (hl : m.nPatom ≠ m.nSatom)
    (A : Int → K) (s : Fin 3) (hs : s ≠ 0) :
    LargestDrift m.nSatom s (expandCompact m A) ((showDrift m m.nPatom A).shown s) ∧
      (showDrift m m.nPatom A).array = A := by
  have hback := C32_involution m hm A 0
  have hsd : showDrift m m.nPatom A = showDriftCompact m A := by
    unfold showDrift; rw [if_neg hl]
  have h0 : ((s : Fin 3) : Nat) ≠ 0 := fun h => hs (Fin.ext h)
  rw [hsd]
  refine ⟨?_, hback⟩
  unfold showDriftCompact
  simp only [if_neg h0, hback]
  exact compact_scan (m := m) hm A s hs

theorem drift_exchange (n : Nat) (f : Legs → K) (x : Legs) :
    drift n 1 (fun y => f (y ∘ Equiv.swap 0 1)) x = drift n 0 f (x ∘ Equiv.swap 0 1) := by
  unfold drift
  refine Finset.sum_congr rfl fun a _ => ?_
  show f _ = f _
  congr 1
  funext q; fin_cases q <;> rfl

theorem largest_exchange {n : Nat} {f g : Legs → K} {p : K × Nat × Nat × Nat}
    (hfg : ∀ x, Legs.Valid n x → g x = f (x ∘ Equiv.swap 0 1)) (h : LargestDrift n 1 g p) :
    LargestDrift n 0 f (exchangeLetters p) := by
  have hss : ∀ z : Legs, (z ∘ Equiv.swap 0 1) ∘ Equiv.swap 0 1 = z := by
    intro z; funext q; simp
  have hd : ∀ x, Legs.Valid n x → drift n 1 g x = drift n 0 f (x ∘ Equiv.swap 0 1) := fun x hx => by
    rw [drift_congr hx hfg, drift_exchange]
  refine ⟨fun x hx => ?_, ?_⟩
  · have := h.bound (x ∘ Equiv.swap 0 1) (Legs.Valid.perm hx _)
    rw [hd _ (Legs.Valid.perm hx _), hss] at this
    exact this
  · rcases h.attained with h0 | ⟨x, hx, e, hl⟩
    · exact .inl (by rw [h0]; rfl)
    · refine .inr ⟨x ∘ Equiv.swap 0 1, Legs.Valid.perm hx _, by rw [← hd x hx]; exact e, ?_⟩
      show ((x 1).2, (x 0).2, (x 2).2) = (p.2.2.1, p.2.1, p.2.2.2)
      rw [← hl]

/-- **C160 (first value, compact arrays).** When no lattice translation of the supercell has order two,
the first value is right, but its first two letters come in the opposite order. -/
theorem C160_first_exchanged (m : CompactMaps)
    (hm : Translations m.nSatom m.nPatom m.p2s m.s2pp m.trans) (hl : m.nPatom ≠ m.nSatom)
    (hn : NoHalfTranslation m.nSatom m.s2pp m.trans) (A : Int → K) :
    LargestDrift m.nSatom 0 (expandCompact m A)
      (exchangeLetters ((showDrift m m.nPatom A).shown 0)) := by
  have hsd : showDrift m m.nPatom A = showDriftCompact m A := by
    unfold showDrift; rw [if_neg hl]
  rw [hsd]
  exact largest_exchange (fun x hx => C32_odd m hm hn A x hx 0 (by omega))
    (compact_scan (m := m) hm (transposeCompactFc3 m 0 A) 1 (by decide))

/-- **C160 (symmetric force constants).** For force constants symmetric under permutations the first
value is right in every supercell, up to the order of its first two letters. -/
theorem C160_first_symmetric (m : CompactMaps)
    (hm : Translations m.nSatom m.nPatom m.p2s m.s2pp m.trans) (hl : m.nPatom ≠ m.nSatom)
    (A : Int → K) (hA : PermutationSymmetric m.nSatom (expandCompact m A)) :
    LargestDrift m.nSatom 0 (expandCompact m A)
      (exchangeLetters ((showDrift m m.nPatom A).shown 0)) := by
  have hsd : showDrift m m.nPatom A = showDriftCompact m A := by
    unfold showDrift; rw [if_neg hl]
  rw [hsd]
  refine largest_exchange (fun x hx => ?_)
    (compact_scan (m := m) hm (transposeCompactFc3 m 0 A) 1 (by decide))
  have h := transpose_cases m hm A x hx 0 (by omega)
  have e : expandCompact m A (x ∘ exchanged 0) = expandCompact m A x := hA x hx _
  rw [e, ite_self] at h
  rw [h]
  exact e.symm

end

/-! ### Where it fails, and examples -/

/-- Compact force constants of two one-atom cells along one direction, by second and third atom. -/
def twoCells (v : Nat → Nat → ℚ) (p : Int) : ℚ :=
  if p.toNat % 27 = 0 then v (p.toNat / 27 / 2 % 2) (p.toNat / 27 % 2) else 0

/-- **C160 fails (a drift is invented).** The sums over the first atom vanish, and a drift is printed. -/
theorem C160_first_invented :
    ∃ m : CompactMaps, Translations m.nSatom m.nPatom m.p2s m.s2pp m.trans ∧
      m.nPatom ≠ m.nSatom ∧ ∃ A : Int → ℚ,
        (∀ x, Legs.Valid m.nSatom x → drift m.nSatom 0 (expandCompact m A) x = 0) ∧
        (showDrift m m.nPatom A).shown 0 = (1, 0, 0, 0) := by
  refine ⟨chain2, chain2_ok, by decide, twoCells fun b c => if b = c then 1 - 2 * b else 0, ?_,
    by decide +kernel⟩
  have h : ∀ a < 2, ∀ i < 3, ∀ b < 2, ∀ j < 3, ∀ c < 2, ∀ k < 3,
      drift 2 0 (expandCompact chain2 (twoCells fun b c => if b = c then 1 - 2 * b else 0))
        ![(a, i), (b, j), (c, k)] = 0 := by
    decide +kernel
  intro x hx
  have e : x = ![((x 0).1, (x 0).2), ((x 1).1, (x 1).2), ((x 2).1, (x 2).2)] := by
    funext q; fin_cases q <;> rfl
  rw [e]
  exact h _ (hx 0).1 _ (hx 0).2 _ (hx 1).1 _ (hx 1).2 _ (hx 2).1 _ (hx 2).2

/-- **C160 fails (a drift is missed).** A sum over the first atom is not zero, and zero is printed. -/
theorem C160_first_missed :
    ∃ m : CompactMaps, Translations m.nSatom m.nPatom m.p2s m.s2pp m.trans ∧
      m.nPatom ≠ m.nSatom ∧ ∃ A : Int → ℚ,
        (∃ x, Legs.Valid m.nSatom x ∧ drift m.nSatom 0 (expandCompact m A) x ≠ 0) ∧
        (showDrift m m.nPatom A).shown 0 = (0, 0, 0, 0) :=
  ⟨chain2, chain2_ok, by decide, twoCells fun b c => if c = 0 then 1 - 2 * b else 0,
    ⟨![(0, 0), (0, 0), (0, 0)], by intro s; fin_cases s <;> decide +kernel, by decide +kernel⟩,
    by decide +kernel⟩

/-- One element, of the first atom along `x`, the second along `y` and the third along `z`. -/
def oneElement (p : Int) : ℚ := if p = 5 then 1 else 0

/-- **C160 fails (letters).** In a supercell without half translations, a drift along `xyz` is printed
with the letters `yxz`, along which there is none. -/
theorem C160_first_letters :
    Translations chainOf3.nSatom chainOf3.nPatom chainOf3.p2s chainOf3.s2pp chainOf3.trans ∧
    NoHalfTranslation chainOf3.nSatom chainOf3.s2pp chainOf3.trans ∧
    (showDrift chainOf3 1 oneElement).shown 0 = (1, 1, 0, 2) ∧
    ¬ LargestDrift 3 0 (expandCompact chainOf3 oneElement)
      ((showDrift chainOf3 1 oneElement).shown 0) ∧
    LargestDrift 3 0 (expandCompact chainOf3 oneElement) (1, 0, 1, 2) := by
  have hs : (showDrift chainOf3 1 oneElement).shown 0 = (1, 1, 0, 2) := by decide +kernel
  have hn : NoHalfTranslation chainOf3.nSatom chainOf3.s2pp chainOf3.trans := by
    unfold NoHalfTranslation; decide +kernel
  have hx := C160_first_exchanged chainOf3 chainOf3_ok (by decide) hn oneElement
  refine ⟨chainOf3_ok, hn, hs, ?_, by
    rw [show (showDrift chainOf3 chainOf3.nPatom oneElement).shown 0 = (1, 1, 0, 2) from hs] at hx
    exact hx⟩
  rw [hs]
  intro h
  have hz : ∀ a < 3, ∀ b < 3, ∀ c < 3,
      drift 3 0 (expandCompact chainOf3 oneElement) ![(a, 1), (b, 0), (c, 2)] = 0 := by
    decide +kernel
  rcases h.attained with h | ⟨x, hx, hv, hl⟩
  · simp at h
  · simp only [Prod.mk.injEq] at hl
    have e : x = ![((x 0).1, 1), ((x 1).1, 0), ((x 2).1, 2)] := by
      funext q
      fin_cases q
      · exact Prod.ext rfl hl.1
      · exact Prod.ext rfl hl.2.1
      · exact Prod.ext rfl hl.2.2
    rw [e, hz _ (hx 0).1 _ (hx 1).1 _ (hx 2).1] at hv
    norm_num at hv

/-- Two atoms: the largest sums. -/
example : (showDrift chain2 2 fun p : Int => (p : ℚ)).shown 0 = (322, 2, 2, 2) := by
  decide +kernel

example : LargestDrift 6 1 (expandCompact chain3 fun p : Int => (p : ℚ))
    ((showDrift chain3 2 fun p : Int => (p : ℚ)).shown 1) :=
  (C160_compact_partial chain3 chain3_ok (by decide) _ 1 (by decide)).1

example : LargestDrift 3 0 (expandCompact chainOf3 ringFile.values)
    (exchangeLetters ((showDrift chainOf3 1 ringFile.values).shown 0)) :=
  C160_first_symmetric chainOf3 chainOf3_ok (by decide) _ ring_symmetric

end Phono3py.Props
