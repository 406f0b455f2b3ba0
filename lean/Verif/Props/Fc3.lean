/- C31-C34: symmetries of third-order force constants. -/
import Verif.Lemmas.Invariance

namespace Phono3py.Props

open Phono3py Spec

variable {K : Type _} [Field K] [LinearOrder K] [IsStrictOrderedRing K]
set_option linter.unusedSectionVars false

/-! ## C31: permutation symmetry -/

/-- C31: after `set_permutation_symmetry_fc3` every element of an `(n, n, n, 3, 3, 3)` array is
the average of the six elements of the input obtained by permuting (atom, direction) pairs. -/
theorem C31_value (n : Nat) (A : Int → K) (x : Legs) (hx : Legs.Valid n x) :
    setPermutationSymmetryFc3 n A (fc3Pos n x) =
      permutationMean (fun y => A (fc3Pos n y)) x := by
  have h := fold_permStep n A (sortedTriples n) A (fun _ => False) (fun _ h => h.elim)
    (fun t ht => by
      obtain ⟨h1, h2, h3⟩ := mem_sortedTriples.mp ht
      omega)
    ⟨fun _ _ h => h.elim, fun _ _ => rfl⟩
  exact h.1 x hx (Or.inr (covered_sorted hx))

/-- C31: nothing else is written. -/
theorem C31_frame (n : Nat) (A : Int → K) (p : Int)
    (hp : ∀ x, Legs.Valid n x → ((fc3Pos n x : Nat) : Int) ≠ p) :
    setPermutationSymmetryFc3 n A p = A p := by
  have h := fold_permStep n A (sortedTriples n) A (fun _ => False) (fun _ h => h.elim)
    (fun t ht => by
      obtain ⟨h1, h2, h3⟩ := mem_sortedTriples.mp ht
      omega)
    ⟨fun _ _ h => h.elim, fun _ _ => rfl⟩
  exact h.2 p fun z hz _ => hp z hz

/-- C31: the triples of atoms may be treated in any order. -/
theorem C31_any_order (n : Nat) (A : Int → K) (ts : List (Nat × Nat × Nat))
    (hts : ts.Perm (sortedTriples n)) :
    ts.foldl (permStep n) A = setPermutationSymmetryFc3 n A := by
  have h := fold_permStep n A ts A (fun _ => False) (fun _ h => h.elim)
    (fun t ht => by
      obtain ⟨h1, h2, h3⟩ := mem_sortedTriples.mp (hts.mem_iff.mp ht)
      omega)
    ⟨fun _ _ h => h.elim, fun _ _ => rfl⟩
  funext p
  by_cases hp : ∃ x, Legs.Valid n x ∧ ((fc3Pos n x : Nat) : Int) = p
  · obtain ⟨x, hx, rfl⟩ := hp
    rw [C31_value n A x hx]
    obtain ⟨t, ht, hxt⟩ := covered_sorted hx
    exact h.1 x hx (Or.inr ⟨t, hts.mem_iff.mpr ht, hxt⟩)
  · have hp' : ∀ x, Legs.Valid n x → ((fc3Pos n x : Nat) : Int) ≠ p :=
      fun x hx h => hp ⟨x, hx, h⟩
    rw [C31_frame n A p hp']
    exact h.2 p fun z hz _ => hp' z hz

/-- C31: the elements read and written for different sorted triples are different, so the
threads of the parallel loop do not interfere. -/
theorem C31_disjoint (n : Nat) (t u : Nat × Nat × Nat) (ht : t ∈ sortedTriples n)
    (hu : u ∈ sortedTriples n) (htu : t ≠ u) (x y : Legs) (hx : x ∈ blockLegs t)
    (hy : y ∈ blockLegs u) : fc3Pos n x ≠ fc3Pos n y := by
  intro he
  obtain ⟨t1, t2, t3⟩ := mem_sortedTriples.mp ht
  obtain ⟨u1, u2, u3⟩ := mem_sortedTriples.mp hu
  have hxy := fc3Pos_inj (Legs.Valid.slot (blockLegs_valid ⟨by omega, by omega, t3⟩ hx))
    (Legs.Valid.slot (blockLegs_valid ⟨by omega, by omega, u3⟩ hy)) he
  subst hxy
  simp only [blockLegs, mem_loop, sixLegs, List.mem_cons, List.not_mem_nil, or_false] at hx hy
  obtain ⟨i, -, j, -, k, -, hx⟩ := hx
  obtain ⟨i', -, j', -, k', -, hy⟩ := hy
  have hat : ∀ (p q r p' q' r' : Nat × Nat), (![p, q, r] : Legs) = ![p', q', r'] →
      p.1 = p'.1 ∧ q.1 = q'.1 ∧ r.1 = r'.1 := by
    intro p q r p' q' r' h
    exact ⟨congrArg Prod.fst (congrFun h 0), congrArg Prod.fst (congrFun h 1),
      congrArg Prod.fst (congrFun h 2)⟩
  apply htu
  have key : ∀ a b c : Nat, ((a = t.1 ∧ b = t.2.1 ∧ c = t.2.2) ∨ (a = t.1 ∧ b = t.2.2 ∧ c = t.2.1) ∨
      (a = t.2.1 ∧ b = t.1 ∧ c = t.2.2) ∨ (a = t.2.1 ∧ b = t.2.2 ∧ c = t.1) ∨
      (a = t.2.2 ∧ b = t.1 ∧ c = t.2.1) ∨ (a = t.2.2 ∧ b = t.2.1 ∧ c = t.1)) →
      ((a = u.1 ∧ b = u.2.1 ∧ c = u.2.2) ∨ (a = u.1 ∧ b = u.2.2 ∧ c = u.2.1) ∨
      (a = u.2.1 ∧ b = u.1 ∧ c = u.2.2) ∨ (a = u.2.1 ∧ b = u.2.2 ∧ c = u.1) ∨
      (a = u.2.2 ∧ b = u.1 ∧ c = u.2.1) ∨ (a = u.2.2 ∧ b = u.2.1 ∧ c = u.1)) → t = u := by
    intro a b c h h'
    refine Prod.ext ?_ (Prod.ext ?_ ?_) <;> omega
  apply key (x 0).1 (x 1).1 (x 2).1
  · rcases hx with h | h | h | h | h | h <;> rw [h] <;> simp
  · rcases hy with h | h | h | h | h | h <;> rw [h] <;> simp

/-- C31: the result is invariant under permutations of the legs. -/
theorem C31_symmetric (n : Nat) (A : Int → K) :
    PermutationSymmetric n fun x => setPermutationSymmetryFc3 n A (fc3Pos n x) := by
  intro x hx σ
  show setPermutationSymmetryFc3 n A (fc3Pos n (x ∘ σ)) = setPermutationSymmetryFc3 n A (fc3Pos n x)
  rw [C31_value n A x hx, C31_value n A _ (Legs.Valid.perm hx σ), permutationMean_perm]

/-- C31: symmetric force constants are unchanged. -/
theorem C31_unchanged (n : Nat) (A : Int → K)
    (hA : PermutationSymmetric n fun x => A (fc3Pos n x)) :
    setPermutationSymmetryFc3 n A = A := by
  funext p
  by_cases hp : ∃ x, Legs.Valid n x ∧ ((fc3Pos n x : Nat) : Int) = p
  · obtain ⟨x, hx, rfl⟩ := hp
    rw [C31_value n A x hx]
    exact permutationMean_of_const _ _ _ fun σ => hA x hx σ
  · exact C31_frame n A p fun x hx h => hp ⟨x, hx, h⟩

/-- C31: doing it twice is doing it once. -/
theorem C31_idempotent (n : Nat) (A : Int → K) :
    setPermutationSymmetryFc3 n (setPermutationSymmetryFc3 n A) =
      setPermutationSymmetryFc3 n A :=
  C31_unchanged n _ (C31_symmetric n A)

/-- The full force constants described by a compact array. -/
def expandCompact (m : CompactMaps) (A : Int → K) (x : Legs) : K :=
  A (fc3Pos m.nSatom (compactLegs m.s2pp m.trans x))

theorem compactInv_init {m : CompactMaps} (A : Int → K) :
    CompactInv m A (A, fun _ => false) :=
  ⟨fun _ _ h => by simp at h, fun _ _ h => by simp at h, fun _ _ => rfl⟩

/-- C31: the compact version symmetrises the full force constants that the compact array
describes. -/
theorem C31_compact_value (m : CompactMaps)
    (hm : Translations m.nSatom m.nPatom m.p2s m.s2pp m.trans) (A : Int → K) (x : Legs)
    (hx : Legs.Valid m.nSatom x) :
    expandCompact m (setPermutationSymmetryCompactFc3 m A) x =
      permutationMean (expandCompact m A) x := by
  have hm' : m.Ok := hm
  obtain ⟨h1, -, h3⟩ := compact_fold hm' A
    (loop m.nPatom fun ip => loop m.nSatom fun j => (List.range m.nSatom).map fun k => (ip, j, k))
    (A, fun _ => false) (compactInv_init A) (by
      intro t ht
      simp only [mem_loop, List.mem_map, List.mem_range] at ht
      obtain ⟨i, hi, j, hj, k, hk, rfl⟩ := ht
      exact ⟨hi, hj, hk⟩)
  have hb := h3 (m.s2pp (x 0).1, m.trans (x 0).1 (x 1).1, m.trans (x 0).1 (x 2).1) (by
    simp only [mem_loop, List.mem_map, List.mem_range]
    exact ⟨_, hm.cls_lt _ (hx 0).1, _, hm.move_lt _ (hx 0).1 _ (hx 1).1, _,
      hm.move_lt _ (hx 0).1 _ (hx 2).1, rfl⟩)
  have e : m.block ![(m.p2s (m.s2pp (x 0).1), 0), (m.trans (x 0).1 (x 1).1, 0),
      (m.trans (x 0).1 (x 2).1, 0)] = m.block x := by
    show (m.s2pp (m.p2s (m.s2pp (x 0).1)) * m.nSatom +
      m.trans (m.p2s (m.s2pp (x 0).1)) (m.trans (x 0).1 (x 1).1)) * m.nSatom +
      m.trans (m.p2s (m.s2pp (x 0).1)) (m.trans (x 0).1 (x 2).1) = _
    rw [hm.cls_rep _ (hm.cls_lt _ (hx 0).1),
      hm.move_rep _ (hm.cls_lt _ (hx 0).1) _ (hm.move_lt _ (hx 0).1 _ (hx 1).1),
      hm.move_rep _ (hm.cls_lt _ (hx 0).1) _ (hm.move_lt _ (hx 0).1 _ (hx 2).1)]
    rfl
  simp only [e] at hb
  exact h1.2.1 x hx ⟨hx, hb⟩

/-- C31: the result of the compact version is permutation symmetric. -/
theorem C31_compact_symmetric (m : CompactMaps)
    (hm : Translations m.nSatom m.nPatom m.p2s m.s2pp m.trans) (A : Int → K) :
    PermutationSymmetric m.nSatom (expandCompact m (setPermutationSymmetryCompactFc3 m A)) := by
  intro x hx σ
  rw [C31_compact_value m hm A x hx, C31_compact_value m hm A _ (Legs.Valid.perm hx σ),
    permutationMean_perm]

/-- C31: a compact array of symmetric force constants is unchanged. -/
theorem C31_compact_unchanged (m : CompactMaps)
    (hm : Translations m.nSatom m.nPatom m.p2s m.s2pp m.trans) (A : Int → K)
    (hA : PermutationSymmetric m.nSatom (expandCompact m A)) (x : Legs)
    (hx : Legs.Valid m.nSatom x) :
    expandCompact m (setPermutationSymmetryCompactFc3 m A) x = expandCompact m A x := by
  rw [C31_compact_value m hm A x hx]
  exact permutationMean_of_const _ _ _ fun σ => hA x hx σ

/-- C31: full and compact versions agree. -/
theorem C31_compact_full (m : CompactMaps)
    (hm : Translations m.nSatom m.nPatom m.p2s m.s2pp m.trans) (A B : Int → K)
    (hAB : ∀ x, Legs.Valid m.nSatom x → expandCompact m A x = B (fc3Pos m.nSatom x)) (x : Legs)
    (hx : Legs.Valid m.nSatom x) :
    expandCompact m (setPermutationSymmetryCompactFc3 m A) x =
      setPermutationSymmetryFc3 m.nSatom B (fc3Pos m.nSatom x) := by
  rw [C31_compact_value m hm A x hx, C31_value m.nSatom B x hx]
  exact permutationMean_congr fun σ => hAB _ (Legs.Valid.perm hx σ)

/-- A supercell of three primitive cells with two atoms each: atom `2 c + b` is atom `b` of cell
`c`; `perms` has the three translations. -/
def chain3 : CompactMaps where
  p2s := fun p => p
  s2pp := fun j => j % 2
  nsymList := fun j => (3 - j / 2) % 3
  perms := fun q => (q % 6 + 2 * (q / 6)) % 6
  nSatom := 6
  nPatom := 2

/-- The hypotheses on the maps are met by a chain of three cells. -/
theorem chain3_ok : Translations chain3.nSatom chain3.nPatom chain3.p2s chain3.s2pp chain3.trans where
  rep_lt := by decide +kernel
  cls_lt := by decide +kernel
  move_lt := by decide +kernel
  cls_rep := by decide +kernel
  cls_move := by decide +kernel
  move_self := by decide +kernel
  move_rep := by decide +kernel
  move_move := by decide +kernel

example : setPermutationSymmetryCompactFc3 chain3 (fun p : Int => (p : ℚ)) 1000 ≠ 1000 := by
  decide +kernel

example : setPermutationSymmetryFc3 2 (fun p : Int => (p : ℚ)) 30 ≠ 30 := by
  decide +kernel

/-! ## C32: transposition of compact force constants -/

/-- A supercell of two primitive cells with one atom each. -/
def chain2 : CompactMaps where
  p2s := fun p => p
  s2pp := fun _ => 0
  nsymList := fun j => j
  perms := fun q => (q % 2 + q / 2) % 2
  nSatom := 2
  nPatom := 1

theorem chain2_ok :
    Translations chain2.nSatom chain2.nPatom chain2.p2s chain2.s2pp chain2.trans where
  rep_lt := by decide +kernel
  cls_lt := by decide +kernel
  move_lt := by decide +kernel
  cls_rep := by decide +kernel
  cls_move := by decide +kernel
  move_self := by decide +kernel
  move_rep := by decide +kernel
  move_move := by decide +kernel

/-- The legs exchanged by the three types of transposition. -/
def exchanged (tType : Nat) : Equiv.Perm (Fin 3) :=
  if tType = 0 then Equiv.swap 0 1 else if tType = 1 then Equiv.swap 0 2 else Equiv.swap 1 2

/-- C32: transposition of the second and the third legs. -/
theorem C32_type2 (m : CompactMaps)
    (hm : Translations m.nSatom m.nPatom m.p2s m.s2pp m.trans) (A : Int → K) (x : Legs)
    (hx : Legs.Valid m.nSatom x) :
    expandCompact m (transposeCompactFc3 m 2 A) x = expandCompact m A (x ∘ Equiv.swap 1 2) :=
  (transpose2_value (m := m) hm A).1 x hx

/-- What types 0 and 1 do in all cases: pairs of atoms related by a half translation of the
supercell are exchanged twice. -/
theorem transpose_cases (m : CompactMaps)
    (hm : Translations m.nSatom m.nPatom m.p2s m.s2pp m.trans) (A : Int → K) (x : Legs)
    (hx : Legs.Valid m.nSatom x) (tType : Nat) (h : tType < 2) :
    expandCompact m (transposeCompactFc3 m tType A) x =
      if (x 0).1 ≠ (x (exchanged tType 0)).1 ∧
        m.s2pp (x 0).1 = m.s2pp (x (exchanged tType 0)).1 ∧
        m.trans (x 0).1 (x (exchanged tType 0)).1 = m.trans (x (exchanged tType 0)).1 (x 0).1
      then expandCompact m A x else expandCompact m A (x ∘ exchanged tType) := by
  have hm' : m.Ok := hm
  interval_cases tType
  · have e := (transpose01_value hm' (transType0 hm') A).1 x hx
    have hh := halfPair_iff hm' (r := 1) (o := 2) (s := Equiv.swap 0 1) (by decide) (by decide)
      (by decide) hx
    simp only [hh] at e
    exact e
  · have e := (transpose01_value hm' (transType1 hm') A).1 x hx
    have hh := halfPair_iff hm' (r := 2) (o := 1) (s := Equiv.swap 0 2) (by decide) (by decide)
      (by decide) hx
    simp only [hh] at e
    exact e

/-- C32, partial: transposition of the first leg with the second (type 0) or the third (type 1)
gives the compact form of the transposed force constants, at elements whose two exchanged atoms
are not related by a lattice translation that maps each to the other. Missing: those elements,
where the statement is false (`C32_not_transposed`). -/
theorem C32_types01_partial (m : CompactMaps)
    (hm : Translations m.nSatom m.nPatom m.p2s m.s2pp m.trans) (A : Int → K) (x : Legs)
    (hx : Legs.Valid m.nSatom x) (tType : Nat) (h : tType < 2)
    (hh : ¬ ((x 0).1 ≠ (x (exchanged tType 0)).1 ∧
      m.s2pp (x 0).1 = m.s2pp (x (exchanged tType 0)).1 ∧
      m.trans (x 0).1 (x (exchanged tType 0)).1 = m.trans (x (exchanged tType 0)).1 (x 0).1)) :
    expandCompact m (transposeCompactFc3 m tType A) x =
      expandCompact m A (x ∘ exchanged tType) := by
  rw [transpose_cases m hm A x hx tType h, if_neg hh]

/-- C32: correct everywhere when no lattice translation of the supercell has order two. -/
theorem C32_odd (m : CompactMaps)
    (hm : Translations m.nSatom m.nPatom m.p2s m.s2pp m.trans)
    (hn : NoHalfTranslation m.nSatom m.s2pp m.trans) (A : Int → K) (x : Legs)
    (hx : Legs.Valid m.nSatom x) (tType : Nat) (h : tType < 3) :
    expandCompact m (transposeCompactFc3 m tType A) x =
      expandCompact m A (x ∘ exchanged tType) := by
  by_cases h2 : tType < 2
  · exact C32_types01_partial m hm A x hx tType h2 fun hh =>
      hn _ (hx 0).1 _ (hx _).1 hh.1 hh.2.1 hh.2.2
  · have : tType = 2 := by omega
    subst this
    exact C32_type2 m hm A x hx

/-- C32, what happens instead: elements whose two exchanged atoms are related by a half
translation are not transposed at all. -/
theorem C32_half_translation_skipped (m : CompactMaps)
    (hm : Translations m.nSatom m.nPatom m.p2s m.s2pp m.trans) (A : Int → K) (x : Legs)
    (hx : Legs.Valid m.nSatom x) (tType : Nat) (h : tType < 2)
    (h0 : (x 0).1 ≠ (x (exchanged tType 0)).1)
    (h1 : m.s2pp (x 0).1 = m.s2pp (x (exchanged tType 0)).1)
    (h2 : m.trans (x 0).1 (x (exchanged tType 0)).1 =
      m.trans (x (exchanged tType 0)).1 (x 0).1) :
    expandCompact m (transposeCompactFc3 m tType A) x = expandCompact m A x := by
  rw [transpose_cases m hm A x hx tType h, if_pos ⟨h0, h1, h2⟩]

/-- C32 is false: with two primitive cells in the supercell, the transposed compact array does
not describe the transposed force constants. -/
theorem C32_not_transposed :
    ∃ (m : CompactMaps), Translations m.nSatom m.nPatom m.p2s m.s2pp m.trans ∧
      ∃ (A : Int → ℚ) (x : Legs), Legs.Valid m.nSatom x ∧
        expandCompact m (transposeCompactFc3 m 0 A) x ≠
          expandCompact m A (x ∘ Equiv.swap 0 1) :=
  ⟨chain2, chain2_ok, fun p => p, ![(0, 0), (1, 0), (0, 0)], by
    intro s; fin_cases s <;> decide +kernel, by decide +kernel⟩

/-- C32: applying a transposition twice restores the array. -/
theorem C32_involution (m : CompactMaps)
    (hm : Translations m.nSatom m.nPatom m.p2s m.s2pp m.trans) (A : Int → K) (tType : Nat) :
    transposeCompactFc3 m tType (transposeCompactFc3 m tType A) = A := by
  have hm' : m.Ok := hm
  by_cases h3 : tType < 3
  swap
  · have e : ∀ B : Int → K, transposeCompactFc3 m tType B = B := by
      intro B
      unfold transposeCompactFc3
      rw [if_neg (by omega), if_neg (by omega)]
    rw [e, e]
  have hframe : ∀ (B : Int → K) p, (∀ x, Legs.Valid m.nSatom x → m.pos x ≠ p) →
      transposeCompactFc3 m tType B p = B p := by
    intro B
    interval_cases tType
    · exact (transpose01_value hm' (transType0 hm') B).2
    · exact (transpose01_value hm' (transType1 hm') B).2
    · exact (transpose2_value hm' B).2
  funext p
  by_cases hp : ∃ x, Legs.Valid m.nSatom x ∧ m.pos x = p
  swap
  · have hp' : ∀ x, Legs.Valid m.nSatom x → m.pos x ≠ p := fun x hx h => hp ⟨x, hx, h⟩
    rw [hframe _ p hp', hframe _ p hp']
  obtain ⟨x, hx, rfl⟩ := hp
  change expandCompact m (transposeCompactFc3 m tType (transposeCompactFc3 m tType A)) x =
    expandCompact m A x
  have hss : (x ∘ exchanged tType) ∘ exchanged tType = x := by
    funext s
    have : ∀ t < 3, ∀ s : Fin 3, exchanged t (exchanged t s) = s := by decide
    simp only [Function.comp, this tType h3 s]
  have hx' : Legs.Valid m.nSatom (x ∘ exchanged tType) := Legs.Valid.perm hx _
  by_cases h2 : tType < 2
  · have hex : exchanged tType (exchanged tType 0) = 0 := by
      have : ∀ t < 3, exchanged t (exchanged t 0) = 0 := by decide
      exact this tType h3
    rw [transpose_cases m hm _ x hx tType h2]
    split_ifs with hh
    · rw [transpose_cases m hm A x hx tType h2, if_pos hh]
    · rw [transpose_cases m hm A _ hx' tType h2, if_neg, hss]
      simp only [Function.comp, hex]
      intro g
      exact hh ⟨g.1.symm, g.2.1.symm, g.2.2.symm⟩
  · have : tType = 2 := by omega
    subst this
    rw [C32_type2 m hm _ x hx, C32_type2 m hm A _ (Legs.Valid.perm hx _)]
    exact congrArg (expandCompact m A) hss

example : NoHalfTranslation chain3.nSatom chain3.s2pp chain3.trans := by
  unfold NoHalfTranslation
  decide +kernel

example : expandCompact chain3 (transposeCompactFc3 chain3 0 (fun p : Int => (p : ℚ)))
    ![(1, 0), (2, 1), (3, 2)] =
    expandCompact chain3 (fun p : Int => (p : ℚ)) ![(2, 1), (1, 0), (3, 2)] := by
  decide +kernel

/-! ## C33: translational invariance -/

theorem drift_eq (n : Nat) (s : Fin 3) (A : Int → K) (x : Legs) :
    centred n n s A x = A (fc3Pos n x) - drift n s (fun y => A (fc3Pos n y)) x / (n : K) := by
  unfold centred drift fc3Shape
  simp

theorem valid_inShape {n : Nat} {x : Legs} (hx : Legs.Valid n x) : InShape n n x :=
  ⟨(hx 0).1, (hx 1).1, (hx 2).1, fun s => (hx s).2⟩

/-- C33: every element loses the mean over the chosen index. -/
theorem C33_value (n : Nat) (A : Int → K) (s : Fin 3) (x : Legs) (hx : Legs.Valid n x) :
    translationalInvariancePerIndex n n s A (fc3Pos n x) =
      A (fc3Pos n x) - drift n s (fun y => A (fc3Pos n y)) x / (n : K) := by
  rw [perIndex_value s A x (valid_inShape hx), drift_eq]

theorem valid_set {n : Nat} {x : Legs} (hx : Legs.Valid n x) (s : Fin 3) {a : Nat} (ha : a < n) :
    Legs.Valid n (setAtom x s a) := by
  intro q
  unfold setAtom
  by_cases h : q = s
  · subst h; simp [ha, (hx q).2]
  · simp [Function.update_of_ne h, (hx q).1, (hx q).2]

/-- Subtraction of the mean over leg `s`, as an operation on force constants. -/
def removeDrift (n : Nat) (s : Fin 3) (f : Legs → K) (x : Legs) : K :=
  f x - drift n s f x / (n : K)

theorem drift_congr {n : Nat} {s : Fin 3} {f g : Legs → K} {x : Legs} (hx : Legs.Valid n x)
    (h : ∀ y, Legs.Valid n y → f y = g y) : drift n s f x = drift n s g x :=
  Finset.sum_congr rfl fun _ ha => h _ (valid_set hx s (Finset.mem_range.mp ha))

theorem drift_remove_same {n : Nat} (s : Fin 3) (f : Legs → K) (x : Legs)
    (hx : Legs.Valid n x) : drift n s (removeDrift n s f) x = 0 := by
  have hn : ((n : Nat) : K) ≠ 0 := by
    have : n ≠ 0 := by have := (hx 0).1; omega
    exact_mod_cast this
  unfold removeDrift drift
  simp only [setAtom_set]
  rw [Finset.sum_sub_distrib, Finset.sum_const, Finset.card_range, nsmul_eq_mul]
  field_simp
  ring

theorem setAtom_comm (x : Legs) {s t : Fin 3} (h : s ≠ t) (a b : Nat) :
    setAtom (setAtom x s a) t b = setAtom (setAtom x t b) s a := by
  funext q
  unfold setAtom
  by_cases h1 : q = s
  · subst h1
    simp [Function.update_of_ne h]
  · by_cases h2 : q = t
    · subst h2
      simp [Function.update_of_ne h1]
    · simp [Function.update_of_ne h1, Function.update_of_ne h2]

theorem drift_remove_other {n : Nat} {s t : Fin 3} (hst : s ≠ t) (f : Legs → K)
    (h : ∀ x, Legs.Valid n x → drift n s f x = 0) (x : Legs) (hx : Legs.Valid n x) :
    drift n s (removeDrift n t f) x = 0 := by
  have e : drift n s (removeDrift n t f) x =
      drift n s f x - drift n t (fun y => drift n s f y) x / (n : K) := by
    unfold removeDrift drift
    rw [Finset.sum_sub_distrib, ← Finset.sum_div, Finset.sum_comm]
    congr 2
    refine Finset.sum_congr rfl fun a _ => Finset.sum_congr rfl fun b _ => ?_
    rw [setAtom_comm x hst]
  rw [e, h x hx]
  have : drift n t (fun y => drift n s f y) x = 0 :=
    Finset.sum_eq_zero fun a ha => h _ (valid_set hx t (Finset.mem_range.mp ha))
  rw [this]; simp

/-- C33: the sum over the chosen index vanishes afterwards. -/
theorem C33_sum_vanishes (n : Nat) (A : Int → K) (s : Fin 3) (x : Legs) (hx : Legs.Valid n x) :
    drift n s (fun y => translationalInvariancePerIndex n n s A (fc3Pos n y)) x = 0 := by
  rw [drift_congr hx (g := removeDrift n s fun y => A (fc3Pos n y))
    fun y hy => C33_value n A s y hy]
  exact drift_remove_same s _ x hx

/-- C33: force constants whose sum already vanishes are unchanged. -/
theorem C33_unchanged (n : Nat) (A : Int → K) (s : Fin 3)
    (h : ∀ x, Legs.Valid n x → drift n s (fun y => A (fc3Pos n y)) x = 0) (x : Legs)
    (hx : Legs.Valid n x) :
    translationalInvariancePerIndex n n s A (fc3Pos n x) = A (fc3Pos n x) := by
  rw [C33_value n A s x hx, h x hx]; simp

/-- C33: after the three steps the sums over all three indices vanish. -/
theorem C33_all_sums_vanish (n : Nat) (A : Int → K) (s : Fin 3) (x : Legs)
    (hx : Legs.Valid n x) :
    drift n s (fun y => setTranslationalInvarianceFc3 n A (fc3Pos n y)) x = 0 := by
  have e : ∀ y, Legs.Valid n y → setTranslationalInvarianceFc3 n A (fc3Pos n y) =
      removeDrift n 2 (removeDrift n 1 (removeDrift n 0 fun y => A (fc3Pos n y))) y := by
    intro y hy
    have h3 : setTranslationalInvarianceFc3 n A = translationalInvariancePerIndex n n ((2 : Fin 3) : Nat)
      (translationalInvariancePerIndex n n ((1 : Fin 3) : Nat)
        (translationalInvariancePerIndex n n ((0 : Fin 3) : Nat) A)) := rfl
    have h1 : ∀ z, Legs.Valid n z → translationalInvariancePerIndex n n ((1 : Fin 3) : Nat)
        (translationalInvariancePerIndex n n ((0 : Fin 3) : Nat) A) (fc3Pos n z) =
        removeDrift n 1 (removeDrift n 0 fun y => A (fc3Pos n y)) z := by
      intro z hz
      rw [C33_value n _ 1 z hz]
      unfold removeDrift
      rw [C33_value n A 0 z hz, drift_congr hz fun w hw => C33_value n A 0 w hw]
    rw [h3, C33_value n _ 2 y hy, h1 y hy, drift_congr hy h1]
    rfl
  rw [drift_congr hx e]
  have z0 : ∀ x, Legs.Valid n x → drift n 0 (removeDrift n 0 fun y => A (fc3Pos n y)) x = 0 :=
    fun x hx => drift_remove_same 0 _ x hx
  have z1 : ∀ x, Legs.Valid n x →
      drift n 0 (removeDrift n 1 (removeDrift n 0 fun y => A (fc3Pos n y))) x = 0 :=
    fun x hx => drift_remove_other (by decide) _ z0 x hx
  have y1 : ∀ x, Legs.Valid n x →
      drift n 1 (removeDrift n 1 (removeDrift n 0 fun y => A (fc3Pos n y))) x = 0 :=
    fun x hx => drift_remove_same 1 _ x hx
  fin_cases s
  · exact drift_remove_other (by decide) _ z1 x hx
  · exact drift_remove_other (by decide) _ y1 x hx
  · exact drift_remove_same 2 _ x hx

/-! ### Compact version -/

theorem sum_trans {m : CompactMaps} (hm : m.Ok) {a : Nat} (ha : a < m.nSatom) (f : Nat → K) :
    ∑ b ∈ Finset.range m.nSatom, f b = ∑ b ∈ Finset.range m.nSatom, f (m.trans a b) := by
  symm
  refine Finset.sum_nbij (m.trans a) ?_ ?_ ?_ fun _ _ => rfl
  · intro b hb
    exact Finset.mem_range.mpr (hm.move_lt a ha b (Finset.mem_range.mp hb))
  · intro b hb c hc h
    exact trans_inj hm ha (Finset.mem_range.mp hb) (Finset.mem_range.mp hc) h
  · refine Finset.surjOn_of_injOn_of_card_le _ ?_ ?_ le_rfl
    · intro b hb
      exact Finset.mem_coe.mpr (Finset.mem_range.mpr
        (hm.move_lt a ha b (Finset.mem_range.mp (Finset.mem_coe.mp hb))))
    · intro b hb c hc h
      exact trans_inj hm ha (Finset.mem_range.mp (Finset.mem_coe.mp hb))
        (Finset.mem_range.mp (Finset.mem_coe.mp hc)) h

/-- Subtracting the mean over the second or the third index of a compact array subtracts the
mean of the full force constants. -/
theorem expand_perIndex {m : CompactMaps} (hm : m.Ok) (A : Int → K) (s : Fin 3) (hs : s ≠ 0)
    (x : Legs) (hx : Legs.Valid m.nSatom x) :
    expandCompact m (translationalInvariancePerIndex m.nPatom m.nSatom s A) x =
      removeDrift m.nSatom s (expandCompact m A) x := by
  have hsh : InShape m.nPatom m.nSatom (compactLegs m.s2pp m.trans x) := by
    have h := compactLegs_slot hm hx
    exact ⟨hm.cls_lt _ (hx 0).1, h.1, h.2.1, h.2.2⟩
  unfold expandCompact
  rw [perIndex_value s A _ hsh]
  unfold centred removeDrift
  have hlen : fc3Shape m.nPatom m.nSatom s = m.nSatom := by
    unfold fc3Shape
    rw [if_neg]
    intro h
    exact hs (Fin.ext h)
  have h12 : s = 1 ∨ s = 2 := by
    have : ∀ s : Fin 3, s ≠ 0 → s = 1 ∨ s = 2 := by decide
    exact this s hs
  have hset : ∀ a, setAtom (compactLegs m.s2pp m.trans x) s (m.trans (x 0).1 a) =
      compactLegs m.s2pp m.trans (setAtom x s a) := by
    intro a
    rcases h12 with rfl | rfl
    · funext q; fin_cases q <;> rfl
    · funext q; fin_cases q <;> rfl
  have hsum : (∑ a ∈ Finset.range m.nSatom, A ((fc3Pos m.nSatom
      (setAtom (compactLegs m.s2pp m.trans x) s a) : Nat) : Int)) =
      drift m.nSatom s (fun x => A (fc3Pos m.nSatom (compactLegs m.s2pp m.trans x))) x := by
    rw [sum_trans hm (hx 0).1]
    unfold drift
    exact Finset.sum_congr rfl fun a _ => by rw [hset a]
  rw [hlen, hsum]

/-- C33: after the compact version the sums over the second and the third atoms vanish. -/
theorem C33_compact_second_third (m : CompactMaps)
    (hm : Translations m.nSatom m.nPatom m.p2s m.s2pp m.trans) (A : Int → K) (s : Fin 3)
    (hs : s ≠ 0) (x : Legs) (hx : Legs.Valid m.nSatom x) :
    drift m.nSatom s (expandCompact m (setTranslationalInvarianceCompactFc3 m A)) x = 0 := by
  have hm' : m.Ok := hm
  set B := transposeCompactFc3 m 0 (translationalInvariancePerIndex m.nPatom m.nSatom
    ((1 : Fin 3) : Nat) (transposeCompactFc3 m 0 A)) with hB
  have e : ∀ y, Legs.Valid m.nSatom y →
      expandCompact m (setTranslationalInvarianceCompactFc3 m A) y =
      removeDrift m.nSatom 2 (removeDrift m.nSatom 1 (expandCompact m B)) y := by
    intro y hy
    have h3 : setTranslationalInvarianceCompactFc3 m A = translationalInvariancePerIndex m.nPatom
      m.nSatom ((2 : Fin 3) : Nat) (translationalInvariancePerIndex m.nPatom m.nSatom
        ((1 : Fin 3) : Nat) B) := rfl
    rw [h3, expand_perIndex hm' _ 2 (by decide) y hy]
    unfold removeDrift
    rw [expand_perIndex hm' B 1 (by decide) y hy,
      drift_congr hy fun w hw => expand_perIndex hm' B 1 (by decide) w hw]
    rfl
  rw [drift_congr hx e]
  have h12 : s = 1 ∨ s = 2 := by
    have : ∀ s : Fin 3, s ≠ 0 → s = 1 ∨ s = 2 := by decide
    exact this s hs
  rcases h12 with rfl | rfl
  · exact drift_remove_other (by decide) _ (fun x hx => drift_remove_same 1 _ x hx) x hx
  · exact drift_remove_same 2 _ x hx

/-- C33, partial: all three sums vanish after the compact version when no lattice translation of
the supercell has order two. Missing: other supercells, where the statement is false for the
first atom (`C33_compact_drift_left`). -/
theorem C33_compact_partial (m : CompactMaps)
    (hm : Translations m.nSatom m.nPatom m.p2s m.s2pp m.trans)
    (hn : NoHalfTranslation m.nSatom m.s2pp m.trans) (A : Int → K) (s : Fin 3) (x : Legs)
    (hx : Legs.Valid m.nSatom x) :
    drift m.nSatom s (expandCompact m (setTranslationalInvarianceCompactFc3 m A)) x = 0 := by
  have hm' : m.Ok := hm
  by_cases hs : s = 0
  swap
  · exact C33_compact_second_third m hm A s hs x hx
  subst hs
  have hT : ∀ (C : Int → K) (y : Legs), Legs.Valid m.nSatom y →
      expandCompact m (transposeCompactFc3 m 0 C) y = expandCompact m C (y ∘ Equiv.swap 0 1) :=
    fun C y hy => C32_odd m hm hn C y hy 0 (by omega)
  set B := transposeCompactFc3 m 0 (translationalInvariancePerIndex m.nPatom m.nSatom
    ((1 : Fin 3) : Nat) (transposeCompactFc3 m 0 A)) with hB
  have hB0 : ∀ y, Legs.Valid m.nSatom y → expandCompact m B y =
      removeDrift m.nSatom 0 (expandCompact m A) y := by
    intro y hy
    have hy' : Legs.Valid m.nSatom (y ∘ Equiv.swap 0 1) := Legs.Valid.perm hy _
    rw [hB, hT _ y hy, expand_perIndex hm' _ 1 (by decide) _ hy']
    unfold removeDrift
    have hss : ∀ z : Legs, (z ∘ Equiv.swap 0 1) ∘ Equiv.swap 0 1 = z := by
      intro z; funext q; simp
    rw [hT A _ hy', hss]
    congr 2
    unfold drift
    refine Finset.sum_congr rfl fun a ha => ?_
    rw [hT A _ (valid_set hy' 1 (Finset.mem_range.mp ha))]
    congr 1
    funext q; fin_cases q <;> rfl
  have e : ∀ y, Legs.Valid m.nSatom y →
      expandCompact m (setTranslationalInvarianceCompactFc3 m A) y =
      removeDrift m.nSatom 2 (removeDrift m.nSatom 1 (expandCompact m B)) y := by
    intro y hy
    have h3 : setTranslationalInvarianceCompactFc3 m A = translationalInvariancePerIndex m.nPatom
      m.nSatom ((2 : Fin 3) : Nat) (translationalInvariancePerIndex m.nPatom m.nSatom
        ((1 : Fin 3) : Nat) B) := rfl
    rw [h3, expand_perIndex hm' _ 2 (by decide) y hy]
    unfold removeDrift
    rw [expand_perIndex hm' B 1 (by decide) y hy,
      drift_congr hy fun w hw => expand_perIndex hm' B 1 (by decide) w hw]
    rfl
  rw [drift_congr hx e]
  have z0 : ∀ x, Legs.Valid m.nSatom x → drift m.nSatom 0 (expandCompact m B) x = 0 := by
    intro x hx
    rw [drift_congr hx hB0]
    exact drift_remove_same 0 _ x hx
  exact drift_remove_other (by decide) _
    (fun x hx => drift_remove_other (by decide) _ z0 x hx) x hx

/-- C33 is false for compact arrays of a supercell of two cells: the sum over the first atom
does not vanish. -/
theorem C33_compact_drift_left :
    ∃ (m : CompactMaps), Translations m.nSatom m.nPatom m.p2s m.s2pp m.trans ∧
      ∃ (A : Int → ℚ) (x : Legs), Legs.Valid m.nSatom x ∧
        drift m.nSatom 0 (expandCompact m (setTranslationalInvarianceCompactFc3 m A)) x ≠ 0 :=
  ⟨chain2, chain2_ok, fun p => if p = 27 then 1 else 0, ![(0, 0), (1, 0), (0, 0)], by
    intro s; fin_cases s <;> decide +kernel, by decide +kernel⟩

example : drift 2 1 (fun y => ((fc3Pos 2 y : Nat) : ℚ)) ![(0, 0), (1, 1), (0, 2)] ≠ 0 := by
  decide +kernel

end Phono3py.Props
