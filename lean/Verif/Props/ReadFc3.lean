import Verif.Model.ReadFc3
import Verif.Props.Fc3

/-!
# C159: force constants read from fc3.hdf5
-/

namespace Phono3py.Props

open Phono3py Spec

section
variable {K : Type} [Field K] [LinearOrder K] [IsStrictOrderedRing K]
set_option linter.unusedSectionVars false

theorem setAtom_perm (x : Legs) (s : Fin 3) (a : Nat) (σ : Equiv.Perm (Fin 3)) :
    setAtom x s a ∘ σ = setAtom (x ∘ σ) (σ.symm s) a := by
  funext q
  unfold setAtom
  by_cases h : σ q = s
  · have h' : q = σ.symm s := by rw [← h]; simp
    subst h'
    simp
  · have h' : q ≠ σ.symm s := by rintro rfl; simp at h
    simp [Function.update_of_ne h, Function.update_of_ne h']

/-- Averaging over permutations keeps vanishing sums. -/
theorem drift_mean {n : Nat} {f : Legs → K}
    (h : ∀ s x, Legs.Valid n x → drift n s f x = 0) (s : Fin 3) (x : Legs) (hx : Legs.Valid n x) :
    drift n s (permutationMean f) x = 0 := by
  unfold drift permutationMean
  rw [← Finset.sum_div, Finset.sum_comm]
  have : ∑ σ : Equiv.Perm (Fin 3), ∑ a ∈ Finset.range n, f (setAtom x s a ∘ σ) = 0 := by
    refine Finset.sum_eq_zero fun σ _ => ?_
    have e := h (σ.symm s) (x ∘ σ) (Legs.Valid.perm hx σ)
    unfold drift at e
    rw [← e]
    exact Finset.sum_congr rfl fun a _ => by rw [setAtom_perm]
  rw [this, zero_div]

theorem translateAny_full (n : Nat) (A : Int → K) :
    translateAnyFc3 n n A = setTranslationalInvarianceFc3 n A := rfl

theorem full_drift (n : Nat) (A : Int → K) (s : Fin 3) (x : Legs) (hx : Legs.Valid n x) :
    drift n s (fun y => symmetrizeRead n n A (fc3Pos n y)) x = 0 := by
  unfold symmetrizeRead
  rw [drift_congr hx (g := permutationMean fun y => translateAnyFc3 n n A (fc3Pos n y))
    fun y hy => C31_value n _ y hy]
  exact drift_mean (fun s x hx => C33_all_sums_vanish n A s x hx) s x hx

/-- **C159 (full arrays become symmetric).** Full force constants read and symmetrised are symmetric
under permutations, and their sums over each index vanish. -/
theorem C159_full_symmetric (n : Nat) (A : Int → K) :
    PermutationSymmetric n (fun x => symmetrizeRead n n A (fc3Pos n x)) ∧
    ∀ s x, Legs.Valid n x → drift n s (fun y => symmetrizeRead n n A (fc3Pos n y)) x = 0 :=
  ⟨C31_symmetric n _, fun s x hx => full_drift n A s x hx⟩

/-- **C159 (symmetric full arrays are unchanged).** -/
theorem C159_full_unchanged (n : Nat) (A : Int → K)
    (h1 : PermutationSymmetric n fun x => A (fc3Pos n x))
    (h2 : ∀ s x, Legs.Valid n x → drift n s (fun y => A (fc3Pos n y)) x = 0) (x : Legs)
    (hx : Legs.Valid n x) : symmetrizeRead n n A (fc3Pos n x) = A (fc3Pos n x) := by
  have e0 : ∀ y, Legs.Valid n y →
      translationalInvariancePerIndex n n ((0 : Fin 3) : Nat) A (fc3Pos n y) = A (fc3Pos n y) :=
    fun y hy => C33_unchanged n A 0 (h2 0) y hy
  have e1 : ∀ y, Legs.Valid n y →
      translationalInvariancePerIndex n n ((1 : Fin 3) : Nat)
        (translationalInvariancePerIndex n n ((0 : Fin 3) : Nat) A) (fc3Pos n y) =
        A (fc3Pos n y) := by
    intro y hy
    rw [C33_unchanged n _ 1 (fun z hz => by rw [drift_congr hz e0]; exact h2 1 z hz) y hy, e0 y hy]
  have e2 : ∀ y, Legs.Valid n y → translateAnyFc3 n n A (fc3Pos n y) = A (fc3Pos n y) := by
    intro y hy
    show translationalInvariancePerIndex n n ((2 : Fin 3) : Nat)
      (translationalInvariancePerIndex n n ((1 : Fin 3) : Nat)
        (translationalInvariancePerIndex n n ((0 : Fin 3) : Nat) A)) (fc3Pos n y) = _
    rw [C33_unchanged n _ 2 (fun z hz => by rw [drift_congr hz e1]; exact h2 2 z hz) y hy, e1 y hy]
  unfold symmetrizeRead
  rw [C31_value n _ x hx]
  refine permutationMean_of_const _ _ _ fun σ => ?_
  rw [e2 _ (Legs.Valid.perm hx σ)]
  exact h1 x hx σ

/-- **C159 (round trip).** A run that computes full force constants with symmetrisation writes a file
that a run with symmetrisation reads back as it is.  Partial: for compact force constants this fails
(`C159_compact_sum`, `C159_compact_one`). -/
theorem C159_roundtrip_partial (check : Nat × Nat → List Nat → List Nat → Bool) (m : CompactMaps)
    (p2s : List Nat) (hc : check (m.nSatom, m.nSatom) p2s p2s = true) (A : Int → K)
    (symmetrize : Bool) :
    ∃ B, readFc3 check p2s m.nSatom symmetrize
        (some (fc3Written false m p2s (symmetrizeProduced false m A))) = .taken m.nSatom B ∧
      ∀ x, Legs.Valid m.nSatom x →
        B (fc3Pos m.nSatom x) = symmetrizeProduced false m A (fc3Pos m.nSatom x) := by
  have hs : symmetrizeProduced false m A = symmetrizeRead m.nSatom m.nSatom A := rfl
  obtain ⟨h1, h2⟩ := C159_full_symmetric m.nSatom A
  cases symmetrize with
  | false =>
    refine ⟨_, ?_, fun x _ => rfl⟩
    simp [readFc3, fc3Written, hc]
  | true =>
    refine ⟨symmetrizeRead m.nSatom m.nSatom (symmetrizeProduced false m A), ?_, fun x hx => ?_⟩
    · simp [readFc3, fc3Written, hc]
    · rw [hs]
      exact C159_full_unchanged m.nSatom _ h1 h2 x hx

/-! ### Compact arrays -/

theorem sum_centred_other {n0 n : Nat} {s : Fin 3} (hs : s ≠ 0) (A : Int → K)
    (h : ∀ x, InShape n0 n x → ∑ a ∈ Finset.range n0, A ((fc3Pos n (setAtom x 0 a) : Nat) : Int) = 0)
    (x : Legs) (hx : InShape n0 n x) :
    ∑ a ∈ Finset.range n0, centred n0 n s A (setAtom x 0 a) = 0 := by
  unfold centred
  rw [Finset.sum_sub_distrib, ← Finset.sum_div, Finset.sum_comm, h x hx]
  have hshape : fc3Shape n0 n s = n := by
    unfold fc3Shape
    rw [if_neg]
    intro h'
    exact hs (Fin.ext h')
  have : ∑ b ∈ Finset.range (fc3Shape n0 n s), ∑ a ∈ Finset.range n0,
      A ((fc3Pos n (setAtom (setAtom x 0 a) s b) : Nat) : Int) = 0 := by
    refine Finset.sum_eq_zero fun b hb => ?_
    rw [← h (setAtom x s b) (inShape_set hx s (Finset.mem_range.mp hb))]
    exact Finset.sum_congr rfl fun a _ => by rw [setAtom_comm x (Ne.symm hs)]
  rw [this]
  simp

/-- After the translations, sums over the leading dimension vanish. -/
theorem translateAny_sum {n0 n : Nat} (A : Int → K) (x : Legs) (hx : InShape n0 n x) :
    ∑ a ∈ Finset.range n0, translateAnyFc3 n0 n A ((fc3Pos n (setAtom x 0 a) : Nat) : Int) = 0 := by
  have hset : ∀ y, InShape n0 n y → ∀ a ∈ Finset.range n0, InShape n0 n (setAtom y 0 a) :=
    fun y hy a ha => inShape_set hy 0 (by simpa [fc3Shape] using ha)
  have z0 : ∀ y, InShape n0 n y → ∑ a ∈ Finset.range n0,
      translationalInvariancePerIndex n0 n ((0 : Fin 3) : Nat) A
        ((fc3Pos n (setAtom y 0 a) : Nat) : Int) = 0 := by
    intro y hy
    rw [Finset.sum_congr rfl fun a ha => perIndex_value 0 A _ (hset y hy a ha)]
    refine centred_sum (n0 := n0) (n := n) 0 A y ?_
    show n0 ≠ 0
    have := hy.1
    omega
  have z1 : ∀ y, InShape n0 n y → ∑ a ∈ Finset.range n0,
      translationalInvariancePerIndex n0 n ((1 : Fin 3) : Nat)
        (translationalInvariancePerIndex n0 n ((0 : Fin 3) : Nat) A)
        ((fc3Pos n (setAtom y 0 a) : Nat) : Int) = 0 := by
    intro y hy
    rw [Finset.sum_congr rfl fun a ha => perIndex_value 1 _ _ (hset y hy a ha)]
    exact sum_centred_other (by decide) _ z0 y hy
  show ∑ a ∈ Finset.range n0, translationalInvariancePerIndex n0 n ((2 : Fin 3) : Nat)
    (translationalInvariancePerIndex n0 n ((1 : Fin 3) : Nat)
      (translationalInvariancePerIndex n0 n ((0 : Fin 3) : Nat) A))
    ((fc3Pos n (setAtom x 0 a) : Nat) : Int) = 0
  rw [Finset.sum_congr rfl fun a ha => perIndex_value 2 _ _ (hset x hx a ha)]
  exact sum_centred_other (by decide) _ z1 x hx

theorem fc3Pos_lt {n : Nat} {x : Legs} (hx : Legs.Valid n x) : fc3Pos n x < n * n * n * 27 := by
  have h0 := (hx 0).1
  have h1 := (hx 1).1
  have h2 := (hx 2).1
  have d0 := (hx 0).2
  have d1 := (hx 1).2
  have d2 := (hx 2).2
  unfold fc3Pos
  have a1 : (x 0).1 * n + (x 1).1 < n * n := by nlinarith
  have a2 : ((x 0).1 * n + (x 1).1) * n + (x 2).1 < n * n * n := by nlinarith
  omega

/-- Beyond the first `n0 * n0 * n0` blocks the permutation step does nothing. -/
theorem permutation_beyond (n0 : Nat) (A : Int → K) {p : Nat} (hp : n0 * n0 * n0 * 27 ≤ p) :
    setPermutationSymmetryFc3 n0 A ((p : Nat) : Int) = A p := by
  refine C31_frame n0 A p fun y hy h => ?_
  have := fc3Pos_lt hy
  have h' : fc3Pos n0 y = p := by exact_mod_cast h
  omega

/-- **C159 fails (compact arrays).** Compact force constants that are read with symmetrisation lose
their mean over the atoms of the primitive cell: for pairs of second and third atoms past the first
few, the sum over the *primitive* atoms, which means nothing, vanishes. -/
theorem C159_compact_sum (check : Nat × Nat → List Nat → List Nat → Bool) (p2s : List Nat)
    (f : Fc3File K) (hf : f.p2s = none ∨ ∃ l, f.p2s = some l ∧ check (f.lead, f.atoms) l p2s = true)
    (hd : f.isDouble = true) :
    ∃ B, readFc3 check p2s f.atoms true (some f) = .taken f.lead B ∧
      ∀ x, InShape f.lead f.atoms x →
        f.lead * f.lead * f.lead ≤ (x 1).1 * f.atoms + (x 2).1 →
        ∑ a ∈ Finset.range f.lead, B (fc3Pos f.atoms (setAtom x 0 a)) = 0 := by
  have hany : f.p2s.any (fun l => !check (f.lead, f.atoms) l p2s) = false := by
    rcases hf with h | ⟨l, h, hl⟩
    · rw [h]; rfl
    · rw [h]; simp [hl]
  refine ⟨symmetrizeRead f.lead f.atoms f.values, ?_, ?_⟩
  · simp [readFc3, hany, hd]
  · intro x hx hbig
    rw [← translateAny_sum f.values x hx]
    refine Finset.sum_congr rfl fun a _ => ?_
    unfold symmetrizeRead
    refine permutation_beyond f.lead _ ?_
    have e1 : (setAtom x 0 a 1).1 = (x 1).1 := rfl
    have e2 : (setAtom x 0 a 2).1 = (x 2).1 := rfl
    unfold fc3Pos
    rw [e1, e2]
    have h3 : (x 1).1 * f.atoms + (x 2).1 ≤
        (((setAtom x 0 a) 0).1 * f.atoms + (x 1).1) * f.atoms + (x 2).1 := by
      have : 0 ≤ ((setAtom x 0 a) 0).1 * f.atoms := Nat.zero_le _
      nlinarith
    omega

/-- **C159 fails (one atom in the primitive cell).** Whatever the compact force constants are, after
reading with symmetrisation they are zero. -/
theorem C159_compact_one (check : Nat × Nat → List Nat → List Nat → Bool) (p2s : List Nat)
    (f : Fc3File K) (hf : f.p2s = none ∨ ∃ l, f.p2s = some l ∧ check (f.lead, f.atoms) l p2s = true)
    (hd : f.isDouble = true) (h1 : f.lead = 1) :
    ∃ B, readFc3 check p2s f.atoms true (some f) = .taken 1 B ∧
      ∀ x, InShape 1 f.atoms x → B (fc3Pos f.atoms x) = 0 := by
  have hany : f.p2s.any (fun l => !check (f.lead, f.atoms) l p2s) = false := by
    rcases hf with h | ⟨l, h, hl⟩
    · rw [h]; rfl
    · rw [h]; simp [hl]
  refine ⟨symmetrizeRead 1 f.atoms f.values, ?_, ?_⟩
  · rw [h1] at hany
    simp [readFc3, hany, hd, h1]
  have hz : ∀ x, InShape 1 f.atoms x → translateAnyFc3 1 f.atoms f.values (fc3Pos f.atoms x) = 0 := by
    intro x hx
    have h := translateAny_sum f.values x hx
    rw [Finset.sum_range_one] at h
    have e : setAtom x 0 0 = x := by
      have h0 : (x 0).1 = 0 := by have := hx.1; omega
      conv_rhs => rw [← setAtom_self x 0, h0]
    rw [e] at h
    exact h
  intro x hx
  unfold symmetrizeRead
  by_cases hp : ∃ y, Legs.Valid 1 y ∧ ((fc3Pos 1 y : Nat) : Int) = ((fc3Pos f.atoms x : Nat) : Int)
  · obtain ⟨y, hy, he⟩ := hp
    rw [← he, C31_value 1 _ y hy]
    unfold permutationMean
    have : ∑ σ : Equiv.Perm (Fin 3), translateAnyFc3 1 f.atoms f.values
        ((fc3Pos 1 (y ∘ σ) : Nat) : Int) = 0 := by
      refine Finset.sum_eq_zero fun σ _ => ?_
      have hv := Legs.Valid.perm hy σ
      generalize y ∘ σ = z at hv
      have hpos : fc3Pos 1 z = fc3Pos f.atoms z := by
        have h0 := (hv 0).1
        have h1 := (hv 1).1
        have h2 := (hv 2).1
        unfold fc3Pos
        have e0 : (z 0).1 = 0 := by omega
        have e1 : (z 1).1 = 0 := by omega
        rw [e0, e1]
        simp
      rw [hpos]
      have h0 : 0 < f.atoms := lt_of_le_of_lt (Nat.zero_le _) hx.2.1
      exact hz z ⟨(hv 0).1, by have := (hv 1).1; omega, by have := (hv 2).1; omega,
        fun s => (hv s).2⟩
    rw [this, zero_div]
  · rw [C31_frame 1 _ _ fun y hy h => hp ⟨y, hy, h⟩]
    exact hz x hx

/-- **C159 (shapes).** Nothing but the second dimension is compared with the crystal: without
`p2s_map` any leading dimension is taken. -/
theorem C159_any_lead (check : Nat × Nat → List Nat → List Nat → Bool) (p2s : List Nat)
    (f : Fc3File K) (hf : f.p2s = none) (hd : f.isDouble = true) (numAtom : Nat) :
    readFc3 check p2s numAtom false (some f) =
      if f.atoms = numAtom then .taken f.lead f.values else .exited := by
  by_cases h : f.atoms = numAtom <;> simp [readFc3, hf, hd, h]

end

/-! ### Examples -/

/-- Three primitive cells with one atom each. -/
def chainOf3 : CompactMaps where
  p2s := fun p => p
  s2pp := fun _ => 0
  nsymList := fun j => (3 - j) % 3
  perms := fun q => (q % 3 + q / 3) % 3
  nSatom := 3
  nPatom := 1

theorem chainOf3_ok : Translations chainOf3.nSatom chainOf3.nPatom chainOf3.p2s chainOf3.s2pp
    chainOf3.trans where
  rep_lt := by decide +kernel
  cls_lt := by decide +kernel
  move_lt := by decide +kernel
  cls_rep := by decide +kernel
  cls_move := by decide +kernel
  move_self := by decide +kernel
  move_rep := by decide +kernel
  move_move := by decide +kernel

/-- How much a bond `b` to `b + 1` is stretched by atom `a` of a ring of `n`. -/
def stretch (n b a : Nat) : ℚ := (if a = (b + 1) % n then 1 else 0) - (if a = b then 1 else 0)

/-- Third derivatives of an energy that is cubic in the stretches, along the first direction. -/
def ringFc3 (n : Nat) (k : Nat → ℚ) (x : Legs) : ℚ :=
  if (x 0).2 = 0 ∧ (x 1).2 = 0 ∧ (x 2).2 = 0 then
    ((List.range n).map fun b => k b * stretch n b (x 0).1 * stretch n b (x 1).1 *
      stretch n b (x 2).1).sum else 0

/-- The legs of a position. -/
def legsAt (n : Nat) (p : Int) : Legs :=
  ![((p.toNat / 27) / n / n, p.toNat / 9 % 3), ((p.toNat / 27) / n % n, p.toNat / 3 % 3),
    ((p.toNat / 27) % n, p.toNat % 3)]

/-- Force constants of a chain of one atom per cell, as in a compact file. -/
def ringFile : Fc3File ℚ where
  lead := 1
  atoms := 3
  p2s := some [0]
  isDouble := true
  values p := ringFc3 3 (fun _ => 1) (legsAt 3 p)

set_option synthInstance.maxSize 400 in
set_option synthInstance.maxHeartbeats 100000 in
/-- They have all symmetries. -/
theorem ring_symmetric : PermutationSymmetric 3 (expandCompact chainOf3 ringFile.values) := by
  have h : ∀ σ : Equiv.Perm (Fin 3), ∀ a < 3, ∀ i < 3, ∀ b < 3, ∀ j < 3, ∀ c < 3, ∀ k < 3,
      expandCompact chainOf3 ringFile.values ((![(a, i), (b, j), (c, k)] : Legs) ∘ σ) =
        expandCompact chainOf3 ringFile.values ![(a, i), (b, j), (c, k)] := by
    decide +kernel
  intro x hx σ
  have e : x = ![((x 0).1, (x 0).2), ((x 1).1, (x 1).2), ((x 2).1, (x 2).2)] := by
    funext q; fin_cases q <;> rfl
  rw [e]
  exact h σ _ (hx 0).1 _ (hx 0).2 _ (hx 1).1 _ (hx 1).2 _ (hx 2).1 _ (hx 2).2

theorem ring_drift (s : Fin 3) (x : Legs) (hx : Legs.Valid 3 x) :
    drift 3 s (expandCompact chainOf3 ringFile.values) x = 0 := by
  have h : ∀ s : Fin 3, ∀ a < 3, ∀ i < 3, ∀ b < 3, ∀ j < 3, ∀ c < 3, ∀ k < 3,
      drift 3 s (expandCompact chainOf3 ringFile.values) ![(a, i), (b, j), (c, k)] = 0 := by
    decide +kernel
  have e : x = ![((x 0).1, (x 0).2), ((x 1).1, (x 1).2), ((x 2).1, (x 2).2)] := by
    funext q; fin_cases q <;> rfl
  rw [e]
  exact h s _ (hx 0).1 _ (hx 0).2 _ (hx 1).1 _ (hx 1).2 _ (hx 2).1 _ (hx 2).2

/-- Nothing is left of force constants that needed no symmetrisation. -/
example : ringFile.values (fc3Pos 3 ![(0, 0), (1, 0), (1, 0)]) ≠ 0 ∧
    ∃ B, readFc3 (fun _ a b => a == b) [0] 3 true (some ringFile) = .taken 1 B ∧
      ∀ x, InShape 1 3 x → B (fc3Pos 3 x) = 0 :=
  ⟨by decide +kernel, C159_compact_one _ [0] ringFile (.inr ⟨[0], rfl, rfl⟩) rfl rfl⟩

/-- Two atoms in the primitive cell, bonds of two kinds. -/
def ringFile2 : Fc3File ℚ where
  lead := 2
  atoms := 6
  p2s := some [0, 1]
  isDouble := true
  values p := ringFc3 6 (fun b => if b % 2 = 0 then 1 else 2) (legsAt 6 p)

/-- The sum over the primitive atoms is not zero, and is made zero. -/
example : ∑ a ∈ Finset.range 2,
      ringFile2.values (fc3Pos 6 (setAtom ![(0, 0), (2, 0), (2, 0)] 0 a)) ≠ 0 ∧
    ∃ B, readFc3 (fun _ a b => a == b) [0, 1] 6 true (some ringFile2) = .taken 2 B ∧
      ∑ a ∈ Finset.range 2, B (fc3Pos 6 (setAtom ![(0, 0), (2, 0), (2, 0)] 0 a)) = 0 := by
  refine ⟨by decide +kernel, ?_⟩
  obtain ⟨B, h1, h2⟩ := C159_compact_sum (fun _ a b => a == b) [0, 1] ringFile2
    (.inr ⟨[0, 1], rfl, rfl⟩) rfl
  exact ⟨B, h1, h2 _ ⟨by decide, by decide, by decide, by
    intro s; fin_cases s <;> decide⟩ (by decide)⟩

/-- A full array read back. -/
example : ∃ B, readFc3 (fun _ a b => a == b) [0, 1] 6 true
      (some (fc3Written false chain3 [0, 1] (symmetrizeProduced false chain3 fun p : Int => (p : ℚ)))) =
        .taken 6 B ∧
    ∀ x, Legs.Valid 6 x → B (fc3Pos 6 x) =
      symmetrizeProduced false chain3 (fun p : Int => (p : ℚ)) (fc3Pos 6 x) :=
  C159_roundtrip_partial _ chain3 [0, 1] rfl _ true

end Phono3py.Props
