/-
C40, C61-C67: strength of the phonon-phonon interaction.
-/
import Verif.Lemmas.SymQ
import Mathlib.Algebra.Order.Ring.Rat
import Mathlib.Algebra.BigOperators.Field
import Mathlib.Algebra.Order.BigOperators.Group.Finset

set_option linter.unusedSectionVars false

namespace Phono3py.Props
open Phono3py Phono3py.Spec

section
variable {K : Type _} [Field K] [LinearOrder K] [IsStrictOrderedRing K]

/-! ## C40 -/

/-- The q vector computed by the code is `Q D⁻¹ a`. -/
theorem qVector_eq (a D : V3) (Q : M3) : (qVector a D Q : Q3 K) = gridQ a D Q := by
  funext i
  unfold qVector gridQ
  rw [Fin.sum_univ_three]
  fin_cases i <;> rfl

/-- Reciprocal-space force constants of a triplet of grid points. -/
def tripletFc3 (expi : K → Cplx K) (c : Crystal K) (triplet : Fin 3 → Int) (addresses : Int → V3)
    (D : V3) (Q : M3) (i j k : Nat) : Cplx K :=
  realToReciprocal expi c.atoms (fun m => gridQ (addresses (triplet m)) D Q) c.fc3 c.isCompact
    (at3 c.numBand c.numBand i j k : Nat)

/-- The strength for band `band m` at member `m` of a triplet. Frequencies are stored in an
array of shape `(grid points, bands)`, eigenvectors in one of shape `(grid points, components,
bands)`. -/
def tripletStrength (sqrt : K → K) (expi : K → Cplx K) (c : Crystal K) (frequencies : Int → K)
    (eigenvectors : Int → Cplx K) (triplet : Fin 3 → Int) (addresses : Int → V3) (D : V3) (Q : M3)
    (band : Fin 3 → Nat) : K :=
  modeStrength c.cutoff c.numBand (fun a => sqrt (c.masses (a / 3)))
    (tripletFc3 expi c triplet addresses D Q)
    (fun m => frequencies (triplet m * c.numBand + (band m : Nat)))
    (fun m a => eigenvectors (triplet m * c.numBand * c.numBand + (at2 c.numBand a (band m) : Nat)))

/-- C40: every entry that is not flagged holds the interaction strength of its modes; flagged
entries keep their value. -/
theorem C40_value (sqrt : K → K) (expi : K → Cplx K) (c : Crystal K) (numBand0 : Nat)
    (gZero : Int → Bool) (frequencies : Int → K) (eigenvectors : Int → Cplx K)
    (triplet : Fin 3 → Int) (addresses : Int → V3) (D : V3) (Q : M3) (mem old : Int → K)
    {j k l : Nat} (hj : j < numBand0) (hk : k < c.numBand) (hl : l < c.numBand) :
    interactionAtTriplet sqrt expi c numBand0 (setGPos numBand0 c.numBand gZero) frequencies
      eigenvectors triplet addresses D Q false mem old (at3 c.numBand c.numBand j k l : Nat) =
    if gZero (at3 c.numBand c.numBand j k l : Nat) then old (at3 c.numBand c.numBand j k l : Nat)
    else tripletStrength sqrt expi c frequencies eigenvectors triplet addresses D Q
      ![c.bandIndices j, k, l] := by
  unfold interactionAtTriplet
  simp only [qVector_eq, Bool.false_eq_true, if_false]
  rw [realToNormal_eq, gPos_stores numBand0 c.numBand gZero _ old hj hk hl]
  rfl

/-- C61: with all bands, the entry of the symmetrised variant is the mean over the six
permutations of the triplet, where a flagged permuted entry contributes what the scratch buffer
happened to hold. -/
theorem C61_value (sqrt : K → K) (expi : K → Cplx K) (c : Crystal K)
    (gZero : Int → Bool) (frequencies : Int → K) (eigenvectors : Int → Cplx K)
    (triplet : Fin 3 → Int) (addresses : Int → V3) (D : V3) (Q : M3) (mem old : Int → K)
    (hband : ∀ b < c.numBand, c.bandIndices b = b) (band : Fin 3 → Nat)
    (hb : ∀ m, band m < c.numBand) :
    interactionAtTriplet sqrt expi c c.numBand (setGPos c.numBand c.numBand gZero) frequencies
      eigenvectors triplet addresses D Q true mem old
      (at3 c.numBand c.numBand (band 0) (band 1) (band 2) : Nat) =
    (∑ σ : Equiv.Perm (Fin 3),
      if gZero (at3 c.numBand c.numBand (band (σ 0)) (band (σ 1)) (band (σ 2)) : Nat) then
        mem (at3 c.numBand c.numBand (band (σ 0)) (band (σ 1)) (band (σ 2)) : Nat)
      else tripletStrength sqrt expi c frequencies eigenvectors (fun m => triplet (σ m)) addresses
        D Q (fun m => band (σ m))) / 6 := by
  unfold interactionAtTriplet
  simp only [qVector_eq, if_true]
  rw [symq_value sqrt expi c gZero _ _ _ mem hband band hb, Finset.sum_div]
  rfl

/-- C61: without flags it is the mean over the six permutations. -/
theorem C61_mean_partial (sqrt : K → K) (expi : K → Cplx K) (c : Crystal K)
    (gZero : Int → Bool) (frequencies : Int → K) (eigenvectors : Int → Cplx K)
    (triplet : Fin 3 → Int) (addresses : Int → V3) (D : V3) (Q : M3) (mem old : Int → K)
    (hband : ∀ b < c.numBand, c.bandIndices b = b) (hg : ∀ p, gZero p = false) (band : Fin 3 → Nat)
    (hb : ∀ m, band m < c.numBand) :
    interactionAtTriplet sqrt expi c c.numBand (setGPos c.numBand c.numBand gZero) frequencies
      eigenvectors triplet addresses D Q true mem old
      (at3 c.numBand c.numBand (band 0) (band 1) (band 2) : Nat) =
    (∑ σ : Equiv.Perm (Fin 3),
      tripletStrength sqrt expi c frequencies eigenvectors (fun m => triplet (σ m)) addresses
        D Q (fun m => band (σ m))) / 6 := by
  rw [C61_value sqrt expi c gZero frequencies eigenvectors triplet addresses D Q mem old hband band
    hb]
  simp only [hg, Bool.false_eq_true, if_false]

/-- C61: permuting the members of the triplet together with their bands changes nothing. -/
theorem C61_permutation_partial (sqrt : K → K) (expi : K → Cplx K) (c : Crystal K)
    (gZero : Int → Bool) (frequencies : Int → K) (eigenvectors : Int → Cplx K)
    (triplet : Fin 3 → Int) (addresses : Int → V3) (D : V3) (Q : M3) (mem old mem' old' : Int → K)
    (hband : ∀ b < c.numBand, c.bandIndices b = b) (hg : ∀ p, gZero p = false) (band : Fin 3 → Nat)
    (hb : ∀ m, band m < c.numBand) (τ : Equiv.Perm (Fin 3)) :
    interactionAtTriplet sqrt expi c c.numBand (setGPos c.numBand c.numBand gZero) frequencies
      eigenvectors (fun m => triplet (τ m)) addresses D Q true mem old
      (at3 c.numBand c.numBand (band (τ 0)) (band (τ 1)) (band (τ 2)) : Nat) =
    interactionAtTriplet sqrt expi c c.numBand (setGPos c.numBand c.numBand gZero) frequencies
      eigenvectors triplet addresses D Q true mem' old'
      (at3 c.numBand c.numBand (band 0) (band 1) (band 2) : Nat) := by
  rw [C61_mean_partial sqrt expi c gZero frequencies eigenvectors (fun m => triplet (τ m)) addresses D Q
      mem old hband hg (fun m => band (τ m)) fun m => hb _,
    C61_mean_partial sqrt expi c gZero frequencies eigenvectors triplet addresses D Q mem' old' hband hg
      band hb]
  refine congrArg (· / 6) (Fintype.sum_equiv (Equiv.mulLeft τ) _ _ fun σ => ?_)
  rfl

/-- C61 fails with flags: as soon as one permuted entry is flagged the result depends on the
uninitialised buffer, for every crystal and every triplet. -/
theorem C61_uninitialised_flag (sqrt : K → K) (expi : K → Cplx K) (c : Crystal K)
    (gZero : Int → Bool) (frequencies : Int → K) (eigenvectors : Int → Cplx K)
    (triplet : Fin 3 → Int) (addresses : Int → V3) (D : V3) (Q : M3) (mem old : Int → K)
    (hband : ∀ b < c.numBand, c.bandIndices b = b) (band : Fin 3 → Nat)
    (hb : ∀ m, band m < c.numBand) (τ : Equiv.Perm (Fin 3))
    (hflag : gZero (at3 c.numBand c.numBand (band (τ 0)) (band (τ 1)) (band (τ 2)) : Nat) = true) :
    interactionAtTriplet sqrt expi c c.numBand (setGPos c.numBand c.numBand gZero) frequencies
      eigenvectors triplet addresses D Q true mem old
      (at3 c.numBand c.numBand (band 0) (band 1) (band 2) : Nat) <
    interactionAtTriplet sqrt expi c c.numBand (setGPos c.numBand c.numBand gZero) frequencies
      eigenvectors triplet addresses D Q true (fun p => mem p + 1) old
      (at3 c.numBand c.numBand (band 0) (band 1) (band 2) : Nat) := by
  rw [C61_value sqrt expi c gZero frequencies eigenvectors triplet addresses D Q mem old hband band
    hb, C61_value sqrt expi c gZero frequencies eigenvectors triplet addresses D Q _ old hband band
    hb]
  refine div_lt_div_of_pos_right (Finset.sum_lt_sum (fun σ _ => ?_) ⟨τ, Finset.mem_univ _, ?_⟩)
    (by norm_num)
  · split_ifs
    · exact (lt_add_one _).le
    · exact le_refl _
  · rw [if_pos hflag, if_pos hflag]
    exact lt_add_one _

/-- C61 fails for a selection of bands: with one selected band that is not the first, the entry
of that band with itself is whatever the uninitialised buffer held, without any flag. -/
theorem C61_uninitialised_bands (sqrt : K → K) (expi : K → Cplx K) (c : Crystal K)
    (gZero : Int → Bool) (frequencies : Int → K) (eigenvectors : Int → Cplx K)
    (triplet : Fin 3 → Int) (addresses : Int → V3) (D : V3) (Q : M3) (mem old : Int → K)
    (b : Nat) (h0 : 0 < b) (hb : b < c.numBand) (hc : c.bandIndices 0 = b) :
    interactionAtTriplet sqrt expi c 1 (setGPos 1 c.numBand gZero) frequencies
      eigenvectors triplet addresses D Q true mem old (at3 c.numBand c.numBand 0 b b : Nat) =
    mem (at3 c.numBand c.numBand b b b : Nat) := by
  unfold interactionAtTriplet
  simp only [qVector_eq, if_true]
  refine symq_subset sqrt expi c _ ?_ _ _ _ mem b h0 hb hc
  intro p hp
  rw [setGPos_eq] at hp
  simp only [mem_loop] at hp
  obtain ⟨j, hj, k, hk, l, hl, h⟩ := hp
  split_ifs at h
  · simp at h
  · rw [List.mem_singleton] at h
    subst h
    have : at2 c.numBand k l < c.numBand * c.numBand := digits_lt hk hl
    unfold at2 at this
    show at3 c.numBand c.numBand j k l < _
    unfold at3
    rw [show j = 0 by omega]
    simpa using this

theorem tripletStrength_nonneg (sqrt : K → K) (expi : K → Cplx K) (c : Crystal K)
    (frequencies : Int → K) (eigenvectors : Int → Cplx K) (triplet : Fin 3 → Int)
    (addresses : Int → V3) (D : V3) (Q : M3) (band : Fin 3 → Nat) (hc : 0 ≤ c.cutoff) :
    0 ≤ tripletStrength sqrt expi c frequencies eigenvectors triplet addresses D Q band :=
  modeStrength_nonneg _ hc _ _ _ _ _

/-- C40: strengths are non-negative. -/
theorem C40_nonneg (sqrt : K → K) (expi : K → Cplx K) (c : Crystal K) (numBand0 : Nat)
    (gZero : Int → Bool) (frequencies : Int → K) (eigenvectors : Int → Cplx K)
    (triplet : Fin 3 → Int) (addresses : Int → V3) (D : V3) (Q : M3) (mem old : Int → K)
    (hc : 0 ≤ c.cutoff) (hold : ∀ p, 0 ≤ old p)
    {j k l : Nat} (hj : j < numBand0) (hk : k < c.numBand) (hl : l < c.numBand) :
    0 ≤ interactionAtTriplet sqrt expi c numBand0 (setGPos numBand0 c.numBand gZero) frequencies
      eigenvectors triplet addresses D Q false mem old (at3 c.numBand c.numBand j k l : Nat) := by
  rw [C40_value sqrt expi c numBand0 gZero frequencies eigenvectors triplet addresses D Q mem old hj
    hk hl]
  split_ifs
  · exact hold _
  · exact tripletStrength_nonneg _ _ _ _ _ _ _ _ _ _ hc

/-- C40: the symmetrised strengths are non-negative. -/
theorem C40_symmetrized_nonneg (sqrt : K → K) (expi : K → Cplx K) (c : Crystal K)
    (gZero : Int → Bool) (frequencies : Int → K) (eigenvectors : Int → Cplx K)
    (triplet : Fin 3 → Int) (addresses : Int → V3) (D : V3) (Q : M3) (mem old : Int → K)
    (hband : ∀ b < c.numBand, c.bandIndices b = b) (hg : ∀ p, gZero p = false) (band : Fin 3 → Nat)
    (hb : ∀ m, band m < c.numBand) (hc : 0 ≤ c.cutoff) :
    0 ≤ interactionAtTriplet sqrt expi c c.numBand (setGPos c.numBand c.numBand gZero) frequencies
      eigenvectors triplet addresses D Q true mem old
      (at3 c.numBand c.numBand (band 0) (band 1) (band 2) : Nat) := by
  rw [C61_mean_partial sqrt expi c gZero frequencies eigenvectors triplet addresses D Q mem old hband hg
    band hb]
  exact div_nonneg (Finset.sum_nonneg fun σ _ => tripletStrength_nonneg _ _ _ _ _ _ _ _ _ _ hc)
    (by norm_num)

/-- C40: an entry vanishes when one of its three modes is not above the cutoff frequency. -/
theorem C40_cutoff (sqrt : K → K) (expi : K → Cplx K) (c : Crystal K) (numBand0 : Nat)
    (gZero : Int → Bool) (frequencies : Int → K) (eigenvectors : Int → Cplx K)
    (triplet : Fin 3 → Int) (addresses : Int → V3) (D : V3) (Q : M3) (mem : Int → K)
    {j k l : Nat} (hj : j < numBand0) (hk : k < c.numBand) (hl : l < c.numBand)
    (hf : frequencies (triplet 0 * c.numBand + (c.bandIndices j : Nat)) ≤ c.cutoff ∨
      frequencies (triplet 1 * c.numBand + k) ≤ c.cutoff ∨
      frequencies (triplet 2 * c.numBand + l) ≤ c.cutoff) :
    interactionAtTriplet sqrt expi c numBand0 (setGPos numBand0 c.numBand gZero) frequencies
      eigenvectors triplet addresses D Q false mem (fun _ => 0)
      (at3 c.numBand c.numBand j k l : Nat) = 0 := by
  rw [C40_value sqrt expi c numBand0 gZero frequencies eigenvectors triplet addresses D Q mem _ hj
    hk hl]
  split_ifs
  · rfl
  · unfold tripletStrength modeStrength
    rw [if_neg]
    intro h
    rcases hf with hf | hf | hf
    · exact absurd (h 0) (not_lt.2 hf)
    · exact absurd (h 1) (not_lt.2 hf)
    · exact absurd (h 2) (not_lt.2 hf)

/-! ## C62 -/

/-- C62: multiplying every eigenvector by a phase of its own changes no strength. -/
theorem C62_phase (sqrt : K → K) (expi : K → Cplx K) (c : Crystal K) (frequencies : Int → K)
    (e e' : Int → Cplx K) (triplet : Fin 3 → Int) (addresses : Int → V3) (D : V3) (Q : M3)
    (phase : Int → Nat → Cplx K) (hphase : ∀ g b, (phase g b).normSq = 1)
    (he : ∀ (g : Int), ∀ a < c.numBand, ∀ b < c.numBand,
      e' (g * c.numBand * c.numBand + (at2 c.numBand a b : Nat)) =
        phase g b * e (g * c.numBand * c.numBand + (at2 c.numBand a b : Nat)))
    (band : Fin 3 → Nat) (hb : ∀ m, band m < c.numBand) :
    tripletStrength sqrt expi c frequencies e' triplet addresses D Q band =
      tripletStrength sqrt expi c frequencies e triplet addresses D Q band := by
  unfold tripletStrength
  refine modeStrength_congr (fun _ => rfl) ?_
  rw [amplitude_congr (fun _ _ _ _ _ _ => rfl) (fun a ha => he (triplet 0) a ha _ (hb 0))
    (fun a ha => he (triplet 1) a ha _ (hb 1)) (fun a ha => he (triplet 2) a ha _ (hb 2)),
    amplitude_phase, normSq_mul, normSq_mul, normSq_mul, hphase, hphase, hphase, one_mul, one_mul,
    one_mul]

/-- `e'` differs from `e` by a unitary mixture of the bands in `S` at member `m` of the triplet
only. -/
structure Mixed (n : Nat) (S : Finset Nat) (U : Nat → Nat → Cplx K)
    (e e' : Nat → Nat → Cplx K) : Prop where
  unitary : ∀ i ∈ S, ∀ j ∈ S, (∑ l ∈ S, U i l * conj (U j l)) = if i = j then 1 else 0
  mixed : ∀ a < n, ∀ b ∈ S, e' a b = ∑ i ∈ S, U i b * e a i

/-- C62: replacing the eigenvectors of a set of bands of equal frequency at one member of the
triplet by a unitary mixture leaves the sum of the strengths over the set unchanged. `f m b` and
`e m a b` are the frequency and the eigenvector component of band `b` at member `m`. -/
theorem C62_degenerate (cutoff : K) (n : Nat) (s : Nat → K) (Phi : Nat → Nat → Nat → Cplx K)
    (f : Fin 3 → Nat → K) (e e' : Fin 3 → Nat → Nat → Cplx K) (m : Fin 3) (S : Finset Nat)
    (U : Nat → Nat → Cplx K) (hmix : Mixed n S U (e m) (e' m))
    (hother : ∀ m' ≠ m, e' m' = e m')
    (ω : K) (hdeg : ∀ b ∈ S, f m b = ω) (band : Fin 3 → Nat) :
    (∑ b ∈ S, modeStrength cutoff n s Phi (fun x => f x (Function.update band m b x))
      (fun x a => e' x a (Function.update band m b x))) =
    ∑ b ∈ S, modeStrength cutoff n s Phi (fun x => f x (Function.update band m b x))
      (fun x a => e x a (Function.update band m b x)) := by
  let F : Fin 3 → K := fun x => if x = m then ω else f x (band x)
  have hF : ∀ b ∈ S, (fun x => f x (Function.update band m b x)) = F := by
    intro b hb
    funext x
    by_cases hx : x = m
    · subst hx
      simp only [Function.update_self, F, if_true]
      exact hdeg b hb
    · simp only [F, Function.update_of_ne hx, if_neg hx]
  have step : ∀ (g : Fin 3 → Nat → Nat → Cplx K), (∑ b ∈ S, modeStrength cutoff n s Phi
      (fun x => f x (Function.update band m b x)) (fun x a => g x a (Function.update band m b x))) =
      if ∀ x, cutoff < F x then (∑ b ∈ S, (amplitude n s Phi
        (fun a => g 0 a (Function.update band m b 0)) (fun a => g 1 a (Function.update band m b 1))
        (fun a => g 2 a (Function.update band m b 2))).normSq) / (F 0 * F 1 * F 2) else 0 := by
    intro g
    rw [Finset.sum_congr rfl fun b hb => by rw [hF b hb, modeStrength_eq]]
    split_ifs
    · rw [Finset.sum_div]
    · exact Finset.sum_const_zero
  rw [step, step]
  congr 2
  rw [← unitary_sum S U (fun i => amplitude n s Phi
        (fun a => e 0 a (Function.update band m i 0)) (fun a => e 1 a (Function.update band m i 1))
        (fun a => e 2 a (Function.update band m i 2))) hmix.unitary]
  refine Finset.sum_congr rfl fun b hb => ?_
  congr 1
  have o : ∀ x, x ≠ m → ∀ a i, e' x a (Function.update band m b x) =
      e x a (Function.update band m i x) := by
    intro x hx a i
    rw [hother x hx, Function.update_of_ne hx, Function.update_of_ne hx]
  have d : ∀ a < n, e' m a (Function.update band m b m) = ∑ i ∈ S, U i b * e m a i := by
    intro a ha
    rw [Function.update_self]
    exact hmix.mixed a ha b hb
  match m, o, d with
  | 0, o, d =>
    rw [amplitude_congr (fun _ _ _ _ _ _ => rfl) d (fun _ _ => rfl) (fun _ _ => rfl),
      amplitude_sum0]
    refine Finset.sum_congr rfl fun i _ => ?_
    congr 1
    refine amplitude_congr (fun _ _ _ _ _ _ => rfl) (fun a _ => ?_) (fun a _ => o 1 (by decide) a i)
      (fun a _ => o 2 (by decide) a i)
    rw [Function.update_self]
  | 1, o, d =>
    rw [amplitude_congr (fun _ _ _ _ _ _ => rfl) (fun _ _ => rfl) d (fun _ _ => rfl),
      amplitude_sum1]
    refine Finset.sum_congr rfl fun i _ => ?_
    congr 1
    refine amplitude_congr (fun _ _ _ _ _ _ => rfl) (fun a _ => o 0 (by decide) a i) (fun a _ => ?_)
      (fun a _ => o 2 (by decide) a i)
    rw [Function.update_self]
  | 2, o, d =>
    rw [amplitude_congr (fun _ _ _ _ _ _ => rfl) (fun _ _ => rfl) (fun _ _ => rfl) d,
      amplitude_sum2]
    refine Finset.sum_congr rfl fun i _ => ?_
    congr 1
    refine amplitude_congr (fun _ _ _ _ _ _ => rfl) (fun a _ => o 0 (by decide) a i)
      (fun a _ => o 1 (by decide) a i) (fun a _ => ?_)
    rw [Function.update_self]

/-! ## C63 -/

/-- C63: the time-reversed triplet, with conjugate eigenvectors and equal frequencies, has the
same strengths. -/
theorem C63_time_reversal (sqrt : K → K) (expi : K → Cplx K)
    (hexpi : ∀ x, expi (-x) = conj (expi x)) (c : Crystal K) (frequencies : Int → K)
    (eigenvectors : Int → Cplx K) (t t' : Fin 3 → Int) (addresses : Int → V3) (D : V3) (Q : M3)
    (hband : c.numBand = c.atoms.numPatom * 3)
    (haddr : ∀ m, addresses (t' m) = -addresses (t m))
    (hfreq : ∀ m, ∀ b < c.numBand, frequencies (t' m * c.numBand + b) =
      frequencies (t m * c.numBand + b))
    (heig : ∀ m, ∀ a < c.numBand, ∀ b < c.numBand,
      eigenvectors (t' m * c.numBand * c.numBand + (at2 c.numBand a b : Nat)) =
        conj (eigenvectors (t m * c.numBand * c.numBand + (at2 c.numBand a b : Nat))))
    (band : Fin 3 → Nat) (hb : ∀ m, band m < c.numBand) :
    tripletStrength sqrt expi c frequencies eigenvectors t' addresses D Q band =
      tripletStrength sqrt expi c frequencies eigenvectors t addresses D Q band := by
  have hq : (fun m => gridQ (K := K) (addresses (t' m)) D Q) =
      fun m x => -gridQ (addresses (t m)) D Q x := by
    funext m x
    rw [haddr]
    unfold gridQ
    have he : ∀ j, ((-addresses (t m)).e j : K) = -((addresses (t m)).e j : K) := by
      intro j
      rw [← Int.cast_neg]
      fin_cases j <;> rfl
    rw [← Finset.sum_neg_distrib]
    refine Finset.sum_congr rfl fun j _ => ?_
    rw [he]
    ring
  unfold tripletStrength
  refine modeStrength_congr (fun m => hfreq m _ (hb m)) ?_
  rw [amplitude_congr (Phi' := fun i j k => conj (tripletFc3 expi c t addresses D Q i j k)) ?_
    (fun a ha => heig 0 a ha _ (hb 0))
    (fun a ha => heig 1 a ha _ (hb 1)) (fun a ha => heig 2 a ha _ (hb 2)), amplitude_conj,
    normSq_conj]
  intro i hi j hj k hk
  unfold tripletFc3
  rw [hq, r2r_at3 _ _ _ _ _ hband hi hj hk, r2r_at3 _ _ _ _ _ hband hi hj hk,
    r2rEntry_conj expi hexpi]

/-! ## C64 -/

/-- C64: force constants stored for all atoms and the same ones stored for primitive atoms only
give the same strengths. -/
theorem C64_compact (sqrt : K → K) (expi : K → Cplx K) (c : Crystal K) (full compact : Int → K)
    (frequencies : Int → K) (eigenvectors : Int → Cplx K) (t : Fin 3 → Int) (addresses : Int → V3)
    (D : V3) (Q : M3) (hband : c.numBand = c.atoms.numPatom * 3)
    (hfc : ∀ i < c.atoms.numPatom, ∀ j < c.atoms.numSatom, ∀ k < c.atoms.numSatom,
      ∀ x < 3, ∀ y < 3, ∀ z < 3, full (fc3At c.atoms.numSatom (c.atoms.p2s i) j k x y z) =
        compact (fc3At c.atoms.numSatom i j k x y z))
    (band : Fin 3 → Nat) :
    tripletStrength sqrt expi { c with fc3 := full, isCompact := false } frequencies eigenvectors t
      addresses D Q band =
    tripletStrength sqrt expi { c with fc3 := compact, isCompact := true } frequencies eigenvectors t
      addresses D Q band := by
  have el : ∀ (p1 p2 : Nat → Cplx K), ∀ i < c.atoms.numPatom, ∀ (j k leg : Nat), ∀ x < 3, ∀ y < 3,
      ∀ z < 3, r2rElement c.atoms p1 p2 full false i j k leg (x * 9 + y * 3 + z) =
      r2rElement c.atoms p1 p2 compact true i j k leg (x * 9 + y * 3 + z) := by
    intro p1 p2 i hi j k leg x hx y hy z hz
    refine r2rElement_congr _ _ _ _ _ _ _ _ _ _ _ _ fun a ha b hb => ?_
    have := hfc i hi a ha b hb x hx y hy z hz
    unfold fc3At at this
    simp only [Bool.false_eq_true, if_false, if_true]
    convert this using 2 <;> (push_cast; ring)
  unfold tripletStrength
  refine modeStrength_congr (fun _ => rfl) (congrArg Cplx.normSq ?_)
  refine amplitude_congr (fun i hi j hj k hk => ?_) (fun _ _ => rfl) (fun _ _ => rfl)
    (fun _ _ => rfl)
  unfold tripletFc3
  simp only
  rw [r2r_at3 _ _ _ _ _ hband hi hj hk, r2r_at3 _ _ _ _ _ hband hi hj hk]
  unfold r2rEntry
  have h3 : ∀ x, x % 3 < 3 := fun x => Nat.mod_lt _ (by norm_num)
  have hp : ∀ x, x < c.numBand → x / 3 < c.atoms.numPatom := fun x hx => by omega
  simp only [el _ _ _ (hp i hi) _ _ _ _ (h3 _) _ (h3 _) _ (h3 _),
    el _ _ _ (hp j hj) _ _ _ _ (h3 _) _ (h3 _) _ (h3 _),
    el _ _ _ (hp k hk) _ _ _ _ (h3 _) _ (h3 _) _ (h3 _)]

/-! ## C65 -/

/-- C65: when all three interatomic distances are realised by one set of shortest vectors for
every triple of atoms, averaging over the choice of the first atom changes nothing. -/
theorem C65_r0_average (sqrt : K → K) (expi : K → Cplx K) (c : Crystal K)
    (frequencies : Int → K) (eigenvectors : Int → Cplx K) (t : Fin 3 → Int) (addresses : Int → V3)
    (D : V3) (Q : M3) (hband : c.numBand = c.atoms.numPatom * 3)
    (hshort : ∀ i < c.atoms.numPatom, ∀ j < c.atoms.numSatom, ∀ k < c.atoms.numSatom,
      c.atoms.allShortest (at3 c.atoms.numSatom c.atoms.numSatom i j k : Nat) = true)
    (band : Fin 3 → Nat) :
    tripletStrength sqrt expi { c with atoms := { c.atoms with makeR0Average := true } } frequencies
      eigenvectors t addresses D Q band =
    tripletStrength sqrt expi { c with atoms := { c.atoms with makeR0Average := false } } frequencies
      eigenvectors t addresses D Q band := by
  unfold tripletStrength
  refine modeStrength_congr (fun _ => rfl) (congrArg Cplx.normSq ?_)
  refine amplitude_congr (fun i hi j hj k hk => ?_) (fun _ _ => rfl) (fun _ _ => rfl)
    (fun _ _ => rfl)
  have hp : ∀ x, x < c.numBand → x / 3 < c.atoms.numPatom := fun x hx => by omega
  have hs : ∀ x, x < c.numBand → ∀ j < c.atoms.numSatom, ∀ k < c.atoms.numSatom,
      c.atoms.allShortest (((x / 3 : Nat) : Int) * c.atoms.numSatom * c.atoms.numSatom +
        j * c.atoms.numSatom + k) = true := by
    intro x hx j hj k hk
    rw [← hshort _ (hp x hx) j hj k hk]
    congr 1
    unfold at3
    push_cast
    ring
  unfold tripletFc3
  simp only
  rw [r2r_at3 _ { c.atoms with makeR0Average := true } _ _ _ hband hi hj hk,
    r2r_at3 _ { c.atoms with makeR0Average := false } _ _ _ hband hi hj hk]
  unfold r2rEntry
  simp only [if_true, Bool.false_eq_true, if_false]
  rw [r2rElement_short { c.atoms with makeR0Average := true } _ _ _ _ (i / 3) _ _ 1 _ (hs i hi),
    r2rElement_short { c.atoms with makeR0Average := true } _ _ _ _ (j / 3) _ _ 2 _ (hs j hj),
    r2rElement_short { c.atoms with makeR0Average := true } _ _ _ _ (k / 3) _ _ 3 _ (hs k hk)]
  have e : ∀ (p1 p2 : Nat → Cplx K) x, r2rElement { c.atoms with makeR0Average := true } p1 p2 c.fc3
      c.isCompact (i / 3) (j / 3) (k / 3) 0 x =
      r2rElement { c.atoms with makeR0Average := false } p1 p2 c.fc3 c.isCompact (i / 3) (j / 3)
        (k / 3) 0 x := fun _ _ _ => rfl
  rw [e]
  simp only [if_true, show ¬(2 : Nat) = 1 by decide, show ¬(3 : Nat) = 1 by decide,
    show (2 : Nat) > 1 by decide, show (3 : Nat) > 1 by decide, if_false]
  simp only [scale_eq]
  have z : (⟨0, 0⟩ : Cplx K) = 0 := rfl
  have o : (⟨3, 0⟩ : Cplx K) * ⟨1 / 3, 0⟩ = 1 := by ext <;> simp
  rw [z, mul_zero, mul_zero, zero_mul, zero_mul, add_zero, add_zero]
  calc _ = r2rElement _ _ _ _ _ _ _ _ _ _ * prePhaseFactor _ _ _ _ *
        ((⟨3, 0⟩ : Cplx K) * ⟨1 / 3, 0⟩) := by ring
    _ = _ := by rw [o, mul_one]; rfl

/-! ## C66 -/

/-- C66: if the force constants and the shortest-vector flags do not change under exchange of
the second and the third atom, exchanging the second and third member of the triplet and their
bands does not change the strength, with or without averaging over the choice of the first
atom. -/
theorem C66_exchange (sqrt : K → K) (expi : K → Cplx K) (c : Crystal K)
    (frequencies : Int → K) (eigenvectors : Int → Cplx K) (t : Fin 3 → Int) (addresses : Int → V3)
    (D : V3) (Q : M3) (hband : c.numBand = c.atoms.numPatom * 3)
    (hfc : ∀ i < c.atoms.numPatom, ∀ j < c.atoms.numSatom, ∀ k < c.atoms.numSatom,
      ∀ x < 3, ∀ y < 3, ∀ z < 3,
      c.fc3 (fc3At c.atoms.numSatom (if c.isCompact then i else c.atoms.p2s i) j k x y z) =
      c.fc3 (fc3At c.atoms.numSatom (if c.isCompact then i else c.atoms.p2s i) k j x z y))
    (hshort : ∀ i < c.atoms.numPatom, ∀ j < c.atoms.numSatom, ∀ k < c.atoms.numSatom,
      c.atoms.allShortest (at3 c.atoms.numSatom c.atoms.numSatom i j k : Nat) =
      c.atoms.allShortest (at3 c.atoms.numSatom c.atoms.numSatom i k j : Nat))
    (band : Fin 3 → Nat) :
    tripletStrength sqrt expi c frequencies eigenvectors ![t 0, t 2, t 1] addresses D Q
      ![band 0, band 2, band 1] =
    tripletStrength sqrt expi c frequencies eigenvectors t addresses D Q band := by
  set q : Fin 3 → Q3 K := fun m => gridQ (addresses (t m)) D Q with hq
  set q' : Fin 3 → Q3 K := fun m => gridQ (addresses ((![t 0, t 2, t 1] : Fin 3 → Int) m)) D Q
    with hq'
  have hleg : ∀ i < c.atoms.numPatom, ∀ j < c.atoms.numSatom, ∀ k < c.atoms.numSatom,
      ∀ leg leg', (leg = leg' ∨ leg > 1 ∧ leg' > 1) →
      legFactor c.atoms i leg j k = legFactor c.atoms i leg' k j := by
    intro i hi j hj k hk leg leg' hl
    unfold legFactor
    have h1 := hshort i hi j hj k hk
    have e : ∀ j k : Nat, (i : Int) * c.atoms.numSatom * c.atoms.numSatom + j * c.atoms.numSatom + k
        = (at3 c.atoms.numSatom c.atoms.numSatom i j k : Nat) := by
      intro j k; unfold at3; push_cast; ring
    rw [e, e, h1]
    rcases hl with rfl | ⟨h2, h3⟩
    · rfl
    · rw [if_neg (show ¬leg = 1 by omega), if_pos h2, if_neg (show ¬leg' = 1 by omega), if_pos h3]
  have swap : ∀ (p1 p2 : Nat → Cplx K), ∀ i < c.atoms.numPatom, ∀ (j k leg leg' : Nat),
      (leg = leg' ∨ leg > 1 ∧ leg' > 1) → ∀ x < 3, ∀ y < 3, ∀ z < 3,
      r2rElement c.atoms p1 p2 c.fc3 c.isCompact i j k leg (x * 9 + y * 3 + z) =
      r2rElement c.atoms p2 p1 c.fc3 c.isCompact i k j leg' (x * 9 + z * 3 + y) := by
    intro p1 p2 i hi j k leg leg' hl x hx y hy z hz
    refine r2rElement_swap _ _ _ _ _ _ _ _ _ _ _ _ fun a ha b hb => ?_
    rw [hleg i hi a ha b hb leg leg' hl]
    congr 1
    have := hfc i hi a ha b hb x hx y hy z hz
    unfold fc3At at this
    convert this using 2 <;> (push_cast; ring)
  have pre : ∀ i, prePhaseFactor expi c.atoms q' i = prePhaseFactor expi c.atoms q i := by
    intro i
    unfold prePhaseFactor
    simp only
    congr 2
    funext x
    show q 0 x + q 2 x + q 1 x = _
    ring
  have hPhi : ∀ i < c.numBand, ∀ j < c.numBand, ∀ k < c.numBand,
      tripletFc3 expi c ![t 0, t 2, t 1] addresses D Q i j k =
        tripletFc3 expi c t addresses D Q i k j := by
    intro i hi j hj k hk
    unfold tripletFc3
    rw [← hq, ← hq', r2r_at3 _ _ _ _ _ hband hi hj hk, r2r_at3 _ _ _ _ _ hband hi hk hj]
    have h3 : ∀ x, x % 3 < 3 := fun x => Nat.mod_lt _ (by norm_num)
    have hp : ∀ x, x < c.numBand → x / 3 < c.atoms.numPatom := fun x hx => by omega
    have t0 : ∀ i, phaseTable expi c.atoms q' 0 i = phaseTable expi c.atoms q 0 i := fun _ => rfl
    have t1 : ∀ i, phaseTable expi c.atoms q' 1 i = phaseTable expi c.atoms q 2 i := fun _ => rfl
    have t2 : ∀ i, phaseTable expi c.atoms q' 2 i = phaseTable expi c.atoms q 1 i := fun _ => rfl
    unfold r2rEntry
    simp only [pre, t0, t1, t2]
    rw [swap _ _ _ (hp i hi) (j / 3) (k / 3) 1 1 (Or.inl rfl) _ (h3 _) _ (h3 _) _ (h3 _),
      swap _ _ _ (hp i hi) (j / 3) (k / 3) 0 0 (Or.inl rfl) _ (h3 _) _ (h3 _) _ (h3 _),
      swap _ _ _ (hp j hj) (i / 3) (k / 3) 2 3 (Or.inr (by decide)) _ (h3 _) _ (h3 _) _ (h3 _),
      swap _ _ _ (hp k hk) (j / 3) (i / 3) 3 2 (Or.inr (by decide)) _ (h3 _) _ (h3 _) _ (h3 _)]
    split_ifs
    · congr 1
      ring
    · rfl
  unfold tripletStrength
  rw [modeStrength_eq, modeStrength_eq, amplitude_congr hPhi (fun _ _ => rfl) (fun _ _ => rfl)
    (fun _ _ => rfl)]
  have hcond : (∀ m, c.cutoff < frequencies ((![t 0, t 2, t 1] : Fin 3 → Int) m * c.numBand +
      ((![band 0, band 2, band 1] : Fin 3 → Nat) m : Nat))) ↔
      ∀ m, c.cutoff < frequencies (t m * c.numBand + (band m : Nat)) := by
    constructor
    · intro h m
      fin_cases m
      · exact h 0
      · exact h 2
      · exact h 1
    · intro h m
      fin_cases m
      · exact h 0
      · exact h 2
      · exact h 1
  have hamp := amplitude_swap c.numBand (fun a => sqrt (c.masses (a / 3)))
    (tripletFc3 expi c t addresses D Q)
    (fun a => eigenvectors (t 0 * c.numBand * c.numBand + (at2 c.numBand a (band 0) : Nat)))
    (fun a => eigenvectors (t 1 * c.numBand * c.numBand + (at2 c.numBand a (band 1) : Nat)))
    (fun a => eigenvectors (t 2 * c.numBand * c.numBand + (at2 c.numBand a (band 2) : Nat)))
  have hprod : frequencies (t 0 * c.numBand + (band 0 : Nat)) * frequencies (t 2 * c.numBand +
      (band 2 : Nat)) * frequencies (t 1 * c.numBand + (band 1 : Nat)) =
      frequencies (t 0 * c.numBand + (band 0 : Nat)) * frequencies (t 1 * c.numBand +
      (band 1 : Nat)) * frequencies (t 2 * c.numBand + (band 2 : Nat)) := by ring
  by_cases h : ∀ m, c.cutoff < frequencies (t m * c.numBand + (band m : Nat))
  · rw [if_pos h, if_pos (hcond.2 h), ← hamp, ← hprod]
    rfl
  · rw [if_neg h, if_neg (fun h' => h (hcond.1 h'))]

/-! ## C67 -/

/-- The phase of atom `j` of the supercell seen from atom `i` of the primitive cell: the mean of
`e(q . r)` over the shortest vectors. -/
def atomPhase (expi : K → Cplx K) (at' : AtomTriplets K) (q : Fin 3 → K) (i j : Nat) : Cplx K :=
  meanPhase expi q at'.svecs (at'.multiplicity (j * at'.numPatom + i)).1
    (at'.multiplicity (j * at'.numPatom + i)).2

/-- C67: the force constants in reciprocal space are the lattice Fourier sums over the second
and third atom, times the phase of the first atom. -/
theorem C67_fourier (expi : K → Cplx K) (at' : AtomTriplets K) (q : Fin 3 → Fin 3 → K)
    (fc3 : Int → K) (isCompact : Bool) (h : at'.makeR0Average = false)
    {i j k x y z : Nat} (hi : i < at'.numPatom) (hj : j < at'.numPatom) (hk : k < at'.numPatom)
    (hx : x < 3) (hy : y < 3) (hz : z < 3) :
    realToReciprocal expi at' q fc3 isCompact
      (at3 (at'.numPatom * 3) (at'.numPatom * 3) (at2 3 i x) (at2 3 j y) (at2 3 k z) : Nat) =
    classSum at'.numSatom at'.s2p (at'.p2s j) (at'.p2s k) (fun j' k' =>
      (atomPhase expi at' (q 1) i j' * atomPhase expi at' (q 2) i k').scale
        (fc3 (fc3At at'.numSatom (if isCompact then i else at'.p2s i) j' k' x y z))) *
    expi (dot (fun d => q 0 d + q 1 d + q 2 d)
      (at'.svecs (at'.multiplicity (at'.p2s i * at'.numPatom)).2)) := by
  rw [← r2rPos_eq, r2r_value expi at' q fc3 isCompact hi hj hk hx hy hz]
  unfold r2rEntry
  rw [h]
  simp only [Bool.false_eq_true, if_false]
  congr 1
  · rw [r2rElement_eq]
    unfold classSum
    refine Finset.sum_congr rfl fun j' _ => Finset.sum_congr rfl fun k' _ => ?_
    congr 1
    have e1 : phaseTable expi at' q 1 i j' = atomPhase expi at' (q 1) i j' := phaseFactor_eq ..
    have e2 : phaseTable expi at' q 2 i k' = atomPhase expi at' (q 2) i k' := phaseFactor_eq ..
    rw [e1, e2]
    have hl : legFactor at' i 0 j' k' = 1 := by
      unfold legFactor
      simp
    rw [hl, mul_one]
    congr 2
    unfold fc3At
    push_cast
    ring
  · unfold prePhaseFactor
    simp only
    rw [dot3_comm, dot3_eq]

end

/-! ## Concrete cases -/

section Examples

/-- A map with `e(-x) = conj (e x)` and `|e x| = 1` over the rationals. -/
def ratPhase (x : ℚ) : Cplx ℚ := ⟨(1 - x * x) / (1 + x * x), 2 * x / (1 + x * x)⟩

theorem ratPhase_neg (x : ℚ) : ratPhase (-x) = conj (ratPhase x) := by
  unfold ratPhase conj
  ext
  · simp
  · simp [neg_div]

/-- One primitive atom in a supercell of two, three bands; the force constants are symmetric
under exchange of the second and third atom. -/
def chain : Crystal ℚ where
  atoms :=
    { svecs := fun k => ![(k : ℚ) / 2, 0, 0]
      multiplicity := fun k => (1, k)
      numSatom := 2
      numPatom := 1
      p2s := fun _ => 0
      s2p := fun _ => 0
      makeR0Average := true
      allShortest := fun k => k != 3 }
  fc3 := fun p => ((p / 54 + 1) * (p / 27 % 2 + 1) * (p / 9 % 3 + 1) * ((p / 3 % 3 + 1) + (p % 3 + 1)) *
    (if p / 54 = p / 27 % 2 then 1 else 0) : Int)
  isCompact := true
  masses := fun _ => 4
  bandIndices := fun b => b
  numBand := 3
  cutoff := 0

/-- Hypotheses of C66 and of C63 for the chain. -/
example : chain.numBand = chain.atoms.numPatom * 3 ∧
    (∀ i < chain.atoms.numPatom, ∀ j < chain.atoms.numSatom, ∀ k < chain.atoms.numSatom,
      ∀ x < 3, ∀ y < 3, ∀ z < 3,
      chain.fc3 (fc3At chain.atoms.numSatom (if chain.isCompact then i else chain.atoms.p2s i) j k x y z) =
      chain.fc3 (fc3At chain.atoms.numSatom (if chain.isCompact then i else chain.atoms.p2s i) k j x z y)) ∧
    (∀ i < chain.atoms.numPatom, ∀ j < chain.atoms.numSatom, ∀ k < chain.atoms.numSatom,
      chain.atoms.allShortest (at3 chain.atoms.numSatom chain.atoms.numSatom i j k : Nat) =
      chain.atoms.allShortest (at3 chain.atoms.numSatom chain.atoms.numSatom i k j : Nat)) := by
  refine ⟨rfl, ?_, ?_⟩ <;> decide +kernel

/-- Grid points `0`, `1`, `-1` of a mesh of three. -/
def chainAddress (g : Int) : V3 := if g = 1 then ⟨1, 0, 0⟩ else if g = 2 then ⟨-1, 0, 0⟩ else ⟨0, 0, 0⟩

/-- Unit eigenvectors times `3/5 + 4/5 i` at point 1 and its conjugate at point 2. -/
def chainEig (p : Int) : Cplx ℚ :=
  if p % 9 / 3 = p % 3 then
    (if p / 9 = 1 then ⟨3 / 5, 4 / 5⟩ else if p / 9 = 2 then ⟨3 / 5, -4 / 5⟩ else 1) else 0

/-- Hypotheses of C63: the triplet `(0, 1, 2)` and its time reversal `(0, 2, 1)`. -/
example : (∀ m, chainAddress ((![0, 2, 1] : Fin 3 → Int) m) =
      -chainAddress ((![0, 1, 2] : Fin 3 → Int) m)) ∧
    (∀ m, ∀ a < chain.numBand, ∀ b < chain.numBand,
      chainEig ((![0, 2, 1] : Fin 3 → Int) m * chain.numBand * chain.numBand +
        (at2 chain.numBand a b : Nat)) =
        conj (chainEig ((![0, 1, 2] : Fin 3 → Int) m * chain.numBand * chain.numBand +
          (at2 chain.numBand a b : Nat)))) := by
  constructor <;> decide +kernel

/-- The strengths of the chain are not all zero. -/
example : tripletStrength (fun x => x) ratPhase chain (fun p => (p % 3 + 1 : Int)) chainEig
    ![0, 1, 2] chainAddress ⟨3, 1, 1⟩ ⟨1, 0, 0, 0, 1, 0, 0, 0, 1⟩ ![0, 1, 2] ≠ 0 := by
  decide +kernel

/-- A mixture of two bands. -/
example (e : Nat → Nat → Cplx ℚ) :
    let U : Nat → Nat → Cplx ℚ := fun i l =>
      if i = l then ⟨3 / 5, 0⟩ else if i = 0 then ⟨0, 4 / 5⟩ else ⟨0, 4 / 5⟩
    Mixed 3 {0, 1} U e (fun a b => ∑ i ∈ ({0, 1} : Finset Nat), U i b * e a i) := by
  intro U
  refine ⟨?_, fun a _ b _ => rfl⟩
  decide +kernel

/-- A phase that is not one. -/
example : ∀ (g : Int) (b : Nat), ((fun (_ : Int) (b : Nat) =>
    if b = 1 then (⟨3 / 5, 4 / 5⟩ : Cplx ℚ) else ⟨0, 1⟩) g b).normSq = 1 := by
  intro g b
  simp only
  split_ifs <;> decide +kernel

/-- Hypothesis of C64: force constants of two atoms and those of the first one. -/
example : ∀ i < chain.atoms.numPatom, ∀ j < chain.atoms.numSatom, ∀ k < chain.atoms.numSatom,
    ∀ x < 3, ∀ y < 3, ∀ z < 3,
    chain.fc3 (fc3At chain.atoms.numSatom (chain.atoms.p2s i) j k x y z) =
      (fun p => if p < 108 then chain.fc3 p else 0) (fc3At chain.atoms.numSatom i j k x y z) := by
  decide +kernel

/-- Hypotheses of C65. -/
example : ∀ i < 1, ∀ j < 2, ∀ k < 2,
    ({ chain.atoms with allShortest := fun k => k < 4 } : AtomTriplets ℚ).allShortest
      (at3 2 2 i j k : Nat) = true := by
  decide +kernel

/-- Hypotheses of the two counterexamples of C61. -/
example : (∀ b < chain.numBand, chain.bandIndices b = b) ∧
    (fun p : Int => p == (at3 3 3 1 0 2 : Nat)) (at3 3 3 ((![0, 1, 2] : Fin 3 → Nat)
      ((Equiv.swap 0 1 : Equiv.Perm (Fin 3)) 0)) ((![0, 1, 2] : Fin 3 → Nat)
      ((Equiv.swap 0 1 : Equiv.Perm (Fin 3)) 1)) ((![0, 1, 2] : Fin 3 → Nat)
      ((Equiv.swap 0 1 : Equiv.Perm (Fin 3)) 2)) : Nat) = true ∧
    ({ chain with bandIndices := fun _ => 2 } : Crystal ℚ).bandIndices 0 = 2 := by
  refine ⟨fun _ _ => rfl, ?_, rfl⟩
  decide +kernel

end Examples

end Phono3py.Props
