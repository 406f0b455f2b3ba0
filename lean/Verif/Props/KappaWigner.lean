/-
C79, C83: conductivities of the Wigner transport equation and of the Green-Kubo formula.
-/
import Verif.Props.KappaSymmetry

namespace Phono3py.Props
open Finset Spec

section
variable {K : Type _} [Field K] [LinearOrder K] [IsStrictOrderedRing K]

/-! ### Wigner transport equation -/

/-- Both bands are above the cutoff. -/
def PairAbove (k : WignerInput K) (i s1 s2 : Nat) : Prop :=
  k.frequencies i s1 > k.cutoff ∧ k.frequencies i s2 > k.cutoff

/-- The bands are treated as degenerate. -/
def PairDegenerate (k : WignerInput K) (i s1 s2 : Nat) : Prop :=
  |k.frequencies i s1 - k.frequencies i s2| < k.degenerate

instance (k : WignerInput K) (i s1 s2 : Nat) : Decidable (PairAbove k i s1 s2) := by
  unfold PairAbove; infer_instance

instance (k : WignerInput K) (i s1 s2 : Nat) : Decidable (PairDegenerate k i s1 s2) := by
  unfold PairDegenerate; infer_instance

/-- Contribution of a pair of bands to the populations' part. -/
def populationsTerm (k : WignerInput K) (i s1 s2 : Nat) (c : Fin 6) : K :=
  if PairAbove k i s1 s2 ∧ PairDegenerate k i s1 s2 then wignerContribution k i s1 s2 c else 0

/-- Contribution of a pair of bands to the coherences' part. -/
def coherencesTerm (k : WignerInput K) (i s1 s2 : Nat) (c : Fin 6) : K :=
  if PairAbove k i s1 s2 ∧ ¬ PairDegenerate k i s1 s2 then wignerContribution k i s1 s2 c else 0

theorem step_modeP (k : WignerInput K) (s : WignerState K) (i' s1 s2 i l : Nat) (c : Fin 6) :
    (wignerStep k s (i', s1, s2)).modeP i l c = s.modeP i l c +
      (if i = i' then (if l = s1 then 1 / 2 * populationsTerm k i' s1 s2 c else 0) +
        (if l = s2 then 1 / 2 * populationsTerm k i' s1 s2 c else 0) else 0) := by
  by_cases h1 : PairAbove k i' s1 s2
  · by_cases h2 : PairDegenerate k i' s1 s2
    · rw [show populationsTerm k i' s1 s2 c = _ from if_pos ⟨h1, h2⟩]
      unfold PairAbove at h1
      unfold PairDegenerate at h2
      unfold wignerStep
      dsimp only
      rw [if_pos h1, if_pos h2]
      dsimp only
      by_cases e : i = i'
      · subst e
        simp only [true_and, if_true]
        split <;> split <;> ring
      · simp [e]
    · rw [show populationsTerm k i' s1 s2 c = _ from if_neg fun h => h2 h.2]
      unfold PairAbove at h1
      unfold PairDegenerate at h2
      unfold wignerStep
      dsimp only
      rw [if_pos h1, if_neg h2]
      simp
  · rw [show populationsTerm k i' s1 s2 c = _ from if_neg fun h => h1 h.1]
    unfold PairAbove at h1
    unfold wignerStep
    dsimp only
    rw [if_neg h1]
    simp

theorem step_modeC (k : WignerInput K) (s : WignerState K) (i' s1 s2 i l m : Nat) (c : Fin 6) :
    (wignerStep k s (i', s1, s2)).modeC i l m c = s.modeC i l m c +
      (if i = i' then if l = s1 then if m = s2 then coherencesTerm k i' s1 s2 c else 0 else 0
        else 0) := by
  by_cases h1 : PairAbove k i' s1 s2
  · by_cases h2 : PairDegenerate k i' s1 s2
    · rw [show coherencesTerm k i' s1 s2 c = _ from if_neg fun h => h.2 h2]
      unfold PairAbove at h1
      unfold PairDegenerate at h2
      unfold wignerStep
      dsimp only
      rw [if_pos h1, if_pos h2]
      simp
    · rw [show coherencesTerm k i' s1 s2 c = _ from if_pos ⟨h1, h2⟩]
      unfold PairAbove at h1
      unfold PairDegenerate at h2
      unfold wignerStep
      dsimp only
      rw [if_pos h1, if_neg h2]
      dsimp only
      by_cases e : i = i' <;> by_cases e1 : l = s1 <;> by_cases e2 : m = s2 <;> simp [e, e1, e2]
  · rw [show coherencesTerm k i' s1 s2 c = _ from if_neg fun h => h1 h.1]
    unfold PairAbove at h1
    unfold wignerStep
    dsimp only
    rw [if_neg h1]
    simp

theorem fold_observe {σ τ : Type _} (step : σ → τ → σ) (φ : σ → K) (δ : τ → K)
    (h : ∀ s t, φ (step s t) = φ s + δ t) (l : List τ) (s : σ) :
    φ (l.foldl step s) = φ s + (l.map δ).sum := by
  induction l generalizing s with
  | nil => simp
  | cons t l ih => rw [List.foldl_cons, ih, h, List.map_cons, List.sum_cons, add_assoc]

theorem sum_triples (n m : Nat) (δ : Nat × Nat × Nat → K) :
    ((loop n fun i => loop m fun s1 => (List.range m).map fun s2 => (i, s1, s2)).map δ).sum =
      ∑ i ∈ range n, ∑ s1 ∈ range m, ∑ s2 ∈ range m, δ (i, s1, s2) := by
  rw [sum_map_loop]
  refine Finset.sum_congr rfl fun i _ => ?_
  rw [sum_map_loop]
  refine Finset.sum_congr rfl fun s1 _ => ?_
  rw [List.map_map, ← sum_range_list]
  rfl

/-- **C83 (populations).** Entry of the populations' part: half of the contributions of the pairs
with this band, taken in both orders. -/
theorem C83_populations (k : WignerInput K) (s : WignerState K) (i l : Nat) (hi : i < k.numGp)
    (hl : l < k.numBand) (c : Fin 6) :
    (wignerKappa k s).modeP i l c = s.modeP i l c + ∑ m ∈ range k.numBand,
      1 / 2 * (populationsTerm k i l m c + populationsTerm k i m l c) := by
  unfold wignerKappa
  rw [fold_observe (wignerStep k) (fun s => s.modeP i l c) (fun t => (if i = t.1 then
    (if l = t.2.1 then 1 / 2 * populationsTerm k t.1 t.2.1 t.2.2 c else 0) +
        (if l = t.2.2 then 1 / 2 * populationsTerm k t.1 t.2.1 t.2.2 c else 0) else 0))
    (fun s t => step_modeP k s t.1 t.2.1 t.2.2 i l c), sum_triples]
  congr 1
  simp only
  rw [Finset.sum_eq_single i (fun i' _ h => by simp [Ne.symm h])
    (fun h => absurd (Finset.mem_range.2 hi) h)]
  simp only [if_true, Finset.sum_add_distrib]
  have h1 : (∑ s1 ∈ range k.numBand, ∑ s2 ∈ range k.numBand,
      if l = s1 then 1 / 2 * populationsTerm k i s1 s2 c else 0) =
      ∑ m ∈ range k.numBand, 1 / 2 * populationsTerm k i l m c := by
    rw [Finset.sum_eq_single l (fun m _ h => by simp [Ne.symm h])
      (fun h => absurd (Finset.mem_range.2 hl) h)]
    simp
  have h2 : (∑ s1 ∈ range k.numBand, ∑ s2 ∈ range k.numBand,
      if l = s2 then 1 / 2 * populationsTerm k i s1 s2 c else 0) =
      ∑ m ∈ range k.numBand, 1 / 2 * populationsTerm k i m l c := by
    refine Finset.sum_congr rfl fun m _ => ?_
    rw [Finset.sum_eq_single l (fun m _ h => by simp [Ne.symm h])
      (fun h => absurd (Finset.mem_range.2 hl) h)]
    simp
  rw [h1, h2, ← Finset.sum_add_distrib]
  exact Finset.sum_congr rfl fun m _ => by ring

/-- **C83 (coherences).** Entry of the coherences' part. -/
theorem C83_coherences (k : WignerInput K) (s : WignerState K) (i l m : Nat) (hi : i < k.numGp)
    (hl : l < k.numBand) (hm : m < k.numBand) (c : Fin 6) :
    (wignerKappa k s).modeC i l m c = s.modeC i l m c + coherencesTerm k i l m c := by
  unfold wignerKappa
  rw [fold_observe (wignerStep k) (fun s => s.modeC i l m c) (fun t =>
    (if i = t.1 then if l = t.2.1 then if m = t.2.2 then coherencesTerm k t.1 t.2.1 t.2.2 c else 0
      else 0 else 0)) (fun s t => step_modeC k s t.1 t.2.1 t.2.2 i l m c), sum_triples]
  congr 1
  simp only
  rw [Finset.sum_eq_single i (fun i' _ h => by simp [Ne.symm h])
    (fun h => absurd (Finset.mem_range.2 hi) h),
    Finset.sum_eq_single l (fun i' _ h => by simp [Ne.symm h])
    (fun h => absurd (Finset.mem_range.2 hl) h),
    Finset.sum_eq_single m (fun i' _ h => by simp [Ne.symm h])
    (fun h => absurd (Finset.mem_range.2 hm) h)]
  simp

/-- Freshly allocated arrays. -/
def wignerZero : WignerState K := ⟨fun _ _ _ => 0, fun _ _ _ _ => 0⟩

/-- Entries of the populations' part as a sum over pairs. -/
theorem kappaP_sum (k : WignerInput K) (c : Fin 6) :
    wignerKappaP k (wignerKappa k wignerZero) c = (∑ i ∈ range k.numGp, ∑ l ∈ range k.numBand,
      ∑ m ∈ range k.numBand, populationsTerm k i l m c) / k.n := by
  unfold wignerKappaP
  simp only [sumLoop_eq]
  congr 1
  rw [Finset.sum_comm]
  refine Finset.sum_congr rfl fun i hi => ?_
  rw [Finset.sum_congr rfl fun l hl => C83_populations k wignerZero i l (Finset.mem_range.1 hi)
    (Finset.mem_range.1 hl) c]
  have h0 : ∀ l, (wignerZero (K := K)).modeP i l c = 0 := fun _ => rfl
  simp only [h0, zero_add, mul_add, Finset.sum_add_distrib]
  rw [Finset.sum_comm (f := fun x y => 1 / 2 * populationsTerm k i y x c),
    ← Finset.sum_add_distrib]
  refine Finset.sum_congr rfl fun l _ => ?_
  rw [← Finset.sum_add_distrib]
  exact Finset.sum_congr rfl fun m _ => by ring

theorem kappaC_sum (k : WignerInput K) (c : Fin 6) :
    wignerKappaC k (wignerKappa k wignerZero) c = (∑ i ∈ range k.numGp, ∑ l ∈ range k.numBand,
      ∑ m ∈ range k.numBand, coherencesTerm k i l m c) / k.n := by
  unfold wignerKappaC
  simp only [sumLoop_eq]
  congr 1
  have : ∀ m ∈ range k.numBand, ∀ l ∈ range k.numBand, ∀ i ∈ range k.numGp,
      (wignerKappa k wignerZero).modeC i l m c = coherencesTerm k i l m c := by
    intro m hm l hl i hi
    rw [C83_coherences k wignerZero i l m (Finset.mem_range.1 hi) (Finset.mem_range.1 hl)
      (Finset.mem_range.1 hm) c]
    exact zero_add _
  rw [Finset.sum_congr rfl fun m hm => Finset.sum_congr rfl fun l hl =>
    Finset.sum_congr rfl fun i hi => this m hm l hl i hi, Finset.sum_comm]
  calc _ = ∑ l ∈ range k.numBand, ∑ i ∈ range k.numGp, ∑ m ∈ range k.numBand,
        coherencesTerm k i l m c := Finset.sum_congr rfl fun l _ => Finset.sum_comm
    _ = _ := Finset.sum_comm

/-- **C83 (total).** The conductivity is the sum of the contributions of all pairs of bands above
the cutoff: every pair counts once, in one of the two parts. -/
theorem C83_total (k : WignerInput K) (c : Fin 6) :
    wignerKappaP k (wignerKappa k wignerZero) c + wignerKappaC k (wignerKappa k wignerZero) c =
      (∑ i ∈ range k.numGp, ∑ l ∈ range k.numBand, ∑ m ∈ range k.numBand,
        if PairAbove k i l m then wignerContribution k i l m c else 0) / k.n := by
  rw [kappaP_sum, kappaC_sum, ← add_div]
  congr 1
  simp only [← Finset.sum_add_distrib]
  refine Finset.sum_congr rfl fun i _ => Finset.sum_congr rfl fun l _ =>
    Finset.sum_congr rfl fun m _ => ?_
  unfold populationsTerm coherencesTerm
  by_cases h1 : PairAbove k i l m <;> by_cases h2 : PairDegenerate k i l m <;> simp [h1, h2]

/-- **C83 (pair).** The contribution of a pair of bands is the formula of the Wigner transport
equation for the energies and full linewidths of the two bands. -/
theorem C83_pair (k : WignerInput K) (i l m : Nat) (c : Fin 6) :
    wignerContribution k i l m c = k.factor *
      wignerPair (k.frequencies i l * k.toEv) (k.frequencies i m * k.toEv)
        (2 * k.gSum i l * k.toEv) (2 * k.gSum i m * k.toEv) (k.cv i l) (k.cv i m)
        (k.gvoSum2 i l m c).re := by
  unfold wignerContribution wignerPair
  dsimp only
  rw [show 1 / 4 * (2 * k.gSum i l * k.toEv + 2 * k.gSum i m * k.toEv) ^ 2 =
    ((2 * k.gSum i l * k.toEv + 2 * k.gSum i m * k.toEv) / 2) ^ 2 by ring]
  ring

/-- **C83 (order).** Both orders of a pair contribute the same when the squared velocities agree. -/
theorem C83_order (k : WignerInput K) (i l m : Nat) (c : Fin 6)
    (h : (k.gvoSum2 i l m c).re = (k.gvoSum2 i m l c).re) :
    wignerContribution k i l m c = wignerContribution k i m l c := by
  rw [C83_pair, C83_pair, h]
  unfold wignerPair
  rw [show (k.frequencies i l * k.toEv - k.frequencies i m * k.toEv) ^ 2 =
    (k.frequencies i m * k.toEv - k.frequencies i l * k.toEv) ^ 2 by ring,
    add_comm (2 * k.gSum i l * k.toEv)]
  ring

/-- The relaxation time input that belongs to a Wigner input: the real diagonal of the squared
velocity operator and linewidths in eV. -/
def wignerAsRTA (k : WignerInput K) : KappaInput K where
  numGp := k.numGp
  numBand := k.numBand
  frequencies := k.frequencies
  cutoff := k.cutoff
  gSum i l := k.gSum i l * k.toEv
  cv := k.cv
  gvSum2 i l c := (k.gvoSum2 i l l c).re
  factor := k.factor
  n := k.n

/-- **C83 (no degeneracy).** For a band that is degenerate with no other band, the populations' part
is the contribution of the band to the conductivity in the relaxation time approximation. -/
theorem C83_rta (k : WignerInput K) (i l : Nat) (hi : i < k.numGp) (hl : l < k.numBand)
    (hd : 0 < k.degenerate) (hs : ∀ m < k.numBand, m ≠ l → ¬ PairDegenerate k i l m)
    (ha : k.cutoff < k.frequencies i l) (hf : 0 < k.frequencies i l) (hE : 0 < k.toEv)
    (hg : k.gSum i l ≠ 0) (c : Fin 6) :
    (wignerKappa k wignerZero).modeP i l c =
      modeKappaRTA (wignerAsRTA k) (fun _ _ _ => 0) i l c := by
  rw [C83_populations k wignerZero i l hi hl]
  have hsym : ∀ m, PairDegenerate k i m l → PairDegenerate k i l m := by
    intro m h
    unfold PairDegenerate at h ⊢
    rwa [abs_sub_comm]
  rw [Finset.sum_eq_single l (fun m hm hne => by
      have h1 := hs m (Finset.mem_range.1 hm) hne
      have h2 : ¬ PairDegenerate k i m l := fun h => h1 (hsym m h)
      unfold populationsTerm
      rw [if_neg fun h => h1 h.2, if_neg fun h => h2 h.2]
      simp) (fun h => absurd (Finset.mem_range.2 hl) h)]
  have hdeg : PairDegenerate k i l l := by
    unfold PairDegenerate
    rwa [sub_self, abs_zero]
  have hab : PairAbove k i l l := ⟨ha, ha⟩
  unfold populationsTerm modeKappaRTA wignerContribution
  rw [if_pos ⟨hab, hdeg⟩, if_pos ⟨hi, hl⟩,
    if_neg (show ¬ (wignerAsRTA k).frequencies i l < (wignerAsRTA k).cutoff from not_lt.2 ha.le),
    if_neg (show ¬ (wignerAsRTA k).gSum i l * 2 = 0 from
      mul_ne_zero (mul_ne_zero hg hE.ne') two_ne_zero)]
  have hf' := hf.ne'
  have hE' := hE.ne'
  show 0 + _ = (k.gvoSum2 i l l c).re * k.cv i l / (k.gSum i l * k.toEv * 2) * k.factor
  dsimp only
  rw [sub_self]
  field_simp
  ring

/-- **C79 (finding).** Calling `set_kappa_at_sigmas` of the Wigner conductivity a second time
doubles both parts of the conductivity. -/
theorem C79_wigner_doubles (k : WignerInput K) (c : Fin 6) :
    wignerKappaP k (wignerKappa k (wignerKappa k wignerZero)) c =
        2 * wignerKappaP k (wignerKappa k wignerZero) c ∧
      wignerKappaC k (wignerKappa k (wignerKappa k wignerZero)) c =
        2 * wignerKappaC k (wignerKappa k wignerZero) c := by
  constructor
  · unfold wignerKappaP
    simp only [sumLoop_eq]
    rw [← mul_div_assoc, Finset.mul_sum]
    congr 1
    refine Finset.sum_congr rfl fun l hl => ?_
    rw [Finset.mul_sum]
    refine Finset.sum_congr rfl fun i hi => ?_
    have h := fun s => C83_populations k s i l (Finset.mem_range.1 hi) (Finset.mem_range.1 hl) c
    rw [h, h, show (wignerZero (K := K)).modeP i l c = 0 from rfl]
    ring
  · unfold wignerKappaC
    simp only [sumLoop_eq]
    rw [← mul_div_assoc, Finset.mul_sum]
    congr 1
    refine Finset.sum_congr rfl fun m hm => ?_
    rw [Finset.mul_sum]
    refine Finset.sum_congr rfl fun l hl => ?_
    rw [Finset.mul_sum]
    refine Finset.sum_congr rfl fun i hi => ?_
    have h := fun s => C83_coherences k s i l m (Finset.mem_range.1 hi) (Finset.mem_range.1 hl)
      (Finset.mem_range.1 hm) c
    rw [h, h, show (wignerZero (K := K)).modeC i l m c = 0 from rfl]
    ring

/-! ### Green-Kubo formula -/

/-- The relaxation time input that belongs to a Green-Kubo input. -/
def kuboAsRTA (k : KuboInput K) : KappaInput K where
  numGp := k.numGp
  numBand := k.numBand
  frequencies := k.frequencies
  cutoff := k.cutoff
  gSum := k.gSum
  cv i l := k.cvm i l l
  gvSum2 i l c := (k.gvmSum2 i l l c).re
  factor := k.factor
  n := k.n

/-- **C83 (Green-Kubo, partial).** The diagonal of the mode contributions is the contribution of
the band in the relaxation time approximation, if neither the band nor a band before it is below
the cutoff. Missing: bands behind a band below the cutoff, for which the statement is false
(`C83_kubo_lost`). -/
theorem C83_kubo_diagonal_partial (k : KuboInput K) (i l : Nat) (hi : i < k.numGp)
    (hl : l < k.numBand) (ha : ∀ m ≤ l, k.cutoff ≤ k.frequencies i m) (c : Fin 6) :
    (modeKappaKubo k i l l c).re = modeKappaRTA (kuboAsRTA k) (fun _ _ _ => 0) i l c := by
  unfold modeKappaKubo modeKappaRTA
  have hany : ((List.range (l + 1)).any fun m' => decide (k.frequencies i m' < k.cutoff)) = false := by
    rw [List.any_eq_false]
    intro m hm
    simpa using ha m (Nat.lt_succ_iff.1 (List.mem_range.1 hm))
  rw [if_neg (not_lt.2 (ha l le_rfl)), hany, if_neg (show ¬ (false = true) by simp),
    if_pos (show i < (kuboAsRTA k).numGp ∧ l < (kuboAsRTA k).numBand from ⟨hi, hl⟩),
    if_neg (show ¬ (kuboAsRTA k).frequencies i l < (kuboAsRTA k).cutoff from
      not_lt.2 (ha l le_rfl))]
  show (_ : Cplx K).re = if k.gSum i l * 2 = 0 then 0 else
    (k.gvmSum2 i l l c).re * k.cvm i l l / (k.gSum i l * 2) * k.factor
  dsimp only
  rw [sub_self]
  by_cases h : k.gSum i l = 0
  · rw [if_pos (by rw [h]; simp), if_pos (by rw [h, zero_mul])]
    rfl
  · have hd : (0 : K) ^ 2 + (k.gSum i l + k.gSum i l) ^ 2 ≠ 0 := by
      have : k.gSum i l + k.gSum i l ≠ 0 := by
        rw [← two_mul]; exact mul_ne_zero two_ne_zero h
      simpa using this
    rw [if_neg hd, if_neg (mul_ne_zero h two_ne_zero)]
    simp only [Cplx.scale]
    have h2 : (0 : K) ^ 2 + (k.gSum i l + k.gSum i l) ^ 2 = (2 * k.gSum i l) ^ 2 := by ring
    rw [h2]
    field_simp
    ring

/-- **C83 (finding).** If the lowest band of a grid point is below the cutoff, as the acoustic bands
at the zone centre are, all contributions of the grid point are lost: the loop over the second
band returns where it should continue. -/
theorem C83_kubo_lost (k : KuboInput K) (i l m : Nat) (h : k.frequencies i 0 < k.cutoff)
    (c : Fin 6) : modeKappaKubo k i l m c = 0 := by
  unfold modeKappaKubo
  split
  · rfl
  · rw [if_pos]
    rw [List.any_eq_true]
    exact ⟨0, List.mem_range.2 (Nat.succ_pos m), by simpa using h⟩

end

/-- Two bands at one grid point, an acoustic one at zero frequency and an optical one. -/
def kuboExample : KuboInput ℚ where
  numGp := 1
  numBand := 2
  frequencies _ l := if l = 0 then 0 else 5
  cutoff := 1
  gSum _ _ := 1
  cvm _ _ _ := 1
  gvmSum2 _ _ _ _ := ⟨1, 0⟩
  factor := 1
  n := 1

/-- The relaxation time approximation keeps the optical band, the Green-Kubo formula loses it. -/
theorem C83_kubo_lost_example : kappaRTA (kuboAsRTA kuboExample) 0 = 1 / 2 ∧
    kappaKubo kuboExample 0 = 0 := by decide +kernel

/-- The hypotheses of C83 for the diagonal are met with an off-diagonal contribution present. -/
example : (∀ m ≤ 1, ({ kuboExample with cutoff := -1 } : KuboInput ℚ).cutoff ≤
    ({ kuboExample with cutoff := -1 } : KuboInput ℚ).frequencies 0 m) ∧
    (modeKappaKubo { kuboExample with cutoff := -1 } 0 1 1 0).re = 1 / 2 ∧
    (modeKappaKubo { kuboExample with cutoff := -1 } 0 0 1 0).re = 2 / 29 := by
  refine ⟨fun m _ => ?_, by decide +kernel, by decide +kernel⟩
  show (-1 : ℚ) ≤ if m = 0 then 0 else 5
  split <;> norm_num

/-- Three bands, two of them degenerate. -/
def wignerExample : WignerInput ℚ where
  numGp := 1
  numBand := 3
  frequencies _ l := if l = 2 then 8 else 5
  cutoff := 1
  degenerate := 1 / 10000
  toEv := 1
  gSum _ _ := 1
  cv _ _ := 1
  gvoSum2 _ s1 s2 _ := ⟨if s1 = s2 then 2 else 1, 0⟩
  factor := 1
  n := 1

/-- The hypotheses of C83 are met: band 2 is degenerate with no other band. -/
example : (0 < wignerExample.degenerate) ∧
    (∀ m < 3, m ≠ 2 → ¬ PairDegenerate wignerExample 0 2 m) ∧
    (wignerKappa wignerExample wignerZero).modeP 0 2 0 = 1 ∧
    (wignerKappa wignerExample wignerZero).modeP 0 0 0 = 3 / 2 ∧
    (wignerKappa wignerExample wignerZero).modeC 0 0 2 0 ≠ 0 := by
  refine ⟨by decide +kernel, by decide +kernel, by decide +kernel, by decide +kernel,
    by decide +kernel⟩

end Phono3py.Props
