/-
C25, C26, C27: linewidths from the list of non-zero integration weights.
-/
import Verif.Lemmas.SelfEnergy
import Verif.Props.IntegrationWeight

set_option linter.unusedSectionVars false

namespace Phono3py.Props
open Phono3py Phono3py.Spec

section
variable {K : Type _} [Field K] [LinearOrder K] [IsStrictOrderedRing K]

/-! ## C25 -/

/-- The linewidth of band `b` as the full weighted sum over triplets and band pairs. `row b` is
the row of the weight array to use: `b` itself, or the index of a sampled frequency. -/
def linewidth (bose : K → K → K) (numTriplets numBand0 numBand numRows : Nat)
    (strength : Int → K) (frequencies : Int → K) (triplets : Nat → Fin 3 → Int)
    (weights : Nat → Int) (g : Int → K) (T cutoff : K) (b row : Nat) : K :=
  ∑ i ∈ Finset.range numTriplets, weights i * pairSum bose cutoff T numBand
    (fun k => frequencies (triplets i 1 * numBand + k))
    (fun l => frequencies (triplets i 2 * numBand + l))
    (fun k l => g (at5 numTriplets numRows numBand numBand 0 i row k l : Nat))
    (fun k l => g (at5 numTriplets numRows numBand numBand 1 i row k l : Nat))
    (fun k l => strength (at4 numBand0 numBand numBand i b k l : Nat))

/-- Flagged entries have zero weights (or zero strength). -/
def FlagsSound (numTriplets numBand0 numBand numRows : Nat) (strength : Int → K) (g : Int → K)
    (gZero : Int → Bool) (b row : Nat) : Prop :=
  ∀ i < numTriplets, ∀ k < numBand, ∀ l < numBand,
    gZero (at4 numRows numBand numBand i row k l : Nat) = true →
      g (at5 numTriplets numRows numBand numBand 0 i row k l : Nat) = 0 ∧
        g (at5 numTriplets numRows numBand numBand 1 i row k l : Nat) = 0 ∨
      strength (at4 numBand0 numBand numBand i b k l : Nat) = 0

theorem shift_at5 (n1 n2 n3 n4 s a b c d : Nat) :
    (a + s * n1) * (n2 * n3 * n4) + at3 n3 n4 b c d = at5 n1 n2 n3 n4 s a b c d := by
  unfold at3 at5; ring

theorem at5_zero (n1 n2 n3 n4 a b c d : Nat) :
    at5 n1 n2 n3 n4 0 a b c d = at4 n2 n3 n4 a b c d := by
  unfold at5 at4; ring

/-- C25: at the band frequencies, skipping the flagged weights gives the full sum. -/
theorem C25_full_sum (bose : K → K → K) (numTriplets numBand0 numBand : Nat)
    (strength : Int → K) (frequencies : Int → K) (triplets : Nat → Fin 3 → Int)
    (weights : Nat → Int) (g : Int → K) (gZero : Int → Bool) (T cutoff : K) (numPoints : Nat)
    (hbose : ∀ f, cutoff < f → 0 ≤ bose f T) (b : Nat) (hb : b < numBand0)
    (hflag : FlagsSound numTriplets numBand0 numBand numBand0 strength g gZero b b) :
    iseWithG bose numTriplets numBand0 numBand strength frequencies triplets weights g gZero T
      cutoff numPoints (-1) b =
    linewidth bose numTriplets numBand0 numBand numBand0 strength frequencies triplets weights g T
      cutoff b b := by
  unfold iseWithG linewidth
  simp only [show decide ((-1 : Int) < 0) = true from rfl, Bool.not_true, Bool.false_eq_true,
    if_false, Nat.add_zero]
  rw [runAdds_value, zero_add, addsAt_loop]
  refine Finset.sum_congr rfl fun i hi => ?_
  rw [Finset.mem_range] at hi
  rw [addsAt_loop, Finset.sum_eq_single b]
  · rw [addsAt_single, if_pos rfl, setGPos_eq]
    have h0 : ((at2 numBand0 0 b : Nat) : Int) = (b : Nat) := by unfold at2; simp
    rw [← h0]
    have e3 : ∀ k l, at3 numBand numBand b k l + i * (numBand0 * numBand * numBand) =
        at4 numBand0 numBand numBand i b k l := by intro k l; unfold at3 at4; ring
    rw [iseAtTriplet_pairSum bose _ frequencies (triplets i) (weights i) _ _
      (fun j k l => shiftBy gZero (i * (numBand0 * numBand * numBand))
        (at3 numBand numBand j k l : Nat)) (fun _ => T) cutoff false Nat.one_pos hb hbose]
    · congr 1
      unfold pairSum shiftBy
      refine Finset.sum_congr rfl fun k _ => Finset.sum_congr rfl fun l _ => ?_
      have a0 := shift_at5 numTriplets numBand0 numBand numBand 0 i b k l
      have a1 := shift_at5 numTriplets numBand0 numBand numBand 1 i b k l
      rw [zero_mul, add_zero] at a0
      rw [one_mul] at a1
      have a2 : i * (numBand0 * numBand * numBand) + at3 numBand numBand b k l =
        at4 numBand0 numBand numBand i b k l := by rw [← e3]; ring
      simp only [Bool.false_eq_true, if_false, ← a0, ← a1, ← a2, Nat.cast_add]
    · intro k hk l hl h
      have a0 := shift_at5 numTriplets numBand0 numBand numBand 0 i b k l
      have a1 := shift_at5 numTriplets numBand0 numBand numBand 1 i b k l
      rw [zero_mul, add_zero] at a0
      rw [one_mul] at a1
      have a2 : i * (numBand0 * numBand * numBand) + at3 numBand numBand b k l =
        at4 numBand0 numBand numBand i b k l := by rw [← e3]; ring
      have := hflag i hi k hk l hl (by rw [← a2]; exact_mod_cast h)
      simp only [Bool.false_eq_true, if_false, shiftBy, ← Nat.cast_add]
      rw [a1, a2]
      rw [at5_zero] at this
      exact this
  · intro j _ hj
    rw [addsAt_single, if_neg]
    intro e
    exact hj (Int.ofNat.inj e)
  · intro h; exact absurd (Finset.mem_range.2 hb) h

/-- C25: the same at the sampled frequency number `p`. -/
theorem C25_full_sum_at_frequency (bose : K → K → K) (numTriplets numBand0 numBand : Nat)
    (strength : Int → K) (frequencies : Int → K) (triplets : Nat → Fin 3 → Int)
    (weights : Nat → Int) (g : Int → K) (gZero : Int → Bool) (T cutoff : K) (numPoints : Nat)
    (hbose : ∀ f, cutoff < f → 0 ≤ bose f T) (b : Nat) (hb : b < numBand0) (p : Nat)
    (hflag : FlagsSound numTriplets numBand0 numBand numPoints strength g gZero b p) :
    iseWithG bose numTriplets numBand0 numBand strength frequencies triplets weights g gZero T
      cutoff numPoints p b =
    linewidth bose numTriplets numBand0 numBand numPoints strength frequencies triplets weights g
      T cutoff b p := by
  unfold iseWithG linewidth
  have hp : decide ((p : Int) < 0) = false := by simp
  simp only [hp, Bool.not_false, if_true, Int.toNat_natCast]
  rw [runAdds_value, zero_add, addsAt_loop]
  refine Finset.sum_congr rfl fun i hi => ?_
  rw [Finset.mem_range] at hi
  rw [addsAt_loop, Finset.sum_eq_single b]
  · rw [addsAt_single, if_pos rfl, setGPosFrequencyPoint_eq]
    have h0 : ((at2 numBand0 0 b : Nat) : Int) = (b : Nat) := by unfold at2; simp
    rw [← h0]
    have a0 : ∀ k l, i * (numPoints * numBand * numBand) + p * numBand * numBand +
        at2 numBand k l = at5 numTriplets numPoints numBand numBand 0 i p k l := by
      intro k l; unfold at2 at5; ring
    have a1 : ∀ k l, (i + numTriplets) * (numPoints * numBand * numBand) + p * numBand * numBand +
        at2 numBand k l = at5 numTriplets numPoints numBand numBand 1 i p k l := by
      intro k l; unfold at2 at5; ring
    have a2 : ∀ k l, i * (numBand0 * numBand * numBand) + at3 numBand numBand b k l =
        at4 numBand0 numBand numBand i b k l := by intro k l; unfold at3 at4; ring
    have a3 : ∀ k l, i * (numPoints * numBand * numBand) + p * numBand * numBand +
        at2 numBand k l = at4 numPoints numBand numBand i p k l := by
      intro k l; unfold at2 at4; ring
    rw [iseAtTriplet_pairSum bose _ frequencies (triplets i) (weights i) _ _
      (fun _ k l => shiftBy gZero (i * (numPoints * numBand * numBand) + p * numBand * numBand)
        (at2 numBand k l : Nat)) (fun _ => T) cutoff true Nat.one_pos hb hbose]
    · congr 1
      unfold pairSum shiftBy
      refine Finset.sum_congr rfl fun k _ => Finset.sum_congr rfl fun l _ => ?_
      simp only [if_true, ← a0, ← a1, ← a2, Nat.cast_add]
    · intro k hk l hl h
      have := hflag i hi k hk l hl (by rw [← a3]; exact_mod_cast h)
      simp only [if_true, shiftBy, ← Nat.cast_add]
      rw [a0, a1, a2]
      exact this
  · intro j _ hj
    rw [addsAt_single, if_neg]
    intro e
    exact hj (Int.ofNat.inj e)
  · intro h; exact absurd (Finset.mem_range.2 hb) h

/-- C25: with the weights and flags of the tetrahedron method. -/
theorem C25_tetrahedron (bose : K → K → K) (numTriplets numBand0 numBand : Nat)
    (strength : Int → K) (frequencies : Int → K) (triplets : Nat → Fin 3 → Int)
    (weights : Nat → Int) (T cutoff : K) (eps : K) (g0 : Fin 3 → K) (frequencyPoints : Nat → K)
    (relative : Fin 24 → Fin 4 → V3) (bz : BZGridOut) (D : V3) (dense : Bool)
    (iw : Int → K) (zero : Int → Bool) (hbose : ∀ f, cutoff < f → 0 ≤ bose f T) (b : Nat)
    (hb : b < numBand0) (numPoints : Nat) :
    let r := tetrahedronWeights eps g0 frequencyPoints numBand0 relative triplets numTriplets bz
      D dense frequencies numBand frequencies numBand 2 iw zero
    iseWithG bose numTriplets numBand0 numBand strength frequencies triplets weights r.1 r.2 T
      cutoff numPoints (-1) b =
    linewidth bose numTriplets numBand0 numBand numBand0 strength frequencies triplets weights r.1
      T cutoff b b := by
  intro r
  apply C25_full_sum _ _ _ _ _ _ _ _ _ _ _ _ _ hbose b hb
  intro i hi k hk l hl h
  have := (C23_weights eps g0 frequencyPoints numBand0 relative triplets numTriplets bz D dense
    frequencies numBand frequencies numBand 2 iw zero (Or.inl rfl) i b k l hi hb hk hl).2.2 h
  exact Or.inl ⟨this 0 (by decide), this 1 (by decide)⟩

/-- C25: with the weights and flags of the smearing method. -/
theorem C25_smearing (bose : K → K → K) (numTriplets numBand0 numBand : Nat)
    (strength : Int → K) (frequencies : Int → K) (triplets : Nat → Fin 3 → Int)
    (weights : Nat → Int) (T cutoff : K) (gaussian : K → K → K) (sigma sigmaCutoff : K)
    (frequencyPoints : Nat → K) (iw : Int → K) (zero : Int → Bool)
    (hbose : ∀ f, cutoff < f → 0 ≤ bose f T) (b : Nat) (hb : b < numBand0) (numPoints : Nat) :
    let r := smearingWeights gaussian sigma sigmaCutoff frequencyPoints numBand0 triplets
      numTriplets frequencies numBand 2 iw zero
    iseWithG bose numTriplets numBand0 numBand strength frequencies triplets weights r.1 r.2 T
      cutoff numPoints (-1) b =
    linewidth bose numTriplets numBand0 numBand numBand0 strength frequencies triplets weights r.1
      T cutoff b b := by
  intro r
  apply C25_full_sum _ _ _ _ _ _ _ _ _ _ _ _ _ hbose b hb
  intro i hi k hk l hl h
  have := (C24_flag gaussian sigma sigmaCutoff frequencyPoints numBand0 triplets numTriplets
    frequencies numBand 2 iw zero (Or.inl rfl) i b k l hi hb hk hl).2.1 h
  exact Or.inl ⟨this 0 (by decide), this 1 (by decide)⟩

/-- One triplet, one band, weight `2`, strength `3`, `n1 = n2 = 1`: `2 * 3 * (3 * 5 + 0)`. -/
example : iseWithG (K := ℚ) (fun _ _ => 1) 1 1 1 (fun _ => 3) (fun _ => 1) (fun _ _ => 0)
    (fun _ => 2) (fun _ => 5) (fun _ => false) 300 0 0 (-1) 0 = 90 := by decide +kernel

/-- Modes at or below the cutoff do not contribute. -/
example : iseWithG (K := ℚ) (fun _ _ => 1) 1 1 1 (fun _ => 3) (fun _ => 1) (fun _ _ => 0)
    (fun _ => 2) (fun _ => 5) (fun _ => false) 300 1 0 (-1) 0 = 0 := by decide +kernel

/-! ## C26, C27 -/

/-- C27: entry `[i, b, k, l]` of the detailed array is the contribution of the pair of modes
`k`, `l` of triplet `i`, without the triplet weight. -/
theorem C27_entry (bose : K → K → K) (numTriplets numBand0 numBand : Nat)
    (strength : Int → K) (frequencies : Int → K) (triplets : Nat → Fin 3 → Int)
    (weights : Nat → Int) (addresses : Int → V3) (g : Int → K) (gZero : Int → Bool)
    (T cutoff : K) (init : Int → K) (hbose : ∀ f, cutoff < f → 0 ≤ bose f T)
    (b : Nat) (hb : b < numBand0)
    (hflag : FlagsSound numTriplets numBand0 numBand numBand0 strength g gZero b b)
    (i k l : Nat) (hi : i < numTriplets) (hk : k < numBand) (hl : l < numBand) :
    let f1 := frequencies (triplets i 1 * numBand + k)
    let f2 := frequencies (triplets i 2 * numBand + l)
    (detailedWithG bose numTriplets numBand0 numBand strength frequencies triplets weights
      addresses g gZero T cutoff init).detailed (at4 numBand0 numBand numBand i b k l : Nat) =
    if cutoff < f1 ∧ cutoff < f2 then
      modePair T (bose f1 T) (bose f2 T)
        (g (at5 numTriplets numBand0 numBand numBand 0 i b k l : Nat))
        (g (at5 numTriplets numBand0 numBand numBand 1 i b k l : Nat))
        (strength (at4 numBand0 numBand numBand i b k l : Nat))
    else 0 := by
  intro f1 f2
  have hkl : at2 numBand k l < numBand * numBand := digits_lt hk hl
  have pos : ∀ i j ij, i * (numBand0 * numBand * numBand) + j * numBand * numBand + ij =
      (i * numBand0 + j) * (numBand * numBand) + ij := by intros; ring
  have e4 : at4 numBand0 numBand numBand i b k l =
      i * (numBand0 * numBand * numBand) + b * numBand * numBand + at2 numBand k l := by
    unfold at4 at2; ring
  unfold detailedWithG
  simp only
  rw [e4, runWrites_loop_only _ _ _ hi, runWrites_loop_only _ _ _ hb]
  · unfold detailedAtTriplet
    simp only
    rw [collectDetailed_store _ _ _ _ _ _ _ _ _ _ hkl]
    have a0 : i * (numBand0 * numBand * numBand) + (b * numBand * numBand + at2 numBand k l) =
        at5 numTriplets numBand0 numBand numBand 0 i b k l := by unfold at2 at5; ring
    have a1 : (i + numTriplets) * (numBand0 * numBand * numBand) +
        (b * numBand * numBand + at2 numBand k l) =
        at5 numTriplets numBand0 numBand numBand 1 i b k l := by unfold at2 at5; ring
    have a2 : i * (numBand0 * numBand * numBand) + (b * numBand * numBand + at2 numBand k l) =
        at4 numBand0 numBand numBand i b k l := by unfold at2 at4; ring
    rw [detailedEntry_eq bose _ frequencies (triplets i) _ _ _ T cutoff hl hbose]
    · simp only [shiftBy, ← Nat.cast_add]
      rw [a1, a2, at5_zero, ← e4]
    · intro h
      simp only [shiftBy, ← Nat.cast_add] at h ⊢
      rw [a1, a2, ← at5_zero numTriplets]
      rw [a2] at h
      have := hflag i hi k hk l hl h
      rw [← at5_zero numTriplets] at this
      exact this
  · intro j _ hj w hw e
    obtain ⟨ij, hij, hw⟩ := collectDetailed_mem _ _ _ _ _ _ _ _ _ w hw
    rw [hw] at e
    have e := Int.ofNat.inj e
    rw [pos, pos] at e
    have := (digits2 hij hkl e).1
    exact hj (by omega)
  · intro i' _ hi' w hw e
    rw [mem_loop] at hw
    obtain ⟨j, hj, hw⟩ := hw
    obtain ⟨ij, hij, hw⟩ := collectDetailed_mem _ _ _ _ _ _ _ _ _ w hw
    rw [hw] at e
    have e := Int.ofNat.inj e
    rw [pos, pos] at e
    exact hi' (digits2 hj hb (digits2 hij hkl e).1).1

/-- The band-pair sum of one triplet as computed by the detailed routine. -/
theorem detailedAtTriplet_sum (bose : K → K → K) (numTriplets numBand0 numBand : Nat)
    (strength : Int → K) (frequencies : Int → K) (triplets : Nat → Fin 3 → Int)
    (g : Int → K) (gZero : Int → Bool)
    (T cutoff : K) (hbose : ∀ f, cutoff < f → 0 ≤ bose f T)
    (b : Nat)
    (hflag : FlagsSound numTriplets numBand0 numBand numBand0 strength g gZero b b)
    (i : Nat) (hi : i < numTriplets) (base : Nat) :
    (detailedAtTriplet bose numBand (shiftBy strength (i * (numBand0 * numBand * numBand)))
      frequencies (triplets i) (shiftBy g (i * (numBand0 * numBand * numBand)))
      (shiftBy g ((i + numTriplets) * (numBand0 * numBand * numBand)))
      (shiftBy gZero (i * (numBand0 * numBand * numBand))) T cutoff base b).2 =
    pairSum bose cutoff T numBand
      (fun k => frequencies (triplets i 1 * numBand + k))
      (fun l => frequencies (triplets i 2 * numBand + l))
      (fun k l => g (at5 numTriplets numBand0 numBand numBand 0 i b k l : Nat))
      (fun k l => g (at5 numTriplets numBand0 numBand numBand 1 i b k l : Nat))
      (fun k l => strength (at4 numBand0 numBand numBand i b k l : Nat)) := by
  unfold detailedAtTriplet
  simp only
  rw [collectDetailed_sum, sum_pairs]
  unfold pairSum
  refine Finset.sum_congr rfl fun k hk => Finset.sum_congr rfl fun l hl => ?_
  rw [Finset.mem_range] at hk hl
  have a0 : i * (numBand0 * numBand * numBand) + (b * numBand * numBand + at2 numBand k l) =
      at5 numTriplets numBand0 numBand numBand 0 i b k l := by unfold at2 at5; ring
  have a1 : (i + numTriplets) * (numBand0 * numBand * numBand) +
      (b * numBand * numBand + at2 numBand k l) =
      at5 numTriplets numBand0 numBand numBand 1 i b k l := by unfold at2 at5; ring
  have a2 : i * (numBand0 * numBand * numBand) + (b * numBand * numBand + at2 numBand k l) =
      at4 numBand0 numBand numBand i b k l := by unfold at2 at4; ring
  rw [detailedEntry_eq bose _ frequencies (triplets i) _ _ _ T cutoff hl hbose]
  · simp only [shiftBy, ← Nat.cast_add]
    rw [a1, a2, at5_zero]
  · intro h
    simp only [shiftBy, ← Nat.cast_add] at h ⊢
    rw [a1, a2, ← at5_zero numTriplets]
    rw [a2] at h
    have := hflag i hi k hk l hl h
    rw [← at5_zero numTriplets] at this
    exact this

/-- C26: the normal part sums the triplets whose addresses sum to zero, the Umklapp part all the
others. -/
theorem C26_partition (bose : K → K → K) (numTriplets numBand0 numBand : Nat)
    (strength : Int → K) (frequencies : Int → K) (triplets : Nat → Fin 3 → Int)
    (weights : Nat → Int) (addresses : Int → V3) (g : Int → K) (gZero : Int → Bool)
    (T cutoff : K) (init : Int → K) (hbose : ∀ f, cutoff < f → 0 ≤ bose f T)
    (b : Nat)
    (hflag : FlagsSound numTriplets numBand0 numBand numBand0 strength g gZero b b) :
    let r := detailedWithG bose numTriplets numBand0 numBand strength frequencies triplets weights
      addresses g gZero T cutoff init
    let pairs := fun i => pairSum bose cutoff T numBand
      (fun k => frequencies (triplets i 1 * numBand + k))
      (fun l => frequencies (triplets i 2 * numBand + l))
      (fun k l => g (at5 numTriplets numBand0 numBand numBand 0 i b k l : Nat))
      (fun k l => g (at5 numTriplets numBand0 numBand numBand 1 i b k l : Nat))
      (fun k l => strength (at4 numBand0 numBand numBand i b k l : Nat))
    let Normal := fun i => SumsToZero (addresses (triplets i 0)) (addresses (triplets i 1))
      (addresses (triplets i 2))
    r.normal b = (∑ i ∈ Finset.range numTriplets, if Normal i then weights i * pairs i else 0) ∧
    r.umklapp b = ∑ i ∈ Finset.range numTriplets, if Normal i then 0 else weights i * pairs i := by
  intro r pairs Normal
  have key : ∀ i < numTriplets, ∀ base,
      (detailedAtTriplet bose numBand (shiftBy strength (i * (numBand0 * numBand * numBand)))
      frequencies (triplets i) (shiftBy g (i * (numBand0 * numBand * numBand)))
      (shiftBy g ((i + numTriplets) * (numBand0 * numBand * numBand)))
      (shiftBy gZero (i * (numBand0 * numBand * numBand))) T cutoff base b).2 = pairs i :=
    fun i hi base => detailedAtTriplet_sum bose numTriplets numBand0 numBand strength frequencies
      triplets g gZero T cutoff hbose b hflag i hi base
  have hr : (r.normal b, r.umklapp b) = _ := nu_fold numTriplets
    (fun j => isNormal (triplets j) addresses) (fun j =>
      (detailedAtTriplet bose numBand (shiftBy strength (j * (numBand0 * numBand * numBand)))
      frequencies (triplets j) (shiftBy g (j * (numBand0 * numBand * numBand)))
      (shiftBy g ((j + numTriplets) * (numBand0 * numBand * numBand)))
      (shiftBy gZero (j * (numBand0 * numBand * numBand))) T cutoff
      (j * (numBand0 * numBand * numBand)) b).2 * weights j)
  rw [Prod.mk.injEq] at hr
  have hN : ∀ i, isNormal (triplets i) addresses = true ↔ Normal i := fun i => isNormal_iff _ _
  refine ⟨hr.1.trans (Finset.sum_congr rfl fun i hi => ?_),
    hr.2.trans (Finset.sum_congr rfl fun i hi => ?_)⟩
  · rw [key i (Finset.mem_range.1 hi), mul_comm]
    by_cases h : Normal i
    · rw [if_pos h, if_pos ((hN i).2 h)]
    · rw [if_neg h, if_neg (fun q => h ((hN i).1 q))]
  · rw [key i (Finset.mem_range.1 hi), mul_comm]
    by_cases h : Normal i
    · rw [if_pos h, if_pos ((hN i).2 h)]
    · rw [if_neg h, if_neg (fun q => h ((hN i).1 q))]

/-- C26: normal and Umklapp parts add up to the linewidth computed without the split. -/
theorem C26_total (bose : K → K → K) (numTriplets numBand0 numBand : Nat)
    (strength : Int → K) (frequencies : Int → K) (triplets : Nat → Fin 3 → Int)
    (weights : Nat → Int) (addresses : Int → V3) (g : Int → K) (gZero : Int → Bool)
    (T cutoff : K) (init : Int → K) (hbose : ∀ f, cutoff < f → 0 ≤ bose f T)
    (b : Nat) (hb : b < numBand0)
    (hflag : FlagsSound numTriplets numBand0 numBand numBand0 strength g gZero b b)
    (numPoints : Nat) :
    let r := detailedWithG bose numTriplets numBand0 numBand strength frequencies triplets weights
      addresses g gZero T cutoff init
    r.normal b + r.umklapp b = iseWithG bose numTriplets numBand0 numBand strength frequencies
      triplets weights g gZero T cutoff numPoints (-1) b := by
  intro r
  have h := C26_partition bose numTriplets numBand0 numBand strength frequencies triplets weights
    addresses g gZero T cutoff init hbose b hflag
  rw [C25_full_sum bose numTriplets numBand0 numBand strength frequencies triplets weights g gZero
    T cutoff numPoints hbose b hb hflag]
  simp only at h
  rw [h.1, h.2, ← Finset.sum_add_distrib]
  unfold linewidth
  refine Finset.sum_congr rfl fun i _ => ?_
  split_ifs <;> simp

/-- C27: the detailed entries, summed over band pairs and over triplets with their weights, give
the linewidth. -/
theorem C27_total (bose : K → K → K) (numTriplets numBand0 numBand : Nat)
    (strength : Int → K) (frequencies : Int → K) (triplets : Nat → Fin 3 → Int)
    (weights : Nat → Int) (addresses : Int → V3) (g : Int → K) (gZero : Int → Bool)
    (T cutoff : K) (init : Int → K) (hbose : ∀ f, cutoff < f → 0 ≤ bose f T)
    (b : Nat) (hb : b < numBand0)
    (hflag : FlagsSound numTriplets numBand0 numBand numBand0 strength g gZero b b)
    (numPoints : Nat) :
    let r := detailedWithG bose numTriplets numBand0 numBand strength frequencies triplets weights
      addresses g gZero T cutoff init
    (∑ i ∈ Finset.range numTriplets, weights i * ∑ k ∈ Finset.range numBand,
      ∑ l ∈ Finset.range numBand, r.detailed (at4 numBand0 numBand numBand i b k l : Nat)) =
    iseWithG bose numTriplets numBand0 numBand strength frequencies triplets weights g gZero T
      cutoff numPoints (-1) b := by
  intro r
  rw [C25_full_sum bose numTriplets numBand0 numBand strength frequencies triplets weights g gZero
    T cutoff numPoints hbose b hb hflag]
  unfold linewidth pairSum
  refine Finset.sum_congr rfl fun i hi => ?_
  congr 1
  refine Finset.sum_congr rfl fun k hk => Finset.sum_congr rfl fun l hl => ?_
  rw [Finset.mem_range] at hi hk hl
  exact C27_entry bose numTriplets numBand0 numBand strength frequencies triplets weights
    addresses g gZero T cutoff init hbose b hb hflag i k l hi hk hl

/-- A flag that hides a non-zero weight would be noticed. -/
example : FlagsSound (K := ℚ) 1 1 2 1 (fun _ => 3) (fun k => if k = 1 then 0 else if k = 5 then 0
    else 7) (fun k => k = 1) 0 0 := by
  unfold FlagsSound; decide

/-- A normal and an Umklapp triplet. -/
example :
    let r := detailedWithG (K := ℚ) (fun _ _ => 1) 2 1 1 (fun _ => 1) (fun _ => 1)
      (fun (i : Nat) (_ : Fin 3) => (i : Int)) (fun _ => 1) (fun i => (⟨i, 0, 0⟩ : V3)) (fun _ => 5) (fun _ => false) 300 0
      (fun _ => 7)
    r.normal 0 = 15 ∧ r.umklapp 0 = 15 ∧ r.detailed 0 = 15 ∧ r.detailed 2 = 7 := by decide +kernel

end
end Phono3py.Props
