/-
C68: linewidths computed without storing the interaction strengths.
-/
import Verif.Model.PPCollision
import Verif.Props.SelfEnergy
import Verif.Props.Interaction

set_option linter.unusedSectionVars false

namespace Phono3py.Props
open Phono3py Phono3py.Spec

section
variable {K : Type _} [Field K] [LinearOrder K] [IsStrictOrderedRing K]

/-- The strength of bands `b`, `k`, `l` of a triplet; `b` counts the selected bands. -/
def bandStrength (s : CollisionSetting K) (triplet : Fin 3 → Int) (b k l : Nat) : K :=
  tripletStrength s.sqrt s.expi s.crystal s.frequencies s.eigenvectors triplet s.addresses s.D s.Q
    ![s.crystal.bandIndices b, k, l]

/-- The contribution of one triplet to the linewidth of selected band `b` at temperature `T`:
the full sum over pairs of bands. `δ1 k l` and `δ23 k l` are the integration weights. -/
def tripletLinewidth (s : CollisionSetting K) (triplet : Fin 3 → Int) (T : K) (b : Nat)
    (δ1 δ23 : Nat → Nat → K) : K :=
  pairSum s.bose s.crystal.cutoff T s.crystal.numBand
    (fun k => s.frequencies (triplet 1 * s.crystal.numBand + k))
    (fun l => s.frequencies (triplet 2 * s.crystal.numBand + l)) δ1 δ23
    (bandStrength s triplet b)

theorem pairSum_congr (bose : K → K → K) (cutoff T : K) (n : Nat) (f1 f2 : Nat → K)
    {δ1 δ23 v δ1' δ23' v' : Nat → Nat → K}
    (h : ∀ k < n, ∀ l < n, ∀ n1 n2 : K, modePair T n1 n2 (δ1 k l) (δ23 k l) (v k l) =
      modePair T n1 n2 (δ1' k l) (δ23' k l) (v' k l)) :
    pairSum bose cutoff T n f1 f2 δ1 δ23 v = pairSum bose cutoff T n f1 f2 δ1' δ23' v' := by
  unfold pairSum
  refine Finset.sum_congr rfl fun k hk => Finset.sum_congr rfl fun l hl => ?_
  rw [h k (Finset.mem_range.1 hk) l (Finset.mem_range.1 hl)]

theorem getCollision_value (s : CollisionSetting K) (hs : s.symmetrize = false) (g : Int → K)
    (gZero : Int → Bool) (triplet : Fin 3 → Int) (w : Int) {t b : Nat} (ht : t < s.numTemps)
    (hb : b < s.numBand0)
    (hbose : ∀ f, s.crystal.cutoff < f → 0 ≤ s.bose f (s.temperatures t))
    (hflag : ∀ k < s.crystal.numBand, ∀ l < s.crystal.numBand,
      gZero (at3 s.crystal.numBand s.crystal.numBand b k l : Nat) = true →
      g (at4 s.numBand0 s.crystal.numBand s.crystal.numBand 0 b k l : Nat) = 0 ∧
      g (at4 s.numBand0 s.crystal.numBand s.crystal.numBand 1 b k l : Nat) = 0) :
    getCollision s g gZero triplet w (at2 s.numBand0 t b : Nat) =
      w * tripletLinewidth s triplet (s.temperatures t) b
        (fun k l => g (at4 s.numBand0 s.crystal.numBand s.crystal.numBand 0 b k l : Nat))
        (fun k l => g (at4 s.numBand0 s.crystal.numBand s.crystal.numBand 1 b k l : Nat)) := by
  unfold getCollision tripletLinewidth
  set nb := s.crystal.numBand with hnb
  have e0 : ∀ k l, at4 s.numBand0 nb nb 0 b k l = at3 nb nb b k l := by
    intro k l; unfold at4 at3; ring
  have e1 : ∀ k l, s.numBand0 * nb * nb + at3 nb nb b k l = at4 s.numBand0 nb nb 1 b k l := by
    intro k l; unfold at4 at3; ring
  have key := iseAtTriplet_pairSum s.bose
    (interactionAtTriplet s.sqrt s.expi s.crystal s.numBand0
      (setGPos s.numBand0 nb gZero) s.frequencies s.eigenvectors triplet s.addresses s.D s.Q
      s.symmetrize s.mem fun _ => 0) s.frequencies triplet w g
    (shiftBy g (s.numBand0 * nb * nb))
    (fun j k l => gZero (at3 nb nb j k l : Nat)) s.temperatures s.crystal.cutoff false ht hb hbose
    (by
      intro k hk l hl h
      have := hflag k hk l hl h
      simp only [Bool.false_eq_true, if_false, shiftBy, ← Nat.cast_add]
      rw [e1, ← e0]
      exact Or.inl this)
  rw [setGPos_eq]
  rw [setGPos_eq] at key
  rw [key]
  congr 1
  refine pairSum_congr _ _ _ _ _ _ fun k hk l hl n1 n2 => ?_
  simp only [Bool.false_eq_true, if_false, shiftBy, ← Nat.cast_add]
  rw [e1, e0]
  have hv := C40_value s.sqrt s.expi s.crystal s.numBand0 gZero s.frequencies s.eigenvectors
    triplet s.addresses s.D s.Q s.mem (fun _ => 0) hb hk hl
  rw [← hnb, ← hs, setGPos_eq] at hv
  rw [hv]
  by_cases hz : gZero (at3 nb nb b k l : Nat) = true
  · have := hflag k hk l hl hz
    rw [← e0, this.1, this.2, modePair_zero, modePair_zero]
  · rw [if_neg hz]
    rfl

theorem ppCollision_ise (s : CollisionSetting K) (weights : Nat → (Int → K) × (Int → Bool))
    (triplets : Nat → Fin 3 → Int) (numTriplets : Nat) (tripletWeights : Nat → Int)
    (mem : Int → K) {i t b : Nat} (hi : i < numTriplets) (ht : t < s.numTemps)
    (hb : b < s.numBand0) :
    runWrites mem (loop numTriplets fun i => loop (s.numTemps * s.numBand0) fun r =>
    [(((i * s.numTemps * s.numBand0 + r : Nat) : Int),
      getCollision s (weights i).1 (weights i).2 (triplets i) (tripletWeights i) (r : Nat))])
      ((i * s.numTemps * s.numBand0 + t * s.numBand0 + b : Nat) : Int) =
    getCollision s (weights i).1 (weights i).2 (triplets i) (tripletWeights i)
      (at2 s.numBand0 t b : Nat) := by
  have hr : at2 s.numBand0 t b < s.numTemps * s.numBand0 := digits_lt ht hb
  rw [show i * s.numTemps * s.numBand0 + t * s.numBand0 + b =
    i * s.numTemps * s.numBand0 + at2 s.numBand0 t b by unfold at2; ring]
  refine runWrites_value mem _ ?_ (((i * s.numTemps * s.numBand0 + at2 s.numBand0 t b : Nat) : Int),
    getCollision s (weights i).1 (weights i).2 (triplets i) (tripletWeights i)
      (at2 s.numBand0 t b : Nat)) ?_
  · intro u hu w hw e
    simp only [mem_loop, List.mem_singleton] at hu hw
    obtain ⟨i, hi, r, hr, rfl⟩ := hu
    obtain ⟨i', hi', r', hr', rfl⟩ := hw
    have e : i * s.numTemps * s.numBand0 + r = i' * s.numTemps * s.numBand0 + r' := Int.ofNat.inj e
    rw [mul_assoc, mul_assoc] at e
    obtain ⟨rfl, rfl⟩ := digits2 hr hr' e
    rfl
  · simp only [mem_loop, List.mem_singleton]
    exact ⟨i, hi, _, hr, rfl⟩

/-- Weights of a triplet that vanish where they are flagged. -/
def ZeroWhereFlagged (numBand0 nb b : Nat) (r : (Int → K) × (Int → Bool)) : Prop :=
  ∀ k < nb, ∀ l < nb, r.2 (at3 nb nb b k l : Nat) = true →
    r.1 (at4 numBand0 nb nb 0 b k l : Nat) = 0 ∧ r.1 (at4 numBand0 nb nb 1 b k l : Nat) = 0

/-- The sum over the triplets selected by `p` of weight times linewidth contribution. -/
def collisionSum (s : CollisionSetting K) (weights : Nat → (Int → K) × (Int → Bool))
    (triplets : Nat → Fin 3 → Int) (numTriplets : Nat) (tripletWeights : Nat → Int)
    (p : Nat → Prop) [DecidablePred p] (t b : Nat) : K :=
  ∑ i ∈ Finset.range numTriplets, if p i then
    tripletWeights i * tripletLinewidth s (triplets i) (s.temperatures t) b
      (fun k l => (weights i).1 (at4 s.numBand0 s.crystal.numBand s.crystal.numBand 0 b k l : Nat))
      (fun k l => (weights i).1 (at4 s.numBand0 s.crystal.numBand s.crystal.numBand 1 b k l : Nat))
    else 0

/-- Additions of one block of temperatures and bands. -/
theorem block_adds (nt nb0 : Nat) (x : Nat → Nat → K) (base : Nat) {t b : Nat} (ht : t < nt)
    (hb : b < nb0) :
    addsAt (loop nt fun j => loop nb0 fun k => [(((base + (j * nb0 + k) : Nat) : Int), x j k)])
      ((base + at2 nb0 t b : Nat) : Int) = x t b := by
  rw [addsAt_loop, Finset.sum_eq_single t, addsAt_loop, Finset.sum_eq_single b, addsAt_single,
    if_pos (by rfl)]
  · intro k hk hne
    rw [addsAt_single, if_neg]
    intro e
    have e : base + (t * nb0 + k) = base + at2 nb0 t b := Int.ofNat.inj e
    exact hne (digits2 (Finset.mem_range.1 hk) hb (Nat.add_left_cancel e)).2
  · exact fun h => absurd (Finset.mem_range.2 hb) h
  · intro j hj hne
    rw [addsAt_loop]
    refine Finset.sum_eq_zero fun k hk => ?_
    rw [addsAt_single, if_neg]
    intro e
    have e : base + (j * nb0 + k) = base + at2 nb0 t b := Int.ofNat.inj e
    exact hne (digits2 (Finset.mem_range.1 hk) hb (Nat.add_left_cancel e)).1
  · exact fun h => absurd (Finset.mem_range.2 ht) h

/-- Additions of a block elsewhere. -/
theorem block_adds_other (nt nb0 : Nat) (x : Nat → Nat → K) (base base' : Nat)
    (h : base + nt * nb0 ≤ base' ∨ base' + nt * nb0 ≤ base) {t b : Nat} (ht : t < nt)
    (hb : b < nb0) :
    addsAt (loop nt fun j => loop nb0 fun k => [(((base + (j * nb0 + k) : Nat) : Int), x j k)])
      ((base' + at2 nb0 t b : Nat) : Int) = 0 := by
  rw [addsAt_loop]
  refine Finset.sum_eq_zero fun j hj => ?_
  rw [addsAt_loop]
  refine Finset.sum_eq_zero fun k hk => ?_
  rw [addsAt_single, if_neg]
  intro e
  have e : base + (j * nb0 + k) = base' + at2 nb0 t b := Int.ofNat.inj e
  have h1 : at2 nb0 j k < nt * nb0 := digits_lt (Finset.mem_range.1 hj) (Finset.mem_range.1 hk)
  have h2 : at2 nb0 t b < nt * nb0 := digits_lt ht hb
  unfold at2 at h1 h2 e
  omega

/-- C68: the linewidths summed over all triplets. -/
theorem C68_total_partial (s : CollisionSetting K) (hs : s.symmetrize = false)
    (weights : Nat → (Int → K) × (Int → Bool)) (triplets : Nat → Fin 3 → Int) (numTriplets : Nat)
    (tripletWeights : Nat → Int) (mem : Int → K) {t b : Nat} (ht : t < s.numTemps)
    (hb : b < s.numBand0)
    (hbose : ∀ f, s.crystal.cutoff < f → 0 ≤ s.bose f (s.temperatures t))
    (hw : ∀ i < numTriplets, ZeroWhereFlagged s.numBand0 s.crystal.numBand b (weights i)) :
    ppCollision s weights triplets numTriplets tripletWeights false mem (at2 s.numBand0 t b : Nat) =
      collisionSum s weights triplets numTriplets tripletWeights (fun _ => True) t b := by
  unfold ppCollision finalizeIse collisionSum
  simp only [Bool.false_eq_true, if_false]
  rw [runAdds_value, zero_add, addsAt_loop]
  refine Finset.sum_congr rfl fun i hi => ?_
  rw [Finset.mem_range] at hi
  rw [if_pos trivial]
  have := block_adds s.numTemps s.numBand0 (fun j k => runWrites mem (loop numTriplets fun i =>
    loop (s.numTemps * s.numBand0) fun r => [(((i * s.numTemps * s.numBand0 + r : Nat) : Int),
      getCollision s (weights i).1 (weights i).2 (triplets i) (tripletWeights i) (r : Nat))])
      ((i * s.numTemps * s.numBand0 + j * s.numBand0 + k : Nat) : Int)) 0 ht hb
  simp only [Nat.zero_add] at this
  rw [this, ppCollision_ise s weights triplets numTriplets tripletWeights mem hi ht hb,
    getCollision_value s hs _ _ _ _ ht hb hbose (hw i hi)]

/-- C68: with the split requested, the first block sums the triplets whose addresses sum to zero,
the second block the others. -/
theorem C68_normal_umklapp_partial (s : CollisionSetting K) (hs : s.symmetrize = false)
    (weights : Nat → (Int → K) × (Int → Bool)) (triplets : Nat → Fin 3 → Int) (numTriplets : Nat)
    (tripletWeights : Nat → Int) (mem : Int → K) {t b : Nat} (ht : t < s.numTemps)
    (hb : b < s.numBand0)
    (hbose : ∀ f, s.crystal.cutoff < f → 0 ≤ s.bose f (s.temperatures t))
    (hw : ∀ i < numTriplets, ZeroWhereFlagged s.numBand0 s.crystal.numBand b (weights i)) :
    let r := ppCollision s weights triplets numTriplets tripletWeights true mem
    let Normal := fun i => SumsToZero (s.addresses (triplets i 0)) (s.addresses (triplets i 1))
      (s.addresses (triplets i 2))
    r (at3 s.numTemps s.numBand0 0 t b : Nat) =
      collisionSum s weights triplets numTriplets tripletWeights Normal t b ∧
    r (at3 s.numTemps s.numBand0 1 t b : Nat) =
      collisionSum s weights triplets numTriplets tripletWeights (fun i => ¬Normal i) t b := by
  intro r Normal
  have e0 : at3 s.numTemps s.numBand0 0 t b = 0 + at2 s.numBand0 t b := by unfold at3 at2; ring
  have e1 : at3 s.numTemps s.numBand0 1 t b = s.numTemps * s.numBand0 + at2 s.numBand0 t b := by
    unfold at3 at2; ring
  have hN : ∀ i, isNormal (triplets i) s.addresses = true ↔ Normal i := fun i => isNormal_iff _ _
  set F : Nat → Nat → Nat → K := fun i j k => runWrites mem (loop numTriplets fun i =>
    loop (s.numTemps * s.numBand0) fun r => [(((i * s.numTemps * s.numBand0 + r : Nat) : Int),
      getCollision s (weights i).1 (weights i).2 (triplets i) (tripletWeights i) (r : Nat))])
      ((i * s.numTemps * s.numBand0 + j * s.numBand0 + k : Nat) : Int) with hF
  have body : ∀ p : Int, r p = ∑ i ∈ Finset.range numTriplets,
      if Normal i then addsAt (loop s.numTemps fun j => loop s.numBand0 fun k =>
        [(((0 + (j * s.numBand0 + k) : Nat) : Int), F i j k)]) p
      else addsAt (loop s.numTemps fun j => loop s.numBand0 fun k =>
        [(((s.numTemps * s.numBand0 + (j * s.numBand0 + k) : Nat) : Int), F i j k)]) p := by
    intro p
    show runAdds _ _ p = _
    rw [runAdds_value, zero_add, addsAt_loop]
    refine Finset.sum_congr rfl fun i _ => ?_
    by_cases h : Normal i
    · rw [if_pos h]
      simp only [(hN i).2 h, if_true, Nat.zero_add]
      rfl
    · rw [if_neg h]
      have : isNormal (triplets i) s.addresses = false := by
        rw [← Bool.not_eq_true, hN]; exact h
      simp only [this, Bool.false_eq_true, if_true, if_false, ← Nat.add_assoc]
      rfl
  have hv : ∀ i < numTriplets, F i t b = tripletWeights i *
      tripletLinewidth s (triplets i) (s.temperatures t) b
      (fun k l => (weights i).1 (at4 s.numBand0 s.crystal.numBand s.crystal.numBand 0 b k l : Nat))
      (fun k l => (weights i).1 (at4 s.numBand0 s.crystal.numBand s.crystal.numBand 1 b k l : Nat)) := by
    intro i hi
    rw [← getCollision_value s hs (weights i).1 (weights i).2 _ _ ht hb hbose (hw i hi)]
    exact ppCollision_ise s weights triplets numTriplets tripletWeights mem hi ht hb
  constructor
  · rw [e0, body]
    refine Finset.sum_congr rfl fun i hi => ?_
    by_cases h : Normal i
    · rw [if_pos h, if_pos h, block_adds _ _ (F i) _ ht hb, hv i (Finset.mem_range.1 hi)]
    · rw [if_neg h, if_neg h]
      exact block_adds_other _ _ (F i) _ _ (Or.inr (by omega)) ht hb
  · rw [e1, body]
    refine Finset.sum_congr rfl fun i hi => ?_
    by_cases h : Normal i
    · rw [if_pos h, if_neg (not_not.2 h)]
      exact block_adds_other _ _ (F i) _ _ (Or.inl (by omega)) ht hb
    · rw [if_neg h, if_pos h, block_adds _ _ (F i) _ ht hb, hv i (Finset.mem_range.1 hi)]

/-- C68: normal and Umklapp parts add up to the total. -/
theorem C68_split_partial (s : CollisionSetting K) (hs : s.symmetrize = false)
    (weights : Nat → (Int → K) × (Int → Bool)) (triplets : Nat → Fin 3 → Int) (numTriplets : Nat)
    (tripletWeights : Nat → Int) (mem mem' : Int → K) {t b : Nat} (ht : t < s.numTemps)
    (hb : b < s.numBand0)
    (hbose : ∀ f, s.crystal.cutoff < f → 0 ≤ s.bose f (s.temperatures t))
    (hw : ∀ i < numTriplets, ZeroWhereFlagged s.numBand0 s.crystal.numBand b (weights i)) :
    let r := ppCollision s weights triplets numTriplets tripletWeights true mem
    r (at3 s.numTemps s.numBand0 0 t b : Nat) + r (at3 s.numTemps s.numBand0 1 t b : Nat) =
      ppCollision s weights triplets numTriplets tripletWeights false mem'
        (at2 s.numBand0 t b : Nat) := by
  show ppCollision _ _ _ _ _ _ _ _ + ppCollision _ _ _ _ _ _ _ _ = _
  obtain ⟨h1, h2⟩ := C68_normal_umklapp_partial s hs weights triplets numTriplets tripletWeights mem ht hb
    hbose hw
  rw [h1, h2, C68_total_partial s hs weights triplets numTriplets tripletWeights mem' ht hb hbose hw]
  unfold collisionSum
  rw [← Finset.sum_add_distrib]
  refine Finset.sum_congr rfl fun i _ => ?_
  by_cases h : SumsToZero (s.addresses (triplets i 0)) (s.addresses (triplets i 1))
      (s.addresses (triplets i 2))
  · rw [if_pos h, if_neg (not_not.2 h), if_pos trivial, add_zero]
  · rw [if_neg h, if_pos h, if_pos trivial, zero_add]

/-- The linewidth of selected band `b` from the tetrahedron method: for every triplet and pair of
bands the occupation factors times the tetrahedron weights at the frequency of the selected band,
times the strength. -/
def tetrahedronLinewidth (s : CollisionSetting K) (eps : K) (relative : Fin 24 → Fin 4 → V3)
    (bz : BZGridOut) (dense : Bool) (triplets : Nat → Fin 3 → Int) (numTriplets : Nat)
    (tripletWeights : Nat → Int) (t b : Nat) : K :=
  ∑ i ∈ Finset.range numTriplets, tripletWeights i *
    (let f0 := s.frequencies (triplets 0 0 * s.crystal.numBand + (s.crystal.bandIndices b : Nat))
    let vertices := tripletVertices bz s.D dense (setRelativeGridAddress relative 2) (triplets i)
    let δ := fun k l m => thmIntegrationWeight eps true f0 (combination s.frequencies s.frequencies
      vertices s.crystal.numBand s.crystal.numBand k l 2 m)
    tripletLinewidth s (triplets i) (s.temperatures t) b (fun k l => δ k l 2)
      (fun k l => δ k l 0 - δ k l 1))

/-- C68 with the tetrahedron method: nothing but the definition of the linewidth is left. -/
theorem C68_tetrahedron_partial (s : CollisionSetting K) (hs : s.symmetrize = false) (eps : K)
    (g0 : Fin 3 → K) (relative : Fin 24 → Fin 4 → V3) (bz : BZGridOut) (dense : Bool)
    (triplets : Nat → Fin 3 → Int) (numTriplets : Nat) (tripletWeights : Nat → Int)
    (mem gMem : Int → K) (zMem : Int → Bool) {t b : Nat} (ht : t < s.numTemps)
    (hb : b < s.numBand0)
    (hbose : ∀ f, s.crystal.cutoff < f → 0 ≤ s.bose f (s.temperatures t)) :
    ppCollisionTetrahedron s eps g0 relative bz dense triplets numTriplets tripletWeights false mem
      gMem zMem (at2 s.numBand0 t b : Nat) =
    tetrahedronLinewidth s eps relative bz dense triplets numTriplets tripletWeights t b := by
  set nb := s.crystal.numBand with hnb
  have one : ∀ i, (runWrites gMem (tpiStores eps g0 0 (freqsAtGp s triplets) s.numBand0
      (tripletVertices bz s.D dense (setRelativeGridAddress relative 2) (triplets i)) 1
      s.frequencies nb s.frequencies nb 2),
     runWrites zMem (tpiZeroStores eps g0 0 (freqsAtGp s triplets) s.numBand0
      (tripletVertices bz s.D dense (setRelativeGridAddress relative 2) (triplets i))
      s.frequencies nb s.frequencies nb 2)) = tetrahedronWeights eps g0 (freqsAtGp s triplets)
      s.numBand0 relative (fun _ => triplets i) 1 bz s.D dense s.frequencies nb s.frequencies nb 2
      gMem zMem := by
    intro i
    unfold tetrahedronWeights tplStores
    simp [loop]
  have w := fun i k l (hk : k < nb) (hl : l < nb) => C23_weights eps g0 (freqsAtGp s triplets)
    s.numBand0 relative (fun _ => triplets i) 1 bz s.D dense s.frequencies nb s.frequencies nb 2
    gMem zMem (Or.inl rfl) 0 b k l Nat.one_pos hb hk hl
  have a0 : ∀ x k l, at5 1 s.numBand0 nb nb x 0 b k l = at4 s.numBand0 nb nb x b k l := by
    intro x k l; unfold at5 at4; ring
  have a3 : ∀ k l, at4 s.numBand0 nb nb 0 b k l = at3 nb nb b k l := by
    intro k l; unfold at4 at3; ring
  unfold ppCollisionTetrahedron
  simp only [← hnb, one]
  rw [C68_total_partial s hs _ triplets numTriplets tripletWeights mem ht hb hbose]
  · unfold collisionSum tetrahedronLinewidth
    refine Finset.sum_congr rfl fun i _ => ?_
    rw [if_pos trivial]
    congr 1
    unfold tripletLinewidth
    refine pairSum_congr _ _ _ _ _ _ fun k hk l hl n1 n2 => ?_
    have h0 := (w i k l hk hl).1 0 (by decide)
    have h1 := (w i k l hk hl).1 1 (by decide)
    rw [a0] at h0 h1
    beta_reduce
    rw [h0, h1]
    rfl
  · intro i _ k hk l hl h
    have := (w i k l hk hl).2.2
    rw [a3] at this
    have h0 := this h 0 (by decide)
    have h1 := this h 1 (by decide)
    rw [a0] at h0 h1
    exact ⟨h0, h1⟩

/-- C68 with smearing: the linewidth does not change when all weights and strengths are computed
beforehand for the whole list of triplets. -/
theorem C68_smearing_partial (s : CollisionSetting K) (hs : s.symmetrize = false)
    (gaussian : K → K → K) (sigma sigmaCutoff : K)
    (triplets : Nat → Fin 3 → Int) (numTriplets : Nat) (tripletWeights : Nat → Int)
    (mem gMem iw strength : Int → K) (zMem zero : Int → Bool) (numPoints : Nat) {t b : Nat}
    (ht : t < s.numTemps) (hb : b < s.numBand0)
    (hbose : ∀ f, s.crystal.cutoff < f → 0 ≤ s.bose f (s.temperatures t))
    (hstrength : ∀ i < numTriplets, ∀ k < s.crystal.numBand, ∀ l < s.crystal.numBand,
      strength (at4 s.numBand0 s.crystal.numBand s.crystal.numBand i b k l : Nat) =
        bandStrength s (triplets i) b k l) :
    let r := smearingWeights gaussian sigma sigmaCutoff (freqsAtGp s triplets) s.numBand0 triplets
      numTriplets s.frequencies s.crystal.numBand 2 iw zero
    ppCollisionSmearing s gaussian sigma sigmaCutoff triplets numTriplets tripletWeights false mem
      gMem zMem (at2 s.numBand0 t b : Nat) =
    iseWithG s.bose numTriplets s.numBand0 s.crystal.numBand strength s.frequencies triplets
      tripletWeights r.1 r.2 (s.temperatures t) s.crystal.cutoff numPoints (-1) b := by
  intro r
  set nb := s.crystal.numBand with hnb
  have w1 := fun i k l (hk : k < nb) (hl : l < nb) => C24_flag gaussian sigma sigmaCutoff
    (freqsAtGp s triplets) s.numBand0 (fun _ => triplets i) 1 s.frequencies nb 2
    gMem zMem (Or.inl rfl) 0 b k l Nat.one_pos hb hk hl
  have w2 := fun i (hi : i < numTriplets) k l (hk : k < nb) (hl : l < nb) => C24_flag gaussian
    sigma sigmaCutoff (freqsAtGp s triplets) s.numBand0 triplets numTriplets s.frequencies nb 2
    iw zero (Or.inl rfl) i b k l hi hb hk hl
  have a0 : ∀ x k l, at5 1 s.numBand0 nb nb x 0 b k l = at4 s.numBand0 nb nb x b k l := by
    intro x k l; unfold at5 at4; ring
  have a3 : ∀ k l, at4 s.numBand0 nb nb 0 b k l = at3 nb nb b k l := by
    intro k l; unfold at4 at3; ring
  have rhs := C25_smearing s.bose numTriplets s.numBand0 nb strength s.frequencies triplets
    tripletWeights (s.temperatures t) s.crystal.cutoff gaussian sigma sigmaCutoff
    (freqsAtGp s triplets) iw zero hbose b hb numPoints
  rw [show iseWithG _ _ _ _ _ _ _ _ _ _ _ _ _ _ _ = _ from rhs]
  unfold ppCollisionSmearing
  rw [C68_total_partial s hs _ triplets numTriplets tripletWeights mem ht hb hbose]
  · unfold collisionSum linewidth
    refine Finset.sum_congr rfl fun i hi => ?_
    rw [Finset.mem_range] at hi
    rw [if_pos trivial]
    congr 1
    unfold tripletLinewidth
    refine pairSum_congr _ _ _ _ _ _ fun k hk l hl n1 n2 => ?_
    rw [hstrength i hi k hk l hl]
    have eq : ∀ x < numSlabs 2,
        (smearingWeights gaussian sigma sigmaCutoff (freqsAtGp s triplets) s.numBand0
          (fun _ => triplets i) 1 s.frequencies nb 2 gMem zMem).1
            (at4 s.numBand0 nb nb x b k l : Nat) =
        r.1 (at5 numTriplets s.numBand0 nb nb x i b k l : Nat) := by
      intro x hx
      rw [← a0]
      have f1 := w1 i k l hk hl
      have f2 := w2 i hi k l hk hl
      simp only at f1 f2
      by_cases h : (smearingWeights gaussian sigma sigmaCutoff (freqsAtGp s triplets) s.numBand0
          (fun _ => triplets i) 1 s.frequencies nb 2 gMem zMem).2
          (at4 s.numBand0 nb nb 0 b k l : Nat) = true
      · rw [f1.2.1 h x hx, f2.2.1 (f2.1.2 (f1.1.1 h)) x hx]
      · have h' : ¬r.2 (at4 s.numBand0 nb nb i b k l : Nat) = true :=
          fun hh => h (f1.1.2 (f2.1.1 hh))
        rw [f1.2.2 (by simpa using h) x hx, f2.2.2 (by simpa using h') x hx]
    have h0 := eq 0 (by decide)
    have h1 := eq 1 (by decide)
    unfold smearingWeights at h0 h1
    beta_reduce
    rw [← h0, ← h1]
  · intro i _ k hk l hl h
    have := (w1 i k l hk hl).2.1
    rw [a3] at this
    have h0 := this h 0 (by decide)
    have h1 := this h 1 (by decide)
    beta_reduce at h0 h1
    rw [a0] at h0 h1
    exact ⟨h0, h1⟩

/-- C68 fails together with symmetrisation: at zero temperature, with non-negative weights, the
contribution of a triplet grows with the content of uninitialised memory as soon as one pair of
bands has a positive weight while one of its permutations is flagged. -/
theorem C68_symmetrized_uninitialised (s : CollisionSetting K) (hs : s.symmetrize = true)
    (g : Int → K) (gZero : Int → Bool) (triplet : Fin 3 → Int) (w : Int) (hw : 0 < w) {t b : Nat}
    (ht : t < s.numTemps) (hT : s.temperatures t = 0) (hn0 : s.numBand0 = s.crystal.numBand)
    (hb : b < s.crystal.numBand) (hband : ∀ b < s.crystal.numBand, s.crystal.bandIndices b = b)
    (hbose : ∀ f, s.crystal.cutoff < f → 0 ≤ s.bose f (s.temperatures t))
    (hg : ∀ p, 0 ≤ g p) (hflag : ZeroWhereFlagged s.numBand0 s.crystal.numBand b (g, gZero))
    (k l : Nat) (hk : k < s.crystal.numBand) (hl : l < s.crystal.numBand)
    (hf1 : s.crystal.cutoff < s.frequencies (triplet 1 * s.crystal.numBand + k))
    (hf2 : s.crystal.cutoff < s.frequencies (triplet 2 * s.crystal.numBand + l))
    (hpos : 0 < g (at3 s.crystal.numBand s.crystal.numBand b k l : Nat))
    (τ : Equiv.Perm (Fin 3))
    (hτ : gZero (at3 s.crystal.numBand s.crystal.numBand ((![b, k, l] : Fin 3 → Nat) (τ 0))
      ((![b, k, l] : Fin 3 → Nat) (τ 1)) ((![b, k, l] : Fin 3 → Nat) (τ 2)) : Nat) = true) :
    getCollision s g gZero triplet w (at2 s.numBand0 t b : Nat) <
      getCollision { s with mem := fun p => s.mem p + 1 } g gZero triplet w
        (at2 s.numBand0 t b : Nat) := by
  set nb := s.crystal.numBand with hnb
  have e0 : ∀ k l, at4 s.numBand0 nb nb 0 b k l = at3 nb nb b k l := by
    intro k l; unfold at4 at3; ring
  have e1 : ∀ k l, s.numBand0 * nb * nb + at3 nb nb b k l = at4 s.numBand0 nb nb 1 b k l := by
    intro k l; unfold at4 at3; ring
  have key := fun mem => iseAtTriplet_pairSum s.bose
    (interactionAtTriplet s.sqrt s.expi s.crystal s.numBand0
      (setGPos s.numBand0 nb gZero) s.frequencies s.eigenvectors triplet s.addresses s.D s.Q
      s.symmetrize mem fun _ => 0) s.frequencies triplet w g
    (shiftBy g (s.numBand0 * nb * nb))
    (fun j k l => gZero (at3 nb nb j k l : Nat)) s.temperatures s.crystal.cutoff false ht
    (hn0 ▸ hb) hbose
    (by
      intro k hk l hl h
      have := hflag k hk l hl h
      simp only [Bool.false_eq_true, if_false, shiftBy, ← Nat.cast_add]
      rw [e1, ← e0]
      exact Or.inl this)
  unfold getCollision
  simp only
  rw [← hnb]
  beta_reduce at key
  simp only [← setGPos_eq] at key
  rw [key s.mem, key fun p => s.mem p + 1]
  refine mul_lt_mul_of_pos_left ?_ (by exact_mod_cast hw)
  unfold pairSum modePair
  simp only [hT, lt_irrefl, if_false]
  have val : ∀ (mem : Int → K), ∀ k < nb, ∀ l < nb,
      interactionAtTriplet s.sqrt s.expi s.crystal s.numBand0
        (setGPos s.numBand0 nb gZero) s.frequencies s.eigenvectors triplet s.addresses s.D s.Q
        s.symmetrize mem (fun _ => 0) (at3 nb nb b k l : Nat) =
      (∑ σ : Equiv.Perm (Fin 3),
        if gZero (at3 nb nb ((![b, k, l] : Fin 3 → Nat) (σ 0)) ((![b, k, l] : Fin 3 → Nat) (σ 1))
          ((![b, k, l] : Fin 3 → Nat) (σ 2)) : Nat) then
        mem (at3 nb nb ((![b, k, l] : Fin 3 → Nat) (σ 0)) ((![b, k, l] : Fin 3 → Nat) (σ 1))
          ((![b, k, l] : Fin 3 → Nat) (σ 2)) : Nat)
        else tripletStrength s.sqrt s.expi s.crystal s.frequencies s.eigenvectors
          (fun m => triplet (σ m)) s.addresses s.D s.Q
          (fun m => (![b, k, l] : Fin 3 → Nat) (σ m))) / 6 := fun mem k hk l hl => by
    rw [hn0, hs]
    exact C61_value s.sqrt s.expi s.crystal gZero s.frequencies s.eigenvectors triplet s.addresses
      s.D s.Q mem (fun _ => 0) hband ![b, k, l] (by
        intro m
        fin_cases m
        · exact hb
        · exact hk
        · exact hl)
  have mono : ∀ k < nb, ∀ l < nb,
      interactionAtTriplet s.sqrt s.expi s.crystal s.numBand0
        (setGPos s.numBand0 nb gZero) s.frequencies s.eigenvectors triplet s.addresses s.D s.Q
        s.symmetrize s.mem (fun _ => 0) (at3 nb nb b k l : Nat) ≤
      interactionAtTriplet s.sqrt s.expi s.crystal s.numBand0
        (setGPos s.numBand0 nb gZero) s.frequencies s.eigenvectors triplet s.addresses s.D s.Q
        s.symmetrize (fun p => s.mem p + 1) (fun _ => 0) (at3 nb nb b k l : Nat) := by
    intro k hk l hl
    rw [val s.mem k hk l hl, val _ k hk l hl]
    refine div_le_div_of_nonneg_right (Finset.sum_le_sum fun σ _ => ?_) (by norm_num)
    split_ifs
    · exact (lt_add_one _).le
    · exact le_refl _
  have strict := C61_uninitialised_flag s.sqrt s.expi s.crystal gZero s.frequencies s.eigenvectors
    triplet s.addresses s.D s.Q s.mem (fun _ => 0) hband ![b, k, l] (by
        intro m
        fin_cases m
        · exact hb
        · exact hk
        · exact hl) τ hτ
  rw [← hs, ← hnb] at strict
  have term : ∀ k < nb, ∀ l < nb, _ := fun k hk l hl =>
    mul_le_mul_of_nonneg_left (mono k hk l hl) (hg (at3 nb nb b k l : Nat))
  have inner : ∀ k < nb, ∀ l < nb,
      (if s.crystal.cutoff < s.frequencies (triplet 1 * nb + k) ∧
        s.crystal.cutoff < s.frequencies (triplet 2 * nb + l) then
        g (at3 nb nb b k l : Nat) * interactionAtTriplet s.sqrt s.expi s.crystal s.numBand0
          (setGPos s.numBand0 nb gZero) s.frequencies s.eigenvectors triplet s.addresses s.D s.Q s.symmetrize s.mem (fun _ => 0)
          (at3 nb nb b k l : Nat) else 0) ≤
      (if s.crystal.cutoff < s.frequencies (triplet 1 * nb + k) ∧
        s.crystal.cutoff < s.frequencies (triplet 2 * nb + l) then
        g (at3 nb nb b k l : Nat) * interactionAtTriplet s.sqrt s.expi s.crystal s.numBand0
          (setGPos s.numBand0 nb gZero) s.frequencies s.eigenvectors triplet s.addresses s.D s.Q s.symmetrize
          (fun p => s.mem p + 1) (fun _ => 0) (at3 nb nb b k l : Nat) else 0) := by
    intro k hk l hl
    split_ifs
    · exact term k hk l hl
    · exact le_refl _
  simp only [Bool.false_eq_true, if_false]
  refine Finset.sum_lt_sum (fun k hk => Finset.sum_le_sum fun l hl =>
    inner k (Finset.mem_range.1 hk) l (Finset.mem_range.1 hl)) ⟨k, Finset.mem_range.2 hk, ?_⟩
  refine Finset.sum_lt_sum (fun l hl => inner k hk l (Finset.mem_range.1 hl))
    ⟨l, Finset.mem_range.2 hl, ?_⟩
  rw [if_pos ⟨hf1, hf2⟩, if_pos ⟨hf1, hf2⟩]
  refine mul_lt_mul_of_pos_left ?_ hpos
  rw [hn0]
  exact strict

end

/-! ## Concrete case -/

/-- The chain with three bands at grid point 0, one temperature. -/
def chainSetting (T : ℚ) (symmetrize : Bool) : CollisionSetting ℚ where
  bose := fun _ _ => 1
  sqrt := fun x => x
  expi := ratPhase
  crystal := chain
  numBand0 := 3
  temperatures := fun _ => T
  numTemps := 1
  frequencies := fun p => (p % 3 + 1 : Int)
  eigenvectors := chainEig
  addresses := chainAddress
  D := ⟨3, 1, 1⟩
  Q := ⟨1, 0, 0, 0, 1, 0, 0, 0, 1⟩
  symmetrize := symmetrize
  mem := fun _ => 0

/-- The hypotheses of `C68_symmetrized_uninitialised` are met with bands `(0, 1, 2)` weighted and
`(1, 0, 2)` flagged. -/
example :
    let s := chainSetting 0 true
    let g : Int → ℚ := fun p => if p = (at3 3 3 0 1 2 : Nat) then 1 else 0
    let gZero : Int → Bool := fun p => p != (at3 3 3 0 1 2 : Nat)
    s.symmetrize = true ∧ s.numBand0 = s.crystal.numBand ∧ (∀ p, 0 ≤ g p) ∧
    ZeroWhereFlagged s.numBand0 s.crystal.numBand 0 (g, gZero) ∧
    s.crystal.cutoff < s.frequencies (1 * s.crystal.numBand + 1) ∧
    s.crystal.cutoff < s.frequencies (2 * s.crystal.numBand + 2) ∧
    0 < g (at3 s.crystal.numBand s.crystal.numBand 0 1 2 : Nat) ∧
    gZero (at3 s.crystal.numBand s.crystal.numBand 1 0 2 : Nat) = true := by
  intro s g gZero
  refine ⟨rfl, rfl, ?_, ?_, ?_, ?_, ?_, ?_⟩
  · intro p
    show 0 ≤ if _ then (1 : ℚ) else 0
    split_ifs <;> norm_num
  · show ∀ k < 3, ∀ l < 3, _
    decide +kernel
  · decide +kernel
  · decide +kernel
  · decide +kernel
  · rfl

/-- A linewidth that is not zero. -/
example : tripletLinewidth (chainSetting 300 false) ![0, 1, 2] 300 0 (fun _ _ => 1) (fun _ _ => 1)
    ≠ 0 := by decide +kernel

end Phono3py.Props
