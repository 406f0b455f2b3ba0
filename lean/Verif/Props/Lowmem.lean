/-
C150: the memory-saving route of the relaxation time approximation.
-/
import Verif.Model.Lowmem
import Verif.Props.PPCollision
import Verif.Props.IseCode

set_option linter.unusedSectionVars false

namespace Phono3py.Props
open Phono3py Phono3py.Spec

section
variable {K : Type} [Field K] [LinearOrder K] [IsStrictOrderedRing K]

theorem pairSum_mul_right (bose : K → K → K) (cutoff T : K) (n : Nat) (f1 f2 : Nat → K)
    (δ1 δ23 v : Nat → Nat → K) (u : K) :
    pairSum bose cutoff T n f1 f2 δ1 δ23 (fun k l => v k l * u) =
      pairSum bose cutoff T n f1 f2 δ1 δ23 v * u := by
  unfold pairSum
  rw [Finset.sum_mul]
  refine Finset.sum_congr rfl fun k _ => ?_
  rw [Finset.sum_mul]
  refine Finset.sum_congr rfl fun l _ => ?_
  unfold modePair
  split_ifs <;> ring

/-- The array of weights that the memory-saving route uses slice by slice. -/
def lowmemWeights (c : IseCode K) (p : Int) (sigma cutoff : Option K) :
    (Int → K) × (Int → Bool) :=
  match sigma with
  | none => tetrahedronWeights c.eps c.g0 (c.points p none) c.o.numBand0 c.relative (c.triplets p)
      (c.numTriplets p) c.bz c.o.D c.dense c.o.frequencies c.o.crystal.numBand c.o.frequencies
      c.o.crystal.numBand 2 (fun _ => 0) (fun _ => false)
  | some x => smearingWeights c.gaussian x (cutoff.getD (-1)) (c.points p none) c.o.numBand0
      (c.triplets p) (c.numTriplets p) c.o.frequencies c.o.crystal.numBand 2 (fun _ => 0)
      (fun _ => false)

theorem lowmemWeights_eq (c : IseCode K) (p : Int) (sigma cutoff : Option K) (hs : sigma ≠ some 0) :
    lowmemWeights c p sigma cutoff =
      ((c.weightsAt p p none sigma cutoff).1.2, (c.weightsAt p p none sigma cutoff).2) := by
  unfold lowmemWeights IseCode.weightsAt
  cases sigma with
  | none =>
    simp only [Option.getD_none, if_true]
    rfl
  | some x =>
    have hx : x ≠ 0 := fun h => hs (by rw [h])
    simp only [Option.getD_some, if_neg hx]
    rfl

theorem freqsAtGp_setting (c : IseCode K) (p : Int) (ts : List K) (h0 : c.triplets p 0 0 = p) :
    freqsAtGp (c.setting ts) (c.triplets p) = c.points p none := by
  funext b
  unfold freqsAtGp IseCode.points IseCode.setting
  simp only [h0]

/-- Weights of one triplet, calculated on their own, are a slice of the weights of all of them. -/
theorem collisions_slices (c : IseCode K) (p : Int) (ts : List K) (sigma cutoff : Option K)
    (m : LowmemMemory K) (h0 : c.triplets p 0 0 = p) :
    ∃ w : Nat → (Int → K) × (Int → Bool),
      (∀ isNU, c.collisions p ts isNU sigma cutoff m =
        ppCollision (c.setting ts) w (c.triplets p) (c.numTriplets p) (c.weights p) isNU m.ise) ∧
      ∀ i < c.numTriplets p, ∀ b < c.o.numBand0,
        ZeroWhereFlagged c.o.numBand0 c.o.crystal.numBand b (w i) ∧
        ∀ k < c.o.crystal.numBand, ∀ l < c.o.crystal.numBand, ∀ x < 2,
          (w i).1 (at4 c.o.numBand0 c.o.crystal.numBand c.o.crystal.numBand x b k l : Nat) =
            (lowmemWeights c p sigma cutoff).1 (at5 (c.numTriplets p) c.o.numBand0
              c.o.crystal.numBand c.o.crystal.numBand x i b k l : Nat) := by
  set nb := c.o.crystal.numBand with hnb
  set n0 := c.o.numBand0 with hn0
  have a0 : ∀ b x k l, at5 1 n0 nb nb x 0 b k l = at4 n0 nb nb x b k l := by
    intro b x k l; unfold at5 at4; ring
  have a3 : ∀ b k l, at4 n0 nb nb 0 b k l = at3 nb nb b k l := by
    intro b k l; unfold at4 at3; ring
  have hf := freqsAtGp_setting c p ts h0
  cases sigma with
  | none =>
    refine ⟨fun i => tetrahedronWeights c.eps c.g0 (c.points p none) n0 c.relative
      (fun _ => c.triplets p i) 1 c.bz c.o.D c.dense c.o.frequencies nb c.o.frequencies nb 2 m.g
      m.gZero, fun isNU => ?_, fun i hi b hb => ?_⟩
    · unfold IseCode.collisions ppCollisionTetrahedron
      simp only [hf]
      congr 1
      funext i
      unfold tetrahedronWeights tplStores
      simp [loop]
      exact ⟨rfl, rfl⟩
    · have w1 := fun k l (hk : k < nb) (hl : l < nb) => C23_weights c.eps c.g0 (c.points p none)
        n0 c.relative (fun _ => c.triplets p i) 1 c.bz c.o.D c.dense c.o.frequencies nb
        c.o.frequencies nb 2 m.g m.gZero (Or.inl rfl) 0 b k l Nat.one_pos hb hk hl
      have w2 := fun k l (hk : k < nb) (hl : l < nb) => C23_weights c.eps c.g0 (c.points p none)
        n0 c.relative (c.triplets p) (c.numTriplets p) c.bz c.o.D c.dense c.o.frequencies nb
        c.o.frequencies nb 2 (fun _ => 0) (fun _ => false) (Or.inl rfl) i b k l hi hb hk hl
      refine ⟨fun k hk l hl h => ?_, fun k hk l hl x hx => ?_⟩
      · have := (w1 k l hk hl).2.2
        rw [a3] at this
        have h0 := this h 0 (by decide)
        have h1 := this h 1 (by decide)
        rw [a0] at h0 h1
        exact ⟨h0, h1⟩
      · have h1 := (w1 k l hk hl).1 x hx
        have h2 := (w2 k l hk hl).1 x hx
        rw [a0] at h1
        exact h1.trans h2.symm
  | some y =>
    refine ⟨fun i => smearingWeights c.gaussian y (cutoff.getD (-1)) (c.points p none) n0
      (fun _ => c.triplets p i) 1 c.o.frequencies nb 2 m.g m.gZero,
      fun isNU => ?_, fun i hi b hb => ?_⟩
    · unfold IseCode.collisions ppCollisionSmearing
      simp only [hf]
      rfl
    · have w1 := fun k l (hk : k < nb) (hl : l < nb) => C24_flag c.gaussian y (cutoff.getD (-1))
        (c.points p none) n0 (fun _ => c.triplets p i) 1 c.o.frequencies nb 2 m.g m.gZero
        (Or.inl rfl) 0 b k l Nat.one_pos hb hk hl
      have w2 := fun k l (hk : k < nb) (hl : l < nb) => C24_flag c.gaussian y (cutoff.getD (-1))
        (c.points p none) n0 (c.triplets p) (c.numTriplets p) c.o.frequencies nb 2 (fun _ => 0)
        (fun _ => false) (Or.inl rfl) i b k l hi hb hk hl
      refine ⟨fun k hk l hl h => ?_, fun k hk l hl x hx => ?_⟩
      · have := (w1 k l hk hl).2.1
        rw [a3] at this
        have h0 := this h 0 (by decide)
        have h1 := this h 1 (by decide)
        beta_reduce at h0 h1
        rw [a0] at h0 h1
        exact ⟨h0, h1⟩
      · have f1 := w1 k l hk hl
        have f2 := w2 k l hk hl
        simp only at f1 f2
        rw [← a0]
        by_cases h : (smearingWeights c.gaussian y (cutoff.getD (-1)) (c.points p none) n0
            (fun _ => c.triplets p i) 1 c.o.frequencies nb 2 m.g m.gZero).2
            (at4 n0 nb nb 0 b k l : Nat) = true
        · exact (f1.2.1 h x hx).trans (f2.2.1 (f2.1.2 (f1.1.1 h)) x hx).symm
        · have h' := fun hh => h (f1.1.2 (f2.1.1 hh))
          exact (f1.2.2 (by simpa using h) x hx).trans (f2.2.2 (by simpa using h') x hx).symm

theorem strengths_value (c : IseCode K) (hsym : c.o.symmetrize = false) (hc : c.o.constant = none)
    (p : Int) (ts : List K) (i b k l : Nat) (hb : b < c.o.numBand0) (hk : k < c.o.crystal.numBand)
    (hl : l < c.o.crystal.numBand) :
    c.strengths p none (at4 c.o.numBand0 c.o.crystal.numBand c.o.crystal.numBand i b k l : Nat) =
      bandStrength (c.setting ts) (c.triplets p i) b k l * c.o.unit := by
  set nb := c.o.crystal.numBand with hnb
  set n0 := c.o.numBand0 with hn0
  have hlt : at3 nb nb b k l < n0 * nb * nb := by
    unfold at3
    have h1 : b * nb + k < n0 * nb := by nlinarith
    nlinarith
  have e4 : at4 n0 nb nb i b k l = i * (n0 * nb * nb) + at3 nb nb b k l := by
    unfold at4 at3; ring
  have ebl : c.block = n0 * nb * nb := rfl
  have hdiv : (((at4 n0 nb nb i b k l : Nat) : Int) / (c.block : Int)).toNat = i := by
    rw [e4, ebl]
    have : (i * (n0 * nb * nb) + at3 nb nb b k l) / (n0 * nb * nb) = i := by
      rw [Nat.mul_comm, Nat.mul_add_div (by omega), Nat.div_eq_of_lt hlt, Nat.add_zero]
    exact_mod_cast congrArg (fun n : Nat => n) this
  have hmod : ((at4 n0 nb nb i b k l : Nat) : Int) % (c.block : Int) = (at3 nb nb b k l : Nat) := by
    rw [e4, ebl]
    have : (i * (n0 * nb * nb) + at3 nb nb b k l) % (n0 * nb * nb) = at3 nb nb b k l := by
      rw [Nat.mul_comm, Nat.mul_add_mod, Nat.mod_eq_of_lt hlt]
    exact_mod_cast this
  unfold IseCode.strengths
  simp only [hdiv, hmod, hc]
  unfold interactionRunC
  simp only [Option.map_none, hsym]
  rw [C40_value _ _ _ _ _ _ _ _ _ _ _ _ _ hb hk hl]
  simp only [Bool.false_eq_true, if_false]
  rfl

/-- The sum over the triplets selected by `q` of weight times sum over pairs of bands, with the stored
interaction strengths. -/
def selectedSum (c : IseCode K) (p : Int) (g : Int → K) (q : Nat → Prop) [DecidablePred q] (t : K)
    (b : Nat) : K :=
  ∑ i ∈ Finset.range (c.numTriplets p), if q i then (c.weights p i : K) *
    pairSum c.bose c.o.crystal.cutoff t c.o.crystal.numBand
      (fun k => c.o.frequencies (c.triplets p i 1 * c.o.crystal.numBand + k))
      (fun l => c.o.frequencies (c.triplets p i 2 * c.o.crystal.numBand + l))
      (fun k l => g (at5 (c.numTriplets p) c.o.numBand0 c.o.crystal.numBand c.o.crystal.numBand
        0 i b k l : Nat))
      (fun k l => g (at5 (c.numTriplets p) c.o.numBand0 c.o.crystal.numBand c.o.crystal.numBand
        1 i b k l : Nat))
      (fun k l => c.strengths p none
        (at4 c.o.numBand0 c.o.crystal.numBand c.o.crystal.numBand i b k l : Nat))
    else 0

theorem collisionSum_stored (c : IseCode K) (hsym : c.o.symmetrize = false)
    (hc : c.o.constant = none) (p : Int) (ts : List K) (w : Nat → (Int → K) × (Int → Bool))
    (g : Int → K) (b : Nat) (hb : b < c.o.numBand0)
    (hw : ∀ i < c.numTriplets p, ∀ k < c.o.crystal.numBand, ∀ l < c.o.crystal.numBand, ∀ x < 2,
      (w i).1 (at4 c.o.numBand0 c.o.crystal.numBand c.o.crystal.numBand x b k l : Nat) =
        g (at5 (c.numTriplets p) c.o.numBand0 c.o.crystal.numBand c.o.crystal.numBand
          x i b k l : Nat))
    (q : Nat → Prop) [DecidablePred q] (k : Nat) :
    collisionSum (c.setting ts) w (c.triplets p) (c.numTriplets p) (c.weights p) q k b * c.o.unit =
      selectedSum c p g q (ts.getD k 0) b := by
  unfold collisionSum selectedSum
  rw [Finset.sum_mul]
  refine Finset.sum_congr rfl fun i hi => ?_
  rw [Finset.mem_range] at hi
  by_cases hq : q i
  · rw [if_pos hq, if_pos hq, mul_assoc]
    congr 1
    unfold tripletLinewidth
    rw [← pairSum_mul_right]
    refine pairSum_congr _ _ _ _ _ _ fun k' hk l hl n1 n2 => ?_
    have h0 := hw i hi k' hk l hl 0 (by decide)
    have h1 := hw i hi k' hk l hl 1 (by decide)
    rw [← strengths_value c hsym hc p ts i b k' l hb hk hl, ← h0, ← h1]
    rfl
  · rw [if_neg hq, if_neg hq, zero_mul]

theorem selectedSum_all (c : IseCode K) (p : Int) (g : Int → K) (t : K) (b : Nat) :
    selectedSum c p g (fun _ => True) t b =
      linewidth c.bose (c.numTriplets p) c.o.numBand0 c.o.crystal.numBand c.o.numBand0
        (c.strengths p none) c.o.frequencies (c.triplets p) (c.weights p) g t c.o.crystal.cutoff b b :=
  Finset.sum_congr rfl fun _ _ => by rw [if_pos trivial]

/-- Whether the addresses of triplet `i` sum to zero. -/
def NormalTriplet (c : IseCode K) (p : Int) (i : Nat) : Prop :=
  SumsToZero (c.o.addresses (c.triplets p i 0)) (c.o.addresses (c.triplets p i 1))
    (c.o.addresses (c.triplets p i 2))

instance (c : IseCode K) (p : Int) : DecidablePred (NormalTriplet c p) := fun _ =>
  inferInstanceAs (Decidable (SumsToZero _ _ _))

theorem selectedSum_split (c : IseCode K) (p : Int) (g : Int → K) (q : Nat → Prop) [DecidablePred q]
    (t : K) (b : Nat) :
    selectedSum c p g q t b + selectedSum c p g (fun i => ¬q i) t b =
      selectedSum c p g (fun _ => True) t b := by
  unfold selectedSum
  rw [← Finset.sum_add_distrib]
  refine Finset.sum_congr rfl fun i _ => ?_
  by_cases h : q i
  · rw [if_pos h, if_neg (not_not.2 h), if_pos trivial, add_zero]
  · rw [if_neg h, if_pos h, if_pos trivial, zero_add]

/-- What the memory-saving route returns, in terms of the stored strengths and the weights of all
triplets. -/
theorem lowmem_value (c : IseCode K) (hsym : c.o.symmetrize = false) (hc : c.o.constant = none)
    (p : Int) (h0 : c.triplets p 0 0 = p) (ts : List K) (sigma cutoff : Option K)
    (m : LowmemMemory K) (k : Nat) (hk : k < ts.length)
    (hbose : ∀ f, c.o.crystal.cutoff < f → 0 ≤ c.bose f (ts.getD k 0)) :
    let row := fun (q : Nat → Prop) [DecidablePred q] =>
      averageByDegeneracy (c.degSets p) c.bands fun b => if b < c.o.numBand0 then
        selectedSum c p (lowmemWeights c p sigma cutoff).1 q (ts.getD k 0) b * c.unit else 0
    (∀ isNU, (c.lowmemGamma p ts isNU sigma cutoff m k).gamma = row fun _ => True) ∧
    (c.lowmemGamma p ts true sigma cutoff m k).parts =
      some (row (NormalTriplet c p), row fun i => ¬NormalTriplet c p i) := by
  intro row
  obtain ⟨w, hcol, hw⟩ := collisions_slices c p ts sigma cutoff m h0
  have htot : ∀ b < c.o.numBand0,
      c.collisions p ts false sigma cutoff m ((k * c.o.numBand0 + b : Nat) : Int) * c.o.unit =
        selectedSum c p (lowmemWeights c p sigma cutoff).1 (fun _ => True) (ts.getD k 0) b := by
    intro b hb
    rw [hcol false]
    have := C68_total_partial (c.setting ts) hsym w (c.triplets p) (c.numTriplets p) (c.weights p)
      m.ise (t := k) (b := b) hk hb hbose fun i hi => (hw i hi b hb).1
    rw [show ((k * c.o.numBand0 + b : Nat) : Int) = (at2 (c.setting ts).numBand0 k b : Nat) from rfl,
      this]
    exact collisionSum_stored c hsym hc p ts w _ b hb (fun i hi => (hw i hi b hb).2) _ k
  have hpar : ∀ b < c.o.numBand0,
      c.collisions p ts true sigma cutoff m ((k * c.o.numBand0 + b : Nat) : Int) * c.o.unit =
        selectedSum c p (lowmemWeights c p sigma cutoff).1 (NormalTriplet c p) (ts.getD k 0) b ∧
      c.collisions p ts true sigma cutoff m (((ts.length * c.o.numBand0 : Nat) : Int) +
          ((k * c.o.numBand0 + b : Nat) : Int)) * c.o.unit =
        selectedSum c p (lowmemWeights c p sigma cutoff).1 (fun i => ¬NormalTriplet c p i)
          (ts.getD k 0) b := by
    intro b hb
    rw [hcol true]
    have := C68_normal_umklapp_partial (c.setting ts) hsym w (c.triplets p) (c.numTriplets p)
      (c.weights p) m.ise (t := k) (b := b) hk hb hbose fun i hi => (hw i hi b hb).1
    rw [show ((k * c.o.numBand0 + b : Nat) : Int) =
        (at3 (c.setting ts).numTemps (c.setting ts).numBand0 0 k b : Nat) by
        unfold at3; simp [IseCode.setting],
      show ((ts.length * c.o.numBand0 : Nat) : Int) +
        ((at3 (c.setting ts).numTemps (c.setting ts).numBand0 0 k b : Nat) : Int) =
        (at3 (c.setting ts).numTemps (c.setting ts).numBand0 1 k b : Nat) by
        unfold at3; simp [IseCode.setting]; ring]
    simp only at this
    rw [this.1, this.2]
    exact ⟨collisionSum_stored c hsym hc p ts w _ b hb (fun i hi => (hw i hi b hb).2) _ k,
      collisionSum_stored c hsym hc p ts w _ b hb (fun i hi => (hw i hi b hb).2) _ k⟩
  refine ⟨fun isNU => ?_, ?_⟩
  · cases isNU with
    | false =>
      unfold IseCode.lowmemGamma IseCode.lowmemRow
      simp only [Bool.false_eq_true, if_false]
      refine congrArg (averageByDegeneracy (c.degSets p) c.bands) (funext fun b => ?_)
      by_cases hb : b < c.o.numBand0
      · rw [if_pos hb, if_pos hb, ← htot b hb]; ring
      · rw [if_neg hb, if_neg hb]
    | true =>
      unfold IseCode.lowmemGamma IseCode.lowmemRow
      simp only [if_true]
      refine congrArg (averageByDegeneracy (c.degSets p) c.bands) (funext fun b => ?_)
      by_cases hb : b < c.o.numBand0
      · rw [if_pos hb, if_pos hb, ← selectedSum_split c p _ (NormalTriplet c p), ← (hpar b hb).1,
          ← (hpar b hb).2]
        ring
      · rw [if_neg hb, if_neg hb]
  · unfold IseCode.lowmemGamma IseCode.lowmemRow
    simp only [if_true]
    refine congrArg some (Prod.ext ?_ ?_)
    · refine congrArg (averageByDegeneracy (c.degSets p) c.bands) (funext fun b => ?_)
      by_cases hb : b < c.o.numBand0
      · rw [if_pos hb, if_pos hb, ← (hpar b hb).1]; ring
      · rw [if_neg hb, if_neg hb]
    · refine congrArg (averageByDegeneracy (c.degSets p) c.bands) (funext fun b => ?_)
      by_cases hb : b < c.o.numBand0
      · rw [if_pos hb, if_pos hb, ← (hpar b hb).2]; ring
      · rw [if_neg hb, if_neg hb]

/-- C150: without symmetrisation of the force constants in reciprocal space, linewidths from the
memory-saving route are those from stored interaction strengths, for the tetrahedron method and every
smearing width but 0.0, whether or not normal and Umklapp parts are asked for, and whatever memory held
before. -/
theorem C150_total_partial (c : IseCode K) (hsym : c.o.symmetrize = false)
    (hc : c.o.constant = none) (p : Int) (h0 : c.triplets p 0 0 = p) (ts : List K) (isNU : Bool)
    (sigma cutoff : Option K) (hs : sigma ≠ some 0) (m : LowmemMemory K) (k : Nat)
    (hk : k < ts.length)
    (hbose : ∀ f, c.o.crystal.cutoff < f → 0 ≤ c.bose f (ts.getD k 0)) :
    (c.lowmemGamma p ts isNU sigma cutoff m k).gamma =
      selfEnergyAt c.env p none none sigma cutoff (ts.getD k 0) 0 := by
  rw [C146_full_sum c p none sigma cutoff _ hbose,
    (lowmem_value c hsym hc p h0 ts sigma cutoff m k hk hbose).1 isNU,
    lowmemWeights_eq c p sigma cutoff hs]
  refine congrArg (averageByDegeneracy (c.degSets p) c.bands) (funext fun b => ?_)
  rw [selectedSum_all]
  rfl

/-- C150: the same for the normal and Umklapp parts. -/
theorem C150_parts_partial (c : IseCode K) (hsym : c.o.symmetrize = false)
    (hc : c.o.constant = none) (p : Int) (h0 : c.triplets p 0 0 = p) (ts : List K)
    (sigma cutoff : Option K) (hs : sigma ≠ some 0) (m : LowmemMemory K) (k : Nat)
    (hk : k < ts.length)
    (hbose : ∀ f, c.o.crystal.cutoff < f → 0 ≤ c.bose f (ts.getD k 0)) (init : Int → K) :
    (c.lowmemGamma p ts true sigma cutoff m k).parts =
      some (c.partsAt p (c.strengths p none) (c.weightsAt p p none sigma cutoff).1.2
        (c.weightsAt p p none sigma cutoff).2 (ts.getD k 0) init) := by
  rw [(lowmem_value c hsym hc p h0 ts sigma cutoff m k hk hbose).2,
    lowmemWeights_eq c p sigma cutoff hs]
  have key := fun b (hb : b < c.o.numBand0) => C26_partition c.bose (c.numTriplets p) c.o.numBand0
    c.o.crystal.numBand (c.strengths p none) c.o.frequencies (c.triplets p) (c.weights p)
    c.o.addresses (c.weightsAt p p none sigma cutoff).1.2 (c.weightsAt p p none sigma cutoff).2
    (ts.getD k 0) c.o.crystal.cutoff init hbose b (fun i hi k hk l hl h =>
      Or.inl ⟨weightsAt_flag c p p none sigma cutoff i b k l hi hb hk hl h 0 (by decide),
        weightsAt_flag c p p none sigma cutoff i b k l hi hb hk hl h 1 (by decide)⟩)
  unfold IseCode.partsAt
  refine congrArg some (Prod.ext ?_ ?_)
  · refine congrArg (averageByDegeneracy (c.degSets p) c.bands) (funext fun b => ?_)
    by_cases hb : b < c.o.numBand0
    · rw [if_pos hb, if_pos hb, (key b hb).1]; rfl
    · rw [if_neg hb, if_neg hb]
  · refine congrArg (averageByDegeneracy (c.degSets p) c.bands) (funext fun b => ?_)
    by_cases hb : b < c.o.numBand0
    · rw [if_pos hb, if_pos hb, (key b hb).2]
      congr 1
      unfold selectedSum
      refine Finset.sum_congr rfl fun i _ => ?_
      by_cases h : NormalTriplet c p i
      · rw [if_neg (not_not.2 h)]; exact (if_pos h).symm
      · rw [if_pos h]; exact (if_neg h).symm
    · rw [if_neg hb, if_neg hb]

/-- C150: for a run that neither reads strengths nor averages nor uses a constant, both routes give the
same linewidths at all smearing widths and temperatures. -/
theorem C150_routes_partial (c : IseCode K) (hsym : c.o.symmetrize = false)
    (hc : c.o.constant = none) (p : Int) (h0 : c.triplets p 0 0 = p)
    (o : GammaOptions Int K (Int → K) (Int → Bool) (Nat → K)) [DecidableEq (Int → Bool)]
    (hread : o.readPP = false) (have_ : o.useAverages = false) (hconst : o.constant = false)
    (hs : ∀ sigma ∈ o.sigmas, sigma ≠ some 0)
    (hbose : ∀ t ∈ o.temperatures, ∀ f, c.o.crystal.cutoff < f → 0 ≤ c.bose f t)
    (s : IseObject Int K (Int → K) (Nat × (Int → K)) (Int → Bool) (Nat → Nat → K))
    (hp : s.points = none) (ave : Nat → K) (isNU : Bool) (m : LowmemMemory K) :
    ∃ s' ave' gamma, rtaGridPoint c.env o p s ave = some (s', ave', gamma) ∧
      gamma.map (fun row => row.map fun v => v 0) =
        (c.lowmemSigmas p o.temperatures isNU o.sigmas o.sigmaCutoff m).map fun row =>
          row.map fun r => r.gamma := by
  obtain ⟨s', e, _⟩ := C147_gamma c.env (C146_skipping c) o hread have_ hconst p s hp ave
  refine ⟨s', _, _, e, ?_⟩
  unfold IseCode.lowmemSigmas
  simp only [List.map_map]
  refine List.map_congr_left fun sigma hsig => ?_
  refine List.ext_getElem (by simp) fun k h1 h2 => ?_
  have hk : k < o.temperatures.length := by simpa using h1
  have hget : o.temperatures.getD k 0 = o.temperatures[k] := by simp [hk]
  simp only [Function.comp_apply, List.getElem_map, List.getElem_range]
  rw [C150_total_partial c hsym hc p h0 o.temperatures isNU sigma o.sigmaCutoff (hs sigma hsig) m k hk
    (by rw [hget]; exact hbose _ (List.getElem_mem hk)), hget]

/-- C150 fails for the width 0.0: with stored strengths it means the tetrahedron method and no Gaussian is
evaluated; the memory-saving route takes Gaussians of width 0 and neither tetrahedra nor the map of grid
points matter. -/
theorem C150_zero_width (c : IseCode K) (p : Int) (cutoff : Option K) (t : K) (ts : List K)
    (isNU : Bool) (m : LowmemMemory K) (k : Nat) (gaussian : K → K → K)
    (relative : Fin 24 → Fin 4 → V3) (bz : BZGridOut) :
    selfEnergyAt c.env p none none (some 0) cutoff t = selfEnergyAt c.env p none none none cutoff t ∧
    selfEnergyAt { c with gaussian := gaussian }.env p none none (some 0) cutoff t =
      selfEnergyAt c.env p none none (some 0) cutoff t ∧
    { c with relative := relative, bz := bz }.lowmemGamma p ts isNU (some 0) cutoff m k =
      c.lowmemGamma p ts isNU (some 0) cutoff m k := by
  refine ⟨?_, ?_, ?_⟩
  · have : c.env.weights p p none (some 0) cutoff = c.env.weights p p none none cutoff := by
      change c.weightsAt _ _ _ _ _ = c.weightsAt _ _ _ _ _
      unfold IseCode.weightsAt
      simp only [Option.getD_some, Option.getD_none, if_true]
    unfold selfEnergyAt selfEnergyWith
    rw [this]
  · have : { c with gaussian := gaussian }.env.weights p p none (some 0) cutoff =
        c.env.weights p p none (some 0) cutoff := by
      simp only [IseCode.env]
      unfold IseCode.weightsAt IseCode.points IseCode.numPoints
      simp only [Option.getD_some, if_true]
    unfold selfEnergyAt selfEnergyWith
    rw [this]
    have hd : { c with gaussian := gaussian }.env.degenerate = c.env.degenerate := by
      simp only [IseCode.env]
    have hr : { c with gaussian := gaussian }.env.result = c.env.result := by
      simp only [IseCode.env]
      funext p v g z f t x b
      unfold IseCode.resultAt
      simp only
    have hst : { c with gaussian := gaussian }.env.strengths = c.env.strengths := by
      simp only [IseCode.env]
      funext p z q
      unfold IseCode.strengths IseCode.block
      simp only
    have he : { c with gaussian := gaussian }.env.eventClass = c.env.eventClass := by
      simp only [IseCode.env]
    unfold iseEventClass
    simp only [hd, hr, hst, he]
  · unfold IseCode.lowmemGamma IseCode.collisions IseCode.lowmemRow
    have : { c with relative := relative, bz := bz }.setting ts = c.setting ts := by
      simp only [IseCode.setting]
    simp only [this]

end

/-! ### Examples -/

section Examples

/-- The chain with three bands at grid point 0, with the one triplet `(0, 1, 2)` of weight 2. -/
def chainCode : IseCode ℚ where
  o :=
    { sqrt := fun x => x
      expi := ratPhase
      crystal := chain
      positions := fun _ _ => 0
      rows := 2
      numBand0 := 3
      frequencies := fun p => (p % 3 + 1 : Int)
      eigenvectors := chainEig
      addresses := chainAddress
      D := ⟨3, 1, 1⟩
      Q := ⟨1, 0, 0, 0, 1, 0, 0, 0, 1⟩
      symmetrize := false
      unit := 5
      constant := none
      mem := fun _ => 0 }
  bose := fun _ _ => 1
  gaussian := fun x s => s * s - x * x
  eps := 0
  g0 := fun _ => 0
  relative := fun _ _ => ⟨0, 0, 0⟩
  bz := ⟨fun _ => ⟨0, 0, 0⟩, fun _ => 0, fun _ => 0, 3⟩
  dense := true
  triplets := fun _ _ => ![0, 1, 2]
  numTriplets := fun _ => 1
  weights := fun _ _ => 2
  degSets := fun _ => [[0], [1, 2]]
  bands := [0, 1, 2]
  unit := 7

/-- The chain meets the hypotheses of C150, its stored strengths are not all zero, and neither are the
weights of a smearing width. -/
example : chainCode.o.symmetrize = false ∧ chainCode.o.constant = none ∧
    chainCode.triplets 0 0 0 = 0 ∧ (some 1 : Option ℚ) ≠ some 0 ∧
    (∀ t ∈ [0, 300], ∀ f, chainCode.o.crystal.cutoff < f → 0 ≤ chainCode.bose f t) ∧
    chainCode.strengths 0 none (at4 3 3 3 0 0 1 2 : Nat) ≠ 0 ∧
    (lowmemWeights chainCode 0 (some 1) (some 1)).2 (at4 3 3 3 0 0 1 2 : Nat) = false ∧
    slabContent 2 0 (fun k => chainCode.gaussian
      (deltaArguments (chainCode.points 0 none 0) (chainCode.o.frequencies (1 * 3 + 1))
        (chainCode.o.frequencies (2 * 3 + 2)) k) 1) ≠ 0 := by
  refine ⟨rfl, rfl, rfl, by decide, fun _ _ _ _ => (zero_le_one : (0 : ℚ) ≤ 1), ?_, ?_, by decide +kernel⟩
  · have := strengths_value chainCode rfl rfl 0 [] 0 0 1 2 (by decide) (by decide) (by decide)
    refine fun h => ?_
    have h' := this.symm.trans h
    revert h'
    decide +kernel
  · have := (C24_flag chainCode.gaussian 1 1 (chainCode.points 0 none) 3 (chainCode.triplets 0) 1
      chainCode.o.frequencies 3 2 (fun _ => 0) (fun _ => false) (Or.inl rfl) 0 0 1 2 (by decide)
      (by decide) (by decide) (by decide)).1
    rw [← Bool.not_eq_true]
    intro h
    have h' := this.1 h
    revert h'
    decide +kernel

end Examples
end Phono3py.Props
