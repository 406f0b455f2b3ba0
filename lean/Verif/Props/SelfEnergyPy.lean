import Verif.Model.SelfEnergyPy
import Verif.Props.SelfEnergy
import Verif.Props.TripletLookup
import Verif.Props.CollisionElements
import Mathlib.Algebra.Order.Field.Rat

/-!
C131-C134: the Python and C implementations of the collision matrix, the imaginary part of the
self-energy, the smearing weights and the joint density of states.
-/

set_option linter.unusedSectionVars false

namespace Phono3py.Props
open Phono3py Phono3py.Spec

section
variable {K : Type _} [Field K] [LinearOrder K] [IsStrictOrderedRing K]

theorem foldl_accumulate {α : Type _} [AddCommMonoid α] (n : Nat) (F : Nat → α)
    (step : α → Nat → α) (h : ∀ s, ∀ i, step s i = s + F i) (s : α) :
    (List.range n).foldl step s = s + ∑ i ∈ Finset.range n, F i := by
  induction n with
  | zero => simp
  | succ n ih =>
    rw [List.range_succ, List.foldl_append, ih, Finset.sum_range_succ, List.foldl_cons,
      List.foldl_nil, h, add_assoc]

theorem foldl_accumulate3 {α : Type _} [AddCommMonoid α] (n m l : Nat) (F : Nat → Nat → Nat → α)
    (step : Nat → Nat → α → Nat → α) (h : ∀ i j s k, step i j s k = s + F i j k) (s : α) :
    (List.range n).foldl (fun s i => (List.range m).foldl (fun s j =>
      (List.range l).foldl (step i j) s) s) s =
      s + ∑ i ∈ Finset.range n, ∑ j ∈ Finset.range m, ∑ k ∈ Finset.range l, F i j k :=
  foldl_accumulate n _ _ (fun s i => foldl_accumulate m _ _
    (fun s j => foldl_accumulate l _ _ (fun s k => h i j s k) s) s) s

/-! ## C132 -/

theorem pyIse_eq (bose : K → K → K) (numTriplets numBand0 numBand : Nat)
    (strength frequencies : Int → K) (triplets : Nat → Fin 3 → Int) (weights : Nat → Int)
    (g : Int → K) (T cutoff unit : K) (b : Nat)
    (hzero : T ≤ 0 → ∀ i < numTriplets, ∀ k < numBand, ∀ l < numBand,
      ¬(cutoff < frequencies (triplets i 1 * numBand + k) ∧
        cutoff < frequencies (triplets i 2 * numBand + l)) →
      strength (at4 numBand0 numBand numBand i b k l : Nat) = 0) :
    pyIse bose numTriplets numBand0 numBand strength frequencies triplets weights g T cutoff unit b =
      linewidth bose numTriplets numBand0 numBand numBand0 strength frequencies triplets weights g T
        cutoff b b * unit := by
  unfold pyIse linewidth
  congr 1
  have e0 : ∀ i k l, (i * numBand0 + b) * numBand * numBand + k * numBand + l =
      at4 numBand0 numBand numBand i b k l := by
    intro i k l; unfold at4; ring
  have e1 : ∀ i k l, ((numTriplets + i) * numBand0 + b) * numBand * numBand + k * numBand + l =
      at5 numTriplets numBand0 numBand numBand 1 i b k l := by
    intro i k l; unfold at5; ring
  simp only [e1]
  simp only [e0, at5_zero]
  by_cases hT : T > 0
  · rw [if_pos hT, foldl_accumulate3 numTriplets numBand numBand (fun i k l =>
      weights i * if cutoff < frequencies (triplets i 1 * numBand + k) ∧
          cutoff < frequencies (triplets i 2 * numBand + l) then
        modePair T (bose (frequencies (triplets i 1 * numBand + k)) T)
          (bose (frequencies (triplets i 2 * numBand + l)) T)
          (g (at4 numBand0 numBand numBand i b k l : Nat))
          (g (at5 numTriplets numBand0 numBand numBand 1 i b k l : Nat))
          (strength (at4 numBand0 numBand numBand i b k l : Nat)) else 0), zero_add]
    · unfold pairSum
      simp only [Finset.mul_sum]
    · intro i k s l
      by_cases h : cutoff < frequencies (triplets i 1 * numBand + k) ∧
          cutoff < frequencies (triplets i 2 * numBand + l)
      · have h1 := h.1
        have h2 := h.2
        unfold modePair
        simp only [gt_iff_lt, h1, h2, and_self, if_true, if_pos hT]
        ring
      · simp only [gt_iff_lt, if_neg h, mul_zero, add_zero]
  · rw [if_neg hT, foldl_accumulate3 numTriplets numBand numBand (fun i k l =>
      weights i * (g (at4 numBand0 numBand numBand i b k l : Nat) *
        strength (at4 numBand0 numBand numBand i b k l : Nat))) _ (fun i k s l => by ring), zero_add]
    refine Finset.sum_congr rfl fun i hi => ?_
    unfold pairSum
    rw [Finset.mul_sum]
    refine Finset.sum_congr rfl fun k hk => ?_
    rw [Finset.mul_sum]
    refine Finset.sum_congr rfl fun l hl => ?_
    rw [Finset.mem_range] at hi hk hl
    split_ifs with h
    · unfold modePair
      rw [if_neg hT]
    · rw [hzero (not_lt.1 hT) i hi k hk l hl h, mul_zero]

theorem pyIseAt_eq (bose : K → K → K) (numTriplets numBand0 numBand numPoints : Nat)
    (strength frequencies : Int → K) (triplets : Nat → Fin 3 → Int) (weights : Nat → Int)
    (g : Int → K) (T cutoff unit : K) (x b : Nat)
    (hzero : T ≤ 0 → ∀ i < numTriplets, ∀ k < numBand, ∀ l < numBand,
      ¬(cutoff < frequencies (triplets i 1 * numBand + k) ∧
        cutoff < frequencies (triplets i 2 * numBand + l)) →
      strength (at4 numBand0 numBand numBand i b k l : Nat) = 0) :
    pyIseAt bose numTriplets numBand0 numBand numPoints strength frequencies triplets weights g T
        cutoff unit x b =
      linewidth bose numTriplets numBand0 numBand numPoints strength frequencies triplets weights g T
        cutoff b x * unit := by
  unfold pyIseAt linewidth
  congr 1
  have e : ∀ i k l, (i * numBand0 + b) * numBand * numBand + k * numBand + l =
      at4 numBand0 numBand numBand i b k l := by
    intro i k l; unfold at4; ring
  have e0 : ∀ i k l, (i * numPoints + x) * numBand * numBand + k * numBand + l =
      at4 numPoints numBand numBand i x k l := by
    intro i k l; unfold at4; ring
  have e1 : ∀ i k l, ((numTriplets + i) * numPoints + x) * numBand * numBand + k * numBand + l =
      at5 numTriplets numPoints numBand numBand 1 i x k l := by
    intro i k l; unfold at5; ring
  simp only [e1]
  simp only [e, e0, at5_zero]
  by_cases hT : T > 0
  · rw [if_pos hT, foldl_accumulate3 numTriplets numBand numBand (fun i k l =>
      weights i * if cutoff < frequencies (triplets i 1 * numBand + k) ∧
          cutoff < frequencies (triplets i 2 * numBand + l) then
        modePair T (bose (frequencies (triplets i 1 * numBand + k)) T)
          (bose (frequencies (triplets i 2 * numBand + l)) T)
          (g (at4 numPoints numBand numBand i x k l : Nat))
          (g (at5 numTriplets numPoints numBand numBand 1 i x k l : Nat))
          (strength (at4 numBand0 numBand numBand i b k l : Nat)) else 0), zero_add]
    · unfold pairSum
      simp only [Finset.mul_sum]
    · intro i k s l
      split_ifs with h
      · unfold modePair
        rw [if_pos hT]
        ring
      · rw [mul_zero, add_zero]
  · rw [if_neg hT, foldl_accumulate3 numTriplets numBand numBand (fun i k l =>
      weights i * (g (at4 numPoints numBand numBand i x k l : Nat) *
        strength (at4 numBand0 numBand numBand i b k l : Nat))) _ (fun i k s l => by ring), zero_add]
    refine Finset.sum_congr rfl fun i hi => ?_
    unfold pairSum
    rw [Finset.mul_sum]
    refine Finset.sum_congr rfl fun k hk => ?_
    rw [Finset.mul_sum]
    refine Finset.sum_congr rfl fun l hl => ?_
    rw [Finset.mem_range] at hi hk hl
    split_ifs with h
    · unfold modePair
      rw [if_neg hT]
    · rw [hzero (not_lt.1 hT) i hi k hk l hl h, mul_zero]

/-- C132: both languages give the same imaginary part of the self-energy at the frequencies of the
bands, if flagged entries have zero weights or strengths, and at zero temperature if the strengths of
modes at and below the cutoff frequency are zero. -/
theorem C132_bands_partial (bose : K → K → K) (numTriplets numBand0 numBand : Nat)
    (strength frequencies : Int → K) (triplets : Nat → Fin 3 → Int) (weights : Nat → Int)
    (g : Int → K) (gZero : Option (Int → Bool)) (T cutoff unit : K) {b : Nat} (hb : b < numBand0)
    (hbose : ∀ f, cutoff < f → 0 ≤ bose f T)
    (hflag : ∀ z, gZero = some z →
      FlagsSound numTriplets numBand0 numBand numBand0 strength g z b b)
    (hzero : T ≤ 0 → ∀ i < numTriplets, ∀ k < numBand, ∀ l < numBand,
      ¬(cutoff < frequencies (triplets i 1 * numBand + k) ∧
        cutoff < frequencies (triplets i 2 * numBand + l)) →
      strength (at4 numBand0 numBand numBand i b k l : Nat) = 0) :
    pyIse bose numTriplets numBand0 numBand strength frequencies triplets weights g T cutoff unit b =
      cIse bose numTriplets numBand0 numBand strength frequencies triplets weights g gZero T cutoff
        unit b := by
  rw [pyIse_eq _ _ _ _ _ _ _ _ _ _ _ _ _ hzero]
  unfold cIse
  rw [C25_full_sum _ _ _ _ _ _ _ _ _ _ _ _ _ hbose b hb]
  cases gZero with
  | none => exact fun i _ k _ l _ h => absurd h (by simp)
  | some z => exact hflag z rfl

/-- C132: the same at sampled frequencies. -/
theorem C132_points_partial (bose : K → K → K) (numTriplets numBand0 numBand numPoints : Nat)
    (strength frequencies : Int → K) (triplets : Nat → Fin 3 → Int) (weights : Nat → Int)
    (g : Int → K) (gZero : Int → Bool) (T cutoff unit : K) (x : Nat) {b : Nat} (hb : b < numBand0)
    (hbose : ∀ f, cutoff < f → 0 ≤ bose f T)
    (hflag : FlagsSound numTriplets numBand0 numBand numPoints strength g gZero b x)
    (hzero : T ≤ 0 → ∀ i < numTriplets, ∀ k < numBand, ∀ l < numBand,
      ¬(cutoff < frequencies (triplets i 1 * numBand + k) ∧
        cutoff < frequencies (triplets i 2 * numBand + l)) →
      strength (at4 numBand0 numBand numBand i b k l : Nat) = 0) :
    pyIseAt bose numTriplets numBand0 numBand numPoints strength frequencies triplets weights g T
        cutoff unit x b =
      cIseAt bose numTriplets numBand0 numBand numPoints strength frequencies triplets weights g
        gZero T cutoff unit x b := by
  rw [pyIseAt_eq _ _ _ _ _ _ _ _ _ _ _ _ _ _ _ hzero]
  unfold cIseAt
  rw [C25_full_sum_at_frequency _ _ _ _ _ _ _ _ _ _ _ _ _ hbose b hb x hflag]

/-- C132 fails at zero temperature when strengths are given as an average, which is the same for all
modes: the Python implementation counts modes at and below the cutoff frequency, C does not. -/
theorem C132_zero_temperature :
    pyIse (K := ℚ) (fun _ _ => 0) 1 1 1 (fun _ => 3) (fun _ => 0) (fun _ _ => 0) (fun _ => 1)
        (fun _ => 5) 0 0 1 0 = 15 ∧
      cIse (K := ℚ) (fun _ _ => 0) 1 1 1 (fun _ => 3) (fun _ => 0) (fun _ _ => 0) (fun _ => 1)
        (fun _ => 5) none 0 0 1 0 = 0 := by
  constructor <;> decide +kernel

/-- Hypotheses of C132 with a flagged entry whose weights are zero. -/
example : FlagsSound (K := ℚ) 1 1 2 1 (fun _ => 3) (fun p => if p % 4 = 0 then 0 else 5)
      (fun p => decide (p % 4 = 0)) 0 0 ∧
    pyIse (K := ℚ) (fun _ _ => 1) 1 1 2 (fun _ => 3) (fun _ => 1) (fun _ _ => 0) (fun _ => 2)
        (fun p => if p % 4 = 0 then 0 else 5) 300 0 7 0 ≠ 0 := by
  constructor
  · unfold FlagsSound
    decide +kernel
  · decide +kernel

/-! ## C133 -/

/-- C133: without a cutoff of the smearing function, the case of `sigma_cutoff=None`, both languages
give the same integration weights. With a cutoff they agree where the C implementation does not set
a flag. -/
theorem C133_weights_partial (gaussian : K → K → K) (sigma sigmaCutoff : K) (frequencyPoints : Nat → K)
    (numPoints : Nat) (triplets : Nat → Fin 3 → Int) (numTriplets : Nat) (frequencies : Int → K)
    (numBand slabs : Nat) (iw : Int → K) (zero : Int → Bool) (hs : slabs = 2 ∨ slabs = 3)
    (i x j k : Nat) (hi : i < numTriplets) (hx : x < numPoints) (hj : j < numBand) (hk : k < numBand) :
    let r := smearingWeights gaussian sigma sigmaCutoff frequencyPoints numPoints triplets numTriplets
      frequencies numBand slabs iw zero
    (0 ≤ sigma ∧ sigmaCutoff ≤ 0 ∨ r.2 (at4 numPoints numBand numBand i x j k : Nat) = false) →
    ∀ s < slabs, r.1 (at5 numTriplets numPoints numBand numBand s i x j k : Nat) =
      pySmearing gaussian sigma frequencyPoints triplets frequencies numBand slabs s i x j k := by
  intro r hr s hs'
  have ht : slabs = 2 ∨ slabs = 3 ∨ slabs = 4 := by omega
  have hflag : r.2 (at4 numPoints numBand numBand i x j k : Nat) = false := by
    rcases hr with h | h
    · exact C24_no_cutoff gaussian sigma sigmaCutoff frequencyPoints numPoints triplets numTriplets
        frequencies numBand slabs iw zero ht h.1 h.2 i x j k hi hx hj hk
    · exact h
  have hn : numSlabs slabs = slabs := by rcases hs with rfl | rfl <;> rfl
  refine ((C24_flag gaussian sigma sigmaCutoff frequencyPoints numPoints triplets numTriplets
    frequencies numBand slabs iw zero ht i x j k hi hx hj hk).2.2 hflag s (by omega)).trans ?_
  unfold pySmearing
  rcases hs with rfl | rfl
  · interval_cases s <;> rfl
  · interval_cases s
    · rfl
    · rfl
    · exact (add_comm _ _).trans (add_assoc _ _ _).symm

/-- C133 fails with a cutoff: the Python implementation ignores it. -/
theorem C133_cutoff_ignored (gaussian : K → K → K) (sigma sigmaCutoff : K) (frequencyPoints : Nat → K)
    (numPoints : Nat) (triplets : Nat → Fin 3 → Int) (numTriplets : Nat) (frequencies : Int → K)
    (numBand : Nat) (iw : Int → K) (zero : Int → Bool) (i x j k : Nat) (hi : i < numTriplets)
    (hx : x < numPoints) (hj : j < numBand) (hk : k < numBand) (hg : ∀ y, 0 < gaussian y sigma) :
    let r := smearingWeights gaussian sigma sigmaCutoff frequencyPoints numPoints triplets numTriplets
      frequencies numBand 2 iw zero
    r.2 (at4 numPoints numBand numBand i x j k : Nat) = true →
      r.1 (at5 numTriplets numPoints numBand numBand 0 i x j k : Nat) = 0 ∧
      0 < pySmearing gaussian sigma frequencyPoints triplets frequencies numBand 2 0 i x j k := by
  intro r h
  exact ⟨(C24_flag gaussian sigma sigmaCutoff frequencyPoints numPoints triplets numTriplets
    frequencies numBand 2 iw zero (Or.inl rfl) i x j k hi hx hj hk).2.1 h 0 (by decide), hg _⟩

/-- A flagged and an unflagged entry. -/
example :
    let r := smearingWeights (K := ℚ) (fun y _ => 1 / (1 + y * y)) 1 2 (fun x => (10 * x : Nat)) 2
      (fun _ _ => 0) 1 (fun _ => 1) 1 2 (fun _ => 0) (fun _ => false)
    r.2 (at4 2 1 1 0 1 0 0 : Nat) = true ∧ r.2 (at4 2 1 1 0 0 0 0 : Nat) = false := by
  decide +kernel

/-! ## C131 -/

theorem pyInverseSinh_eq (c : CollisionInput K) (sinh : K → K) (hcut : 0 ≤ c.cutoff)
    (hsinh : ∀ f, 0 < f → 0 < sinh f) (hinv : ∀ f, c.invSinh f c.temperature = 1 / sinh f) (gp : Int)
    (m : Nat) : pyInverseSinh sinh c gp m = inverseSinh c gp m := by
  unfold pyInverseSinh inverseSinh
  dsimp only
  split_ifs with h1 h2 h2
  · rw [hinv]
  · exact absurd (hsinh _ (lt_of_le_of_lt hcut h1)) h2
  · exact absurd h2 (by simp)
  · rfl

theorem pyCollision_eq (c : CollisionInput K) (sinh : K → K) (hcut : 0 ≤ c.cutoff)
    (hsinh : ∀ f, 0 < f → 0 < sinh f) (hinv : ∀ f, c.invSinh f c.temperature = 1 / sinh f)
    (map : Gp2tp) (gp2tp : Int → Int) (gp : Int)
    (h1 : map.gp2tp gp = gp2tp (c.tripletsMap gp))
    (h2 : (map.tp2s gp, map.swapped gp) =
      inverseSinhPoint (c.triplets (map.gp2tp gp)) c.tripletsMap c.mapQ gp) (j k : Nat) :
    pyCollision sinh c map gp j k = collisionSum c gp2tp gp j k := by
  unfold pyCollision collisionSum
  dsimp only
  rw [← h1, ← h2, sumLoop_eq, sumLoop_eq, Finset.sum_mul]
  refine Finset.sum_congr rfl fun m _ => ?_
  rw [pyInverseSinh_eq c sinh hcut hsinh hinv]
  dsimp only
  split_ifs
  · ring
  · ring

variable {KB K' : Type _} [Field KB] [LinearOrder KB] [IsStrictOrderedRing KB] [FloorRing KB]
  [Field K'] [LinearOrder K'] [IsStrictOrderedRing K'] [FloorRing K']

/-- C131: for the triplets that the code makes for a grid point, both languages compute the same
collision matrix over all grid points of the mesh; the assertions of the Python implementation hold.
`sinh` is the hyperbolic sine of half the frequency over the temperature. -/
theorem C131_reducible (b : BZInput KB) (hD : PosMesh b.D) (hl : ∃ i j, b.reclat i j ≠ 0)
    (dense : Bool) (init bz : BZGridOut) (h : bzGrid b dense init = some bz)
    (s : BZInput K') (hs : s.D = b.D) (rots : List M3) (hG : GridGroup rots b.D ⟨0, 0, 0⟩)
    (tr sw : Bool) (gp : Int) (g0 : 0 ≤ gp) (g1 : gp < bz.size)
    (gd : dense = false → gp < numGrid b.D)
    (T : Triplets) (hT : getTripletsAtQ s bz dense rots gp tr sw = some T)
    (c : CollisionInput K) (ha : HoldsTriplets T c.triplets c.tripletsMap c.mapQ)
    (hn : (c.numGp : Int) = b.D.x * b.D.y * b.D.z) (sinh : K → K) (hcut : 0 ≤ c.cutoff)
    (hsinh : ∀ f, 0 < f → 0 < sinh f) (hinv : ∀ f, c.invSinh f c.temperature = 1 / sinh f)
    (mem : Int → Int) (a : Int → K) :
    pyReducibleCollisionMatrix sinh c bz.bzg2grg a = some (reducibleCollisionMatrix mem c a) := by
  obtain ⟨st, e, hst⟩ := C38_python b hD hl dense init bz h s hs rots hG tr sw gp g0 g1 gd T hT
    c.triplets c.tripletsMap c.mapQ ha mem c.numGp hn
  unfold pyReducibleCollisionMatrix reducibleCollisionMatrix
  rw [e]
  show some _ = some _
  refine congrArg some (congrArg (runAdds a) ?_)
  refine loop_congr fun i hi => loop_congr fun j _ => loop_congr fun k _ => ?_
  rw [pyCollision_eq c sinh hcut hsinh hinv st _ i (hst i hi).1 (hst i hi).2]
  congr 3
  ring

/-- C131: and the same collision matrix over irreducible grid points, for every table of rotated
grid points of the mesh. -/
theorem C131_irreducible (b : BZInput KB) (hD : PosMesh b.D) (hl : ∃ i j, b.reclat i j ≠ 0)
    (dense : Bool) (init bz : BZGridOut) (h : bzGrid b dense init = some bz)
    (s : BZInput K') (hs : s.D = b.D) (rots : List M3) (hG : GridGroup rots b.D ⟨0, 0, 0⟩)
    (tr sw : Bool) (gp : Int) (g0 : 0 ≤ gp) (g1 : gp < bz.size)
    (gd : dense = false → gp < numGrid b.D)
    (T : Triplets) (hT : getTripletsAtQ s bz dense rots gp tr sw = some T)
    (c : CollisionInput K) (ha : HoldsTriplets T c.triplets c.tripletsMap c.mapQ)
    (hn : (c.numGp : Int) = b.D.x * b.D.y * b.D.z) (sinh : K → K) (hcut : 0 ≤ c.cutoff)
    (hsinh : ∀ f, 0 < f → 0 < sinh f) (hinv : ∀ f, c.invSinh f c.temperature = 1 / sinh f)
    (mem : Int → Int) (rotGp : Int → Int) (numIr numRot : Nat) (rotations a : Int → K)
    (hr : ∀ i < numIr, ∀ r < numRot, 0 ≤ rotGp (at2 numRot i r : Nat) ∧
      rotGp (at2 numRot i r : Nat) < c.numGp) :
    pyCollisionMatrix sinh c bz.bzg2grg rotGp numIr numRot rotations a =
      some (collisionMatrix mem c rotGp numIr numRot rotations a) := by
  obtain ⟨st, e, hst⟩ := C38_python b hD hl dense init bz h s hs rots hG tr sw gp g0 g1 gd T hT
    c.triplets c.tripletsMap c.mapQ ha mem c.numGp hn
  unfold pyCollisionMatrix collisionMatrix collisionAdds
  rw [e]
  show some _ = some _
  refine congrArg some (congrArg (runAdds a) ?_)
  refine loop_congr fun i hi => loop_congr fun r hr' => ?_
  obtain ⟨r0, r1⟩ := hr i hi r hr'
  unfold at2 at r0 r1
  set gp' := rotGp ((i * numRot + r : Nat) : Int) with hgp'
  have ht : ((gp'.toNat : Nat) : Int) = gp' := Int.toNat_of_nonneg r0
  obtain ⟨q1, q2⟩ := hst gp'.toNat (by omega)
  rw [ht] at q1 q2
  refine loop_congr fun j _ => loop_congr fun k _ => loop_congr fun x _ => loop_congr fun y _ => ?_
  rw [pyCollision_eq c sinh hcut hsinh hinv st _ gp' q1 q2]
  congr 3
  ring

end

/-- Arrays with the triplets and maps of `T`. -/
def tripletInput (T : Triplets) : CollisionInput ℚ where
  numBand0 := 3
  numBand := 3
  numGp := 6
  fc3NormalSquared := fun x => x
  frequencies := fun x => x - 2
  triplets := fun i => ![(T.triplets.getD i.toNat 0).1, (T.triplets.getD i.toNat 0).2.1,
    (T.triplets.getD i.toNat 0).2.2]
  tripletsMap := fun g => T.mapTriplets.getD g.toNat 0
  mapQ := fun g => T.mapQ.getD g.toNat 0
  g := fun x => 1 + x
  invSinh := fun f t => 1 / f
  temperature := 300
  unit := 1
  cutoff := 1 / 10

/-- C131: the hypotheses are met on a 3 x 2 x 1 mesh with a two-fold axis; the four triplets include
one whose members are exchanged. -/
example : ∃ bz T, bzGrid exampleCubic true exampleInit = some bz ∧
    getTripletsAtQ exampleCubic bz true exampleTwoFold 1 true true = some T ∧
    T.triplets.length = 4 ∧ ∀ (mem : Int → Int) (a : Int → ℚ),
      pyReducibleCollisionMatrix id (tripletInput T) bz.bzg2grg a =
        some (reducibleCollisionMatrix mem (tripletInput T) a) := by
  have hsome : ((bzGrid exampleCubic true exampleInit).bind fun bz =>
      (getTripletsAtQ exampleCubic bz true exampleTwoFold 1 true true).map fun T =>
          (bz.size, T.triplets.length)) = some (9, 4) := by
    decide +kernel
  cases hbz : bzGrid exampleCubic true exampleInit with
  | none => rw [hbz] at hsome; simp at hsome
  | some bz =>
    rw [hbz, Option.bind_some] at hsome
    cases hT : getTripletsAtQ exampleCubic bz true exampleTwoFold 1 true true with
    | none => rw [hT] at hsome; simp at hsome
    | some T =>
      rw [hT, Option.map_some, Option.some.injEq, Prod.mk.injEq] at hsome
      obtain ⟨hsize, hl4⟩ := hsome
      refine ⟨bz, T, rfl, hT, hl4, fun mem a => ?_⟩
      exact C131_reducible exampleCubic (by decide) ⟨0, 0, by decide +kernel⟩ true exampleInit bz hbz
        exampleCubic rfl exampleTwoFold
        { pos := by decide
          grp := ⟨by decide, by decide, by decide⟩
          mesh := by
            intro R hR v ⟨⟨a, ha⟩, ⟨b, hb⟩, ⟨c, hc⟩⟩
            simp only [exampleTwoFold, List.mem_cons, List.not_mem_nil, or_false] at hR
            rcases hR with rfl | rfl
            · exact ⟨⟨a, by simp [M3.one, M3.mulVec, ha]⟩, ⟨b, by simp [M3.one, M3.mulVec, hb]⟩,
                ⟨c, by simp [M3.one, M3.mulVec, hc]⟩⟩
            · exact ⟨⟨a, by simp [M3.mulVec, ha]⟩, ⟨-b, by simp [M3.mulVec, hb]⟩,
                ⟨-c, by simp [M3.mulVec, hc]⟩⟩
          shift := by decide }
        true true 1 (by decide) (by rw [hsize]; decide) (fun h => by simp at h) T hT (tripletInput T)
        ⟨fun i t h => by simp [tripletInput, h], fun g m h => by simp [tripletInput, h],
          fun g m h => by simp [tripletInput, h]⟩ rfl id
        (show (0 : ℚ) ≤ 1 / 10 by decide +kernel) (fun _ h => h)
        (fun _ => rfl) mem a

end Phono3py.Props
