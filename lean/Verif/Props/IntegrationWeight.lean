/-
C23, C24: integration weights of q-point triplets and their zero flags.
-/
import Verif.Lemmas.IntegrationWeight
import Mathlib.Data.Rat.Floor

set_option linter.unusedSectionVars false

namespace Phono3py.Props
open Phono3py Phono3py.Spec

section
variable {K : Type _} [Field K] [LinearOrder K] [IsStrictOrderedRing K]

/-! ## C23 -/

/-- C23: a frequency below or above all the vertex frequencies has density weight zero. -/
theorem C23_outside (eps w : K) (om : Fin 24 → Fin 4 → K)
    (h : (∀ i j, w < om i j) ∨ ∀ i j, om i j < w) : thmIntegrationWeight eps true w om = 0 :=
  weight_outside eps w om h

/-- C23: the range test used to skip a weight rejects exactly the frequencies outside the
range of the vertex frequencies. -/
theorem C23_range_test (f0 : K) (fv : Fin 24 → Fin 4 → K) :
    thmInTetrahedra f0 fv = false ↔ (∀ i j, f0 < fv i j) ∨ ∀ i j, fv i j < f0 := by
  rw [← Bool.not_eq_true, thmInTetrahedra_iff, not_and_or]
  push Not
  rfl

/-- Frequency of a vertex as used in the weights: negative (imaginary) phonon frequencies count
as zero for phonon-phonon weights (types 2, 3). -/
def vertexFrequency (tpType : Nat) (f : K) : K :=
  if tpType = 2 ∨ tpType = 3 then max f 0 else f

/-- The three combinations `-f1 + f2`, `f1 - f2`, `f1 + f2` at the vertices of the tetrahedra
around a triplet, for one pair of bands. -/
def combination (frequencies1 frequencies2 : Int → K) (vertices : Fin 2 → Fin 24 → Fin 4 → Int)
    (numBand1 numBand2 b1 b2 : Nat) (tpType : Nat) (k : Fin 3) (i : Fin 24) (j : Fin 4) : K :=
  let f1 := vertexFrequency tpType (frequencies1 (vertices 0 i j * numBand1 + b1))
  let f2 := vertexFrequency tpType (frequencies2 (vertices 1 i j * numBand2 + b2))
  ![-f1 + f2, f1 - f2, f1 + f2] k

theorem setFreqVertices_eq (frequencies1 frequencies2 : Int → K)
    (vertices : Fin 2 → Fin 24 → Fin 4 → Int) (numBand1 numBand2 b1 b2 : Nat) (tpType : Nat)
    (k : Fin 3) (hk : k.1 < tpMaxI tpType) :
    setFreqVertices frequencies1 frequencies2 vertices numBand1 numBand2 b1 b2 tpType k =
      combination frequencies1 frequencies2 vertices numBand1 numBand2 b1 b2 tpType k := by
  have hmax : ∀ f : K, (if f < 0 then 0 else f) = max f 0 := by
    intro f
    split_ifs with h
    · exact (max_eq_right h.le).symm
    · exact (max_eq_left (not_lt.1 h)).symm
  funext i j
  unfold setFreqVertices combination vertexFrequency
  by_cases h : tpType = 2 ∨ tpType = 3
  · simp only [h, if_true, hmax]
  · simp only [h, if_false]
    have hk0 : k = 0 := by
      unfold tpMaxI at hk
      rw [if_neg h] at hk
      apply Fin.ext
      split_ifs at hk <;> simp_all
    subst hk0
    rfl

/-- What slab `s` of the weights holds, from the three delta-function weights: types 2 and 3
hold `δ(f0-f1-f2)`, then `δ(f0+f1-f2) - δ(f0-f1+f2)`, then (type 3) the sum of all three;
type 4 holds `δ(f0+f1-f2)` only. -/
def slabContent (tpType s : Nat) (delta : Fin 3 → K) : K :=
  match tpType, s with
  | 4, _ => delta 0
  | _, 0 => delta 2
  | _, 1 => delta 0 - delta 1
  | _, _ => delta 0 + delta 1 + delta 2

/-- Number of slabs of the weights. -/
def numSlabs : Nat → Nat
  | 2 => 2
  | 3 => 3
  | 4 => 1
  | _ => 0

theorem slabs_eq (tp : Nat) : slabs tp = numSlabs tp := by
  unfold slabs numSlabs
  split_ifs with h2 h3 h4
  · subst h2; rfl
  · subst h3; rfl
  · subst h4; rfl
  · split <;> simp_all

theorem slab_eq (tp s : Nat) (g : Fin 3 → K) : slab tp s g = slabContent tp s g := by
  unfold slab slabContent
  split_ifs with h4 h0 h1
  · subst h4; rfl
  · subst h0; split <;> simp_all
  · subst h1; split <;> simp_all
  · split <;> simp_all

theorem slabContent_congr {tp s : Nat} (hs : s < numSlabs tp) {g h : Fin 3 → K}
    (e : ∀ k : Fin 3, k.1 < tpMaxI tp → g k = h k) : slabContent tp s g = slabContent tp s h := by
  unfold numSlabs at hs
  split at hs
  · have := e 0 (by decide); have := e 1 (by decide); have := e 2 (by decide)
    obtain rfl | rfl : s = 0 ∨ s = 1 := by omega
    · simp only [slabContent, *]
    · simp only [slabContent, *]
  · have := e 0 (by decide); have := e 1 (by decide); have := e 2 (by decide)
    obtain rfl | rfl | rfl : s = 0 ∨ s = 1 ∨ s = 2 := by omega
    · simp only [slabContent, *]
    · simp only [slabContent, *]
    · simp only [slabContent, *]
  · have := e 0 (by decide)
    simp only [slabContent, *]
  · omega

/-- The arrays left by `tpl_get_integration_weight`. -/
def tetrahedronWeights (eps : K) (g0 : Fin 3 → K) (frequencyPoints : Nat → K) (numBand0 : Nat)
    (relative : Fin 24 → Fin 4 → V3) (triplets : Nat → Fin 3 → Int) (numTriplets : Nat)
    (bz : BZGridOut) (D : V3) (dense : Bool) (frequencies1 : Int → K) (numBand1 : Nat)
    (frequencies2 : Int → K) (numBand2 : Nat) (tpType : Nat) (iw : Int → K) (zero : Int → Bool) :
    (Int → K) × (Int → Bool) :=
  let st := tplStores eps g0 frequencyPoints numBand0 relative triplets numTriplets bz D dense
    frequencies1 numBand1 frequencies2 numBand2 tpType
  (runWrites iw st.1, runWrites zero st.2)

theorem tetrahedronWeights_eq (eps : K) (g0 : Fin 3 → K) (frequencyPoints : Nat → K)
    (numBand0 : Nat) (relative : Fin 24 → Fin 4 → V3) (triplets : Nat → Fin 3 → Int)
    (numTriplets : Nat) (bz : BZGridOut) (D : V3) (dense : Bool) (frequencies1 : Int → K)
    (numBand1 : Nat) (frequencies2 : Int → K) (numBand2 : Nat) (tpType : Nat) (iw : Int → K)
    (zero : Int → Bool) :
    tetrahedronWeights eps g0 frequencyPoints numBand0 relative triplets numTriplets bz D dense
      frequencies1 numBand1 frequencies2 numBand2 tpType iw zero =
    (runWrites iw (nest numTriplets numBand0 numBand1 numBand2 tpType fun i j b =>
        (bandWeight eps g0 frequencyPoints (tripletVertices bz D dense
          (setRelativeGridAddress relative tpType) (triplets i)) frequencies1 numBand1
          frequencies2 numBand2 tpType j b).1),
      runWrites zero (zeroNest numTriplets numBand0 numBand1 numBand2 fun i j b =>
        (bandWeight eps g0 frequencyPoints (tripletVertices bz D dense
          (setRelativeGridAddress relative tpType) (triplets i)) frequencies1 numBand1
          frequencies2 numBand2 tpType j b).2)) := rfl

/-- C23: entry `[s, i, j, b1, b2]` of the weight array is slab `s` of the tetrahedron weights of
the three delta functions at frequency point `j`, whether or not the weight was skipped, and
whatever the arrays and the scratch array held before. Entry `[i, j, b1, b2]` of the flag array
is set exactly when the frequency point is outside the range of all the delta functions that
are used; the weights are then zero. -/
theorem C23_weights (eps : K) (g0 : Fin 3 → K) (frequencyPoints : Nat → K) (numBand0 : Nat)
    (relative : Fin 24 → Fin 4 → V3) (triplets : Nat → Fin 3 → Int) (numTriplets : Nat)
    (bz : BZGridOut) (D : V3) (dense : Bool) (frequencies1 : Int → K) (numBand1 : Nat)
    (frequencies2 : Int → K) (numBand2 : Nat) (tpType : Nat) (iw : Int → K) (zero : Int → Bool)
    (ht : tpType = 2 ∨ tpType = 3 ∨ tpType = 4)
    (i j b1 b2 : Nat) (hi : i < numTriplets) (hj : j < numBand0) (h1 : b1 < numBand1)
    (h2 : b2 < numBand2) :
    let r := tetrahedronWeights eps g0 frequencyPoints numBand0 relative triplets numTriplets bz D
      dense frequencies1 numBand1 frequencies2 numBand2 tpType iw zero
    let vertices := tripletVertices bz D dense (setRelativeGridAddress relative tpType) (triplets i)
    let fv := combination frequencies1 frequencies2 vertices numBand1 numBand2 b1 b2 tpType
    let f0 := frequencyPoints j
    (∀ s < numSlabs tpType, r.1 (at5 numTriplets numBand0 numBand1 numBand2 s i j b1 b2 : Nat) =
      slabContent tpType s fun k => thmIntegrationWeight eps true f0 (fv k)) ∧
    (r.2 (at4 numBand0 numBand1 numBand2 i j b1 b2 : Nat) = true ↔
      ∀ k : Fin 3, (tpType = 4 → k = 0) → (∀ t l, f0 < fv k t l) ∨ ∀ t l, fv k t l < f0) ∧
    (r.2 (at4 numBand0 numBand1 numBand2 i j b1 b2 : Nat) = true →
      ∀ s < numSlabs tpType,
        r.1 (at5 numTriplets numBand0 numBand1 numBand2 s i j b1 b2 : Nat) = 0) := by
  intro r vertices fv f0
  have hr := tetrahedronWeights_eq eps g0 frequencyPoints numBand0 relative triplets numTriplets
    bz D dense frequencies1 numBand1 frequencies2 numBand2 tpType iw zero
  change r = _ at hr
  have hmax : ∀ k : Fin 3, k.1 < tpMaxI tpType ↔ (tpType = 4 → k = 0) := by
    intro k
    rcases ht with rfl | rfl | rfl
    · exact ⟨fun _ h => absurd h (by decide), fun _ => k.2⟩
    · exact ⟨fun _ h => absurd h (by decide), fun _ => k.2⟩
    · exact ⟨fun h _ => Fin.ext (Nat.lt_one_iff.1 h), fun h => by rw [h rfl]; decide⟩
  have val : ∀ s < numSlabs tpType,
      r.1 (at5 numTriplets numBand0 numBand1 numBand2 s i j b1 b2 : Nat) =
      slabContent tpType s fun k => thmIntegrationWeight eps true f0 (fv k) := by
    intro s hs
    rw [hr]
    simp only
    rw [nest_value iw (by rw [slabs_eq]; exact hs) hi hj h1 h2, slab_eq]
    apply slabContent_congr hs
    intro k hk
    unfold bandWeight
    rw [(band_digits h2).1, (band_digits h2).2, setG_value _ _ _ _ _ _ hk,
      setFreqVertices_eq _ _ _ _ _ _ _ _ _ hk]
  have flag : r.2 (at4 numBand0 numBand1 numBand2 i j b1 b2 : Nat) = true ↔
      ∀ k : Fin 3, (tpType = 4 → k = 0) → (∀ t l, f0 < fv k t l) ∨ ∀ t l, fv k t l < f0 := by
    rw [hr]
    simp only
    rw [zeroNest_value zero hi hj h1 h2]
    unfold bandWeight
    rw [(band_digits h2).1, (band_digits h2).2, setG_flag]
    constructor
    · intro h k hk
      have := h k ((hmax k).2 hk)
      rw [setFreqVertices_eq _ _ _ _ _ _ _ _ _ ((hmax k).2 hk)] at this
      exact (C23_range_test _ _).1 this
    · intro h k hk
      rw [setFreqVertices_eq _ _ _ _ _ _ _ _ _ hk]
      exact (C23_range_test _ _).2 (h k ((hmax k).1 hk))
  refine ⟨val, flag, fun h s hs => ?_⟩
  rw [val s hs]
  have z : ∀ k : Fin 3, k.1 < tpMaxI tpType → thmIntegrationWeight eps true f0 (fv k) = 0 :=
    fun k hk => C23_outside _ _ _ (flag.1 h k ((hmax k).1 hk))
  rw [slabContent_congr hs (h := fun _ => 0) z]
  unfold slabContent
  split <;> simp

/-- C23: the stores of different band pairs and triplets never conflict, so every order of the
parallel iterations leaves the same arrays. -/
theorem C23_any_schedule (eps : K) (g0 : Fin 3 → K) (frequencyPoints : Nat → K) (numBand0 : Nat)
    (relative : Fin 24 → Fin 4 → V3) (triplets : Nat → Fin 3 → Int) (numTriplets : Nat)
    (bz : BZGridOut) (D : V3) (dense : Bool) (frequencies1 : Int → K) (numBand1 : Nat)
    (frequencies2 : Int → K) (numBand2 : Nat) (tpType : Nat) (iw : Int → K) (zero : Int → Bool)
    (ws : List (Int × K)) (zs : List (Int × Bool))
    (hw : ws.Perm (tplStores eps g0 frequencyPoints numBand0 relative triplets numTriplets bz D
      dense frequencies1 numBand1 frequencies2 numBand2 tpType).1)
    (hz : zs.Perm (tplStores eps g0 frequencyPoints numBand0 relative triplets numTriplets bz D
      dense frequencies1 numBand1 frequencies2 numBand2 tpType).2) :
    (runWrites iw ws, runWrites zero zs) =
      tetrahedronWeights eps g0 frequencyPoints numBand0 relative triplets numTriplets bz D dense
        frequencies1 numBand1 frequencies2 numBand2 tpType iw zero := by
  rw [tetrahedronWeights_eq]
  exact congrArg₂ Prod.mk (runWrites_perm iw hw.symm (nest_agree _ _ _ _ _ _)).symm
    (runWrites_perm zero hz.symm (zeroNest_agree _ _ _ _ _)).symm

/-- A frequency inside and one outside the range. -/
example : thmInTetrahedra (K := ℚ) (1 / 2) (fun _ j => (j.1 : ℚ)) = true ∧
    thmInTetrahedra (K := ℚ) 4 (fun _ j => (j.1 : ℚ)) = false ∧
    thmIntegrationWeight (K := ℚ) (1 / 10 ^ 10) true (1 / 2) (fun _ j => (j.1 : ℚ)) > 0 := by
  decide +kernel

/-! ## C24 -/

/-- The arrays left by `tpl_get_integration_weight_with_sigma`. -/
def smearingWeights (gaussian : K → K → K) (sigma sigmaCutoff : K) (frequencyPoints : Nat → K)
    (numBand0 : Nat) (triplets : Nat → Fin 3 → Int) (numTriplets : Nat) (frequencies : Int → K)
    (numBand : Nat) (tpType : Nat) (iw : Int → K) (zero : Int → Bool) :
    (Int → K) × (Int → Bool) :=
  let st := sigmaStores gaussian sigma sigmaCutoff frequencyPoints numBand0 triplets numTriplets
    frequencies numBand tpType
  (runWrites iw st.1, runWrites zero st.2)

/-- The arguments of the three delta functions. -/
def deltaArguments (f0 f1 f2 : K) : Fin 3 → K := ![f0 + f1 - f2, f0 - f1 + f2, f0 - f1 - f2]

/-- C24: with smearing width `sigma` and cutoff factor, entry `[i, j, b1, b2]` is flagged
exactly when the cutoff is positive and exceeded by every delta-function argument that is used;
its weights are then zero, and otherwise they are the smearing function of the arguments. -/
theorem C24_flag (gaussian : K → K → K) (sigma sigmaCutoff : K) (frequencyPoints : Nat → K)
    (numBand0 : Nat) (triplets : Nat → Fin 3 → Int) (numTriplets : Nat) (frequencies : Int → K)
    (numBand : Nat) (tpType : Nat) (iw : Int → K) (zero : Int → Bool)
    (ht : tpType = 2 ∨ tpType = 3 ∨ tpType = 4)
    (i j b1 b2 : Nat) (hi : i < numTriplets) (hj : j < numBand0) (h1 : b1 < numBand)
    (h2 : b2 < numBand) :
    let r := smearingWeights gaussian sigma sigmaCutoff frequencyPoints numBand0 triplets
      numTriplets frequencies numBand tpType iw zero
    let args := deltaArguments (frequencyPoints j) (frequencies (triplets i 1 * numBand + b1))
      (frequencies (triplets i 2 * numBand + b2))
    let flag := r.2 (at4 numBand0 numBand numBand i j b1 b2 : Nat)
    let weight := fun s : Nat => r.1 (at5 numTriplets numBand0 numBand numBand s i j b1 b2 : Nat)
    (flag = true ↔ 0 < sigma * sigmaCutoff ∧
      ∀ k : Fin 3, (tpType = 4 → k = 0) → sigma * sigmaCutoff < |args k|) ∧
    (flag = true → ∀ s < numSlabs tpType, weight s = 0) ∧
    (flag = false → ∀ s < numSlabs tpType,
      weight s = slabContent tpType s fun k => gaussian (args k) sigma) := by
  intro r args flag weight
  set cutoff := sigma * sigmaCutoff with hc
  set f0 := frequencyPoints j with hf0
  set f1 := frequencies (triplets i 1 * numBand + b1) with hf1
  set f2 := frequencies (triplets i 2 * numBand + b2) with hf2
  have hr : r = (runWrites iw (nest numTriplets numBand0 numBand numBand tpType fun i j b12 =>
        (sigmaWeight gaussian sigma cutoff (frequencyPoints j)
          (frequencies (triplets i 1 * numBand + (b12 / numBand : Nat)))
          (frequencies (triplets i 2 * numBand + (b12 % numBand : Nat))) tpType).1),
      runWrites zero (zeroNest numTriplets numBand0 numBand numBand fun i j b12 =>
        (sigmaWeight gaussian sigma cutoff (frequencyPoints j)
          (frequencies (triplets i 1 * numBand + (b12 / numBand : Nat)))
          (frequencies (triplets i 2 * numBand + (b12 % numBand : Nat))) tpType).2)) := rfl
  have hflag : flag = (sigmaWeight gaussian sigma cutoff f0 f1 f2 tpType).2 := by
    change r.2 _ = _
    rw [hr]
    simp only
    rw [zeroNest_value zero hi hj h1 h2, (band_digits h2).1, (band_digits h2).2]
  have hweight : ∀ s < numSlabs tpType,
      weight s = slabContent tpType s (sigmaWeight gaussian sigma cutoff f0 f1 f2 tpType).1 := by
    intro s hs
    change r.1 _ = _
    rw [hr]
    simp only
    rw [nest_value iw (by rw [slabs_eq]; exact hs) hi hj h1 h2, slab_eq, (band_digits h2).1,
      (band_digits h2).2]
  have hargs : args = ![f0 + f1 - f2, f0 - f1 + f2, f0 - f1 - f2] := rfl
  have zero' : ∀ s, slabContent tpType s (fun _ => (0 : K)) = 0 := by
    intro s; unfold slabContent; split <;> simp
  have all3 : (∀ k : Fin 3, cutoff < |args k|) ↔ |f0 + f1 - f2| > cutoff ∧
      |f0 - f1 + f2| > cutoff ∧ |f0 - f1 - f2| > cutoff := by
    rw [hargs]
    constructor
    · intro h; exact ⟨h 0, h 1, h 2⟩
    · rintro ⟨a, b, c⟩ k; fin_cases k
      · exact a
      · exact b
      · exact c
  by_cases h23 : tpType = 2 ∨ tpType = 3
  · have h4 : tpType ≠ 4 := by omega
    have e : sigmaWeight gaussian sigma cutoff f0 f1 f2 tpType =
        if cutoff > 0 ∧ |f0 + f1 - f2| > cutoff ∧ |f0 - f1 + f2| > cutoff ∧ |f0 - f1 - f2| > cutoff
        then (fun _ => 0, true)
        else (![gaussian (f0 + f1 - f2) sigma, gaussian (f0 - f1 + f2) sigma,
          gaussian (f0 - f1 - f2) sigma], false) := by
      unfold sigmaWeight; rw [if_pos h23]
    by_cases hx : cutoff > 0 ∧ |f0 + f1 - f2| > cutoff ∧ |f0 - f1 + f2| > cutoff ∧
        |f0 - f1 - f2| > cutoff
    · rw [if_pos hx] at e
      rw [e] at hflag hweight
      refine ⟨⟨fun _ => ⟨hx.1, fun k _ => all3.2 hx.2 k⟩, fun _ => hflag⟩, fun _ s hs => ?_, ?_⟩
      · rw [hweight s hs]; exact zero' s
      · rw [hflag]; intro h; cases h
    · rw [if_neg hx] at e
      rw [e] at hflag hweight
      refine ⟨⟨fun h => ?_, fun h => ?_⟩, ?_, fun _ s hs => ?_⟩
      · rw [hflag] at h; cases h
      · exact absurd ⟨h.1, all3.1 fun k => h.2 k (fun q => absurd q h4)⟩ hx
      · rw [hflag]; intro h; cases h
      · rw [hweight s hs]
        congr 1
        funext k
        fin_cases k <;> rfl
  · have h4 : tpType = 4 := by omega
    have e : sigmaWeight gaussian sigma cutoff f0 f1 f2 tpType =
        if cutoff > 0 ∧ |f0 + f1 - f2| > cutoff then (fun _ => 0, true)
        else (fun _ => gaussian (f0 + f1 - f2) sigma, false) := by
      unfold sigmaWeight; rw [if_neg h23, if_pos h4]
    by_cases hx : cutoff > 0 ∧ |f0 + f1 - f2| > cutoff
    · rw [if_pos hx] at e
      rw [e] at hflag hweight
      refine ⟨⟨fun _ => ⟨hx.1, fun k hk => ?_⟩, fun _ => hflag⟩, fun _ s hs => ?_, ?_⟩
      · rw [hk h4]; exact hx.2
      · rw [hweight s hs]; exact zero' s
      · rw [hflag]; intro h; cases h
    · rw [if_neg hx] at e
      rw [e] at hflag hweight
      refine ⟨⟨fun h => ?_, fun h => ?_⟩, ?_, fun _ s hs => ?_⟩
      · rw [hflag] at h; cases h
      · exact absurd ⟨h.1, h.2 0 (fun _ => rfl)⟩ hx
      · rw [hflag]; intro h; cases h
      · rw [hweight s hs]
        subst h4
        rfl

/-- C24: without a cutoff nothing is flagged. -/
theorem C24_no_cutoff (gaussian : K → K → K) (sigma sigmaCutoff : K) (frequencyPoints : Nat → K)
    (numBand0 : Nat) (triplets : Nat → Fin 3 → Int) (numTriplets : Nat) (frequencies : Int → K)
    (numBand : Nat) (tpType : Nat) (iw : Int → K) (zero : Int → Bool)
    (ht : tpType = 2 ∨ tpType = 3 ∨ tpType = 4) (hs : 0 ≤ sigma) (hc : sigmaCutoff ≤ 0)
    (i j b1 b2 : Nat) (hi : i < numTriplets) (hj : j < numBand0) (h1 : b1 < numBand)
    (h2 : b2 < numBand) :
    (smearingWeights gaussian sigma sigmaCutoff frequencyPoints numBand0 triplets numTriplets
      frequencies numBand tpType iw zero).2 (at4 numBand0 numBand numBand i j b1 b2 : Nat)
      = false := by
  have := (C24_flag gaussian sigma sigmaCutoff frequencyPoints numBand0 triplets numTriplets
    frequencies numBand tpType iw zero ht i j b1 b2 hi hj h1 h2).1
  rw [← Bool.not_eq_true, this]
  rintro ⟨h, -⟩
  exact absurd h (not_lt.2 (mul_nonpos_of_nonneg_of_nonpos hs hc))

/-- C24: every order of the parallel iterations leaves the same arrays. -/
theorem C24_any_schedule (gaussian : K → K → K) (sigma sigmaCutoff : K)
    (frequencyPoints : Nat → K) (numBand0 : Nat) (triplets : Nat → Fin 3 → Int)
    (numTriplets : Nat) (frequencies : Int → K) (numBand : Nat) (tpType : Nat) (iw : Int → K)
    (zero : Int → Bool) (ws : List (Int × K)) (zs : List (Int × Bool))
    (hw : ws.Perm (sigmaStores gaussian sigma sigmaCutoff frequencyPoints numBand0 triplets
      numTriplets frequencies numBand tpType).1)
    (hz : zs.Perm (sigmaStores gaussian sigma sigmaCutoff frequencyPoints numBand0 triplets
      numTriplets frequencies numBand tpType).2) :
    (runWrites iw ws, runWrites zero zs) =
      smearingWeights gaussian sigma sigmaCutoff frequencyPoints numBand0 triplets numTriplets
        frequencies numBand tpType iw zero :=
  congrArg₂ Prod.mk (runWrites_perm iw hw.symm (nest_agree _ _ _ _ _ _)).symm
    (runWrites_perm zero hz.symm (zeroNest_agree _ _ _ _ _)).symm

example : (sigmaWeight (K := ℚ) (fun x _ => x) 1 2 10 1 2 2).2 = true ∧
    (sigmaWeight (K := ℚ) (fun x _ => x) 1 2 3 1 2 2).2 = false := by decide +kernel

end
end Phono3py.Props
