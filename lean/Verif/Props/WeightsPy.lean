/-
C175: integration weights in Python and in C, and the grid points on tetrahedron vertices.
-/
import Verif.Model.WeightsPy
import Verif.Spec.WeightsPy
import Verif.Props.RotatePoints
import Verif.Props.Neighbor
import Verif.Props.Grid
import Verif.Props.IntegrationWeight
import Verif.Props.DispYaml
import Verif.Props.Kaccum

set_option linter.unusedSectionVars false

namespace Phono3py.Props
open Phono3py Phono3py.Spec

section
variable {K : Type} [Field K] [LinearOrder K] [IsStrictOrderedRing K] [FloorRing K]

theorem pyVertex_facts (b : BZInput K) (hD : PosMesh b.D) (hl : ∃ i j, b.reclat i j ≠ 0) (dense : Bool)
    (init bz : BZGridOut) (h : bzGrid b dense init = some bz) (a : V3) :
    let r := grg2bzgTable dense bz (gridIndexPy a b.D)
    (0 ≤ r ∧ r < bz.size) ∧ SamePoint b.D (bz.addresses r) a := by
  intro r
  have V := bzGrid_valid b hD hl dense init bz h
  have hb := gridIndex_bounds a b.D hD
  have e : r = grg2bzgTable dense bz (gridIndex a b.D) := by
    show grg2bzgTable dense bz (gridIndexPy a b.D) = _
    rw [C02_python_agrees b.D a hD]
  rw [e]
  have hf := V.filed _ hb.1 hb.2 _ (representative_mem V _ hb.1 hb.2)
  exact ⟨hf.1, (gridIndex_eq_iff _ _ _ hD).1 hf.2.2⟩

theorem relative_sign (rel : Fin 24 → Fin 4 → V3) (tp : Nat) (ht : tp = 2 ∨ tp = 3) (i : Fin 2) (j : Fin 24)
    (k : Fin 4) : setRelativeGridAddress rel tp i j k = if i = 0 then rel j k else -(rel j k) := by
  unfold setRelativeGridAddress
  rw [if_pos ht]
  split
  · ext <;> simp
  · ext <;> simp

/-- Frequencies at the vertices the two layers use are equal. -/
theorem vertex_frequency (b : BZInput K) (hD : PosMesh b.D) (hl : ∃ i j, b.reclat i j ≠ 0) (dense : Bool)
    (init bz : BZGridOut) (h : bzGrid b dense init = some bz) (rel : Fin 24 → Fin 4 → V3) (triplet : Fin 3 → Int)
    (tp : Nat) (ht : tp = 2 ∨ tp = 3) (numBand : Nat) (frequencies : Int → K)
    (hper : PeriodicFrequencies b.D bz numBand frequencies) (hreal : RealFrequencies bz numBand frequencies)
    (i : Fin 2) (j : Fin 24) (k : Fin 4) (n : Nat) (hn : n < numBand) :
    vertexFrequency tp (frequencies (tripletVertices bz b.D dense (setRelativeGridAddress rel tp) triplet i j k
        * numBand + n)) =
      frequencies (pyTetrahedraVertices bz b.D dense rel triplet i j k * numBand + n) := by
  have h1 := C60_neighbor b hD hl dense init bz h (triplet i.succ) (setRelativeGridAddress rel tp i j k)
  rw [relative_sign rel tp ht] at h1
  have h2 := pyVertex_facts b hD hl dense init bz h
    (bz.addresses (triplet i.succ) + if i = 0 then rel j k else -(rel j k))
  have e := hper _ _ h1.1 h2.1 (h1.2.trans h2.2.symm) n hn
  have hp := hreal _ h2.1 n hn
  have ev : tripletVertices bz b.D dense (setRelativeGridAddress rel tp) triplet i j k =
      neighborGridPoint bz b.D dense (triplet i.succ) (if i = 0 then rel j k else -(rel j k)) := by
    unfold tripletVertices
    rw [relative_sign rel tp ht]
  rw [ev, e]
  unfold vertexFrequency
  rw [if_pos ht]
  exact max_eq_left hp

theorem slab_python (tp : Nat) (ht : tp = 2 ∨ tp = 3) (s : Nat) (hs : s < numSlabs tp) (d : Fin 3 → K) :
    slabContent tp s d = pySlab tp (d 2) (d 0) (d 1) s := by
  rcases ht with rfl | rfl
  · have : s = 0 ∨ s = 1 := by simp only [numSlabs] at hs; omega
    rcases this with rfl | rfl <;> simp [slabContent, pySlab]
  · have : s = 0 ∨ s = 1 ∨ s = 2 := by simp only [numSlabs] at hs; omega
    rcases this with rfl | rfl | rfl
    · simp [slabContent, pySlab]
    · simp [slabContent, pySlab]
    · simp only [slabContent, pySlab]
      simp
      ring

/-- C175. With the tetrahedron method, where no frequency is imaginary and equivalent points have
equal frequencies, Python and C give the same weights for every triplet, frequency point and pair of
bands, for conductivity (2 slabs) and collision matrix (3 slabs). -/
theorem C175_tetrahedron_partial (b : BZInput K) (hD : PosMesh b.D) (hl : ∃ i j, b.reclat i j ≠ 0) (dense : Bool)
    (init bz : BZGridOut) (h : bzGrid b dense init = some bz) (eps : K) (g0 : Fin 3 → K) (frequencyPoints : Nat → K)
    (numPoints : Nat) (rel : Fin 24 → Fin 4 → V3) (triplets : Nat → Fin 3 → Int) (numTriplets numBand len : Nat)
    (hlen : len = 2 ∨ len = 3) (frequencies : Int → K) (hper : PeriodicFrequencies b.D bz numBand frequencies)
    (hreal : RealFrequencies bz numBand frequencies) (iw : Int → K) (zero : Int → Bool) (s i f j k : Nat)
    (hs : s < len) (hi : i < numTriplets) (hf : f < numPoints) (hj : j < numBand) (hk : k < numBand) :
    (tetrahedronWeights eps g0 frequencyPoints numPoints rel triplets numTriplets bz b.D dense frequencies numBand
        frequencies numBand len iw zero).1 (at5 numTriplets numPoints numBand numBand s i f j k : Nat) =
      pyTetrahedronWeights (thmIntegrationWeight eps true) len frequencyPoints rel triplets bz b.D dense frequencies
        numBand s i f j k := by
  have hs' : s < numSlabs len := by rcases hlen with rfl | rfl <;> simpa [numSlabs] using hs
  have hv := (C23_weights eps g0 frequencyPoints numPoints rel triplets numTriplets bz b.D dense frequencies numBand
    frequencies numBand len iw zero (by tauto) i f j k hi hf hj hk).1 s hs'
  rw [hv, slab_python len hlen s hs']
  unfold pyTetrahedronWeights combination
  have e1 := fun t v => vertex_frequency b hD hl dense init bz h rel (triplets i) len hlen numBand frequencies hper
    hreal 0 t v j hj
  have e2 := fun t v => vertex_frequency b hD hl dense init bz h rel (triplets i) len hlen numBand frequencies hper
    hreal 1 t v k hk
  simp only [e1, e2]
  rfl

/-- C175. With smearing and no cutoff Python and C give the same weights. -/
theorem C175_smearing_partial (gaussian : K → K → K) (sigma : K) (hσ : 0 ≤ sigma) (frequencyPoints : Nat → K)
    (numPoints : Nat) (triplets : Nat → Fin 3 → Int) (numTriplets numBand len : Nat) (hlen : len = 2 ∨ len = 3)
    (frequencies : Int → K) (iw : Int → K) (zero : Int → Bool) (s i f j k : Nat)
    (hs : s < len) (hi : i < numTriplets) (hf : f < numPoints) (hj : j < numBand) (hk : k < numBand) :
    (smearingWeights gaussian sigma (cutoffArgument none) frequencyPoints numPoints triplets numTriplets frequencies
        numBand len iw zero).1 (at5 numTriplets numPoints numBand numBand s i f j k : Nat) =
      pySmearingWeights gaussian sigma len frequencyPoints triplets frequencies numBand s i f j k := by
  have hs' : s < numSlabs len := by rcases hlen with rfl | rfl <;> simpa [numSlabs] using hs
  have hflag := C24_no_cutoff gaussian sigma (cutoffArgument none) frequencyPoints numPoints triplets numTriplets
    frequencies numBand len iw zero (by tauto) hσ (by simp [cutoffArgument]) i f j k hi hf hj hk
  have hv := (C24_flag gaussian sigma (cutoffArgument none) frequencyPoints numPoints triplets numTriplets frequencies
    numBand len iw zero (by tauto) i f j k hi hf hj hk).2.2 hflag s hs'
  refine hv.trans ?_
  rw [slab_python len hlen s hs']
  rfl

/-- C175 fails with a cutoff: Python ignores it. Where C leaves out the weights, Python's first slab
is the smearing function, which is not zero for a positive function. -/
theorem C175_cutoff_ignored (gaussian : K → K → K) (hg : ∀ x y, 0 < gaussian x y) (sigma c : K)
    (hc : 0 < sigma * c) (frequencyPoints : Nat → K) (numPoints : Nat)
    (triplets : Nat → Fin 3 → Int) (numTriplets numBand len : Nat) (hlen : len = 2 ∨ len = 3)
    (frequencies : Int → K) (iw : Int → K) (zero : Int → Bool) (i f j k : Nat)
    (hi : i < numTriplets) (hf : f < numPoints) (hj : j < numBand) (hk : k < numBand)
    (hfar : ∀ m, sigma * c < |deltaArguments (frequencyPoints f) (frequencies (triplets i 1 * numBand + j))
      (frequencies (triplets i 2 * numBand + k)) m|) :
    (smearingWeights gaussian sigma (cutoffArgument (some c)) frequencyPoints numPoints triplets numTriplets frequencies
        numBand len iw zero).1 (at5 numTriplets numPoints numBand numBand 0 i f j k : Nat) = 0 ∧
      0 < pySmearingWeights gaussian sigma len frequencyPoints triplets frequencies numBand 0 i f j k := by
  have hs' : 0 < numSlabs len := by rcases hlen with rfl | rfl <;> simp [numSlabs]
  obtain ⟨h1, h2, _⟩ := C24_flag gaussian sigma (cutoffArgument (some c)) frequencyPoints numPoints triplets
    numTriplets frequencies numBand len iw zero (by tauto) i f j k hi hf hj hk
  exact ⟨h2 (h1.2 ⟨hc, fun m _ => hfar m⟩) 0 hs', by simp [pySmearingWeights, pySlab, hg]⟩

/-- C175. The grid points collected around a list of grid points are exactly those on the vertices,
each once and in ascending order. -/
theorem C175_unique_points (b : BZInput K) (hD : PosMesh b.D) (hl : ∃ i j, b.reclat i j ≠ 0) (dense : Bool)
    (init bz : BZGridOut) (h : bzGrid b dense init = some bz) (gridPoints : List Int) (verts : List V3) :
    (uniqueGridPoints bz b.D dense gridPoints verts).Pairwise (· < ·) ∧
      (∀ n : Nat, n ∈ uniqueGridPoints bz b.D dense gridPoints verts ↔
        ∃ g ∈ gridPoints, ∃ v ∈ verts, (n : Int) = neighborGridPoint bz b.D dense g v) ∧
      (∀ n ∈ uniqueGridPoints bz b.D dense gridPoints verts, (n : Int) < bz.size ∧
        ∃ g ∈ gridPoints, ∃ v ∈ verts, SamePoint b.D (bz.addresses n) (bz.addresses g + v)) ∧
      ∀ g ∈ gridPoints, ∀ v ∈ verts, ∃ n ∈ uniqueGridPoints bz b.D dense gridPoints verts,
        SamePoint b.D (bz.addresses (n : Nat)) (bz.addresses g + v) := by
  have hm : ∀ n : Nat, n ∈ uniqueGridPoints bz b.D dense gridPoints verts ↔
        ∃ g ∈ gridPoints, ∃ v ∈ verts, (n : Int) = neighborGridPoint bz b.D dense g v := by
    intro n
    unfold uniqueGridPoints
    rw [npUnique_mem, List.mem_flatMap]
    simp only [List.mem_map]
    constructor
    · rintro ⟨g, hg, v, hv, rfl⟩
      have := (C60_neighbor b hD hl dense init bz h g v).1.1
      exact ⟨g, hg, v, hv, by omega⟩
    · rintro ⟨g, hg, v, hv, e⟩
      exact ⟨g, hg, v, hv, by omega⟩
  refine ⟨npUnique_sorted _, hm, ?_, ?_⟩
  · intro n hn
    obtain ⟨g, hg, v, hv, e⟩ := (hm n).1 hn
    have := C60_neighbor b hD hl dense init bz h g v
    rw [← e] at this
    exact ⟨this.1.2, g, hg, v, hv, this.2⟩
  · intro g hg v hv
    have := C60_neighbor b hD hl dense init bz h g v
    refine ⟨(neighborGridPoint bz b.D dense g v).toNat, (hm _).2 ⟨g, hg, v, hv, by have := this.1.1; omega⟩, ?_⟩
    rw [Int.toNat_of_nonneg this.1.1]
    exact this.2

/-- C175. Solving the phonons at the collected grid points is enough: arrays that agree there give
the same weights at grid points, whatever they hold elsewhere. -/
theorem C175_solved_is_enough (b : BZInput K) (hD : PosMesh b.D) (hl : ∃ i j, b.reclat i j ≠ 0) (dense : Bool)
    (init bz : BZGridOut) (h : bzGrid b dense init = some bz) (gridPoints : List Int) (verts : List V3)
    (rel : Fin 24 → Fin 4 → V3) (hrel : ∀ t v, rel t v ∈ verts) (eps : K) (isI : Bool) (frequencyPoints : Nat → K)
    (numFreq numBand : Nat) (f f' : Int → K)
    (hsolved : ∀ n ∈ uniqueGridPoints bz b.D dense gridPoints verts, ∀ m < numBand,
      f ((n : Nat) * numBand + m : Nat) = f' ((n : Nat) * numBand + m : Nat)) (iw : Int → K) :
    runWrites iw (gridWeightStores eps isI frequencyPoints numFreq numBand gridPoints.length rel b.D
        (fun i => gridPoints.getD i 0) bz dense f id) =
      runWrites iw (gridWeightStores eps isI frequencyPoints numFreq numBand gridPoints.length rel b.D
        (fun i => gridPoints.getD i 0) bz dense f' id) := by
  have hm := (C175_unique_points b hD hl dense init bz h gridPoints verts).2.1
  refine congrArg (runWrites iw) ?_
  unfold gridWeightStores loop
  refine List.flatMap_congr ?_
  intro i hi
  refine List.flatMap_congr ?_
  intro m hmb
  apply List.map_congr_left
  intro j _
  refine congrArg (fun z => (_, thmIntegrationWeight eps isI (frequencyPoints j) z)) ?_
  funext t v
  have hi' : i < gridPoints.length := List.mem_range.1 hi
  have hg : gridPoints.getD i 0 ∈ gridPoints := by
    rw [List.getD_eq_getElem _ _ hi']; exact List.getElem_mem hi'
  have h0 := (C60_neighbor b hD hl dense init bz h (gridPoints.getD i 0) (rel t v)).1.1
  have := hsolved (neighborGridPoint bz b.D dense (gridPoints.getD i 0) (rel t v)).toNat
    ((hm _).2 ⟨_, hg, _, hrel t v, by omega⟩) m (List.mem_range.1 hmb)
  push_cast at this
  rw [Int.toNat_of_nonneg h0] at this
  exact this

end

/-! ### Concrete cases -/

/-- One band; the frequency depends on the grid point only and is imaginary at the first if `x < 0`. -/
def exampleFrequencies (x : ℚ) (bz : BZGridOut) (k : Int) : ℚ :=
  if bz.bzg2grg k = 0 then x else if bz.bzg2grg k = 1 then 1 else if bz.bzg2grg k = 2 then 2 else 3

/-- The same tetrahedron 24 times. -/
def exampleRel (_ : Fin 24) (v : Fin 4) : V3 := ![⟨0, 0, 0⟩, ⟨1, 0, 0⟩, ⟨1, 1, 0⟩, ⟨1, 1, 1⟩] v

theorem exampleFrequencies_periodic (x : ℚ) (dense : Bool) (bz : BZGridOut)
    (h : bzGrid exampleBZ dense exampleInit = some bz) :
    PeriodicFrequencies exampleBZ.D bz 1 (exampleFrequencies x bz) := by
  have V := bzGrid_valid exampleBZ (by decide) ⟨0, 0, by decide +kernel⟩ dense exampleInit bz h
  intro k l hk hl hs n hn
  have hg : ∀ m, (0 ≤ m ∧ m < bz.size) → bz.bzg2grg m = gridIndex (bz.addresses m) exampleBZ.D := by
    intro m hm
    have hb := gridIndex_bounds (bz.addresses m) exampleBZ.D (by decide)
    exact (V.filed _ hb.1 hb.2 m (mem_own_block V m hm)).2.1
  have e : bz.bzg2grg k = bz.bzg2grg l := by
    rw [hg k hk, hg l hl, (gridIndex_eq_iff _ _ _ (by decide)).2 hs]
  have hn0 : n = 0 := by omega
  subst hn0
  simp [exampleFrequencies, e]

theorem exampleFrequencies_real (dense : Bool) (bz : BZGridOut) :
    RealFrequencies bz 1 (exampleFrequencies 0 bz) := by
  intro k _ n hn
  unfold exampleFrequencies
  split_ifs <;> norm_num

/-- C175 fails with an imaginary frequency: C takes it as zero, Python as it is. -/
theorem C175_imaginary_differs : ∃ bz, bzGrid exampleBZ true exampleInit = some bz ∧
    PeriodicFrequencies exampleBZ.D bz 1 (exampleFrequencies (-2) bz) ∧
    (tetrahedronWeights (K := ℚ) (1 / 10 ^ 10) (fun _ => 0) (fun _ => 1) 1 exampleRel (fun _ _ => 0) 1 bz exampleBZ.D true
        (exampleFrequencies (-2) bz) 1 (exampleFrequencies (-2) bz) 1 2 (fun _ => 0) (fun _ => false)).1
        (at5 1 1 1 1 0 0 0 0 0 : Nat) ≠
      pyTetrahedronWeights (thmIntegrationWeight (1 / 10 ^ 10) true) 2 (fun _ => 1) exampleRel (fun _ _ => 0) bz
        exampleBZ.D true (exampleFrequencies (-2) bz) 1 0 0 0 0 0 := by
  cases h : bzGrid exampleBZ true exampleInit with
  | none => exact absurd ((C09_failure_iff _ _ _).1 h) (by decide +kernel)
  | some bz =>
    refine ⟨bz, rfl, exampleFrequencies_periodic _ _ _ h, ?_⟩
    have hx : ((bzGrid exampleBZ true exampleInit).map fun bz =>
      decide ((tetrahedronWeights (K := ℚ) (1 / 10 ^ 10) (fun _ => 0) (fun _ => 1) 1 exampleRel (fun _ _ => 0) 1 bz
        exampleBZ.D true (exampleFrequencies (-2) bz) 1 (exampleFrequencies (-2) bz) 1 2 (fun _ => 0)
          (fun _ => false)).1 (at5 1 1 1 1 0 0 0 0 0 : Nat) ≠
        pyTetrahedronWeights (thmIntegrationWeight (1 / 10 ^ 10) true) 2 (fun _ => 1) exampleRel (fun _ _ => 0) bz
          exampleBZ.D true (exampleFrequencies (-2) bz) 1 0 0 0 0 0)) = some true := by decide +kernel
    rw [h] at hx
    simpa using hx

/-- Python's weight in the example with real frequencies is not zero. -/
example : ((bzGrid exampleBZ true exampleInit).map fun bz =>
    decide (0 < pyTetrahedronWeights (thmIntegrationWeight (1 / 10 ^ 10) true) 2 (fun _ => 1) exampleRel (fun _ _ => 0) bz
        exampleBZ.D true (exampleFrequencies 0 bz) 1 0 0 0 0 0)) = some true := by decide +kernel

/-- Neighbours of the points 0 and 1 in one direction are distinct points, 1 and 0 are on the same grid point. -/
example : (bzGrid exampleBZ true exampleInit).map (fun bz =>
    ([0, 1].map fun g => neighborGridPoint bz exampleBZ.D true g ⟨1, 0, 0⟩, bz.bzg2grg 0, bz.bzg2grg 1)) =
    some ([6, 7], 0, 0) := by decide +kernel

/-- Far from every delta function of C24. -/
example : ∀ m, (1 : ℚ) * 3 < |deltaArguments (K := ℚ) 20 1 2 m| := by decide +kernel

end Phono3py.Props
