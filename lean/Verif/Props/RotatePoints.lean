/-
C174: which grid points rotating a grid point gives.
-/
import Verif.Model.RotatePoints
import Verif.Spec.RotatePoints
import Verif.Props.BZGrid
import Verif.Lemmas.Triplet

set_option linter.unusedSectionVars false

namespace Phono3py.Props
open Phono3py Phono3py.Spec

section
variable {K : Type} [Field K] [LinearOrder K] [IsStrictOrderedRing K] [FloorRing K]

/-- The representative of a grid point is the first entry of its block. -/
theorem representative_mem {D : V3} {dense : Bool} {bz : BZGridOut} (V : ValidBZ D dense bz) (i : Int)
    (h0 : 0 ≤ i) (h1 : i < D.x * D.y * D.z) : grg2bzgTable dense bz i ∈ block D dense bz i := by
  have hn := V.nonempty i h0 h1
  cases dense with
  | true =>
    unfold grg2bzgTable block at *
    simp only [if_true] at *
    simp only [List.mem_map, List.mem_range]
    refine ⟨0, ?_, by simp⟩
    by_contra hc
    apply hn
    have : (bz.gpMap (i + 1) - bz.gpMap i).toNat = 0 := by omega
    rw [this]; rfl
  | false =>
    unfold grg2bzgTable block at *
    simp

theorem representative_le {D : V3} {dense : Bool} {bz : BZGridOut} (V : ValidBZ D dense bz) (i : Int)
    (h0 : 0 ≤ i) (h1 : i < D.x * D.y * D.z) (k : Int) (hk : k ∈ block D dense bz i) :
    grg2bzgTable dense bz i ≤ k := by
  cases dense with
  | true =>
    unfold grg2bzgTable block at *
    simp only [if_true, List.mem_map, List.mem_range] at *
    obtain ⟨j, _, rfl⟩ := hk
    omega
  | false =>
    by_contra hc
    have hki : k < i := by simpa [grg2bzgTable] using hc
    have hf := V.filed i h0 h1 k hk
    have hs : k ∈ block D false bz k := by unfold block; simp
    have hf2 := V.filed k hf.1.1 (by omega) k hs
    omega

/-- The block a stored point lies in is that of its grid index. -/
theorem mem_own_block {D : V3} {dense : Bool} {bz : BZGridOut} (V : ValidBZ D dense bz) (k : Int)
    (hk : 0 ≤ k ∧ k < bz.size) : k ∈ block D dense bz (gridIndex (bz.addresses k) D) := by
  obtain ⟨i, h0, h1, hb⟩ := V.cover k hk.1 hk.2
  rw [(V.filed i h0 h1 k hb).2.2]
  exact hb

theorem pyRotatedPoint_facts {D : V3} {dense : Bool} {bz : BZGridOut} (hD : PosMesh D) (V : ValidBZ D dense bz)
    (idx : Int) (R : M3) :
    SamePoint D (bz.addresses (pyRotatedPoint bz D dense idx R)) (R.mulVec (bz.addresses idx)) ∧
      FirstOfEquals D bz (pyRotatedPoint bz D dense idx R) := by
  have hb := gridIndex_bounds (R.mulVec (bz.addresses idx)) D hD
  have hm := representative_mem V _ hb.1 hb.2
  have hf := V.filed _ hb.1 hb.2 _ hm
  have hs : SamePoint D (bz.addresses (pyRotatedPoint bz D dense idx R)) (R.mulVec (bz.addresses idx)) :=
    (gridIndex_eq_iff _ _ _ hD).1 hf.2.2
  refine ⟨hs, hf.1, ?_⟩
  intro k hk hkr
  have hg : gridIndex (bz.addresses k) D = gridIndex (R.mulVec (bz.addresses idx)) D :=
    ((gridIndex_eq_iff _ _ _ hD).2 hkr).trans hf.2.2
  have hkb := mem_own_block V k hk
  rw [hg] at hkb
  exact representative_le V _ hb.1 hb.2 k hkb

/-- C174. Without surface treatment, on a grid built without shift, the point returned for each
rotation is a point of the grid equivalent to the rotated address, and the first of those. -/
theorem C174_without_surface_partial (b : BZInput K) (hD : PosMesh b.D) (hl : ∃ i j, b.reclat i j ≠ 0)
    (hPS : b.PS = ⟨0, 0, 0⟩) (dense : Bool) (init bz : BZGridOut) (h : bzGrid b dense init = some bz) (idx : Int)
    (rots : List M3) :
    (gridPointsByRotations bz b.D b.PS dense false idx rots).length = rots.length ∧
      ∀ (j : Nat) (R : M3), rots[j]? = some R →
        ∃ r, (gridPointsByRotations bz b.D b.PS dense false idx rots)[j]? = some r ∧
          (∀ a, TrueRotation b.PS R (bz.addresses idx) a → SamePoint b.D (bz.addresses r) a) ∧
          FirstOfEquals b.D bz r := by
  have V := bzGrid_valid b hD hl dense init bz h
  refine ⟨by simp [gridPointsByRotations], ?_⟩
  intro j R hj
  refine ⟨pyRotatedPoint bz b.D dense idx R, by simp [gridPointsByRotations, hj], ?_,
    (pyRotatedPoint_facts hD V idx R).2⟩
  intro a ha
  have e : a = R.mulVec (bz.addresses idx) := by
    unfold TrueRotation at ha
    rw [hPS] at ha
    have h2 : R.mulVec (V3.smul 2 (bz.addresses idx) + ⟨0, 0, 0⟩) = V3.smul 2 (R.mulVec (bz.addresses idx)) := by
      rw [← M3.mulVec_smul]
      congr 1
      ext <;> simp
    rw [h2] at ha
    have hx := congrArg V3.x ha
    have hy := congrArg V3.y ha
    have hz := congrArg V3.z ha
    simp [V3.smul] at hx hy hz
    ext <;> assumption
  rw [e]
  exact (pyRotatedPoint_facts hD V idx R).1

/-- C174. Equivalent points have the same rotated points: the choice of the image on the surface
of the zone does not matter. -/
theorem C174_equivalent_points (b : BZInput K) (hD : PosMesh b.D) (hl : ∃ i j, b.reclat i j ≠ 0)
    (dense : Bool) (init bz : BZGridOut) (h : bzGrid b dense init = some bz) (i₁ i₂ : Int)
    (hs : SamePoint b.D (bz.addresses i₁) (bz.addresses i₂)) (rots : List M3)
    (hR : ∀ R ∈ rots, MeshCompat b.D R) :
    gridPointsByRotations bz b.D b.PS dense false i₁ rots = gridPointsByRotations bz b.D b.PS dense false i₂ rots := by
  unfold gridPointsByRotations
  simp only [Bool.false_eq_true, if_false]
  apply List.map_congr_left
  intro R hm
  unfold pyRotatedPoint pyRotatedAddress
  rw [(gridIndex_eq_iff _ _ _ hD).2 (Spec.SamePoint.mulVec (hR R hm) hs)]

/-- C174. A rotation that has an inverse takes two points to the same point only when they are
equivalent. -/
theorem C174_one_to_one (b : BZInput K) (hD : PosMesh b.D) (hl : ∃ i j, b.reclat i j ≠ 0)
    (dense : Bool) (init bz : BZGridOut) (h : bzGrid b dense init = some bz) (i₁ i₂ : Int) (R S : M3)
    (hS : S.mul R = M3.one) (cS : MeshCompat b.D S)
    (he : gridPointsByRotations bz b.D b.PS dense false i₁ [R] = gridPointsByRotations bz b.D b.PS dense false i₂ [R]) :
    SamePoint b.D (bz.addresses i₁) (bz.addresses i₂) := by
  have V := bzGrid_valid b hD hl dense init bz h
  have he' : pyRotatedPoint bz b.D dense i₁ R = pyRotatedPoint bz b.D dense i₂ R := by
    simpa [gridPointsByRotations] using he
  have h1 := (pyRotatedPoint_facts hD V i₁ R).1
  have h2 := (pyRotatedPoint_facts hD V i₂ R).1
  rw [he'] at h1
  have h3 : SamePoint b.D (R.mulVec (bz.addresses i₁)) (R.mulVec (bz.addresses i₂)) := h1.symm.trans h2
  have h4 := Spec.SamePoint.mulVec cS h3
  rwa [← M3.mul_mulVec, ← M3.mul_mulVec, hS, M3.one_mulVec, M3.one_mulVec] at h4

theorem rotated_noShift (bz : BZGridOut) (PS : V3) (hPS : PS = ⟨0, 0, 0⟩) (idx : Int) (R : M3) :
    rotatedBzAddress bz PS idx R = pyRotatedAddress bz idx R := by
  apply rotatedBzAddress_eq
  subst hPS
  unfold pyRotatedAddress
  rw [← M3.mulVec_smul]
  have e1 : V3.smul 2 (R.mulVec (bz.addresses idx)) + ⟨0, 0, 0⟩ = V3.smul 2 (R.mulVec (bz.addresses idx)) := by
    ext <;> simp
  have e2 : V3.smul 2 (bz.addresses idx) + ⟨0, 0, 0⟩ = V3.smul 2 (bz.addresses idx) := by
    ext <;> simp
  first
    | rw [e2]; ext <;> simp
    | (rw [M3.mulVec_smul, e1, e2, M3.mulVec_smul])

theorem pySurface_eq (bz : BZGridOut) (D : V3) (dense : Bool) (idx : Int) (R : M3) :
    pyRotateWithSurface bz D dense idx R =
      firstWithAddress bz (pyRotatedAddress bz idx R)
        (block D dense bz (gridIndex (pyRotatedAddress bz idx R) D)) := by
  unfold pyRotateWithSurface block
  cases dense with
  | true => simp
  | false =>
    simp only [Bool.false_eq_true, if_false, numGrid]
    refine congrArg (fun l => firstWithAddress bz _ (_ :: l)) ?_
    rw [show D.x * D.y * D.z * 8 = 8 * (D.x * D.y * D.z) by ring]
    apply List.map_congr_left
    intro k _
    ring

/-- C174. With surface treatment the Python variant succeeds exactly when the rotated address is
stored, and then returns the one point that has it. -/
theorem C174_python_surface (b : BZInput K) (hD : PosMesh b.D) (hl : ∃ i j, b.reclat i j ≠ 0)
    (dense : Bool) (init bz : BZGridOut) (h : bzGrid b dense init = some bz) (idx : Int) (R : M3) (k : Int) :
    pyRotateWithSurface bz b.D dense idx R = some k ↔
      (0 ≤ k ∧ k < bz.size) ∧ bz.addresses k = R.mulVec (bz.addresses idx) := by
  have V := bzGrid_valid b hD hl dense init bz h
  have hb := gridIndex_bounds (R.mulVec (bz.addresses idx)) b.D hD
  rw [pySurface_eq]
  constructor
  · intro hk
    have h1 := List.find?_some hk
    have h2 := List.mem_of_find?_eq_some hk
    exact ⟨(V.filed _ hb.1 hb.2 _ h2).1, of_decide_eq_true h1⟩
  · rintro ⟨hk, ha⟩
    have hm := mem_own_block V k hk
    rw [ha] at hm
    cases hf : firstWithAddress bz (pyRotatedAddress bz idx R)
        (block b.D dense bz (gridIndex (pyRotatedAddress bz idx R) b.D)) with
    | none =>
      unfold firstWithAddress at hf
      rw [List.find?_eq_none] at hf
      exact absurd (hf k hm) (by simp [ha, pyRotatedAddress])
    | some l =>
      have h1 := List.find?_some hf
      have h2 := List.mem_of_find?_eq_some hf
      have h3 : bz.addresses l = R.mulVec (bz.addresses idx) := of_decide_eq_true h1
      rw [V.distinct l k (V.filed _ hb.1 hb.2 _ h2).1 hk (h3.trans ha.symm)]

/-- C174. On a grid built without shift, where the Python variant succeeds the C variant returns
the same points. -/
theorem C174_python_is_c (b : BZInput K) (hD : PosMesh b.D) (hl : ∃ i j, b.reclat i j ≠ 0)
    (hPS : b.PS = ⟨0, 0, 0⟩) (dense : Bool) (init bz : BZGridOut) (h : bzGrid b dense init = some bz) (idx : Int)
    (rots : List M3) (out : List Int) (hp : pyPointsWithSurface bz b.D dense idx rots = some out) :
    gridPointsByRotations bz b.D b.PS dense true idx rots = out := by
  have V := bzGrid_valid b hD hl dense init bz h
  have one : ∀ R k, pyRotateWithSurface bz b.D dense idx R = some k →
      bzRotateGridIndex bz b.D b.PS dense idx R = k := by
    intro R k hk
    obtain ⟨hk1, hk2⟩ := (C174_python_surface b hD hl dense init bz h idx R k).1 hk
    have hm := mem_own_block V k hk1
    unfold bzRotateGridIndex
    rw [rotated_noShift bz b.PS hPS idx R]
    have ea : pyRotatedAddress bz idx R = bz.addresses k := hk2.symm
    rw [ea]
    have hb := gridIndex_bounds (bz.addresses k) b.D hD
    cases dense with
    | true =>
      simp only [if_true]
      unfold block at hm
      simp only [if_true, List.mem_map, List.mem_range] at hm
      obtain ⟨j, hj, hjk⟩ := hm
      cases hf : findAddress bz.addresses (bz.addresses k) (bz.gpMap (gridIndex (bz.addresses k) b.D))
          (bz.gpMap (gridIndex (bz.addresses k) b.D + 1)) with
      | none => exact absurd rfl (findAddress_none hf k (by omega) (by omega))
      | some r =>
        obtain ⟨g1, g2, g3⟩ := findAddress_some hf
        have hr : r ∈ block b.D true bz (gridIndex (bz.addresses k) b.D) := by
          unfold block
          simp only [if_true]
          rw [mem_interval (by omega)]
          omega
        exact V.distinct _ _ (V.filed _ hb.1 hb.2 _ hr).1 hk1 g3
    | false =>
      simp only [Bool.false_eq_true, if_false]
      split
      · next he =>
        have hh : gridIndex (bz.addresses k) b.D ∈ block b.D false bz (gridIndex (bz.addresses k) b.D) := by
          unfold block; simp
        exact V.distinct _ _ (V.filed _ hb.1 hb.2 _ hh).1 hk1 he
      · next he =>
        unfold block at hm
        simp only [Bool.false_eq_true, if_false, List.mem_cons, List.mem_map, List.mem_range] at hm
        have e8 : numGrid b.D * 8 = 8 * (b.D.x * b.D.y * b.D.z) := by unfold numGrid; ring
        have e1 : numGrid b.D = b.D.x * b.D.y * b.D.z := rfl
        rw [e8, e1]
        rcases hm with hm | ⟨j, hj, hjk⟩
        · exact absurd (congrArg bz.addresses hm.symm) he
        · cases hf : findAddress bz.addresses (bz.addresses k)
              (bz.gpMap (8 * (b.D.x * b.D.y * b.D.z) + gridIndex (bz.addresses k) b.D) + b.D.x * b.D.y * b.D.z)
              (bz.gpMap (8 * (b.D.x * b.D.y * b.D.z) + gridIndex (bz.addresses k) b.D + 1) + b.D.x * b.D.y * b.D.z) with
          | none => exact absurd rfl (findAddress_none hf k (by omega) (by omega))
          | some r =>
            obtain ⟨g1, g2, g3⟩ := findAddress_some hf
            have hr : r ∈ block b.D false bz (gridIndex (bz.addresses k) b.D) := by
              unfold block
              simp only [Bool.false_eq_true, if_false, List.mem_cons]
              right
              rw [mem_interval (by omega)]
              omega
            exact V.distinct _ _ (V.filed _ hb.1 hb.2 _ hr).1 hk1 g3
  unfold gridPointsByRotations
  simp only [if_true]
  unfold pyPointsWithSurface at hp
  induction rots generalizing out with
  | nil => simpa using hp
  | cons R rots ih =>
    rw [List.mapM_cons] at hp
    cases h1 : pyRotateWithSurface bz b.D dense idx R with
    | none => rw [h1] at hp; exact absurd hp (by simp)
    | some k =>
      rw [h1] at hp
      cases h2 : rots.mapM (fun R => pyRotateWithSurface bz b.D dense idx R) with
      | none => rw [h2] at hp; exact absurd hp (by simp)
      | some l =>
        rw [h2] at hp
        have : out = k :: l := by simpa using hp.symm
        rw [this, List.map_cons, one R k h1, ih l h2]

/-- C174. The Python variant fails for a list of rotations exactly when the address of some of them
is not stored. -/
theorem C174_python_failure_iff (b : BZInput K) (hD : PosMesh b.D) (hl : ∃ i j, b.reclat i j ≠ 0)
    (dense : Bool) (init bz : BZGridOut) (h : bzGrid b dense init = some bz) (idx : Int) (rots : List M3) :
    pyPointsWithSurface bz b.D dense idx rots = none ↔
      ∃ R ∈ rots, ¬ Stored bz (R.mulVec (bz.addresses idx)) := by
  have one : ∀ R, pyRotateWithSurface bz b.D dense idx R = none ↔ ¬ Stored bz (R.mulVec (bz.addresses idx)) := by
    intro R
    constructor
    · rintro hn ⟨k, hk⟩
      rw [(C174_python_surface b hD hl dense init bz h idx R k).2 hk] at hn
      exact absurd hn (by simp)
    · intro hs
      cases hf : pyRotateWithSurface bz b.D dense idx R with
      | none => rfl
      | some k => exact absurd ⟨k, (C174_python_surface b hD hl dense init bz h idx R k).1 hf⟩ hs
  unfold pyPointsWithSurface
  induction rots with
  | nil => simp
  | cons R rots ih =>
    rw [List.mapM_cons]
    cases h1 : pyRotateWithSurface bz b.D dense idx R with
    | none => simp [(one R).1 h1]
    | some k =>
      have hk : Stored bz (R.mulVec (bz.addresses idx)) := by
        by_contra hc
        rw [(one R).2 hc] at h1
        exact absurd h1 (by simp)
      cases h2 : rots.mapM (fun R => pyRotateWithSurface bz b.D dense idx R) with
      | none => simpa [hk] using ih.1 h2
      | some l =>
        have : ¬ ∃ R ∈ rots, ¬ Stored bz (R.mulVec (bz.addresses idx)) := fun hc => by
          rw [ih.2 hc] at h2; exact absurd h2 (by simp)
        simpa [hk] using this

/-- C174 fails on a shifted grid: with a shift along an axis with more than one division, inversion
without surface treatment never gives a point equivalent to the inverted one. -/
theorem C174_shift_ignored (b : BZInput K) (hD : PosMesh b.D) (hl : ∃ i j, b.reclat i j ≠ 0)
    (hPS : ¬ MeshTranslation b.D b.PS) (dense : Bool) (init bz : BZGridOut) (h : bzGrid b dense init = some bz)
    (idx : Int) (r : Int)
    (hr : gridPointsByRotations bz b.D b.PS dense false idx [⟨-1, 0, 0, 0, -1, 0, 0, 0, -1⟩] = [r]) (a : V3)
    (ha : TrueRotation b.PS ⟨-1, 0, 0, 0, -1, 0, 0, 0, -1⟩ (bz.addresses idx) a) :
    ¬ SamePoint b.D (bz.addresses r) a := by
  have V := bzGrid_valid b hD hl dense init bz h
  have he : pyRotatedPoint bz b.D dense idx ⟨-1, 0, 0, 0, -1, 0, 0, 0, -1⟩ = r := by
    simpa [gridPointsByRotations] using hr
  intro hs
  have h1 := (pyRotatedPoint_facts hD V idx ⟨-1, 0, 0, 0, -1, 0, 0, 0, -1⟩).1
  rw [he] at h1
  have h2 := h1.symm.trans hs
  apply hPS
  have e : M3.mulVec ⟨-1, 0, 0, 0, -1, 0, 0, 0, -1⟩ (bz.addresses idx) - a = b.PS := by
    unfold TrueRotation at ha
    have hx := congrArg V3.x ha
    have hy := congrArg V3.y ha
    have hz := congrArg V3.z ha
    simp [V3.smul, M3.mulVec] at hx hy hz
    ext <;> simp [M3.mulVec] <;> omega
  unfold SamePoint at h2
  rwa [e] at h2

end

/-! ### Concrete cases -/

example : PosMesh exampleBZ.D ∧ exampleBZ.PS = ⟨0, 0, 0⟩ ∧ PosMesh exampleBZ2.D ∧
    ¬ MeshTranslation exampleBZ2.D exampleBZ2.PS := by decide +kernel
/-- The grid of `exampleBZ`: the inverse of the point 1 is the point 8 with surface treatment, in
Python and in C, and its representative 1 without. The inverse of point 26 is not stored: Python
fails. -/
example : (bzGrid exampleBZ false exampleInit).map (fun bz =>
    (pyPointsWithSurface bz exampleBZ.D false 1 [exampleInversion],
      gridPointsByRotations bz exampleBZ.D exampleBZ.PS false true 1 [exampleInversion],
      gridPointsByRotations bz exampleBZ.D exampleBZ.PS false false 1 [exampleInversion],
      pyPointsWithSurface bz exampleBZ.D false 26 [exampleInversion]))
    = some (some [8], [8], [1], none) := by decide +kernel
example : (bzGrid exampleBZ true exampleInit).map (fun bz =>
    (pyPointsWithSurface bz exampleBZ.D true 1 [exampleInversion, M3.one],
      gridPointsByRotations bz exampleBZ.D exampleBZ.PS true true 1 [exampleInversion, M3.one],
      gridPointsByRotations bz exampleBZ.D exampleBZ.PS true false 1 [exampleInversion, M3.one])) =
    some (some [4, 1], [4, 1], [0, 0]) := by decide +kernel
/-- The shifted grid: point 0 inverted is in C a point of grid index 4, without surface point 0. -/
example : (bzGrid exampleBZ2 true exampleInit).map (fun bz =>
    (bz.addresses 0, bz.bzg2grg (bzRotateGridIndex bz exampleBZ2.D exampleBZ2.PS true 0 exampleInversion),
      gridPointsByRotations bz exampleBZ2.D exampleBZ2.PS true false 0 [exampleInversion])) =
    some (⟨0, 0, 0⟩, 4, [0]) := by decide +kernel
example : TrueRotation exampleBZ2.PS exampleInversion ⟨0, 0, 0⟩ ⟨0, 0, -1⟩ := by unfold TrueRotation; decide +kernel
example : exampleInversion.mul exampleInversion = M3.one := by decide +kernel
example : MeshCompat exampleBZ.D exampleInversion := by
  rintro v ⟨h1, h2, h3⟩
  simp only [MeshTranslation, exampleInversion, M3.mulVec, exampleBZ] at *
  omega

end Phono3py.Props
