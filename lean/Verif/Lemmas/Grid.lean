import Verif.Model.Grid
import Verif.Spec.Grid
import Mathlib.Tactic.Linarith
import Mathlib.Tactic.LinearCombination

namespace Phono3py
open Spec

theorem moduloL_eq (a b : Int) (hb : 0 < b) : moduloL a b = a % b := by
  unfold moduloL
  rw [Int.tmod_eq_emod]
  have h0 := Int.emod_nonneg a (Int.ne_of_gt hb)
  have h1 := Int.emod_lt_of_pos a hb
  split <;> rename_i h <;> simp only [] <;> split <;> omega

theorem gridIndex_eq (a D : V3) (hD : PosMesh D) :
    gridIndex a D = (a.z % D.z) * D.x * D.y + (a.y % D.y) * D.x + a.x % D.x := by
  obtain ⟨hx, hy, hz⟩ := hD
  simp [gridIndex, gridIndexFromAddress, reduceGridAddress, moduloL_eq, hx, hy, hz]

theorem numGrid_pos (D : V3) (hD : PosMesh D) : 0 < numGrid D := by
  obtain ⟨hx, hy, hz⟩ := hD
  exact Int.mul_pos (Int.mul_pos hx hy) hz

/-- Mixed-radix bound. -/
theorem index_bounds (a D : V3) (ha : InCell D a) :
    0 ≤ gridIndexFromAddress a D ∧ gridIndexFromAddress a D < numGrid D := by
  obtain ⟨⟨hx0, hx1⟩, ⟨hy0, hy1⟩, ⟨hz0, hz1⟩⟩ := ha
  unfold gridIndexFromAddress numGrid
  have hDx : 0 < D.x := by omega
  have hDy : 0 < D.y := by omega
  constructor
  · have := Int.mul_nonneg (Int.mul_nonneg hz0 hDx.le) hDy.le
    have := Int.mul_nonneg hy0 hDx.le
    omega
  · have hxy : 0 ≤ D.x * D.y := (Int.mul_pos hDx hDy).le
    nlinarith [mul_nonneg (by omega : (0:Int) ≤ D.z - 1 - a.z) hxy,
      mul_nonneg (by omega : (0:Int) ≤ D.y - 1 - a.y) hDx.le]

theorem tdiv_eq_of {a b q r : Int} (hb : 0 < b) (h : a = q * b + r) (h0 : 0 ≤ r) (h1 : r < b)
    (hq : 0 ≤ q) : a.tdiv b = q ∧ a.tmod b = r := by
  have ha : 0 ≤ a := by nlinarith
  rw [Int.tdiv_eq_ediv_of_nonneg ha, Int.tmod_eq_emod_of_nonneg ha]
  exact Int.ediv_emod_unique hb |>.2 ⟨by rw [h]; ring, h0, h1⟩

theorem address_of_index (a D : V3) (ha : InCell D a) :
    gridAddressFromIndex (gridIndexFromAddress a D) D = a := by
  obtain ⟨⟨hx0, hx1⟩, ⟨hy0, hy1⟩, ⟨hz0, hz1⟩⟩ := ha
  have hDx : 0 < D.x := by omega
  have hDy : 0 < D.y := by omega
  have hxy : 0 < D.x * D.y := Int.mul_pos hDx hDy
  have hr : a.y * D.x + a.x < D.x * D.y := by
    nlinarith [mul_nonneg (by omega : (0:Int) ≤ D.y - 1 - a.y) hDx.le]
  have hr0 : 0 ≤ a.y * D.x + a.x := by
    have := Int.mul_nonneg hy0 hDx.le; omega
  have h1 := tdiv_eq_of (a := gridIndexFromAddress a D) (q := a.z) (r := a.y * D.x + a.x) hxy
    (by unfold gridIndexFromAddress; ring) hr0 hr hz0
  have h2 := tdiv_eq_of (a := gridIndexFromAddress a D) (b := D.x) (q := a.z * D.y + a.y) (r := a.x) hDx
    (by unfold gridIndexFromAddress; ring) hx0 hx1
    (by have := Int.mul_nonneg hz0 hDy.le; omega)
  have h3 := tdiv_eq_of (a := a.y * D.x + a.x) (b := D.x) (q := a.y) (r := a.x) hDx rfl hx0 hx1 hy0
  have h4 : gridIndexFromAddress a D - a.z * (D.x * D.y) = a.y * D.x + a.x := by
    unfold gridIndexFromAddress; ring
  unfold gridAddressFromIndex
  simp only [h1.1, h2.2, h4, h3.1]

theorem index_of_address (g : Int) (D : V3) (hD : PosMesh D) (h0 : 0 ≤ g) (h1 : g < numGrid D) :
    InCell D (gridAddressFromIndex g D) ∧
    gridIndexFromAddress (gridAddressFromIndex g D) D = g := by
  obtain ⟨hx, hy, hz⟩ := hD
  have hxy : 0 < D.x * D.y := Int.mul_pos hx hy
  have e1 : g.tdiv (D.x * D.y) = g / (D.x * D.y) := Int.tdiv_eq_ediv_of_nonneg h0
  have e2 : g.tmod D.x = g % D.x := Int.tmod_eq_emod_of_nonneg h0
  set q := g / (D.x * D.y) with hq
  have hdm := Int.mul_ediv_add_emod g (D.x * D.y)
  rw [← hq] at hdm
  have hm0 := Int.emod_nonneg g hxy.ne'
  have hm1 := Int.emod_lt_of_pos g hxy
  set m := g % (D.x * D.y) with hm
  have hgm : g - q * (D.x * D.y) = m := by linarith
  have e3 : (g - q * (D.x * D.y)).tdiv D.x = m / D.x := by
    rw [hgm, Int.tdiv_eq_ediv_of_nonneg hm0]
  have hq0 : 0 ≤ q := Int.ediv_nonneg h0 hxy.le
  have hq1 : q < D.z := by
    apply Int.ediv_lt_of_lt_mul hxy
    unfold numGrid at h1; linarith
  have hgx : g % D.x = m % D.x := by
    rw [hm]; exact (Int.emod_emod_of_dvd g (Dvd.intro _ rfl)).symm
  have hmx := Int.mul_ediv_add_emod m D.x
  have r0 := Int.emod_nonneg m hx.ne'
  have r1 := Int.emod_lt_of_pos m hx
  have y0 : 0 ≤ m / D.x := Int.ediv_nonneg hm0 hx.le
  have y1 : m / D.x < D.y := by
    apply Int.ediv_lt_of_lt_mul hx; linarith
  unfold gridAddressFromIndex gridIndexFromAddress InCell
  simp only [e1, e2, e3, hgx]
  refine ⟨⟨⟨r0, r1⟩, ⟨y0, y1⟩, ⟨hq0, hq1⟩⟩, ?_⟩
  linarith

theorem reduce_inCell (a D : V3) (hD : PosMesh D) : InCell D (reduceGridAddress a D) := by
  obtain ⟨hx, hy, hz⟩ := hD
  simp only [InCell, reduceGridAddress, moduloL_eq, hx, hy, hz]
  exact ⟨⟨Int.emod_nonneg _ hx.ne', Int.emod_lt_of_pos _ hx⟩,
    ⟨Int.emod_nonneg _ hy.ne', Int.emod_lt_of_pos _ hy⟩,
    ⟨Int.emod_nonneg _ hz.ne', Int.emod_lt_of_pos _ hz⟩⟩

theorem gridIndex_bounds (a D : V3) (hD : PosMesh D) :
    0 ≤ gridIndex a D ∧ gridIndex a D < numGrid D :=
  index_bounds _ _ (reduce_inCell a D hD)

theorem address_gridIndex (a D : V3) (hD : PosMesh D) :
    gridAddressFromIndex (gridIndex a D) D = reduceGridAddress a D :=
  address_of_index _ _ (reduce_inCell a D hD)

theorem reduce_eq_iff (a b D : V3) (hD : PosMesh D) :
    reduceGridAddress a D = reduceGridAddress b D ↔ SamePoint D a b := by
  obtain ⟨hx, hy, hz⟩ := hD
  simp only [reduceGridAddress, moduloL_eq, hx, hy, hz, V3.mk.injEq, SamePoint, MeshTranslation,
    V3.sub_x, V3.sub_y, V3.sub_z]
  have key : ∀ p q d : Int, p % d = q % d ↔ d ∣ p - q := fun p q d =>
    Int.emod_eq_emod_iff_emod_sub_eq_zero.trans Int.dvd_iff_emod_eq_zero.symm
  rw [key, key, key]

theorem gridIndex_eq_iff (a b D : V3) (hD : PosMesh D) :
    gridIndex a D = gridIndex b D ↔ SamePoint D a b := by
  rw [← reduce_eq_iff a b D hD]
  constructor
  · intro h
    rw [← address_gridIndex a D hD, ← address_gridIndex b D hD, h]
  · intro h
    unfold gridIndex; rw [h]

theorem reduce_of_inCell (a D : V3) (ha : InCell D a) : reduceGridAddress a D = a := by
  obtain ⟨⟨hx0, hx1⟩, ⟨hy0, hy1⟩, ⟨hz0, hz1⟩⟩ := ha
  have hx : 0 < D.x := by omega
  have hy : 0 < D.y := by omega
  have hz : 0 < D.z := by omega
  simp [reduceGridAddress, moduloL_eq, hx, hy, hz, Int.emod_eq_of_lt, *]

theorem reduce_samePoint (a D : V3) (hD : PosMesh D) : SamePoint D (reduceGridAddress a D) a := by
  rw [← reduce_eq_iff _ _ _ hD, reduce_of_inCell _ _ (reduce_inCell a D hD)]

theorem gridIndex_addressFromIndex (g : Int) (D : V3) (hD : PosMesh D) (h0 : 0 ≤ g)
    (h1 : g < numGrid D) : gridIndex (gridAddressFromIndex g D) D = g := by
  have h := index_of_address g D hD h0 h1
  unfold gridIndex
  rw [reduce_of_inCell _ _ h.1, h.2]

/-! congruence -/

theorem Spec.MeshTranslation.add {D u v : V3} (hu : MeshTranslation D u) (hv : MeshTranslation D v) :
    MeshTranslation D (u + v) :=
  ⟨Int.dvd_add hu.1 hv.1, Int.dvd_add hu.2.1 hv.2.1, Int.dvd_add hu.2.2 hv.2.2⟩

theorem Spec.MeshTranslation.neg {D u : V3} (hu : MeshTranslation D u) : MeshTranslation D (-u) :=
  ⟨Int.dvd_neg.2 hu.1, Int.dvd_neg.2 hu.2.1, Int.dvd_neg.2 hu.2.2⟩

theorem Spec.SamePoint.refl (D a : V3) : SamePoint D a a := by
  simp [SamePoint, MeshTranslation]

theorem Spec.SamePoint.symm {D a b : V3} (h : SamePoint D a b) : SamePoint D b a := by
  have : b - a = -(a - b) := by ext <;> simp
  unfold SamePoint; rw [this]; exact MeshTranslation.neg h

theorem Spec.SamePoint.trans {D a b c : V3} (h : SamePoint D a b) (h' : SamePoint D b c) :
    SamePoint D a c := by
  have : a - c = (a - b) + (b - c) := by ext <;> simp
  unfold SamePoint; rw [this]; exact MeshTranslation.add h h'

/-! matrices -/

theorem M3.mulVec_add (R : M3) (u v : V3) : R.mulVec (u + v) = R.mulVec u + R.mulVec v := by
  ext <;> simp [M3.mulVec] <;> ring

theorem M3.mulVec_sub (R : M3) (u v : V3) : R.mulVec (u - v) = R.mulVec u - R.mulVec v := by
  ext <;> simp [M3.mulVec] <;> ring

theorem M3.mulVec_neg (R : M3) (u : V3) : R.mulVec (-u) = -(R.mulVec u) := by
  ext <;> simp [M3.mulVec] <;> ring

theorem M3.mulVec_smul (R : M3) (k : Int) (u : V3) :
    R.mulVec (V3.smul k u) = V3.smul k (R.mulVec u) := by
  ext <;> simp [M3.mulVec] <;> ring

theorem M3.mul_mulVec (S R : M3) (u : V3) : (S.mul R).mulVec u = S.mulVec (R.mulVec u) := by
  ext <;> simp [M3.mulVec, M3.mul] <;> ring

@[simp] theorem M3.one_mulVec (u : V3) : M3.one.mulVec u = u := by
  ext <;> simp [M3.mulVec, M3.one]

theorem M3.mul_assoc (a b c : M3) : (a.mul b).mul c = a.mul (b.mul c) := by
  ext <;> simp [M3.mul] <;> ring

@[simp] theorem M3.one_mul (a : M3) : M3.one.mul a = a := by
  ext <;> simp [M3.mul, M3.one]

@[simp] theorem M3.mul_one (a : M3) : a.mul M3.one = a := by
  ext <;> simp [M3.mul, M3.one]

theorem M3.det_mul (a b : M3) : (a.mul b).det = a.det * b.det := by
  simp [M3.mul, M3.det]; ring

theorem M3.det_transpose (a : M3) : a.transpose.det = a.det := by
  simp [M3.transpose, M3.det]; ring

@[simp] theorem M3.transpose_transpose (a : M3) : a.transpose.transpose = a := rfl

theorem M3.transpose_mul (a b : M3) : (a.mul b).transpose = b.transpose.mul a.transpose := by
  ext <;> simp [M3.mul, M3.transpose] <;> ring

theorem M3.same_iff (a b : M3) : a.same b = true ↔ a = b := by
  unfold M3.same
  rw [M3.ext_iff]
  simp [bne]
  constructor
  · intro h; refine ⟨?_, ?_, ?_, ?_, ?_, ?_, ?_, ?_, ?_⟩ <;> omega
  · intro h; refine ⟨⟨⟨⟨⟨⟨⟨⟨?_, ?_⟩, ?_⟩, ?_⟩, ?_⟩, ?_⟩, ?_⟩, ?_⟩, ?_⟩ <;> omega

theorem Spec.MeshCompat.mul {D : V3} {S R : M3} (hS : MeshCompat D S) (hR : MeshCompat D R) :
    MeshCompat D (S.mul R) := fun v hv => by
  rw [M3.mul_mulVec]; exact hS _ (hR _ hv)

/-! rotation by index -/

/-- Half of `R PS - PS`. -/
def shiftOf (R : M3) (PS : V3) : V3 :=
  ⟨((R.mulVec PS).x - PS.x) / 2, ((R.mulVec PS).y - PS.y) / 2, ((R.mulVec PS).z - PS.z) / 2⟩

theorem shiftOf_spec {R : M3} {PS : V3} (h : ShiftCompat PS R) :
    V3.smul 2 (shiftOf R PS) = R.mulVec PS - PS := by
  obtain ⟨h1, h2, h3⟩ := h
  ext <;> simp only [shiftOf, V3.smul_x, V3.smul_y, V3.smul_z, V3.sub_x, V3.sub_y, V3.sub_z] <;>
    omega

theorem single_of_rot {R : M3} {PS : V3} (h : ShiftCompat PS R) (a : V3) :
    singleGridAddress (R.mulVec (doubleGridAddress a PS)) PS = R.mulVec a + shiftOf R PS := by
  have hs := shiftOf_spec h
  rw [V3.ext_iff] at hs
  obtain ⟨h1, h2, h3⟩ := hs
  simp only [V3.smul_x, V3.smul_y, V3.smul_z, V3.sub_x, V3.sub_y, V3.sub_z] at h1 h2 h3
  have key : ∀ p q : Int, p = 2 * q → p.tdiv 2 = q := by
    intro p q hpq; subst hpq; exact Int.mul_tdiv_cancel_left q (by decide)
  ext <;> simp only [singleGridAddress, V3.add_x, V3.add_y, V3.add_z] <;> apply key
  · have : (R.mulVec (doubleGridAddress a PS)).x = 2 * (R.mulVec a).x + (R.mulVec PS).x := by
      simp [M3.mulVec, doubleGridAddress]; ring
    rw [this]; linarith
  · have : (R.mulVec (doubleGridAddress a PS)).y = 2 * (R.mulVec a).y + (R.mulVec PS).y := by
      simp [M3.mulVec, doubleGridAddress]; ring
    rw [this]; linarith
  · have : (R.mulVec (doubleGridAddress a PS)).z = 2 * (R.mulVec a).z + (R.mulVec PS).z := by
      simp [M3.mulVec, doubleGridAddress]; ring
    rw [this]; linarith

theorem rotateGridIndex_eq {R : M3} {PS : V3} (h : ShiftCompat PS R) (g : Int) (D : V3) :
    rotateGridIndex g R D PS =
      gridIndex (R.mulVec (gridAddressFromIndex g D) + shiftOf R PS) D := by
  unfold rotateGridIndex doubleGridIndex gridIndex
  rw [single_of_rot h]

theorem Spec.ShiftCompat.mul {PS : V3} {S R : M3} (hS : ShiftCompat PS S) (hR : ShiftCompat PS R) :
    ShiftCompat PS (S.mul R) ∧
      shiftOf (S.mul R) PS = S.mulVec (shiftOf R PS) + shiftOf S PS := by
  have h1 := shiftOf_spec hS
  have h2 := shiftOf_spec hR
  have h3 : (S.mul R).mulVec PS - PS = V3.smul 2 (S.mulVec (shiftOf R PS) + shiftOf S PS) := by
    rw [M3.mul_mulVec]
    have e : R.mulVec PS = V3.smul 2 (shiftOf R PS) + PS := by
      rw [h2]; ext <;> simp
    rw [e, M3.mulVec_add, M3.mulVec_smul]
    have e2 : S.mulVec PS = V3.smul 2 (shiftOf S PS) + PS := by
      rw [h1]; ext <;> simp
    rw [e2]
    ext <;> simp <;> ring
  rw [V3.ext_iff] at h3
  simp only [V3.smul_x, V3.smul_y, V3.smul_z, V3.sub_x, V3.sub_y, V3.sub_z] at h3
  refine ⟨⟨?_, ?_, ?_⟩, ?_⟩
  · exact ⟨_, h3.1⟩
  · exact ⟨_, h3.2.1⟩
  · exact ⟨_, h3.2.2⟩
  · generalize S.mulVec (shiftOf R PS) + shiftOf S PS = w at h3
    ext <;> simp only [shiftOf] <;> omega

theorem rotateGridIndex_bounds (g : Int) (R : M3) (D PS : V3) (hD : PosMesh D) :
    0 ≤ rotateGridIndex g R D PS ∧ rotateGridIndex g R D PS < numGrid D :=
  gridIndex_bounds _ D hD

theorem address_samePoint_of_index (a D : V3) (hD : PosMesh D) :
    SamePoint D (gridAddressFromIndex (gridIndex a D) D) a := by
  rw [address_gridIndex a D hD]; exact reduce_samePoint a D hD

theorem Spec.SamePoint.rot {D : V3} {R : M3} (hR : MeshCompat D R) {a b : V3} (h : SamePoint D a b)
    (s : V3) : SamePoint D (R.mulVec a + s) (R.mulVec b + s) := by
  have := hR _ h
  rw [M3.mulVec_sub] at this
  have e : (R.mulVec a + s) - (R.mulVec b + s) = R.mulVec a - R.mulVec b := by ext <;> simp
  unfold SamePoint; rw [e]; exact this

theorem rotate_comp {D PS : V3} (hD : PosMesh D) {S R : M3} (hS : MeshCompat D S)
    (pS : ShiftCompat PS S) (pR : ShiftCompat PS R) (g : Int) :
    rotateGridIndex (rotateGridIndex g R D PS) S D PS = rotateGridIndex g (S.mul R) D PS := by
  rw [rotateGridIndex_eq pS, rotateGridIndex_eq pR, rotateGridIndex_eq (pS.mul pR).1,
    gridIndex_eq_iff _ _ _ hD]
  have h1 := (address_samePoint_of_index (R.mulVec (gridAddressFromIndex g D) + shiftOf R PS) D hD).rot
    hS (shiftOf S PS)
  refine h1.trans ?_
  rw [(pS.mul pR).2, M3.mul_mulVec, M3.mulVec_add]
  have : S.mulVec (R.mulVec (gridAddressFromIndex g D)) + S.mulVec (shiftOf R PS) + shiftOf S PS
     = S.mulVec (R.mulVec (gridAddressFromIndex g D)) + (S.mulVec (shiftOf R PS) + shiftOf S PS) := by
    ext <;> simp <;> ring
  rw [this]; exact SamePoint.refl _ _

theorem shiftCompat_one (PS : V3) : ShiftCompat PS M3.one := by simp [ShiftCompat]

theorem meshCompat_one (D : V3) : MeshCompat D M3.one := fun v hv => by simpa using hv

theorem rotate_one {D PS : V3} (hD : PosMesh D) (g : Int) (h0 : 0 ≤ g) (h1 : g < numGrid D) :
    rotateGridIndex g M3.one D PS = g := by
  rw [rotateGridIndex_eq (shiftCompat_one PS)]
  have : shiftOf M3.one PS = 0 := by ext <;> simp [shiftOf]
  rw [this, M3.one_mulVec]
  have e : gridAddressFromIndex g D + 0 = gridAddressFromIndex g D := by ext <;> simp
  rw [e]; exact gridIndex_addressFromIndex g D hD h0 h1

/-- Rotation by index meets the address-level specification. -/
theorem rotatesTo_iff {D PS : V3} (hD : PosMesh D) {R : M3} (pR : ShiftCompat PS R)
    (g h : Int) (h0 : 0 ≤ h) (h1 : h < numGrid D) :
    RotatesTo D PS R (gridAddressFromIndex g D) (gridAddressFromIndex h D) ↔
      rotateGridIndex g R D PS = h := by
  rw [rotateGridIndex_eq pR]
  constructor
  · intro hr
    rw [← gridIndex_addressFromIndex h D hD h0 h1, gridIndex_eq_iff _ _ _ hD]
    apply SamePoint.symm
    have hs := shiftOf_spec pR
    have e : V3.smul 2 (gridAddressFromIndex h D) + PS -
        R.mulVec (V3.smul 2 (gridAddressFromIndex g D) + PS) =
        V3.smul 2 (gridAddressFromIndex h D -
          (R.mulVec (gridAddressFromIndex g D) + shiftOf R PS)) := by
      rw [M3.mulVec_add, M3.mulVec_smul]
      have e2 : R.mulVec PS = V3.smul 2 (shiftOf R PS) + PS := by rw [hs]; ext <;> simp
      rw [e2]; ext <;> simp <;> ring
    unfold RotatesTo at hr
    rw [e] at hr
    obtain ⟨a1, a2, a3⟩ := hr
    simp only [V3.smul_x, V3.smul_y, V3.smul_z] at a1 a2 a3
    exact ⟨Int.dvd_of_mul_dvd_mul_left (by decide) a1, Int.dvd_of_mul_dvd_mul_left (by decide) a2,
      Int.dvd_of_mul_dvd_mul_left (by decide) a3⟩
  · intro hr
    have h2 := address_samePoint_of_index (R.mulVec (gridAddressFromIndex g D) + shiftOf R PS) D hD
    rw [hr] at h2
    have hs := shiftOf_spec pR
    have e : V3.smul 2 (gridAddressFromIndex h D) + PS -
        R.mulVec (V3.smul 2 (gridAddressFromIndex g D) + PS) =
        V3.smul 2 (gridAddressFromIndex h D -
          (R.mulVec (gridAddressFromIndex g D) + shiftOf R PS)) := by
      rw [M3.mulVec_add, M3.mulVec_smul]
      have e2 : R.mulVec PS = V3.smul 2 (shiftOf R PS) + PS := by rw [hs]; ext <;> simp
      rw [e2]; ext <;> simp <;> ring
    unfold RotatesTo
    rw [e]
    obtain ⟨a1, a2, a3⟩ := h2
    exact ⟨Int.mul_dvd_mul_left _ a1, Int.mul_dvd_mul_left _ a2, Int.mul_dvd_mul_left _ a3⟩

end Phono3py
