/-
Property theorems C01-C06: regular grid, rotations, irreducible points, point group.
-/
import Verif.Lemmas.IrMap
import Verif.Lemmas.PointGroup
import Verif.Lemmas.Unimodular

namespace Phono3py.Props
open Phono3py Phono3py.Spec

/-! ## C01 index and address are inverse to each other -/

/-- C01, index to address and back. -/
theorem C01_index_roundtrip (D : V3) (hD : PosMesh D) (g : Int) (h0 : 0 ≤ g)
    (h1 : g < D.x * D.y * D.z) :
    InCell D (gridAddressFromIndex g D) ∧ gridIndex (gridAddressFromIndex g D) D = g :=
  ⟨(index_of_address g D hD h0 h1).1, gridIndex_addressFromIndex g D hD h0 h1⟩

/-- C01, address to index and back; the index is in range. -/
theorem C01_address_roundtrip (D a : V3) (ha : InCell D a) :
    (0 ≤ gridIndex a D ∧ gridIndex a D < D.x * D.y * D.z) ∧
      gridAddressFromIndex (gridIndex a D) D = a := by
  have e : gridIndex a D = gridIndexFromAddress a D := by
    unfold gridIndex; rw [reduce_of_inCell a D ha]
  rw [e]
  exact ⟨index_bounds a D ha, address_of_index a D ha⟩

/-- C01, the table of all addresses: row `g` is the address of grid point `g`, and no row
outside the grid is written, whatever the table held before. -/
theorem C01_address_table (D : V3) (hD : PosMesh D) (init : Int → V3) (g : Int) :
    allGridAddresses D init g =
      if 0 ≤ g ∧ g < D.x * D.y * D.z then gridAddressFromIndex g D else init g :=
  allGridAddresses_spec D hD init g

example : PosMesh ⟨4, 5, 6⟩ ∧ (0:Int) ≤ 77 ∧ (77:Int) < 4 * 5 * 6 ∧
    gridAddressFromIndex 77 ⟨4, 5, 6⟩ = ⟨1, 4, 3⟩ ∧ gridIndex ⟨1, 4, 3⟩ ⟨4, 5, 6⟩ = 77 := by decide
example : InCell ⟨4, 5, 6⟩ ⟨1, 4, 3⟩ := by unfold InCell; decide

/-! ## C02 addresses modulo the mesh -/

/-- C02: the grid-point index of an arbitrary integer address is in range. -/
theorem C02_index_in_range (D a : V3) (hD : PosMesh D) :
    0 ≤ gridIndex a D ∧ gridIndex a D < D.x * D.y * D.z := gridIndex_bounds a D hD

/-- C02: equal index exactly when equal modulo the mesh. -/
theorem C02_same_index_iff (D a b : V3) (hD : PosMesh D) :
    gridIndex a D = gridIndex b D ↔
      D.x ∣ a.x - b.x ∧ D.y ∣ a.y - b.y ∧ D.z ∣ a.z - b.z :=
  gridIndex_eq_iff a b D hD

/-- C02: the Python routine and the compiled routine agree on every address. -/
theorem C02_python_agrees (D a : V3) (hD : PosMesh D) : gridIndexPy a D = gridIndex a D := by
  rw [gridIndex_eq a D hD]
  unfold gridIndexPy
  rw [Int.fmod_eq_emod_of_nonneg _ hD.1.le, Int.fmod_eq_emod_of_nonneg _ hD.2.1.le,
    Int.fmod_eq_emod_of_nonneg _ hD.2.2.le]
  ring

example : gridIndex ⟨-1, -6, 20⟩ ⟨4, 5, 6⟩ = gridIndex ⟨3, 4, 2⟩ ⟨4, 5, 6⟩ ∧
    gridIndex ⟨-1, -6, 20⟩ ⟨4, 5, 6⟩ = 59 ∧ gridIndexPy ⟨-1, -6, 20⟩ ⟨4, 5, 6⟩ = 59 := by decide

/-! ## C03 rotations permute grid points -/

/-- C03: rotation by index stays on the grid and does what a rotation of (shifted) q-points
should do: the result is the unique grid point with `2 a' + PS = R (2 a + PS)` mod `2 D`. -/
theorem C03_rotation_spec (D PS : V3) (hD : PosMesh D) (R : M3) (hs : ShiftCompat PS R)
    (g h : Int) (h0 : 0 ≤ h) (h1 : h < D.x * D.y * D.z) :
    (0 ≤ rotateGridIndex g R D PS ∧ rotateGridIndex g R D PS < D.x * D.y * D.z) ∧
    (rotateGridIndex g R D PS = h ↔
      RotatesTo D PS R (gridAddressFromIndex g D) (gridAddressFromIndex h D)) :=
  ⟨rotateGridIndex_bounds g R D PS hD, (rotatesTo_iff hD hs g h h0 h1).symm⟩

/-- C03: composing two rotations is rotating by the product. -/
theorem C03_rotation_comp (D PS : V3) (hD : PosMesh D) (S R : M3) (hS : MeshCompat D S)
    (pS : ShiftCompat PS S) (pR : ShiftCompat PS R) (g : Int) :
    rotateGridIndex (rotateGridIndex g R D PS) S D PS = rotateGridIndex g (S.mul R) D PS :=
  rotate_comp hD hS pS pR g

/-- C03: a compatible unimodular rotation is a permutation of the grid points. -/
theorem C03_rotation_bijective (D PS : V3) (hD : PosMesh D) (R : M3) (hdet : R.det.natAbs = 1)
    (hm : MeshCompat D R) (hs : ShiftCompat PS R) :
    (∀ g h : Int, 0 ≤ g → g < D.x * D.y * D.z → 0 ≤ h → h < D.x * D.y * D.z →
      rotateGridIndex g R D PS = rotateGridIndex h R D PS → g = h) ∧
    (∀ h : Int, 0 ≤ h → h < D.x * D.y * D.z →
      ∃ g, (0 ≤ g ∧ g < D.x * D.y * D.z) ∧ rotateGridIndex g R D PS = h) := by
  obtain ⟨i1, i2⟩ := M3.cofactorsDiv_mul R hdet
  have hm' := meshCompat_inverse hD hm hdet i1
  have hs' := shiftCompat_inverse hs i1
  refine ⟨fun g h g0 g1 h0 h1 e => ?_, fun h h0 h1 => ?_⟩
  · have := congrArg (fun x => rotateGridIndex x (R.cofactorsDiv R.det) D PS) e
    simp only [rotate_comp hD hm' hs' hs, i1] at this
    rwa [rotate_one hD g g0 g1, rotate_one hD h h0 h1] at this
  · exact ⟨_, rotateGridIndex_bounds h (R.cofactorsDiv R.det) D PS hD, by
      rw [rotate_comp hD hm hs hs', i2, rotate_one hD h h0 h1]⟩

/-- C03: the check `_satisfy_shift_symmetry` establishes the shift condition for the shift
that is really used, `PS = P S`. -/
theorem C03_shift_check_sound (P : M3) (S : V3) (rots : List M3)
    (h : satisfyShiftSymmetry P S rots = some true) (R : M3) (hR : R ∈ rots) :
    ShiftCompat (P.mulVec S) R := satisfyShift_compat P S rots h R hR

/-- Without the shift condition the claim fails: truncation merges two grid points. -/
theorem C03_shift_condition_needed :
    ∃ (D PS : V3) (R : M3), PosMesh D ∧ R.det.natAbs = 1 ∧ ¬ ShiftCompat PS R ∧
      ∃ g h : Int, g ≠ h ∧ 0 ≤ g ∧ 0 ≤ h ∧ g < numGrid D ∧ h < numGrid D ∧
      rotateGridIndex g R D PS = rotateGridIndex h R D PS :=
  ⟨⟨4, 4, 1⟩, ⟨0, 1, 0⟩, ⟨1, -1, 0, 1, 0, 0, 0, 0, 1⟩, by decide, by decide, by decide,
    0, 1, by decide, by decide, by decide, by decide, by decide, by decide⟩

/-- Four-fold rotation on a 4x4x3 mesh shifted along all axes. -/
example : PosMesh ⟨4, 4, 3⟩ ∧ (⟨0, -1, 0, 1, 0, 0, 0, 0, 1⟩ : M3).det.natAbs = 1 ∧
    ShiftCompat ⟨1, 1, 1⟩ ⟨0, -1, 0, 1, 0, 0, 0, 0, 1⟩ ∧
    rotateGridIndex 1 ⟨0, -1, 0, 1, 0, 0, 0, 0, 1⟩ ⟨4, 4, 3⟩ ⟨1, 1, 1⟩ = 7 := by decide
example : MeshCompat ⟨4, 4, 3⟩ ⟨0, -1, 0, 1, 0, 0, 0, 0, 1⟩ := by
  rw [meshCompat_iff]; decide
example : satisfyShiftSymmetry ⟨1, 2, 0, 0, 1, 0, 0, 0, 1⟩ ⟨1, 1, 0⟩
    [M3.one, ⟨-1, -4, 0, 0, -1, 0, 0, 0, -1⟩] = some true := by decide

/-! ## C04 the irreducible map -/

/-- C04: the map sends every grid point to the smallest symmetry-equivalent grid point. -/
theorem C04_ir_map_is_smallest (G : List M3) (D PS : V3) (h : GridGroup G D PS) (g : Int)
    (g0 : 0 ≤ g) (g1 : g < D.x * D.y * D.z) :
    (0 ≤ irGridMap G D PS g ∧ irGridMap G D PS g < D.x * D.y * D.z) ∧
    SymEquiv G D PS (gridAddressFromIndex g D)
      (gridAddressFromIndex (irGridMap G D PS g) D) ∧
    ∀ k, 0 ≤ k → k < D.x * D.y * D.z →
      SymEquiv G D PS (gridAddressFromIndex g D) (gridAddressFromIndex k D) →
      irGridMap G D PS g ≤ k := by
  have hb := irGridMap_bounds h g g0 g1
  have hb' : irGridMap G D PS g < D.x * D.y * D.z := by omega
  obtain ⟨⟨R, hR, e⟩, hm⟩ := irGridMap_min h g g0 g1
  refine ⟨⟨hb.1, hb'⟩, ⟨R, hR, ?_⟩, ?_⟩
  · exact (rotatesTo_iff h.pos (h.shift R hR) g _ hb.1 hb').2 e
  · rintro k k0 k1 ⟨S, hS, hk⟩
    rw [rotatesTo_iff h.pos (h.shift S hS) g k k0 k1] at hk
    rw [← hk]; exact hm S hS

/-- C04: same image exactly for symmetry-equivalent grid points. -/
theorem C04_ir_map_classes (G : List M3) (D PS : V3) (h : GridGroup G D PS) (g k : Int)
    (g0 : 0 ≤ g) (g1 : g < D.x * D.y * D.z) (k0 : 0 ≤ k) (k1 : k < D.x * D.y * D.z) :
    irGridMap G D PS g = irGridMap G D PS k ↔
      SymEquiv G D PS (gridAddressFromIndex g D) (gridAddressFromIndex k D) := by
  rw [irGridMap_eq_iff h g k g0 g1 k0 k1]
  unfold SymEquiv
  constructor
  · rintro ⟨R, hR, e⟩
    exact ⟨R, hR, (rotatesTo_iff h.pos (h.shift R hR) g k k0 k1).2 e⟩
  · rintro ⟨R, hR, e⟩
    exact ⟨R, hR, (rotatesTo_iff h.pos (h.shift R hR) g k k0 k1).1 e⟩

/-- C04: the map is idempotent. -/
theorem C04_ir_map_idempotent (G : List M3) (D PS : V3) (h : GridGroup G D PS) (g : Int)
    (g0 : 0 ≤ g) (g1 : g < D.x * D.y * D.z) :
    irGridMap G D PS (irGridMap G D PS g) = irGridMap G D PS g := by
  obtain ⟨⟨R, hR, e⟩, _⟩ := irGridMap_min h g g0 g1
  conv_lhs => rw [← e]
  exact irGridMap_rot h g g0 g1 hR

/-- A concrete instance: the group {1, C2} on a shifted 4x4x3 mesh. -/
theorem exampleGroup :
    GridGroup [M3.one, ⟨-1, 0, 0, 0, -1, 0, 0, 0, 1⟩] ⟨4, 4, 3⟩ ⟨1, 0, 1⟩ where
  pos := by decide
  grp := ⟨by decide, by decide, by decide⟩
  mesh := by
    intro R hR
    simp only [List.mem_cons, List.not_mem_nil, or_false] at hR
    rcases hR with rfl | rfl <;> rw [meshCompat_iff] <;> decide
  shift := by decide

example : irGridMap [M3.one, ⟨-1, 0, 0, 0, -1, 0, 0, 0, 1⟩] ⟨4, 4, 3⟩ ⟨1, 0, 1⟩ 3 = 0 ∧
    irGridMap [M3.one, ⟨-1, 0, 0, 0, -1, 0, 0, 0, 1⟩] ⟨4, 4, 3⟩ ⟨1, 0, 1⟩ 12 = 7 := by
  decide +kernel

/-! ## C05 weights -/

/-- The mapping table handed to `extract_ir_grid_points`. -/
private theorem table_lt (G : List M3) (D PS : V3) (h : GridGroup G D PS) :
    ∀ v ∈ (List.range (numGrid D).toNat).map (fun (i : Nat) => (irGridMap G D PS i).toNat),
      v < (numGrid D).toNat := by
  intro v hv
  simp only [List.mem_map, List.mem_range] at hv
  obtain ⟨i, hi, rfl⟩ := hv
  have := irGridMap_bounds h i (by omega) (by omega)
  omega

/-- C05: the weights add up to the number of grid points, and are all positive. -/
theorem C05_weights_sum (G : List M3) (D PS : V3) (h : GridGroup G D PS) :
    ((irGridPoints G D PS).2.1.sum : Int) = D.x * D.y * D.z ∧
    ∀ w ∈ (irGridPoints G D PS).2.1, 0 < w := by
  constructor
  · simp only [irGridPoints, extractIrGridPoints]
    rw [sum_count_filter _ _ (table_lt G D PS h)]
    have := numGrid_pos D h.pos
    simp only [List.length_map, List.length_range]
    unfold numGrid at *
    omega
  · intro w hw
    simp only [irGridPoints, extractIrGridPoints, uniqueBelow, List.mem_map, List.mem_filter,
      decide_eq_true_eq] at hw
    obtain ⟨v, ⟨_, hv⟩, rfl⟩ := hw
    rw [List.count_pos_iff]
    simpa using hv

/-- C05: the irreducible points are, in ascending order, exactly the grid points that are
smallest in their orbit, and the weight of each is the number of grid points equivalent
to it. -/
theorem C05_ir_points_and_weights (G : List M3) (D PS : V3) (h : GridGroup G D PS) :
    (irGridPoints G D PS).1 =
      (List.range (D.x * D.y * D.z).toNat).filter
        (fun (v : Nat) => decide (irGridMap G D PS v = v)) ∧
    (irGridPoints G D PS).2.1 = (irGridPoints G D PS).1.map (fun (v : Nat) =>
      (List.range (D.x * D.y * D.z).toNat).countP (fun (k : Nat) =>
        decide (irGridMap G D PS k = v))) := by
  have hN : numGrid D = D.x * D.y * D.z := rfl
  constructor
  · simp only [irGridPoints, extractIrGridPoints, uniqueBelow]
    rw [hN]
    apply List.filter_congr
    intro v hv
    simp only [List.mem_range] at hv
    simp only [decide_eq_decide, List.mem_map, List.mem_range]
    constructor
    · rintro ⟨i, hi, e⟩
      have hi' : (i : Int) < D.x * D.y * D.z := by omega
      have hb := irGridMap_bounds h i (by omega) hi'
      have e' : irGridMap G D PS i = v := by omega
      rw [← e']; exact C04_ir_map_idempotent G D PS h i (by omega) hi'
    · intro e; exact ⟨v, hv, by omega⟩
  · simp only [irGridPoints, extractIrGridPoints]
    apply List.map_congr_left
    intro v _
    rw [List.count, List.countP_map, hN]
    apply List.countP_congr
    intro i hi
    simp only [List.mem_range] at hi
    have hb := irGridMap_bounds h i (by omega) (by rw [hN]; omega)
    simp only [Function.comp, beq_iff_eq, decide_eq_true_eq]
    omega

/-- C05: the number of irreducible points reported by the compiled routine is the number of
points returned, which is positive, so the Python wrapper never raises for a valid group. -/
theorem C05_num_ir (G : List M3) (D PS : V3) (h : GridGroup G D PS) :
    numIrGrid G D PS = (irGridPoints G D PS).1.length ∧
    irGridPoints? G D PS = some (irGridPoints G D PS) := by
  have e : numIrGrid G D PS = (irGridPoints G D PS).1.length := by
    rw [(C05_ir_points_and_weights G D PS h).1, ← List.countP_eq_length_filter]
    rfl
  refine ⟨e, ?_⟩
  have hN := numGrid_pos D h.pos
  have h0 : irGridMap G D PS (0 : Nat) = (0 : Nat) := by
    have := irGridMap_bounds h 0 le_rfl hN
    simp; omega
  have : 0 < numIrGrid G D PS := by
    unfold numIrGrid
    rw [List.countP_pos_iff]
    exact ⟨0, by simp; omega, by simpa using h0⟩
  simp [irGridPoints?, this]

example : (irGridPoints [M3.one, ⟨-1, 0, 0, 0, -1, 0, 0, 0, 1⟩] ⟨2, 2, 1⟩ ⟨1, 0, 0⟩) =
    ([0, 2], [2, 2], [0, 0, 2, 2]) := by decide

/-! ## C06 reciprocal point group -/

private theorem negOne_mul_negOne (a : M3) : M3.negOne.mul (M3.negOne.mul a) = a := by
  ext <;> simp [M3.mul, M3.negOne]

private theorem negOne_comm (a : M3) : M3.negOne.mul a = a.mul M3.negOne := by
  ext <;> simp [M3.mul, M3.negOne]

private theorem negOne_transpose : M3.negOne.transpose = M3.negOne := rfl

/-- C06: which rotations are returned. -/
theorem C06_members (rots L : List M3) (tr tp : Bool)
    (h : reciprocalPointGroup rots tr tp = some L) (r : M3) :
    r ∈ L ↔
      (∃ s ∈ rots, r = if tp then s.transpose else s) ∨
      (tr = true ∧ M3.negOne ∉ rots ∧
        ∃ s ∈ rots, r = M3.negOne.mul (if tp then s.transpose else s)) := by
  unfold reciprocalPointGroup at h
  split at h
  · simp at h
  · rename_i u hu
    obtain ⟨_, hmem⟩ := collectUnique_some [] rots u List.nodup_nil hu
    have hmem' : ∀ r, r ∈ u ↔ r ∈ rots := by simpa using hmem
    have hu' : ∀ r, (r ∈ if tp then u.map M3.transpose else u) ↔
        ∃ s ∈ rots, r = if tp then s.transpose else s := by
      intro r
      cases tp <;> simp [hmem', eq_comm]
    have hneg : M3.negOne ∈ rots ↔ M3.negOne ∈ (if tp then u.map M3.transpose else u) := by
      rw [hu']
      cases tp
      · simp
      · constructor
        · intro hm; exact ⟨_, hm, rfl⟩
        · rintro ⟨s, hs, e⟩
          have : s = M3.negOne := by
            have := congrArg M3.transpose e
            simpa [negOne_transpose] using this.symm
          exact this ▸ hs
    rw [hneg]
    simp only at h
    generalize (if tp then u.map M3.transpose else u) = w at *
    cases tr
    · simp at h; subst h; simp [hu']
    · simp only [if_true] at h
      split at h
      · rename_i hinv
        rw [any_same] at hinv
        simp at h; subst h
        simp only [hinv, not_true_eq_false, false_and, and_false, or_false, hu']
      · rename_i hinv
        rw [any_same] at hinv
        split at h
        · simp at h
        · simp at h; subst h
          simp only [hinv, not_false_eq_true, true_and]
          simp only [List.mem_append, List.mem_map, hu']
          constructor
          · rintro (h | ⟨a, ⟨s, hs, rfl⟩, rfl⟩)
            · exact Or.inl h
            · exact Or.inr ⟨s, hs, rfl⟩
          · rintro (h | ⟨s, hs, rfl⟩)
            · exact Or.inl h
            · exact Or.inr ⟨_, ⟨s, hs, rfl⟩, rfl⟩

/-- C06: failure is reported exactly when the 48-entry table would overflow. -/
theorem C06_failure_iff (rots : List M3) (tr tp : Bool) :
    reciprocalPointGroup rots tr tp = none ↔
      48 < rots.dedup.length ∨
      (tr = true ∧ M3.negOne ∉ rots ∧ 24 < rots.dedup.length) := by
  unfold reciprocalPointGroup
  split
  · rename_i h
    rw [collectUnique_none_iff [] rots List.nodup_nil (by simp)] at h
    simp at h; simp [h]
  · rename_i u hu
    have hn : ¬ (48 < rots.dedup.length) := by
      intro hlt
      have := (collectUnique_none_iff [] rots List.nodup_nil (by simp)).2 (by simpa using hlt)
      rw [this] at hu; simp at hu
    obtain ⟨hnd, hmem⟩ := collectUnique_some [] rots u List.nodup_nil hu
    have hmem' : ∀ r, r ∈ u ↔ r ∈ rots := by simpa using hmem
    have hlen : u.length = rots.dedup.length := by
      apply List.Perm.length_eq
      rw [List.perm_ext_iff_of_nodup hnd (List.nodup_dedup _)]
      simpa using hmem'
    have hneg : M3.negOne ∈ rots ↔ M3.negOne ∈ (if tp then u.map M3.transpose else u) := by
      cases tp
      · simp [hmem']
      · simp only [if_true, List.mem_map, hmem']
        constructor
        · intro hm; exact ⟨_, hm, rfl⟩
        · rintro ⟨s, hs, e⟩
          have : s = M3.negOne := by
            have := congrArg M3.transpose e
            simpa [negOne_transpose] using this
          exact this ▸ hs
    have hlen' : (if tp then u.map M3.transpose else u).length = rots.dedup.length := by
      cases tp <;> simp [hlen]
    rw [hneg]
    simp only
    generalize (if tp then u.map M3.transpose else u) = w at *
    cases tr
    · simp; omega
    · simp only [if_true, true_and]
      split
      · rename_i hinv
        rw [any_same] at hinv
        simp [hinv]; omega
      · rename_i hinv
        rw [any_same] at hinv
        simp only [hinv, not_false_eq_true, true_and]
        split <;> simp <;> omega

private theorem transposed_group {G : List M3} (hG : IsGroup G) (tp : Bool) :
    IsGroup (G.map (fun s => if tp then s.transpose else s)) := by
  cases tp
  · simpa using hG
  · refine ⟨?_, ?_, ?_⟩
    · simp only [if_true, List.mem_map]; exact ⟨_, hG.one_mem, rfl⟩
    · simp only [if_true, List.mem_map]
      rintro _ ⟨a, ha, rfl⟩ _ ⟨b, hb, rfl⟩
      exact ⟨b.mul a, hG.mul_mem _ hb _ ha, M3.transpose_mul b a⟩
    · simp only [if_true, List.mem_map]
      rintro _ ⟨a, ha, rfl⟩
      obtain ⟨b, hb, e⟩ := hG.inv_mem a ha
      obtain ⟨c, hc, e'⟩ := hG.inv_mem b hb
      have hca : c = a := by
        calc c = c.mul (b.mul a) := by rw [e, M3.mul_one]
          _ = (c.mul b).mul a := by rw [M3.mul_assoc]
          _ = a := by rw [e', M3.one_mul]
      subst hca
      refine ⟨b.transpose, ⟨b, hb, rfl⟩, ?_⟩
      rw [← M3.transpose_mul, e']; rfl

/-- C06: from a group the routine returns a duplicate-free group, closed under negation when
time reversal is requested. -/
theorem C06_group (rots L : List M3) (tr tp : Bool) (hG : IsGroup rots)
    (h : reciprocalPointGroup rots tr tp = some L) :
    L.Nodup ∧ IsGroup L ∧ (tr = true → ∀ r ∈ L, M3.negOne.mul r ∈ L) := by
  have hmem := C06_members rots L tr tp h
  set G' := rots.map (fun s => if tp then s.transpose else s) with hG'
  have hT := transposed_group hG tp
  rw [← hG'] at hT
  have hmG : ∀ r, (∃ s ∈ rots, r = if tp then s.transpose else s) ↔ r ∈ G' := by
    intro r; simp [hG', eq_comm]
  have hmN : ∀ r, (∃ s ∈ rots, r = M3.negOne.mul (if tp then s.transpose else s)) ↔
      M3.negOne.mul r ∈ G' := by
    intro r
    rw [← hmG]
    constructor
    · rintro ⟨s, hs, rfl⟩; exact ⟨s, hs, by rw [negOne_mul_negOne]⟩
    · rintro ⟨s, hs, e⟩; exact ⟨s, hs, by rw [← e, negOne_mul_negOne]⟩
  have hnegG : M3.negOne ∈ rots ↔ M3.negOne ∈ G' := by
    rw [← hmG]
    cases tp
    · simp
    · constructor
      · intro hm; exact ⟨_, hm, rfl⟩
      · rintro ⟨s, hs, e⟩
        have : s = M3.negOne := by
          have := congrArg M3.transpose e
          simpa [negOne_transpose] using this.symm
        exact this ▸ hs
  simp only [hmG, hmN, hnegG] at hmem
  refine ⟨?_, ?_, ?_⟩
  · -- no duplicates
    unfold reciprocalPointGroup at h
    split at h
    · simp at h
    · rename_i u hu
      obtain ⟨hnd, hmu⟩ := collectUnique_some [] rots u List.nodup_nil hu
      have hmu' : ∀ r, r ∈ u ↔ r ∈ rots := by simpa using hmu
      have hw : ∀ r, (r ∈ if tp then u.map M3.transpose else u) ↔ r ∈ G' := by
        intro r; rw [← hmG]; cases tp <;> simp [hmu', eq_comm]
      have hwn : (if tp then u.map M3.transpose else u).Nodup := by
        cases tp
        · simpa using hnd
        · simp only [if_true]
          exact hnd.map (fun a b e => by
            have := congrArg M3.transpose e; simpa using this)
      simp only at h
      generalize (if tp then u.map M3.transpose else u) = w at *
      cases tr
      · simp at h; subst h; exact hwn
      · simp only [if_true] at h
        split at h
        · simp at h; subst h; exact hwn
        · rename_i hinv
          rw [any_same] at hinv
          split at h
          · simp at h
          · simp at h; subst h
            rw [List.nodup_append]
            refine ⟨hwn, hwn.map (fun a b e => ?_), ?_⟩
            · have := congrArg (fun x => M3.negOne.mul x) e
              simpa [negOne_mul_negOne] using this
            · rintro a ha b hb rfl
              simp only [List.mem_map] at hb
              obtain ⟨c, hc, e⟩ := hb
              apply hinv
              rw [hw] at ha hc ⊢
              obtain ⟨c', hc', ec⟩ := hT.inv_mem c hc
              have h1 := hT.mul_mem _ ha _ hc'
              -- a = -c, c' c = 1, so c c' = 1 and a c' = -1
              obtain ⟨c'', hc'', ec''⟩ := hT.inv_mem c' hc'
              have : c'' = c := by
                calc c'' = c''.mul (c'.mul c) := by rw [ec, M3.mul_one]
                  _ = (c''.mul c').mul c := by rw [M3.mul_assoc]
                  _ = c := by rw [ec'', M3.one_mul]
              subst this
              rw [← e, M3.mul_assoc, ec'', M3.mul_one] at h1
              exact h1
  · -- group
    refine ⟨(hmem _).2 (Or.inl hT.one_mem), ?_, ?_⟩
    · intro a ha b hb
      rw [hmem] at ha hb ⊢
      rcases ha with ha | ⟨h1, h2, ha⟩ <;> rcases hb with hb | ⟨h3, h4, hb⟩
      · exact Or.inl (hT.mul_mem _ ha _ hb)
      · refine Or.inr ⟨h3, h4, ?_⟩
        have := hT.mul_mem _ ha _ hb
        rwa [← M3.mul_assoc, ← negOne_comm, M3.mul_assoc] at this
      · refine Or.inr ⟨h1, h2, ?_⟩
        have := hT.mul_mem _ ha _ hb
        rwa [M3.mul_assoc] at this
      · left
        have := hT.mul_mem _ ha _ hb
        rw [M3.mul_assoc, ← M3.mul_assoc a, ← negOne_comm a, M3.mul_assoc M3.negOne a b,
          negOne_mul_negOne] at this
        exact this
    · intro a ha
      rw [hmem] at ha
      rcases ha with ha | ⟨h1, h2, ha⟩
      · obtain ⟨b, hb, e⟩ := hT.inv_mem a ha
        exact ⟨b, (hmem b).2 (Or.inl hb), e⟩
      · obtain ⟨b, hb, e⟩ := hT.inv_mem _ ha
        refine ⟨M3.negOne.mul b, (hmem _).2 (Or.inr ⟨h1, h2, by rwa [negOne_mul_negOne]⟩), ?_⟩
        rw [negOne_comm b, M3.mul_assoc, e]
  · intro htr r hr
    rw [hmem] at hr ⊢
    by_cases hinv : M3.negOne ∈ G'
    · rcases hr with hr | ⟨_, h2, _⟩
      · exact Or.inl (hT.mul_mem _ hinv _ hr)
      · exact absurd hinv h2
    · rcases hr with hr | ⟨_, _, hr⟩
      · exact Or.inr ⟨htr, hinv, by rwa [negOne_mul_negOne]⟩
      · exact Or.inl hr

/-- The group {1, C2z}, listed with a repetition, gains inversion under time reversal. -/
example : reciprocalPointGroup
    [M3.one, ⟨-1, 0, 0, 0, -1, 0, 0, 0, 1⟩, M3.one] true true =
    some [M3.one, ⟨-1, 0, 0, 0, -1, 0, 0, 0, 1⟩, M3.negOne, ⟨1, 0, 0, 0, 1, 0, 0, 0, -1⟩] ∧
    IsGroup [M3.one, ⟨-1, 0, 0, 0, -1, 0, 0, 0, 1⟩, M3.one] :=
  ⟨by decide, ⟨by decide, by decide, by decide⟩⟩

end Phono3py.Props
