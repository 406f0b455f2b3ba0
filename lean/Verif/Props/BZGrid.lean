/-
Property theorems C09-C14 and C59: the Brillouin-zone grid.
Every theorem is about `bzGrid`, the model of the C entry point, for both storage layouts
(`dense = true` is type 2, `dense = false` type 1) and arbitrary previous array contents.
-/
import Verif.Lemmas.BZGrid

namespace Phono3py.Props
open Phono3py Phono3py.Spec

section
variable {K : Type _} [Field K] [LinearOrder K] [IsStrictOrderedRing K] [FloorRing K]

/-! ## C09 -/

/-- C09: every BZ index holds a translate of the grid point it is filed under, and the
BZ-to-regular map is the grid-point index of its address. -/
theorem C09_translate (b : BZInput K) (hD : PosMesh b.D) (hl : ∃ i j, b.reclat i j ≠ 0)
    (dense : Bool) (init bz : BZGridOut) (h : bzGrid b dense init = some bz)
    (k : Int) (h0 : 0 ≤ k) (h1 : k < bz.size) :
    (0 ≤ bz.bzg2grg k ∧ bz.bzg2grg k < b.D.x * b.D.y * b.D.z) ∧
    SamePoint b.D (bz.addresses k) (gridAddressFromIndex (bz.bzg2grg k) b.D) ∧
    gridIndex (bz.addresses k) b.D = bz.bzg2grg k := by
  have F := bzGrid_facts b hD hl dense init bz h
  obtain ⟨i, hi, hk⟩ := (F.cover k).1 ⟨h0, h1⟩
  have e := F.filed i hi k hk
  have := bzImages_index b hD _ _ i hi _ (F.mem_images hi hk)
  rw [e]
  exact ⟨⟨by omega, hi⟩, this.1, this.2⟩

/-- C09: generation fails exactly when `|det Q| ≠ 1`. -/
theorem C09_failure_iff (b : BZInput K) (dense : Bool) (init : BZGridOut) :
    bzGrid b dense init = none ↔ b.Q.det ≠ 1 ∧ b.Q.det ≠ -1 := by
  unfold bzGrid M3.inverseUnimodular
  by_cases hq : b.Q.det.natAbs = 1
  · have : b.Q.det = 1 ∨ b.Q.det = -1 := by omega
    simp only [hq, bne_self_eq_false, Bool.false_eq_true, if_false, reduceCtorEq, false_iff]
    omega
  · have h2 : (b.Q.det.natAbs != 1) = true := by simpa using hq
    simp only [h2, if_true, true_iff]
    omega

/-! ## C10 -/

/-- C10: dense pointers start at 0, strictly increase and end at the number of BZ points;
block `i` is exactly the set of BZ points filed under `i`; and `grg2bzg` (the pointers
without the last one) followed by `bzg2grg` is the identity. -/
theorem C10_dense_map (b : BZInput K) (hD : PosMesh b.D) (hl : ∃ i j, b.reclat i j ≠ 0)
    (init bz : BZGridOut) (h : bzGrid b true init = some bz) :
    bz.gpMap 0 = 0 ∧ bz.gpMap (b.D.x * b.D.y * b.D.z) = bz.size ∧
    ∀ i, 0 ≤ i → i < b.D.x * b.D.y * b.D.z →
      bz.gpMap i < bz.gpMap (i + 1) ∧
      (∀ k, 0 ≤ k → k < bz.size →
        (bz.bzg2grg k = i ↔ bz.gpMap i ≤ k ∧ k < bz.gpMap (i + 1))) ∧
      bz.bzg2grg (bz.gpMap i) = i := by
  have F := bzGrid_facts b hD hl true init bz h
  have hq := (bzGrid_some b true init bz h).1
  have hne := bzImages_ne_nil b _ (bzTolerance_pos b hD hq hl) (b.Q.cofactorsDiv b.Q.det)
  have hN := numGrid_pos b.D hD
  have P := F.dense_ptr rfl
  have hmem : ∀ i : Nat, (i : Int) < numGrid b.D → ∀ k, k ∈ block b.D true bz i ↔
      bz.gpMap i ≤ k ∧ k < bz.gpMap ((i : Int) + 1) := by
    intro i hi k
    have e1 := P i (by omega)
    have e2 := P (i + 1) (by push_cast; omega)
    rw [off2_succ] at e2
    unfold block
    simp only [if_true]
    rw [mem_interval (by push_cast at e2; rw [e1, e2]; omega)]
    omega
  refine ⟨by simpa [off2] using P 0 (by omega), ?_, ?_⟩
  · rw [F.size_eq, ← P _ (by omega)]
    congr 1
    show numGrid b.D = _
    omega
  · intro i hi0 hi
    obtain ⟨n, rfl⟩ := Int.eq_ofNat_of_zero_le hi0
    have hi' : (n : Int) < numGrid b.D := hi
    have e1 := P n (by omega)
    have e2 := P (n + 1) (by push_cast; omega)
    have hlen := List.length_pos_of_ne_nil (hne n)
    have hlt : bz.gpMap n < bz.gpMap ((n : Int) + 1) := by
      rw [off2_succ] at e2
      push_cast at e2
      rw [e1, e2]; omega
    refine ⟨hlt, ?_, ?_⟩
    · intro k h0 h1
      rw [← hmem n hi' k]
      constructor
      · intro e
        obtain ⟨j, hj, hk⟩ := (F.cover k).1 ⟨h0, h1⟩
        have := F.filed j hj k hk
        have : j = n := by rw [e] at this; exact_mod_cast this.symm
        rwa [this] at hk
      · exact F.filed n hi' k
    · exact F.filed n hi' _ ((hmem n hi' _).2 ⟨le_rfl, hlt⟩)

/-! ## C11 -/

/-- C11: in the sparse layout BZ index `i < N` is filed under `i`; the indices from `N` on
filed under `i` are exactly the interval delimited by consecutive pointers stored after the
doubled-mesh table, counted from `N`; the pointers start at 0 and end at the number of
surface copies. -/
theorem C11_sparse_map (b : BZInput K) (hD : PosMesh b.D) (hl : ∃ i j, b.reclat i j ≠ 0)
    (init bz : BZGridOut) (h : bzGrid b false init = some bz) :
    let N := b.D.x * b.D.y * b.D.z
    bz.gpMap (8 * N) = 0 ∧ bz.gpMap (8 * N + N) = bz.size - N ∧ N ≤ bz.size ∧
    ∀ i, 0 ≤ i → i < N →
      bz.bzg2grg i = i ∧
      bz.gpMap (8 * N + i) ≤ bz.gpMap (8 * N + i + 1) ∧
      ∀ k, N ≤ k → k < bz.size →
        (bz.bzg2grg k = i ↔ bz.gpMap (8 * N + i) ≤ k - N ∧ k - N < bz.gpMap (8 * N + i + 1)) := by
  intro N
  have F := bzGrid_facts b hD hl false init bz h
  have hq := (bzGrid_some b false init bz h).1
  have hne := bzImages_ne_nil b _ (bzTolerance_pos b hD hq hl) (b.Q.cofactorsDiv b.Q.det)
  have hN := numGrid_pos b.D hD
  have P := F.sparse_ptr rfl
  have hNe : N = numGrid b.D := rfl
  rw [hNe]
  have hlen : ∀ i, 0 < (bzImages b (bzTolerance b) (b.Q.cofactorsDiv b.Q.det) i).length :=
    fun i => List.length_pos_of_ne_nil (hne i)
  have hmem : ∀ i : Nat, (i : Int) < numGrid b.D → ∀ k, k ∈ block b.D false bz i ↔ k = i ∨
      (bz.gpMap (8 * numGrid b.D + i) ≤ k - numGrid b.D ∧
        k - numGrid b.D < bz.gpMap (8 * numGrid b.D + i + 1)) := by
    intro i hi k
    have e1 := P i (by omega)
    have e2 := P (i + 1) (by push_cast; omega)
    rw [off1_succ] at e2
    have := hlen i
    unfold block
    simp only [Bool.false_eq_true, if_false, List.mem_cons]
    have hn : b.D.x * b.D.y * b.D.z = numGrid b.D := rfl
    push_cast at e2
    rw [hn, mem_interval (by rw [e1, add_assoc, e2]; omega)]
    omega
  have hs : bz.size = off1 (bzImages b (bzTolerance b) (b.Q.cofactorsDiv b.Q.det))
      (numGrid b.D).toNat + numGrid b.D := by
    rw [F.size_eq, off2_eq]; omega
  have hoff := off1_mono _ hne (Nat.zero_le (numGrid b.D).toNat)
  have o0 : off1 (bzImages b (bzTolerance b) (b.Q.cofactorsDiv b.Q.det)) 0 = 0 := by simp [off1]
  refine ⟨by simpa [off1] using P 0 (by omega), ?_, by omega, ?_⟩
  · have := P (numGrid b.D).toNat (by omega)
    rw [show ((numGrid b.D).toNat : Int) = numGrid b.D by omega] at this
    rw [this, hs]; ring
  · intro i hi0 hi
    obtain ⟨n, rfl⟩ := Int.eq_ofNat_of_zero_le hi0
    have hi' : (n : Int) < numGrid b.D := hi
    have e1 := P n (by omega)
    have e2 := P (n + 1) (by push_cast; omega)
    rw [off1_succ] at e2
    push_cast at e2
    rw [← add_assoc] at e2
    have := hlen n
    refine ⟨F.filed n hi' _ ((hmem n hi' _).2 (Or.inl rfl)), by
      rw [e1, e2]; omega, ?_⟩
    intro k h0 h1
    have hk : k ∈ block b.D false bz n ↔ bz.gpMap (8 * numGrid b.D + n) ≤ k - numGrid b.D ∧
        k - numGrid b.D < bz.gpMap (8 * numGrid b.D + n + 1) := by
      rw [hmem n hi' k]
      constructor
      · rintro (h | h)
        · omega
        · exact h
      · exact Or.inr
    rw [← hk]
    constructor
    · intro e
      obtain ⟨j, hj, hkj⟩ := (F.cover k).1 ⟨by omega, h1⟩
      have := F.filed j hj k hkj
      have : j = n := by rw [e] at this; exact_mod_cast this.symm
      rwa [this] at hkj
    · exact F.filed n hi' k

/-! ## C12 -/

/-- C12: for every grid point both layouts list the same addresses in the same order, and
the numbers of BZ points agree. -/
theorem C12_layouts_agree (b : BZInput K) (hD : PosMesh b.D) (hl : ∃ i j, b.reclat i j ≠ 0)
    (init₁ init₂ bz₁ bz₂ : BZGridOut) (h₁ : bzGrid b false init₁ = some bz₁)
    (h₂ : bzGrid b true init₂ = some bz₂) :
    bz₁.size = bz₂.size ∧
    ∀ i, 0 ≤ i → i < b.D.x * b.D.y * b.D.z →
      (block b.D false bz₁ i).map bz₁.addresses = (block b.D true bz₂ i).map bz₂.addresses := by
  have F₁ := bzGrid_facts b hD hl false init₁ bz₁ h₁
  have F₂ := bzGrid_facts b hD hl true init₂ bz₂ h₂
  refine ⟨by rw [F₁.size_eq, F₂.size_eq], ?_⟩
  intro i hi0 hi
  obtain ⟨n, rfl⟩ := Int.eq_ofNat_of_zero_le hi0
  rw [F₁.map_block n hi, F₂.map_block n hi]

/-- C12: one layout can be generated exactly when the other can. -/
theorem C12_same_failure (b : BZInput K) (init₁ init₂ : BZGridOut) :
    bzGrid b false init₁ = none ↔ bzGrid b true init₂ = none := by
  rw [C09_failure_iff, C09_failure_iff]

/-! ## C13 -/

/-- C13: each stored image is one of the searched translates of its grid point, within twice
the tolerance of every searched translate, hence of the nearest. -/
theorem C13_stored_are_near (b : BZInput K) (hD : PosMesh b.D) (hl : ∃ i j, b.reclat i j ≠ 0)
    (dense : Bool) (init bz : BZGridOut) (h : bzGrid b dense init = some bz)
    (k : Int) (h0 : 0 ≤ k) (h1 : k < bz.size) :
    Searched b (gridAddressFromIndex (bz.bzg2grg k) b.D) (bz.addresses k) ∧
    ∀ t, Searched b (gridAddressFromIndex (bz.bzg2grg k) b.D) t →
      qNorm b (bz.addresses k) < qNorm b t + 2 * Spec.tolerance b := by
  have F := bzGrid_facts b hD hl dense init bz h
  have hq := (bzGrid_some b dense init bz h).1
  obtain ⟨i, hi, hk⟩ := (F.cover k).1 ⟨h0, h1⟩
  rw [F.filed i hi k hk]
  exact mem_bzImages_spec b hD hq hl i _ (F.mem_images hi hk)

/-- C13: every exactly nearest searched translate is stored, under its grid point. -/
theorem C13_nearest_are_stored (b : BZInput K) (hD : PosMesh b.D) (hl : ∃ i j, b.reclat i j ≠ 0)
    (dense : Bool) (init bz : BZGridOut) (h : bzGrid b dense init = some bz)
    (i : Int) (hi0 : 0 ≤ i) (hi : i < b.D.x * b.D.y * b.D.z) (t : V3)
    (ht : Searched b (gridAddressFromIndex i b.D) t)
    (hmin : ∀ u, Searched b (gridAddressFromIndex i b.D) u → qNorm b t ≤ qNorm b u) :
    ∃ k, 0 ≤ k ∧ k < bz.size ∧ bz.bzg2grg k = i ∧ bz.addresses k = t := by
  have F := bzGrid_facts b hD hl dense init bz h
  have hq := (bzGrid_some b dense init bz h).1
  obtain ⟨n, rfl⟩ := Int.eq_ofNat_of_zero_le hi0
  have := nearest_mem_bzImages b hD hq hl n t ht hmin
  rw [← F.map_block n hi] at this
  obtain ⟨k, hk, e⟩ := List.mem_map.1 this
  have hr := (F.cover k).2 ⟨n, hi, hk⟩
  exact ⟨k, hr.1, hr.2, F.filed n hi k hk, e⟩

/-- C13: no address is stored twice. -/
theorem C13_distinct (b : BZInput K) (hD : PosMesh b.D) (hl : ∃ i j, b.reclat i j ≠ 0)
    (dense : Bool) (init bz : BZGridOut) (h : bzGrid b dense init = some bz)
    (k l : Int) (hk : 0 ≤ k ∧ k < bz.size) (hl' : 0 ≤ l ∧ l < bz.size)
    (e : bz.addresses k = bz.addresses l) : k = l :=
  (bzGrid_valid b hD hl dense init bz h).distinct k l hk hl' e

/-! ## C14 -/

/-- C14: when the rotated address `a` (`2a + PS = R (2 a₀ + PS)`) is stored somewhere in the
BZ grid, rotation by index returns exactly that BZ index, in both layouts. -/
theorem C14_rotation_found_partial (b : BZInput K) (hD : PosMesh b.D) (hl : ∃ i j, b.reclat i j ≠ 0)
    (dense : Bool) (init bz : BZGridOut) (h : bzGrid b dense init = some bz) (R : M3)
    (idx : Int) (a : V3)
    (ha : V3.smul 2 a + b.PS = R.mulVec (V3.smul 2 (bz.addresses idx) + b.PS))
    (k : Int) (h0 : 0 ≤ k) (h1 : k < bz.size) (hk : bz.addresses k = a) :
    bzRotateGridIndex bz b.D b.PS dense idx R = k := by
  have V := bzGrid_valid b hD hl dense init bz h
  have F := bzGrid_facts b hD hl dense init bz h
  have hne := bzImages_ne_nil b _ (bzTolerance_pos b hD (bzGrid_some b dense init bz h).1 hl)
    (b.Q.cofactorsDiv b.Q.det)
  have hN := numGrid_pos b.D hD
  obtain ⟨i, hi0, hi, hki⟩ := V.cover k h0 h1
  have hgi := (V.filed i hi0 hi k hki).2.2
  rw [hk] at hgi
  have hrng : ∀ r, r ∈ block b.D dense bz i → bz.addresses r = a → r = k := by
    intro r hr e
    exact V.distinct r k (V.filed i hi0 hi r hr).1 ⟨h0, h1⟩ (by rw [e, hk])
  obtain ⟨n, rfl⟩ := Int.eq_ofNat_of_zero_le hi0
  have hi' : (n : Int) < numGrid b.D := hi
  unfold bzRotateGridIndex
  rw [rotatedBzAddress_eq bz b.PS idx R a ha]
  simp only [hgi]
  cases dense
  · have e1 := F.sparse_ptr rfl n (by omega)
    have e2 := F.sparse_ptr rfl (n + 1) (by push_cast; omega)
    rw [off1_succ] at e2
    push_cast at e2
    rw [← add_assoc] at e2
    have hlen := List.length_pos_of_ne_nil (hne n)
    have hmem : ∀ r, r ∈ block b.D false bz n ↔ r = n ∨
        (numGrid b.D + bz.gpMap (8 * numGrid b.D + n) ≤ r ∧
          r < numGrid b.D + bz.gpMap (8 * numGrid b.D + n + 1)) := by
      intro r
      unfold block
      simp only [Bool.false_eq_true, if_false, List.mem_cons]
      have hn : b.D.x * b.D.y * b.D.z = numGrid b.D := rfl
      rw [hn, mem_interval (by rw [e1, e2]; omega)]
      omega
    simp only [Bool.false_eq_true, if_false]
    by_cases hfirst : bz.addresses n = a
    · rw [if_pos hfirst]
      exact hrng n ((hmem n).2 (Or.inl rfl)) hfirst
    · rw [if_neg hfirst, mul_comm (numGrid b.D) 8]
      have hk' := (hmem k).1 hki
      cases hf : findAddress bz.addresses a (bz.gpMap (8 * numGrid b.D + n) + numGrid b.D)
        (bz.gpMap (8 * numGrid b.D + n + 1) + numGrid b.D) with
      | some r =>
        obtain ⟨g1, g2, g3⟩ := findAddress_some hf
        exact hrng r ((hmem r).2 (Or.inr ⟨by omega, by omega⟩)) g3
      | none =>
        exfalso
        rcases hk' with rfl | hk'
        · exact hfirst hk
        · exact findAddress_none hf k (by omega) (by omega) hk
  · have e1 := F.dense_ptr rfl n (by omega)
    have e2 := F.dense_ptr rfl (n + 1) (by push_cast; omega)
    rw [off2_succ] at e2
    push_cast at e2
    have hmem : ∀ r, r ∈ block b.D true bz n ↔
        (bz.gpMap n ≤ r ∧ r < bz.gpMap ((n : Int) + 1)) := by
      intro r
      unfold block
      simp only [if_true]
      rw [mem_interval (by rw [e1, e2]; omega)]
      omega
    simp only [if_true]
    cases hf : findAddress bz.addresses a (bz.gpMap n) (bz.gpMap ((n : Int) + 1)) with
    | some r =>
      obtain ⟨g1, g2, g3⟩ := findAddress_some hf
      exact hrng r ((hmem r).2 ⟨g1, g2⟩) g3
    | none =>
      exfalso
      have := (hmem k).1 hki
      exact findAddress_none hf k this.1 this.2 hk

/-- C14, dense layout: in every case the result is a BZ point translationally equivalent to
the rotated address. -/
theorem C14_dense_equivalent_partial (b : BZInput K) (hD : PosMesh b.D) (hl : ∃ i j, b.reclat i j ≠ 0)
    (init bz : BZGridOut) (h : bzGrid b true init = some bz) (R : M3) (idx : Int) (a : V3)
    (ha : V3.smul 2 a + b.PS = R.mulVec (V3.smul 2 (bz.addresses idx) + b.PS)) :
    let r := bzRotateGridIndex bz b.D b.PS true idx R
    (0 ≤ r ∧ r < bz.size) ∧ SamePoint b.D (bz.addresses r) a := by
  intro r
  have V := bzGrid_valid b hD hl true init bz h
  obtain ⟨_, _, hP⟩ := C10_dense_map b hD hl init bz h
  obtain ⟨hg0, hg1⟩ := gridIndex_bounds a b.D hD
  have hP' := (hP _ hg0 hg1).1
  have key : ∀ r, bz.gpMap (gridIndex a b.D) ≤ r → r < bz.gpMap (gridIndex a b.D + 1) →
      (0 ≤ r ∧ r < bz.size) ∧ SamePoint b.D (bz.addresses r) a := by
    intro r h1 h2
    have hm : r ∈ block b.D true bz (gridIndex a b.D) := by
      unfold block
      simp only [if_true]
      rw [mem_interval (by omega)]
      omega
    obtain ⟨g1, _, g3⟩ := V.filed _ hg0 hg1 r hm
    exact ⟨g1, (gridIndex_eq_iff _ _ _ hD).1 g3⟩
  have hr : r = match findAddress bz.addresses a (bz.gpMap (gridIndex a b.D))
      (bz.gpMap (gridIndex a b.D + 1)) with
    | some i => i
    | none => bz.gpMap (gridIndex a b.D) := by
    show bzRotateGridIndex bz b.D b.PS true idx R = _
    unfold bzRotateGridIndex
    rw [rotatedBzAddress_eq bz b.PS idx R a ha]
    rfl
  cases hf : findAddress bz.addresses a (bz.gpMap (gridIndex a b.D))
      (bz.gpMap (gridIndex a b.D + 1)) with
  | some i =>
    rw [hf] at hr
    obtain ⟨g1, g2, _⟩ := findAddress_some hf
    rw [show r = i from hr]; exact key i g1 g2
  | none =>
    rw [hf] at hr
    rw [show r = bz.gpMap (gridIndex a b.D) from hr]
    exact key _ le_rfl hP'

end

/-! ### Concrete cases -/

/-- An orthorhombic lattice with axes 1 : 15 : 28 and mesh 2 x 2 x 1. -/
def exampleBZ : BZInput ℚ where
  D := ⟨2, 2, 1⟩
  PS := ⟨0, 0, 0⟩
  Q := ⟨1, 0, 0, 0, 1, 0, 0, 0, 1⟩
  reclat := fun i j => if i = j then (if i = 0 then 1 else if i = 1 then 15 else 28) else 0

/-- A sheared lattice with half shift and a non-trivial unimodular `Q`. -/
def exampleBZ2 : BZInput ℚ where
  D := ⟨2, 2, 2⟩
  PS := ⟨0, 0, 1⟩
  Q := ⟨1, 1, 0, 0, 1, 0, 0, 0, -1⟩
  reclat := fun i j => if i = j then 3 else if i = 0 ∧ j = 1 then 1 else 0

def exampleInit : BZGridOut := ⟨fun _ => ⟨0, 0, 0⟩, fun _ => 0, fun _ => 0, 0⟩

/-- The inversion. -/
def exampleInversion : M3 := ⟨-1, 0, 0, 0, -1, 0, 0, 0, -1⟩

example : PosMesh exampleBZ.D ∧ exampleBZ.reclat 0 0 ≠ 0 ∧ PosMesh exampleBZ2.D ∧
    exampleBZ2.reclat 0 1 ≠ 0 := by decide +kernel
example : (bzGrid exampleBZ true exampleInit).map (·.size) = some 30 ∧
    (bzGrid exampleBZ false exampleInit).map (·.size) = some 30 := by decide +kernel
example : (bzGrid exampleBZ2 true exampleInit).map
    (fun bz => (bz.size, bz.gpMap 1, bz.addresses 1, bz.bzg2grg 9)) = some (14, 1, ⟨-1, 0, 0⟩, 5) ∧
    (bzGrid exampleBZ2 false exampleInit).map (fun bz => (bz.size, bz.addresses 8, bz.bzg2grg 8))
      = some (14, ⟨1, 0, 0⟩, 1) := by decide +kernel
example : (bzGrid { exampleBZ with Q := ⟨2, 0, 0, 0, 1, 0, 0, 0, 1⟩ } true exampleInit).isNone := by
  decide +kernel
/-- Inversion of a stored image whose rotated address is stored. -/
example : (bzGrid exampleBZ false exampleInit).map (fun bz =>
    (bz.addresses 1, bzRotateGridIndex bz exampleBZ.D exampleBZ.PS false 1 exampleInversion,
      bz.addresses (bzRotateGridIndex bz exampleBZ.D exampleBZ.PS false 1 exampleInversion)))
    = some (⟨-1, 0, 0⟩, 8, ⟨1, 0, 0⟩) := by decide +kernel

/-- C14 fails for the sparse layout when the rotated address is not stored: the fallback
reads the regular-grid index in the doubled-mesh table. Here the lattice is orthorhombic,
the rotation is the inversion, and the returned BZ point is not equivalent to the rotated
address (it is filed under grid point 1, the rotated address under grid point 3). -/
theorem C14_sparse_fallback_wrong :
    ∃ bz, bzGrid exampleBZ false exampleInit = some bz ∧
      ∃ idx a, (0 ≤ idx ∧ idx < bz.size) ∧
        V3.smul 2 a + exampleBZ.PS
          = exampleInversion.mulVec (V3.smul 2 (bz.addresses idx) + exampleBZ.PS) ∧
        ¬ SamePoint exampleBZ.D
          (bz.addresses (bzRotateGridIndex bz exampleBZ.D exampleBZ.PS false idx exampleInversion)) a := by
  have hQ : ∃ bz, bzGrid exampleBZ false exampleInit = some bz := by
    cases h : bzGrid exampleBZ false exampleInit with
    | some bz => exact ⟨bz, rfl⟩
    | none => exact absurd ((C09_failure_iff _ _ _).1 h) (by decide +kernel)
  obtain ⟨bz, h⟩ := hQ
  refine ⟨bz, h, ?_⟩
  have hx : ((bzGrid exampleBZ false exampleInit).map fun bz =>
      decide ((0 ≤ (26 : Int) ∧ 26 < bz.size) ∧
        V3.smul 2 ⟨5, 1, 0⟩ + exampleBZ.PS
          = exampleInversion.mulVec (V3.smul 2 (bz.addresses 26) + exampleBZ.PS) ∧
        ¬ MeshTranslation exampleBZ.D
          (bz.addresses (bzRotateGridIndex bz exampleBZ.D exampleBZ.PS false 26 exampleInversion)
            - ⟨5, 1, 0⟩))) = some true := by decide +kernel
  rw [h] at hx
  simp only [Option.map_some, Option.some.injEq, decide_eq_true_eq] at hx
  exact ⟨26, ⟨5, 1, 0⟩, hx⟩

/-! ## C59 the arrays are allocated with eight rows per grid point -/

/-- C59, what holds: never more than 125 BZ points per grid point. -/
theorem C59_at_most_125_partial {K : Type _} [Field K] [LinearOrder K] [IsStrictOrderedRing K]
    [FloorRing K] (b : BZInput K) (hD : PosMesh b.D) (hl : ∃ i j, b.reclat i j ≠ 0)
    (dense : Bool) (init bz : BZGridOut) (h : bzGrid b dense init = some bz) :
    b.D.x * b.D.y * b.D.z ≤ bz.size ∧ bz.size ≤ 125 * (b.D.x * b.D.y * b.D.z) := by
  have F := bzGrid_facts b hD hl dense init bz h
  have hq := (bzGrid_some b dense init bz h).1
  have hne := bzImages_ne_nil b _ (bzTolerance_pos b hD hq hl) (b.Q.cofactorsDiv b.Q.det)
  have hN := numGrid_pos b.D hD
  have hle : ∀ i, (bzImages b (bzTolerance b) (b.Q.cofactorsDiv b.Q.det) i).length ≤ 125 := by
    intro i
    unfold bzImages bzImagesAt
    rw [List.length_map]
    refine le_trans (List.length_filter_le _ _) ?_
    decide +kernel
  have hoff : ∀ n : Nat, (n : Int) ≤ off2 (bzImages b (bzTolerance b) (b.Q.cofactorsDiv b.Q.det)) n ∧
      off2 (bzImages b (bzTolerance b) (b.Q.cofactorsDiv b.Q.det)) n ≤ 125 * n := by
    intro n
    induction n with
    | zero => simp [off2]
    | succ n ih =>
      rw [off2_succ]
      have := hle n
      have := List.length_pos_of_ne_nil (hne n)
      push_cast
      omega
  have := hoff (numGrid b.D).toNat
  rw [← F.size_eq] at this
  have e : b.D.x * b.D.y * b.D.z = numGrid b.D := rfl
  rw [e]
  omega

/-- A tetragonal lattice with axes 1 : 1 : 20 and a single grid point. -/
def exampleFlat : BZInput ℚ where
  D := ⟨1, 1, 1⟩
  PS := ⟨0, 0, 0⟩
  Q := ⟨1, 0, 0, 0, 1, 0, 0, 0, 1⟩
  reclat := fun i j => if i = j then (if i = 2 then 20 else 1) else 0

/-- C59 fails: an anisotropic lattice needs nine rows for a single grid point, while the
caller allocates eight. -/
theorem C59_overflow : PosMesh exampleFlat.D ∧
    ∃ bz, bzGrid exampleFlat true exampleInit = some bz ∧
      8 * (exampleFlat.D.x * exampleFlat.D.y * exampleFlat.D.z) < bz.size := by
  refine ⟨by decide, ?_⟩
  cases h : bzGrid exampleFlat true exampleInit with
  | none => exact absurd ((C09_failure_iff _ _ _).1 h) (by decide +kernel)
  | some bz =>
    have hx : ((bzGrid exampleFlat true exampleInit).map fun bz =>
        decide (8 * (exampleFlat.D.x * exampleFlat.D.y * exampleFlat.D.z) < bz.size))
        = some true := by decide +kernel
    rw [h] at hx
    simp only [Option.map_some, Option.some.injEq, decide_eq_true_eq] at hx
    exact ⟨bz, rfl, hx⟩

end Phono3py.Props
