/-
Property theorems C15-C18: q-point triplets.
The theorems are about `getTripletsAtQ`, the model of the Python function, on a BZ grid
made by `bzGrid`. The structure `s` handed to the C search shares only the mesh with the
grid: its reciprocal lattice is arbitrary, because the C callers leave it unset.
-/
import Verif.Lemmas.Triplet
import Verif.Props.Grid
import Verif.Props.BZGrid

set_option linter.unusedSectionVars false

namespace Phono3py.Props
open Phono3py Phono3py.Spec

section
variable {K : Type _} [Field K] [LinearOrder K] [IsStrictOrderedRing K] [FloorRing K]
variable {K' : Type _} [Field K'] [LinearOrder K'] [IsStrictOrderedRing K'] [FloorRing K']

/-- The group used for the grid is the given one, extended by time reversal. -/
theorem reciprocal_gridGroup {rots L : List M3} {D : V3} {tr : Bool}
    (hG : GridGroup rots D ⟨0, 0, 0⟩) (h : reciprocalPointGroup rots tr false = some L) :
    GridGroup L D ⟨0, 0, 0⟩ where
  pos := hG.pos
  grp := (C06_group rots L tr false hG.grp h).2.1
  mesh := by
    intro R hR
    rcases (C06_members rots L tr false h R).1 hR with ⟨s, hs, e⟩ | ⟨_, _, s, hs, rfl⟩
    · rw [e]; exact hG.mesh s hs
    · intro v hv
      have h1 := hG.mesh s hs v hv
      simp only [Bool.false_eq_true, if_false]
      rw [show (M3.negOne.mul s).mulVec v = -(s.mulVec v) by
        ext <;> simp [M3.negOne, M3.mul, M3.mulVec] <;> ring]
      obtain ⟨⟨a, ha⟩, ⟨b, hb⟩, ⟨c, hc⟩⟩ := h1
      exact ⟨⟨-a, by simp [ha]⟩, ⟨-b, by simp [hb]⟩, ⟨-c, by simp [hc]⟩⟩
  shift := fun R _ => shiftCompat_zero R

/-- The assertions never fail: the outcome in closed form. -/
theorem getTriplets_eq {b : BZInput K} (hD : PosMesh b.D) (hl : ∃ i j, b.reclat i j ≠ 0)
    {dense : Bool} {init bz : BZGridOut} (h : bzGrid b dense init = some bz)
    (s : BZInput K') (hs : s.D = b.D) {rots L : List M3} (hG : GridGroup rots b.D ⟨0, 0, 0⟩)
    {tr : Bool} (hL : reciprocalPointGroup rots tr false = some L)
    {gp : Int} (g0 : 0 ≤ gp) (g1 : gp < bz.size) (sw : Bool) :
    let n := (numGrid b.D).toNat
    let T := tripletMap L b.D (bz.bzg2grg gp) sw (fun _ => 0)
    getTripletsAtQ s bz dense rots gp tr sw = some
      ⟨bzTripletsAtQ s bz dense gp n T, irWeights n T, (List.range n).map fun (g : Nat) => T g,
        (List.range n).map fun (g : Nat) =>
          irGridMap (stabilizer L b.D (bz.bzg2grg gp)) b.D ⟨0, 0, 0⟩ g⟩ := by
  intro n T
  have V := bzGrid_valid b hD hl dense init bz h
  obtain ⟨i, i0, i1, hi⟩ := V.cover gp g0 g1
  obtain ⟨_, ei, _⟩ := V.filed i i0 i1 gp hi
  have hGL := reciprocal_gridGroup hG hL
  have q0 : 0 ≤ bz.bzg2grg gp := by omega
  have q1 : bz.bzg2grg gp < numGrid b.D := by rw [ei]; exact i1
  have hN := numGrid_pos b.D hD
  have hb : ∀ g : Nat, g < n → 0 ≤ T g ∧ T g < n := by
    intro g hg
    have := tripletMap_bounds hGL q0 q1 sw (fun _ => 0) g (by omega) (by omega)
    exact ⟨this.1, lt_of_le_of_lt this.2 (by omega)⟩
  have hid : ∀ g : Nat, g < n → T (T g) = T g := by
    intro g hg
    exact tripletMap_idem hGL q0 q1 sw (fun _ => 0) g (by omega) (by omega)
  have e1 := dedup_table hb hid
  have e2 := irWeights_length hb hid
  have e3 := irWeights_sum hb hid
  have e4 := tripletNum_eq hGL q0 q1 sw (fun _ => 0)
  have e5 : (irQ1 n T).length = (irTripletsAtQ L b.D (bz.bzg2grg gp) sw fun _ => 0).2.2 := by
    rw [e4, List.countP_eq_length_filter]; rfl
  unfold getTripletsAtQ tpkIrTripletsAtQ
  simp only [hL, hs]
  have d1 : (irTripletsAtQ L b.D (bz.bzg2grg gp) sw fun _ => 0).1 = T := rfl
  have d2 : (irTripletsAtQ L b.D (bz.bzg2grg gp) sw fun _ => 0).2.1
      = irGridMap (stabilizer L b.D (bz.bzg2grg gp)) b.D ⟨0, 0, 0⟩ := rfl
  have e6 : (bzTripletsAtQ s bz dense gp n T).length = (irQ1 n T).length := by
    unfold bzTripletsAtQ; rw [List.length_map]
  rw [d1, d2]
  have c1 : ¬ ((irTripletsAtQ L b.D (bz.bzg2grg gp) sw fun _ => 0).2.2 ≠
      ((List.range n).map fun (g : Nat) => T g).dedup.length) := by
    rw [e1, e5]; simp
  have c2 : ¬ ((bzTripletsAtQ s bz dense gp n T).length ≠ (irWeights n T).length) := by
    rw [e6, e2]; simp
  have c3 : ¬ (n ≠ (irWeights n T).sum) := by rw [e3]; simp
  rw [if_neg c1, if_neg c2, if_neg c3]

/-- Facts of one row. -/
theorem triplet_row {b : BZInput K} (hD : PosMesh b.D) (hl : ∃ i j, b.reclat i j ≠ 0)
    {dense : Bool} {init bz : BZGridOut} (h : bzGrid b dense init = some bz)
    (s : BZInput K') (hs : s.D = b.D) {gp q1 : Int} (g0 : 0 ≤ gp) (g1 : gp < bz.size)
    (gd : dense = false → gp < numGrid b.D) (q0 : 0 ≤ q1) (q1' : q1 < numGrid b.D)
    (before t : Int × Int × Int) (ht : t = bzTriplet s bz dense gp q1 before) :
    ((0 ≤ t.1 ∧ t.1 < bz.size) ∧ (0 ≤ t.2.1 ∧ t.2.1 < bz.size) ∧ (0 ≤ t.2.2 ∧ t.2.2 < bz.size)) ∧
      bz.bzg2grg t.1 = bz.bzg2grg gp ∧ bz.bzg2grg t.2.1 = q1 ∧
      bz.bzg2grg t.2.2 = thirdGridPoint b.D (bz.bzg2grg gp) q1 ∧
      MeshTranslation b.D (tripletSum bz t) := by
  have V := bzGrid_valid b hD hl dense init bz h
  obtain ⟨i, i0, i1, hi⟩ := V.cover gp g0 g1
  obtain ⟨_, ei, ai⟩ := V.filed i i0 i1 gp hi
  have hb2 := third_bounds b.D hD (bz.bzg2grg gp) q1
  have hm : t ∈ bzCombos b.D bz dense gp q1 := by
    rw [ht, bzTriplet_eq hD hl h s hs g0 g1 gd q0 q1']
    refine tripletSearch_mem _ _ _ _ (combos_ne_nil ?_ (V.nonempty _ q0 q1')
      (V.nonempty _ hb2.1 hb2.2)) _
    rw [ei]; exact V.nonempty i i0 i1
  obtain ⟨m0, m1, m2⟩ := mem_combos.1 hm
  rw [ei] at m0
  obtain ⟨a0, b0, c0⟩ := V.filed i i0 i1 _ m0
  obtain ⟨a1, b1, c1⟩ := V.filed q1 q0 q1' _ m1
  obtain ⟨a2, b2, c2⟩ := V.filed _ hb2.1 hb2.2 _ m2
  refine ⟨⟨a0, a1, a2⟩, by rw [b0, ei], b1, b2, ?_⟩
  have s0 := address_samePoint_of_index (bz.addresses t.1) b.D hD
  have s1 := address_samePoint_of_index (bz.addresses t.2.1) b.D hD
  have s2 := address_samePoint_of_index (bz.addresses t.2.2) b.D hD
  rw [c0] at s0
  rw [c1] at s1
  rw [c2] at s2
  have s3 := third_same b.D hD (bz.bzg2grg gp) q1
  rw [ei] at s3 s2
  obtain ⟨⟨u0, v0, w0⟩, ⟨u1, v1, w1⟩, ⟨u2, v2, w2⟩, ⟨u3, v3, w3⟩⟩ :=
    And.intro s0 (And.intro s1 (And.intro s2 s3))
  unfold tripletSum
  simp only [V3.sub_x, V3.sub_y, V3.sub_z, V3.neg_x, V3.neg_y, V3.neg_z] at *
  refine ⟨?_, ?_, ?_⟩ <;> simp only [V3.add_x, V3.add_y, V3.add_z]
  · obtain ⟨k0, h0⟩ := u0
    obtain ⟨k1, h1⟩ := u1
    obtain ⟨k2, h2⟩ := u2
    obtain ⟨k3, h3⟩ := u3
    exact ⟨k3 - k0 - k1 - k2, by linear_combination h3 - h0 - h1 - h2⟩
  · obtain ⟨k0, h0⟩ := v0
    obtain ⟨k1, h1⟩ := v1
    obtain ⟨k2, h2⟩ := v2
    obtain ⟨k3, h3⟩ := v3
    exact ⟨k3 - k0 - k1 - k2, by linear_combination h3 - h0 - h1 - h2⟩
  · obtain ⟨k0, h0⟩ := w0
    obtain ⟨k1, h1⟩ := w1
    obtain ⟨k2, h2⟩ := w2
    obtain ⟨k3, h3⟩ := w3
    exact ⟨k3 - k0 - k1 - k2, by linear_combination h3 - h0 - h1 - h2⟩

theorem mem_bzTriplets {s : BZInput K'} {bz : BZGridOut} {dense : Bool} {gp : Int} {n : Nat}
    {T : Int → Int} {t : Int × Int × Int} (ht : t ∈ bzTripletsAtQ s bz dense gp n T) :
    ∃ q1 : Nat, q1 < n ∧ T q1 = q1 ∧ t = bzTriplet s bz dense gp q1 (-1, -1, -1) := by
  unfold bzTripletsAtQ irQ1 at ht
  obtain ⟨q1, h1, rfl⟩ := List.mem_map.1 ht
  obtain ⟨h2, h3⟩ := List.mem_filter.1 h1
  exact ⟨q1, List.mem_range.1 h2, by simpa using h3, rfl⟩

/-- Two BZ indices filed under the same grid point are translates. -/
theorem samePoint_of_filed {b : BZInput K} (hD : PosMesh b.D) (hl : ∃ i j, b.reclat i j ≠ 0)
    {dense : Bool} {init bz : BZGridOut} (h : bzGrid b dense init = some bz) {k : Int}
    (h0 : 0 ≤ k) (h1 : k < bz.size) :
    SamePoint b.D (bz.addresses k) (gridAddressFromIndex (bz.bzg2grg k) b.D) := by
  have V := bzGrid_valid b hD hl dense init bz h
  obtain ⟨i, i0, i1, hi⟩ := V.cover k h0 h1
  obtain ⟨_, ei, ai⟩ := V.filed i i0 i1 k hi
  rw [ei, ← ai]
  exact (address_samePoint_of_index _ b.D hD).symm

/-! ## C15 -/

/-- C15: every triplet returned for a grid point conserves crystal momentum; its first
member is a translate of the requested point and its second is a translate of an
irreducible `q1`. In the sparse layout the requested point must be a regular grid point
(`C15_sparse_surface_point` shows why), hence the suffix. -/
theorem C15_momentum_partial (b : BZInput K) (hD : PosMesh b.D) (hl : ∃ i j, b.reclat i j ≠ 0)
    (dense : Bool) (init bz : BZGridOut) (h : bzGrid b dense init = some bz)
    (s : BZInput K') (hs : s.D = b.D) (rots : List M3) (hG : GridGroup rots b.D ⟨0, 0, 0⟩)
    (tr sw : Bool) (gp : Int) (g0 : 0 ≤ gp) (g1 : gp < bz.size)
    (gd : dense = false → gp < b.D.x * b.D.y * b.D.z)
    (T : Triplets) (hT : getTripletsAtQ s bz dense rots gp tr sw = some T) (t : Int × Int × Int)
    (ht : t ∈ T.triplets) :
    ((0 ≤ t.1 ∧ t.1 < bz.size) ∧ (0 ≤ t.2.1 ∧ t.2.1 < bz.size) ∧ (0 ≤ t.2.2 ∧ t.2.2 < bz.size)) ∧
      SamePoint b.D (bz.addresses t.1) (bz.addresses gp) ∧
      (∃ q1 : Nat, T.mapTriplets[q1]? = some (q1 : Int) ∧
        SamePoint b.D (bz.addresses t.2.1) (gridAddressFromIndex q1 b.D)) ∧
      MeshTranslation b.D (tripletSum bz t) := by
  cases hL : reciprocalPointGroup rots tr false with
  | none => simp [getTripletsAtQ, tpkIrTripletsAtQ, hL] at hT
  | some L =>
    have hN := numGrid_pos b.D hD
    have e := getTriplets_eq hD hl h s hs hG hL g0 g1 sw
    simp only at e
    rw [hT, Option.some.injEq] at e
    subst e
    obtain ⟨q1, hq, hTq, rfl⟩ := mem_bzTriplets ht
    obtain ⟨a1, a2, a3, _, a5⟩ := triplet_row hD hl h s hs g0 g1 gd (q1 := q1) (by omega) (by omega)
      (-1, -1, -1) _ rfl
    refine ⟨a1, ?_, ⟨q1, ?_, ?_⟩, a5⟩
    · have p := samePoint_of_filed hD hl h a1.1.1 a1.1.2
      rw [a2] at p
      exact p.trans (samePoint_of_filed hD hl h g0 g1).symm
    · simp [hq, hTq]
    · have p := samePoint_of_filed hD hl h a1.2.1.1 a1.2.1.2
      rw [a3] at p
      exact p

/-! ## C16 -/

/-- C16: the call fails exactly when the point group does not fit; in all other cases its
assertions hold. -/
theorem C16_succeeds (b : BZInput K) (hD : PosMesh b.D) (hl : ∃ i j, b.reclat i j ≠ 0)
    (dense : Bool) (init bz : BZGridOut) (h : bzGrid b dense init = some bz)
    (s : BZInput K') (hs : s.D = b.D) (rots : List M3) (hG : GridGroup rots b.D ⟨0, 0, 0⟩)
    (tr sw : Bool) (gp : Int) (g0 : 0 ≤ gp) (g1 : gp < bz.size) :
    getTripletsAtQ s bz dense rots gp tr sw = none ↔
      48 < rots.dedup.length ∨ (tr = true ∧ M3.negOne ∉ rots ∧ 24 < rots.dedup.length) := by
  rw [← C06_failure_iff rots tr false]
  cases hL : reciprocalPointGroup rots tr false with
  | none => simp [getTripletsAtQ, tpkIrTripletsAtQ, hL]
  | some L =>
    have e := getTriplets_eq hD hl h s hs hG hL g0 g1 sw
    simp only at e
    rw [e]; simp

/-- C16: there is one triplet and one weight per class of the triplet map (`q1` is a class
representative when the map sends it to itself); row `i` belongs to the `i`-th representative
in ascending order; its weight is the positive number of grid points in that class, and the
weights add up to the number of grid points. -/
theorem C16_weights (b : BZInput K) (hD : PosMesh b.D) (hl : ∃ i j, b.reclat i j ≠ 0)
    (dense : Bool) (init bz : BZGridOut) (h : bzGrid b dense init = some bz)
    (s : BZInput K') (hs : s.D = b.D) (rots : List M3) (hG : GridGroup rots b.D ⟨0, 0, 0⟩)
    (tr sw : Bool) (gp : Int) (g0 : 0 ≤ gp) (g1 : gp < bz.size)
    (gd : dense = false → gp < b.D.x * b.D.y * b.D.z)
    (T : Triplets) (hT : getTripletsAtQ s bz dense rots gp tr sw = some T) :
    (T.mapTriplets.length : Int) = b.D.x * b.D.y * b.D.z ∧
    (T.weights.sum : Int) = b.D.x * b.D.y * b.D.z ∧
    T.weights.length = T.triplets.length ∧
    T.triplets.map (fun t => bz.bzg2grg t.2.1)
      = ((List.range T.mapTriplets.length).map (fun (g : Nat) => (g : Int))).filter
          (fun g => T.mapTriplets[g.toNat]? = some g) ∧
    ∀ (i : Nat) (t : Int × Int × Int) (w : Nat), T.triplets[i]? = some t →
      T.weights[i]? = some w → w = T.mapTriplets.count (bz.bzg2grg t.2.1) ∧ 0 < w := by
  cases hL : reciprocalPointGroup rots tr false with
  | none => simp [getTripletsAtQ, tpkIrTripletsAtQ, hL] at hT
  | some L =>
    have hN := numGrid_pos b.D hD
    have e := getTriplets_eq hD hl h s hs hG hL g0 g1 sw
    simp only at e
    rw [hT, Option.some.injEq] at e
    subst e
    set n := (numGrid b.D).toNat with hn
    set M := tripletMap L b.D (bz.bzg2grg gp) sw (fun _ => 0) with hM
    have V := bzGrid_valid b hD hl dense init bz h
    obtain ⟨i, i0, i1, hi⟩ := V.cover gp g0 g1
    obtain ⟨_, ei, _⟩ := V.filed i i0 i1 gp hi
    have hGL := reciprocal_gridGroup hG hL
    have q0 : 0 ≤ bz.bzg2grg gp := by omega
    have q1 : bz.bzg2grg gp < numGrid b.D := by rw [ei]; exact i1
    have hb : ∀ g : Nat, g < n → 0 ≤ M g ∧ M g < n := by
      intro g hg
      have := tripletMap_bounds hGL q0 q1 sw (fun _ => 0) g (by omega) (by omega)
      exact ⟨this.1, lt_of_le_of_lt this.2 (by omega)⟩
    have hid : ∀ g : Nat, g < n → M (M g) = M g := by
      intro g hg
      exact tripletMap_idem hGL q0 q1 sw (fun _ => 0) g (by omega) (by omega)
    have hn' : (n : Int) = b.D.x * b.D.y * b.D.z := by
      show (n : Int) = numGrid b.D
      omega
    have hrow : ∀ q : Nat, q < n →
        bz.bzg2grg (bzTriplet s bz dense gp q (-1, -1, -1)).2.1 = q := by
      intro q hq
      exact (triplet_row hD hl h s hs g0 g1 gd (q1 := q) (by omega) (by omega) _ _ rfl).2.2.1
    have hlt : ∀ q ∈ irQ1 n M, q < n := by
      intro q hq
      exact List.mem_range.1 (List.mem_filter.1 hq).1
    refine ⟨by simp [hn'], by rw [irWeights_sum hb hid]; exact hn', ?_, ?_, ?_⟩
    · rw [irWeights_length hb hid]; simp [bzTripletsAtQ]
    · simp only [List.length_map, List.length_range]
      unfold bzTripletsAtQ
      rw [List.map_map, List.filter_map]
      rw [List.map_congr_left (g := fun (q : Nat) => (q : Int))]
      · congr 1
        unfold irQ1
        apply List.filter_congr
        intro g hg
        have := List.mem_range.1 hg
        simp [this]
      · intro q hq
        exact hrow q (hlt q hq)
    · intro i t w ht hw
      rw [irWeights_eq hb hid] at hw
      unfold bzTripletsAtQ at ht
      rw [List.getElem?_map] at ht hw
      cases hq : (irQ1 n M)[i]? with
      | none => simp [hq] at ht
      | some q =>
        rw [hq] at ht hw
        simp only [Option.map_some, Option.some.injEq] at ht hw
        have hqm := List.mem_of_getElem? hq
        have hqlt := hlt q hqm
        subst ht hw
        rw [hrow q hqlt]
        constructor
        · rw [List.count_eq_countP, List.countP_map]
          apply List.countP_congr
          intro g _
          simp
        · rw [List.countP_pos_iff]
          refine ⟨q, List.mem_range.2 hqlt, ?_⟩
          exact (List.mem_filter.1 hqm).2

/-- C16: without mesh symmetry there is one triplet of weight one for every grid point, in
order, and it conserves momentum. -/
theorem C16_nosym (b : BZInput K) (hD : PosMesh b.D) (hl : ∃ i j, b.reclat i j ≠ 0)
    (dense : Bool) (init bz : BZGridOut) (h : bzGrid b dense init = some bz)
    (s : BZInput K') (hs : s.D = b.D) (gp : Int) (g0 : 0 ≤ gp) (g1 : gp < bz.size)
    (gd : dense = false → gp < b.D.x * b.D.y * b.D.z) :
    ∃ T, getNosymTripletsAtQ s bz dense gp = some T ∧
      T.weights = List.replicate (b.D.x * b.D.y * b.D.z).toNat 1 ∧
      T.triplets.map (fun t => bz.bzg2grg t.2.1)
        = (List.range (b.D.x * b.D.y * b.D.z).toNat).map (fun (g : Nat) => (g : Int)) ∧
      ∀ t ∈ T.triplets, bz.bzg2grg t.1 = bz.bzg2grg gp ∧ MeshTranslation b.D (tripletSum bz t) := by
  have hN := numGrid_pos b.D hD
  set n := (numGrid b.D).toNat with hn
  have hb : ∀ g : Nat, g < n → 0 ≤ (fun g : Int => g) g ∧ (fun g : Int => g) g < n := by
    intro g hg; simp only; omega
  have hid : ∀ g : Nat, g < n → (fun g : Int => g) ((fun g : Int => g) g) = (fun g : Int => g) g :=
    fun _ _ => rfl
  have eq1 : irQ1 n (fun g => g) = List.range n := by simp [irQ1]
  have ew : irWeights n (fun g => g) = List.replicate n 1 := by
    rw [irWeights_eq hb hid, eq1, List.eq_replicate_iff]
    refine ⟨by simp, ?_⟩
    intro w hw
    obtain ⟨v, hv, rfl⟩ := List.mem_map.1 hw
    have : (fun (g : Nat) => decide ((g : Int) = (v : Int))) = fun (g : Nat) => g == v := by
      funext g; by_cases e : g = v <;> simp [e]
    rw [this, ← List.count_eq_countP, List.count_eq_one_of_mem List.nodup_range hv]
  have et : bzTripletsAtQ s bz dense gp n (fun g => g)
      = (List.range n).map fun (q : Nat) => bzTriplet s bz dense gp q (-1, -1, -1) := by
    unfold bzTripletsAtQ; rw [eq1]
  have hrow : ∀ q : Nat, q < n → _ := fun q hq =>
    triplet_row hD hl h s hs g0 g1 gd (q1 := q) (by omega) (by omega) (-1, -1, -1) _ rfl
  refine ⟨⟨bzTripletsAtQ s bz dense gp n (fun g => g), irWeights n (fun g => g),
    (List.range n).map fun (g : Nat) => (g : Int), (List.range n).map fun (g : Nat) => (g : Int)⟩,
    ?_, ?_, ?_, ?_⟩
  · unfold getNosymTripletsAtQ
    simp only [hs]
    rw [if_neg, if_neg]
    · rw [ew]; simp [hn]
    · rw [ew, et]; simp [hn]
  · exact ew
  · show (bzTripletsAtQ s bz dense gp n (fun g => g)).map _ = _
    rw [et, List.map_map]
    apply List.map_congr_left
    intro q hq
    exact (hrow q (List.mem_range.1 hq)).2.2.1
  · intro t ht
    have ht : t ∈ bzTripletsAtQ s bz dense gp n (fun g => g) := ht
    rw [et] at ht
    obtain ⟨q, hq, rfl⟩ := List.mem_map.1 ht
    have := hrow q (List.mem_range.1 hq)
    exact ⟨this.2.1, this.2.2.2.2⟩

/-! ## C17 -/

theorem tripletEquiv_congr {G G' : List M3} (h : ∀ R, R ∈ G ↔ R ∈ G') (D a0 : V3) (sw : Bool)
    (a c : V3) : TripletEquiv G D a0 sw a c ↔ TripletEquiv G' D a0 sw a c := by
  unfold TripletEquiv Little
  simp only [h]

theorem tripletEquiv_base {G : List M3} {D : V3} (hm : ∀ R ∈ G, MeshCompat D R) {a0 a1 : V3}
    (h : SamePoint D a0 a1) (sw : Bool) (a c : V3) :
    TripletEquiv G D a0 sw a c ↔ TripletEquiv G D a1 sw a c := by
  have aux : ∀ {a0 a1 : V3}, SamePoint D a0 a1 → TripletEquiv G D a0 sw a c →
      TripletEquiv G D a1 sw a c := by
    rintro a0 a1 h ⟨R, ⟨hR, hl⟩, hr⟩
    have hR' := hm R hR
    refine ⟨R, ⟨hR, (h.symm.mulVec hR').trans (hl.trans h)⟩, ?_⟩
    rcases hr with hr | ⟨hsw, hr⟩
    · exact Or.inl hr
    · refine Or.inr ⟨hsw, Spec.SamePoint.trans (Spec.SamePoint.mulVec hR' ?_) hr⟩
      exact h.symm.neg.sub (SamePoint.refl D a)
  exact ⟨aux h, aux h.symm⟩

theorem mem_withTimeReversal {rots L : List M3} {tr : Bool} (hG : IsGroup rots)
    (h : reciprocalPointGroup rots tr false = some L) (R : M3) :
    R ∈ L ↔ R ∈ withTimeReversal rots tr := by
  rw [C06_members rots L tr false h]
  unfold withTimeReversal
  cases tr
  · simp
  · by_cases hm : M3.negOne ∈ rots
    · simp only [Bool.false_eq_true, if_false, hm, not_true, false_and, and_false, or_false,
        if_true, List.mem_append, List.mem_map]
      constructor
      · rintro ⟨s, hs, rfl⟩; exact Or.inl hs
      · rintro (hs | ⟨s, hs, rfl⟩)
        · exact ⟨R, hs, rfl⟩
        · exact ⟨_, hG.mul_mem _ hm _ hs, rfl⟩
    · simp [hm, eq_comm]

/-- C17: two grid points share a triplet class exactly when a rotation that fixes `q0`
carries one to the other, possibly after the exchange of `q1` and `q2`; each class is
represented by its smallest grid point. The same for the map of `q1` without exchange. -/
theorem C17_classes (b : BZInput K) (hD : PosMesh b.D) (hl : ∃ i j, b.reclat i j ≠ 0)
    (dense : Bool) (init bz : BZGridOut) (h : bzGrid b dense init = some bz)
    (s : BZInput K') (hs : s.D = b.D) (rots : List M3) (hG : GridGroup rots b.D ⟨0, 0, 0⟩)
    (tr sw : Bool) (gp : Int) (g0 : 0 ≤ gp) (g1 : gp < bz.size)
    (T : Triplets) (hT : getTripletsAtQ s bz dense rots gp tr sw = some T)
    (g k : Nat) (mg mk qg qk : Int) (eg : T.mapTriplets[g]? = some mg)
    (ek : T.mapTriplets[k]? = some mk) (fg : T.mapQ[g]? = some qg) (fk : T.mapQ[k]? = some qk) :
    let Eqv := fun (sw : Bool) (g k : Int) =>
      TripletEquiv (withTimeReversal rots tr) b.D (bz.addresses gp) sw
        (gridAddressFromIndex g b.D) (gridAddressFromIndex k b.D)
    (mg = mk ↔ Eqv sw g k) ∧ Eqv sw g mg ∧ (0 ≤ mg ∧ mg < b.D.x * b.D.y * b.D.z) ∧
      (Eqv sw g k → mg ≤ k) ∧ (qg = qk ↔ Eqv false g k) ∧ (Eqv false g k → qg ≤ k) := by
  intro Eqv
  cases hL : reciprocalPointGroup rots tr false with
  | none => simp [getTripletsAtQ, tpkIrTripletsAtQ, hL] at hT
  | some L =>
    have hN := numGrid_pos b.D hD
    have e := getTriplets_eq hD hl h s hs hG hL g0 g1 sw
    simp only at e
    rw [hT, Option.some.injEq] at e
    subst e
    have V := bzGrid_valid b hD hl dense init bz h
    obtain ⟨i, i0, i1, hi⟩ := V.cover gp g0 g1
    obtain ⟨_, ei, ai⟩ := V.filed i i0 i1 gp hi
    have hGL := reciprocal_gridGroup hG hL
    have q0 : 0 ≤ bz.bzg2grg gp := by omega
    have q1 : bz.bzg2grg gp < numGrid b.D := by rw [ei]; exact i1
    simp only [List.getElem?_map] at eg ek fg fk
    have hg : g < (numGrid b.D).toNat := by
      by_contra hc; simp [List.getElem?_eq_none, Nat.le_of_not_lt hc] at eg
    have hk : k < (numGrid b.D).toNat := by
      by_contra hc; simp [List.getElem?_eq_none, Nat.le_of_not_lt hc] at ek
    simp only [List.getElem?_range hg, List.getElem?_range hk, Option.map_some,
      Option.some.injEq] at eg ek fg fk
    subst eg ek fg fk
    have hE : ∀ (sw : Bool) (x y : Int), 0 ≤ y → y < numGrid b.D →
        (TRel L b.D (bz.bzg2grg gp) sw x y ↔ Eqv sw x y) := by
      intro sw x y y0 y1
      rw [tRel_iff hGL q0 q1 sw x y y0 y1, tripletEquiv_congr (mem_withTimeReversal hG.grp hL)]
      exact tripletEquiv_base (fun R hR => hGL.mesh R ((mem_withTimeReversal hG.grp hL R).2 hR))
        (samePoint_of_filed hD hl h g0 g1).symm sw _ _
    have gg : (g : Int) < numGrid b.D := by omega
    have kk : (k : Int) < numGrid b.D := by omega
    have bb := tripletMap_bounds hGL q0 q1 sw (fun _ => 0) g (by omega) gg
    have m1 : tripletMap L b.D (bz.bzg2grg gp) sw (fun _ => 0) g < numGrid b.D := by omega
    have eF : ∀ x : Int, 0 ≤ x → x < numGrid b.D →
        irGridMap (stabilizer L b.D (bz.bzg2grg gp)) b.D ⟨0, 0, 0⟩ x
          = tripletMap L b.D (bz.bzg2grg gp) false (fun _ => 0) x := by
      intro x x0 x1
      rw [tripletMap_eq hGL q0 q1 false (fun _ => 0) x x0 x1]
      simp
    refine ⟨?_, ?_, ⟨bb.1, m1⟩, ?_, ?_, ?_⟩
    · rw [← hE sw g k (by omega) kk]
      exact tripletMap_eq_iff hGL q0 q1 sw _ g k (by omega) gg (by omega) kk
    · rw [← hE sw g _ bb.1 m1]
      rw [← tripletMap_eq_iff hGL q0 q1 sw (fun _ => 0) g _ (by omega) gg bb.1 m1]
      exact (tripletMap_idem hGL q0 q1 sw _ g (by omega) gg).symm
    · intro hr
      exact tripletMap_le hGL q0 q1 sw _ g k (by omega) gg (by omega) kk
        ((hE sw g k (by omega) kk).2 hr)
    · rw [eF g (by omega) gg, eF k (by omega) kk, ← hE false g k (by omega) kk]
      exact tripletMap_eq_iff hGL q0 q1 false _ g k (by omega) gg (by omega) kk
    · intro hr
      rw [eF g (by omega) gg]
      exact tripletMap_le hGL q0 q1 false _ g k (by omega) gg (by omega) kk
        ((hE false g k (by omega) kk).2 hr)

/-- C17: the number of irreducible triplets that the C function returns is the number of
classes. -/
theorem C17_number (D : V3) (rots L : List M3) (hG : GridGroup rots D ⟨0, 0, 0⟩) (tr sw : Bool)
    (hL : reciprocalPointGroup rots tr false = some L) (q0 : Int) (h0 : 0 ≤ q0)
    (h1 : q0 < D.x * D.y * D.z) (init mapT mapQ : Int → Int) (num : Nat)
    (h : tpkIrTripletsAtQ rots tr D q0 sw init = some (mapT, mapQ, num)) :
    num = ((List.range (D.x * D.y * D.z).toNat).map fun (g : Nat) => mapT g).dedup.length := by
  have hGL := reciprocal_gridGroup hG hL
  have hN := numGrid_pos D hG.pos
  unfold tpkIrTripletsAtQ at h
  rw [hL] at h
  simp only [Option.some.injEq] at h
  have eT : mapT = tripletMap L D q0 sw init := by
    unfold tripletMap; rw [h]
  have en : num = (irTripletsAtQ L D q0 sw init).2.2 := by rw [h]
  rw [en, tripletNum_eq hGL h0 h1, eT]
  show _ = ((List.range (numGrid D).toNat).map _).dedup.length
  rw [dedup_table (n := (numGrid D).toNat) (T := tripletMap L D q0 sw init)]
  · rw [List.countP_eq_length_filter]; rfl
  · intro g hg
    have := tripletMap_bounds hGL h0 h1 sw init g (by omega) (by omega)
    exact ⟨this.1, lt_of_le_of_lt this.2 (by omega)⟩
  · intro g hg
    exact tripletMap_idem hGL h0 h1 sw init g (by omega) (by omega)

/-! ## C18 -/

theorem mem_block_of_filed {b : BZInput K} (hD : PosMesh b.D) (hl : ∃ i j, b.reclat i j ≠ 0)
    {dense : Bool} {init bz : BZGridOut} (h : bzGrid b dense init = some bz) {k : Int}
    (h0 : 0 ≤ k ∧ k < bz.size) : k ∈ block b.D dense bz (bz.bzg2grg k) := by
  have V := bzGrid_valid b hD hl dense init bz h
  obtain ⟨i, i0, i1, hi⟩ := V.cover k h0.1 h0.2
  rw [(V.filed i i0 i1 k hi).2.1]; exact hi

/-- The search of one row. -/
theorem row_search {b : BZInput K} (hD : PosMesh b.D) (hl : ∃ i j, b.reclat i j ≠ 0)
    {dense : Bool} {init bz : BZGridOut} (h : bzGrid b dense init = some bz)
    (s : BZInput K') (hs : s.D = b.D) {gp q1 : Int} (g0 : 0 ≤ gp) (g1 : gp < bz.size)
    (gd : dense = false → gp < numGrid b.D) (q0 : 0 ≤ q1) (q1' : q1 < numGrid b.D)
    (before t : Int × Int × Int) (ht : t = bzTriplet s bz dense gp q1 before)
    (u : Int × Int × Int)
    (hu : (0 ≤ u.1 ∧ u.1 < bz.size) ∧ (0 ≤ u.2.1 ∧ u.2.1 < bz.size) ∧ (0 ≤ u.2.2 ∧ u.2.2 < bz.size))
    (hsame : bz.bzg2grg u.1 = bz.bzg2grg t.1 ∧ bz.bzg2grg u.2.1 = bz.bzg2grg t.2.1 ∧
      bz.bzg2grg u.2.2 = bz.bzg2grg t.2.2) :
    (tripletSum bz u = ⟨0, 0, 0⟩ → tripletSum bz t = ⟨0, 0, 0⟩) ∧
    (tripletSum bz t ≠ ⟨0, 0, 0⟩ → squaredDistance (tripletSum bz t) (lqdInv s)
      ≤ squaredDistance (tripletSum bz u) (lqdInv s) + tolerance s) := by
  obtain ⟨_, r1, r2, r3, _⟩ := triplet_row hD hl h s hs g0 g1 gd q0 q1' before t ht
  have hm : u ∈ bzCombos b.D bz dense gp q1 := by
    refine mem_combos.2 ⟨?_, ?_, ?_⟩
    · rw [← r1, ← hsame.1]; exact mem_block_of_filed hD hl h hu.1
    · rw [← r2, ← hsame.2.1]; exact mem_block_of_filed hD hl h hu.2.1
    · rw [← r3, ← hsame.2.2]; exact mem_block_of_filed hD hl h hu.2.2
  rw [bzTriplet_eq hD hl h s hs g0 g1 gd q0 q1'] at ht
  constructor
  · intro hz
    rw [ht]
    exact tripletSearch_zero bz _ _ _ _ _ ⟨u, hm, hz⟩
  · intro hnz
    have hz : ∀ c ∈ bzCombos b.D bz dense gp q1, comboG bz c ≠ ⟨0, 0, 0⟩ := by
      intro c hc e
      apply hnz
      rw [ht]
      exact tripletSearch_zero bz _ _ _ _ _ ⟨c, hc, e⟩
    have := (tripletSearch_min_aux bz (fun G => squaredDistance G (lqdInv s)) (bzTolerance s)
      (bzTolerance_nonneg s) (fun G => squaredDistance_nonneg G _) (bzCombos b.D bz dense gp q1) (-1)
      before (Or.inl (by linarith [zero_lt_one (α := K')])) hz).2 u hm
    rw [← ht, bzTolerance_eq] at this
    exact this

/-- C18, first half: if some combination of stored images of the three grid points sums to
zero, so does the returned triplet, whatever the (unset) reciprocal lattice holds. -/
theorem C18_no_umklapp_partial (b : BZInput K) (hD : PosMesh b.D) (hl : ∃ i j, b.reclat i j ≠ 0)
    (dense : Bool) (init bz : BZGridOut) (h : bzGrid b dense init = some bz)
    (s : BZInput K') (hs : s.D = b.D) (rots : List M3) (hG : GridGroup rots b.D ⟨0, 0, 0⟩)
    (tr sw : Bool) (gp : Int) (g0 : 0 ≤ gp) (g1 : gp < bz.size)
    (gd : dense = false → gp < b.D.x * b.D.y * b.D.z)
    (T : Triplets) (hT : getTripletsAtQ s bz dense rots gp tr sw = some T) (t : Int × Int × Int)
    (ht : t ∈ T.triplets) (u : Int × Int × Int)
    (hu : (0 ≤ u.1 ∧ u.1 < bz.size) ∧ (0 ≤ u.2.1 ∧ u.2.1 < bz.size) ∧ (0 ≤ u.2.2 ∧ u.2.2 < bz.size))
    (hsame : bz.bzg2grg u.1 = bz.bzg2grg t.1 ∧ bz.bzg2grg u.2.1 = bz.bzg2grg t.2.1 ∧
      bz.bzg2grg u.2.2 = bz.bzg2grg t.2.2)
    (hz : tripletSum bz u = ⟨0, 0, 0⟩) : tripletSum bz t = ⟨0, 0, 0⟩ := by
  cases hL : reciprocalPointGroup rots tr false with
  | none => simp [getTripletsAtQ, tpkIrTripletsAtQ, hL] at hT
  | some L =>
    have hN := numGrid_pos b.D hD
    have e := getTriplets_eq hD hl h s hs hG hL g0 g1 sw
    simp only at e
    rw [hT, Option.some.injEq] at e
    subst e
    obtain ⟨q1, hq, hTq, rfl⟩ := mem_bzTriplets ht
    exact row_search hD hl h s hs g0 g1 gd (by omega) (by omega) _ _ rfl u hu hsame |>.1 hz

/-- C18, second half as far as it is true: when no combination sums to zero the returned
triplet has, up to the tolerance, the smallest value among all combinations of the quantity
the code computes from its `LQD_inv` matrix. That quantity is not the length of `G`, because
`get_LQD_inv` keeps only the last term of the matrix product (`C18_not_shortest`), and the
callers leave the lattice unset. -/
theorem C18_computed_distance_partial (b : BZInput K) (hD : PosMesh b.D)
    (hl : ∃ i j, b.reclat i j ≠ 0)
    (dense : Bool) (init bz : BZGridOut) (h : bzGrid b dense init = some bz)
    (s : BZInput K') (hs : s.D = b.D) (rots : List M3) (hG : GridGroup rots b.D ⟨0, 0, 0⟩)
    (tr sw : Bool) (gp : Int) (g0 : 0 ≤ gp) (g1 : gp < bz.size)
    (gd : dense = false → gp < b.D.x * b.D.y * b.D.z)
    (T : Triplets) (hT : getTripletsAtQ s bz dense rots gp tr sw = some T) (t : Int × Int × Int)
    (ht : t ∈ T.triplets) (hnz : tripletSum bz t ≠ ⟨0, 0, 0⟩) (u : Int × Int × Int)
    (hu : (0 ≤ u.1 ∧ u.1 < bz.size) ∧ (0 ≤ u.2.1 ∧ u.2.1 < bz.size) ∧ (0 ≤ u.2.2 ∧ u.2.2 < bz.size))
    (hsame : bz.bzg2grg u.1 = bz.bzg2grg t.1 ∧ bz.bzg2grg u.2.1 = bz.bzg2grg t.2.1 ∧
      bz.bzg2grg u.2.2 = bz.bzg2grg t.2.2) :
    squaredDistance (tripletSum bz t) (lqdInv s)
      ≤ squaredDistance (tripletSum bz u) (lqdInv s) + tolerance s := by
  cases hL : reciprocalPointGroup rots tr false with
  | none => simp [getTripletsAtQ, tpkIrTripletsAtQ, hL] at hT
  | some L =>
    have hN := numGrid_pos b.D hD
    have e := getTriplets_eq hD hl h s hs hG hL g0 g1 sw
    simp only at e
    rw [hT, Option.some.injEq] at e
    subst e
    obtain ⟨q1, hq, hTq, rfl⟩ := mem_bzTriplets ht
    exact row_search hD hl h s hs g0 g1 gd (by omega) (by omega) _ _ rfl u hu hsame |>.2 hnz

end

/-! ## Concrete cases -/

/-- A simple cubic lattice with a 3x2x1 mesh. -/
def exampleCubic : BZInput ℚ where
  D := ⟨3, 2, 1⟩
  PS := ⟨0, 0, 0⟩
  Q := ⟨1, 0, 0, 0, 1, 0, 0, 0, 1⟩
  reclat := fun i j => if i = j then 1 else 0

/-- A two-fold axis along the first direction. -/
def exampleTwoFold : List M3 := [M3.one, ⟨1, 0, 0, 0, -1, 0, 0, 0, -1⟩]

example : GridGroup exampleTwoFold exampleCubic.D ⟨0, 0, 0⟩ where
  pos := by decide
  grp := ⟨by decide, by decide, by decide⟩
  mesh := by
    intro R hR v ⟨⟨a, ha⟩, ⟨b, hb⟩, ⟨c, hc⟩⟩
    simp only [exampleTwoFold, List.mem_cons, List.not_mem_nil, or_false] at hR
    rcases hR with rfl | rfl
    · exact ⟨⟨a, by simp [M3.one, M3.mulVec, ha]⟩, ⟨b, by simp [M3.one, M3.mulVec, hb]⟩,
        ⟨c, by simp [M3.one, M3.mulVec, hc]⟩⟩
    · exact ⟨⟨a, by simp [M3.mulVec, ha]⟩, ⟨-b, by simp [M3.mulVec, hb]⟩,
        ⟨-c, by simp [M3.mulVec, hc]⟩⟩
  shift := by decide

/-- Triplets of the point with address (1, 0, 0): classes by exchange and by rotation. -/
example : ((bzGrid exampleCubic true exampleInit).bind fun bz =>
    (getTripletsAtQ exampleCubic bz true exampleTwoFold 1 true true).map fun T =>
      (T.weights, T.mapTriplets, T.triplets)) =
    some ([2, 1, 2, 1], [0, 1, 0, 3, 4, 3], [(1, 0, 2), (1, 1, 1), (1, 3, 8), (1, 5, 5)]) := by
  decide +kernel
example : ((bzGrid exampleCubic false exampleInit).bind fun bz =>
    (getTripletsAtQ exampleCubic bz false exampleTwoFold 1 true false).map fun T =>
      (T.weights, T.mapQ, T.triplets)) =
    some ([1, 1, 1, 1, 1, 1], [0, 1, 2, 3, 4, 5],
      [(1, 0, 2), (1, 1, 1), (1, 2, 0), (1, 3, 8), (1, 4, 4), (1, 5, 6)]) := by
  decide +kernel
example : ((bzGrid exampleCubic true exampleInit).bind fun bz =>
    (getNosymTripletsAtQ exampleCubic bz true 3).map fun T => (T.weights, T.triplets)) =
    some ([1, 1, 1, 1, 1, 1], [(3, 0, 4), (3, 1, 8), (3, 2, 6), (3, 4, 0), (3, 6, 2), (3, 8, 1)]) := by
  decide +kernel

/-- C15 fails in the sparse layout when the requested point is a surface copy, a valid BZ
index: the pointer table is read at the BZ index, one past its end. With zeros there (a
possible content) the search runs over no combination and row 0 of the result stays
`(-1, -1, -1)`. -/
theorem C15_sparse_surface_point :
    ∃ bz, bzGrid exampleCubic false exampleInit = some bz ∧
      ∃ gp, (0 ≤ gp ∧ gp < bz.size) ∧
        ∃ T, getTripletsAtQ exampleCubic bz false exampleTwoFold gp true true = some T ∧
          (-1, -1, -1) ∈ T.triplets := by
  cases h : bzGrid exampleCubic false exampleInit with
  | none => exact absurd ((C09_failure_iff _ _ _).1 h) (by decide +kernel)
  | some bz =>
    refine ⟨bz, rfl, 6, ?_⟩
    have hx : ((bzGrid exampleCubic false exampleInit).bind fun bz =>
        (getTripletsAtQ exampleCubic bz false exampleTwoFold 6 true true).map fun T =>
          decide ((0 ≤ (6 : Int) ∧ (6 : Int) < bz.size) ∧ ((-1 : Int), (-1 : Int), (-1 : Int)) ∈ T.triplets)) = some true := by
      decide +kernel
    rw [h, Option.bind_some] at hx
    cases hT : getTripletsAtQ exampleCubic bz false exampleTwoFold 6 true true with
    | none => rw [hT] at hx; simp at hx
    | some T =>
      rw [hT, Option.map_some, Option.some.injEq, decide_eq_true_eq] at hx
      exact ⟨hx.1, T, rfl, hx.2⟩

/-- C18 fails: even with the right reciprocal lattice in place, a triplet with
`G = (3, -2, 0)` is returned although other images give `G = (3, 0, 0)`, which is shorter by
more than the tolerance. -/
theorem C18_not_shortest :
    ∃ bz, bzGrid exampleCubic true exampleInit = some bz ∧
      ∃ gp T, (0 ≤ gp ∧ gp < bz.size) ∧
        getTripletsAtQ exampleCubic bz true exampleTwoFold gp true true = some T ∧
        ∃ t ∈ T.triplets, ∃ u : Int × Int × Int,
          ((0 ≤ u.1 ∧ u.1 < bz.size) ∧ (0 ≤ u.2.1 ∧ u.2.1 < bz.size) ∧
            (0 ≤ u.2.2 ∧ u.2.2 < bz.size)) ∧
          (bz.bzg2grg u.1 = bz.bzg2grg t.1 ∧ bz.bzg2grg u.2.1 = bz.bzg2grg t.2.1 ∧
            bz.bzg2grg u.2.2 = bz.bzg2grg t.2.2) ∧
          gNorm exampleCubic (tripletSum bz u) + tolerance exampleCubic
            < gNorm exampleCubic (tripletSum bz t) := by
  cases h : bzGrid exampleCubic true exampleInit with
  | none => exact absurd ((C09_failure_iff _ _ _).1 h) (by decide +kernel)
  | some bz =>
    refine ⟨bz, rfl, 1, ?_⟩
    have hx : ((bzGrid exampleCubic true exampleInit).bind fun bz =>
        (getTripletsAtQ exampleCubic bz true exampleTwoFold 1 true true).map fun T =>
          decide ((0 ≤ (1 : Int) ∧ (1 : Int) < bz.size) ∧
            (((1 : Int), (5 : Int), (5 : Int)) ∈ T.triplets ∧
            ((0 ≤ (1 : Int) ∧ (1 : Int) < bz.size) ∧ (0 ≤ (5 : Int) ∧ (5 : Int) < bz.size) ∧
              (0 ≤ (6 : Int) ∧ (6 : Int) < bz.size)) ∧
            (bz.bzg2grg 1 = bz.bzg2grg 1 ∧ bz.bzg2grg 5 = bz.bzg2grg 5 ∧
              bz.bzg2grg 6 = bz.bzg2grg 5) ∧
            gNorm exampleCubic (tripletSum bz (1, 5, 6)) + tolerance exampleCubic
              < gNorm exampleCubic (tripletSum bz (1, 5, 5))))) = some true := by
      decide +kernel
    rw [h, Option.bind_some] at hx
    cases hT : getTripletsAtQ exampleCubic bz true exampleTwoFold 1 true true with
    | none => rw [hT] at hx; simp at hx
    | some T =>
      rw [hT, Option.map_some, Option.some.injEq, decide_eq_true_eq] at hx
      obtain ⟨a, b1, b2, b3, b4⟩ := hx
      exact ⟨T, a, rfl, (1, 5, 5), b1, (1, 5, 6), b2, b3, b4⟩

end Phono3py.Props
