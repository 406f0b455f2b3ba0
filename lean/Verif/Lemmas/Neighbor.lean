import Verif.Lemmas.BZGrid
import Verif.Model.IntegrationWeight

/-!
Lemmas for C60: what the doubled-mesh table of the sparse BZ grid holds.
-/

namespace Phono3py

open Spec

/-- The doubled mesh of the sparse layout. -/
def doubledMesh (D : V3) : V3 := ⟨D.x * 2, D.y * 2, D.z * 2⟩

theorem doubledMesh_pos (D : V3) (hD : PosMesh D) : PosMesh (doubledMesh D) :=
  ⟨by have := hD.1; simp only [doubledMesh]; omega,
    by have := hD.2.1; simp only [doubledMesh]; omega,
    by have := hD.2.2; simp only [doubledMesh]; omega⟩

theorem double_slot (a D PS : V3) :
    doubleGridIndex (doubleGridAddress a PS) ⟨D.x * 2, D.y * 2, D.z * 2⟩ PS
      = gridIndex a (doubledMesh D) := by
  have h : singleGridAddress (doubleGridAddress a PS) PS = a := by
    unfold singleGridAddress doubleGridAddress
    ext <;> simp
  unfold doubleGridIndex
  rw [h]
  rfl

/-- The BZ indices written so far while grid point `i` is processed. -/
def Written (D : V3) (i : Int) (st : BZ1State) (g : Int) : Prop :=
  (0 ≤ g ∧ g < i) ∨ (0 < st.count ∧ g = i) ∨ (numGrid D ≤ g ∧ g < numGrid D + st.boundary)

/-- What holds of the doubled-mesh table while the sparse BZ grid is built. -/
structure SlotInv (D : V3) (i : Int) (st : BZ1State) : Prop where
  count_nonneg : 0 ≤ st.count
  boundary_nonneg : 0 ≤ st.boundary
  sound : ∀ s, 0 ≤ s → s < numBzMesh D → st.gpMap s = numBzMesh D ∨
    (Written D i st (st.gpMap s) ∧ gridIndex (st.addresses (st.gpMap s)) (doubledMesh D) = s)
  registered : ∀ g, Written D i st g →
    Written D i st (st.gpMap (gridIndex (st.addresses g) (doubledMesh D)))

theorem slotInv_inner (D PS : V3) (cond : V3 → Bool) (addr : V3 → V3) (i : Int)
    (hi0 : 0 ≤ i) (hi : i < numGrid D) (st : BZ1State) (s : V3) (h : SlotInv D i st) :
    SlotInv D i (bz1Inner D PS cond addr i st s) := by
  by_cases hc : cond s = true
  · have hW : ∀ g, Written D i st g → Written D i (bz1Inner D PS cond addr i st s) g ∧
        (bz1Inner D PS cond addr i st s).addresses g = st.addresses g := by
      intro g hg
      have h1 := h.count_nonneg
      have h2 := h.boundary_nonneg
      unfold Written at hg ⊢
      simp only [bz1Inner, hc, if_true, upd]
      by_cases h0 : st.count = 0
      · simp only [h0, if_true]
        refine ⟨by omega, ?_⟩
        rw [if_neg (by omega)]
      · simp only [h0, if_false]
        refine ⟨by omega, ?_⟩
        rw [if_neg (by omega)]
    have hgp : ∃ gp, Written D i (bz1Inner D PS cond addr i st s) gp ∧
        (bz1Inner D PS cond addr i st s).addresses = upd st.addresses gp (addr s) ∧
        (bz1Inner D PS cond addr i st s).gpMap
          = upd st.gpMap (gridIndex (addr s) (doubledMesh D)) gp ∧
        ∀ g, Written D i (bz1Inner D PS cond addr i st s) g → g = gp ∨ Written D i st g := by
      refine ⟨if st.count = 0 then i else st.boundary + numGrid D, ?_, ?_, ?_, ?_⟩
      · have h1 := h.count_nonneg
        have h2 := h.boundary_nonneg
        unfold Written
        simp only [bz1Inner, hc, if_true]
        by_cases h0 : st.count = 0
        · simp only [h0, if_true]
          exact Or.inr (Or.inl ⟨by norm_num, trivial⟩)
        · simp only [h0, if_false]; omega
      · simp only [bz1Inner, hc, if_true]
      · simp only [bz1Inner, hc, if_true]
        rw [double_slot]
      · intro g hg
        have h1 := h.count_nonneg
        have h2 := h.boundary_nonneg
        unfold Written at hg ⊢
        simp only [bz1Inner, hc, if_true] at hg
        by_cases h0 : st.count = 0
        · simp only [h0, if_true] at hg ⊢; omega
        · simp only [h0, if_false] at hg ⊢; omega
    have hcnt : 0 ≤ (bz1Inner D PS cond addr i st s).count ∧
        0 ≤ (bz1Inner D PS cond addr i st s).boundary := by
      have h1 := h.count_nonneg
      have h2 := h.boundary_nonneg
      simp only [bz1Inner, hc, if_true]
      refine ⟨by omega, ?_⟩
      split <;> omega
    generalize bz1Inner D PS cond addr i st s = st' at *
    obtain ⟨gp, g1, g2, g3, g4⟩ := hgp
    refine ⟨hcnt.1, hcnt.2, ?_, ?_⟩
    · intro t ht0 ht
      rw [g3]
      by_cases e : t = gridIndex (addr s) (doubledMesh D)
      · right
        subst e
        rw [show upd st.gpMap _ gp (gridIndex (addr s) (doubledMesh D)) = gp by simp [upd]]
        refine ⟨g1, ?_⟩
        rw [g2]
        simp [upd]
      · rw [show upd st.gpMap (gridIndex (addr s) (doubledMesh D)) gp t = st.gpMap t by
          simp [upd, e]]
        rcases h.sound t ht0 ht with h' | ⟨h1, h2⟩
        · exact Or.inl h'
        · right
          obtain ⟨k1, k2⟩ := hW _ h1
          exact ⟨k1, by rw [k2]; exact h2⟩
    · intro g hg
      rw [g3]
      by_cases e : gridIndex (st'.addresses g) (doubledMesh D) = gridIndex (addr s) (doubledMesh D)
      · rw [e]
        simpa [upd] using g1
      · rw [show upd st.gpMap (gridIndex (addr s) (doubledMesh D)) gp
            (gridIndex (st'.addresses g) (doubledMesh D))
            = st.gpMap (gridIndex (st'.addresses g) (doubledMesh D)) by simp [upd, e]]
        rcases g4 g hg with rfl | hg'
        · exfalso
          apply e
          rw [g2]
          simp [upd]
        · rw [(hW g hg').2]
          exact (hW _ (h.registered g hg')).1
  · have e : bz1Inner D PS cond addr i st s = st := by simp [bz1Inner, hc]
    rw [e]
    exact h

theorem slotInv_fold (D PS : V3) (cond : V3 → Bool) (addr : V3 → V3) (i : Int)
    (hi0 : 0 ≤ i) (hi : i < numGrid D) : ∀ (l : List V3) (st : BZ1State), SlotInv D i st →
    SlotInv D i (l.foldl (bz1Inner D PS cond addr i) st) := by
  intro l
  induction l with
  | nil => intro st h; exact h
  | cons s l ih =>
    intro st h
    exact ih _ (slotInv_inner D PS cond addr i hi0 hi st s h)

section
variable {K : Type*} [Field K] [LinearOrder K] [IsStrictOrderedRing K] [FloorRing K]

theorem slotInv_outer (b : BZInput K) (hD : PosMesh b.D) (tol : K) (Qinv : M3)
    (hne : ∀ k, bzImages b tol Qinv k ≠ []) (n : Nat) (hn : (n : Int) < numGrid b.D)
    (st : BZ1State) (h : SlotInv b.D n { st with count := 0 }) :
    SlotInv b.D ((n + 1 : Nat) : Int) { bz1Outer b tol Qinv st n with count := 0 } := by
  have hfl : bzSearchSpace.filter (fun s => decide (bzDistance b (gridAddressFromIndex n b.D) s
      < bzMinDistance b tol (gridAddressFromIndex n b.D) + tol)) ≠ [] := by
    intro h
    apply hne n
    simp [bzImages, bzImagesAt, h]
  obtain ⟨i0, _⟩ := bz1Inner_fold b.D b.PS hD
    (fun s => decide (bzDistance b (gridAddressFromIndex n b.D) s
      < bzMinDistance b tol (gridAddressFromIndex n b.D) + tol))
    (fun s => setBzAddress s (gridAddressFromIndex n b.D) b.D
      (bzNint b (gridAddressFromIndex n b.D)) Qinv) n hn bzSearchSpace
    { st with count := 0 } rfl h.boundary_nonneg hfl
  have inv := slotInv_fold b.D b.PS
    (fun s => decide (bzDistance b (gridAddressFromIndex n b.D) s
      < bzMinDistance b tol (gridAddressFromIndex n b.D) + tol))
    (fun s => setBzAddress s (gridAddressFromIndex n b.D) b.D
      (bzNint b (gridAddressFromIndex n b.D)) Qinv) n (by omega) hn bzSearchSpace
    { st with count := 0 } h
  have hpos := List.length_pos_of_ne_nil hfl
  rw [← List.length_map (f := fun s => setBzAddress s (gridAddressFromIndex n b.D) b.D
      (bzNint b (gridAddressFromIndex n b.D)) Qinv)] at hpos
  unfold bz1Outer
  simp only
  generalize bzSearchSpace.foldl (bz1Inner b.D b.PS
      (fun s => decide (bzDistance b (gridAddressFromIndex n b.D) s
        < bzMinDistance b tol (gridAddressFromIndex n b.D) + tol))
      (fun s => setBzAddress s (gridAddressFromIndex n b.D) b.D
        (bzNint b (gridAddressFromIndex n b.D)) Qinv) n) { st with count := 0 } = q at *
  have hW : ∀ (m : Int → Int) (sh : Int) (g : Int), Written b.D ((n + 1 : Nat) : Int)
      { q with count := 0, gpMap := m, idShift := sh } g ↔ Written b.D n q g := by
    intro m sh g
    unfold Written
    simp only
    push_cast
    simp only [false_and, false_or]
    omega
  refine ⟨le_rfl, inv.boundary_nonneg, ?_, ?_⟩
  · intro s h0 h1
    simp only
    rw [hW, show upd q.gpMap (numBzMesh b.D + n + 1) (q.idShift + (q.count - 1)) s = q.gpMap s by
      simp only [upd]; rw [if_neg (by omega)]]
    exact inv.sound s h0 h1
  · intro g hg
    rw [hW] at hg ⊢
    simp only
    have hb := (gridIndex_bounds (q.addresses g) (doubledMesh b.D) (doubledMesh_pos b.D hD)).2
    rw [show numGrid (doubledMesh b.D) = numBzMesh b.D from rfl]
      at hb
    rw [show upd q.gpMap (numBzMesh b.D + n + 1) (q.idShift + (q.count - 1))
      (gridIndex (q.addresses g) (doubledMesh b.D)) = q.gpMap (gridIndex (q.addresses g)
        (doubledMesh b.D)) by simp only [upd]; rw [if_neg (by omega)]]
    exact inv.registered g hg

/-- The doubled-mesh table of a sparse BZ grid: each slot either holds the sentinel or a BZ index
whose address has that doubled-mesh index; and the slot of every stored address holds a BZ index. -/
theorem sparse_slots (b : BZInput K) (hD : PosMesh b.D) (hl : ∃ i j, b.reclat i j ≠ 0)
    (init bz : BZGridOut) (h : bzGrid b false init = some bz) :
    (∀ s, 0 ≤ s → s < numBzMesh b.D → bz.gpMap s = numBzMesh b.D ∨
      ((0 ≤ bz.gpMap s ∧ bz.gpMap s < bz.size) ∧
        gridIndex (bz.addresses (bz.gpMap s)) (doubledMesh b.D) = s)) ∧
    ∀ g, 0 ≤ g → g < bz.size →
      0 ≤ bz.gpMap (gridIndex (bz.addresses g) (doubledMesh b.D)) ∧
      bz.gpMap (gridIndex (bz.addresses g) (doubledMesh b.D)) < bz.size := by
  obtain ⟨hq, rfl⟩ := bzGrid_some b false init bz h
  have hne := bzImages_ne_nil b _ (bzTolerance_pos b hD hq hl) (b.Q.cofactorsDiv b.Q.det)
  have hN := numGrid_pos b.D hD
  have hall : ∀ (st : BZ1State), SlotInv b.D 0 { st with count := 0 } →
      ∀ n : Nat, (n : Int) ≤ numGrid b.D →
      SlotInv b.D n { (List.range n).foldl (bz1Outer b (bzTolerance b)
        (b.Q.cofactorsDiv b.Q.det)) st with count := 0 } := by
    intro st hst n
    induction n with
    | zero => intro _; exact hst
    | succ n ih =>
      intro hn
      simp only [List.range_succ, List.foldl_append, List.foldl_cons, List.foldl_nil]
      exact slotInv_outer b hD _ _ hne n (by push_cast at hn; omega) _
        (ih (by push_cast at hn; omega))
  have hfin := hall ⟨init.addresses, upd (fun k => if 0 ≤ k ∧ k < numBzMesh b.D then numBzMesh b.D
      else init.gpMap k) (numBzMesh b.D) 0, init.bzg2grg, 0, 0, 0⟩ (by
    refine ⟨le_rfl, le_rfl, ?_, ?_⟩
    · intro s h0 h1
      left
      simp only [upd]
      rw [if_neg (by omega), if_pos ⟨h0, h1⟩]
    · intro g hg
      unfold Written at hg
      simp only at hg
      omega) (numGrid b.D).toNat (by omega)
  simp only [Bool.false_eq_true, if_false]
  rw [show ((numGrid b.D).toNat : Int) = numGrid b.D by omega] at hfin
  unfold bzGridType1
  simp only
  generalize (List.range (numGrid b.D).toNat).foldl (bz1Outer b (bzTolerance b)
      (b.Q.cofactorsDiv b.Q.det)) ⟨init.addresses, upd (fun k => if 0 ≤ k ∧ k < numBzMesh b.D
        then numBzMesh b.D else init.gpMap k) (numBzMesh b.D) 0, init.bzg2grg, 0, 0, 0⟩ = r at *
  have hW : ∀ g, Written b.D (numGrid b.D) { r with count := 0 } g ↔
      0 ≤ g ∧ g < r.boundary + numGrid b.D := by
    intro g
    have := hfin.boundary_nonneg
    unfold Written
    simp only at this ⊢
    omega
  refine ⟨?_, ?_⟩
  · intro s h0 h1
    have := hfin.sound s h0 h1
    rw [hW] at this
    exact this
  · intro g h0 h1
    have := hfin.registered g ((hW g).2 ⟨h0, h1⟩)
    rwa [hW] at this

/-! ### images of one grid point -/

/-- No non-zero reciprocal lattice vector is shorter than the tolerance: its squared length is at
least twice the tolerance of the BZ reduction. -/
def NoShortVector (b : BZInput K) : Prop :=
  ∀ n : V3, n ≠ ⟨0, 0, 0⟩ →
    2 * bzTolerance b ≤ normSquared (mulVecD3 b.reclat (fun i => (n.e i : K)))

theorem images_parity (b : BZInput K) (htol : 0 ≤ bzTolerance b) (hG : NoShortVector b) (gr s t : V3)
    (hs : s ∈ bzSearchSpace) (ht : t ∈ bzSearchSpace)
    (ds : bzDistance b gr s < bzMinDistance b (bzTolerance b) gr + bzTolerance b)
    (dt : bzDistance b gr t < bzMinDistance b (bzTolerance b) gr + bzTolerance b)
    (hx : 2 ∣ s.x - t.x) (hy : 2 ∣ s.y - t.y) (hz : 2 ∣ s.z - t.z) : s = t := by
  by_contra hne
  obtain ⟨gx, ex⟩ := hx
  obtain ⟨gy, ey⟩ := hy
  obtain ⟨gz, ez⟩ := hz
  rw [mem_bzSearchSpace] at hs ht
  have hmid : (⟨t.x + gx, t.y + gy, t.z + gz⟩ : V3) ∈ bzSearchSpace := by
    rw [mem_bzSearchSpace]
    simp only
    omega
  have hm := (minDistance_spec (bzTolerance b) htol (bzSearchSpace.map (bzDistance b gr))
    (by rw [Ne, List.map_eq_nil_iff]; decide)).1 _ (List.mem_map.2 ⟨_, hmid, rfl⟩)
  have hg := hG ⟨gx, gy, gz⟩ (by
    intro h
    simp only [V3.mk.injEq] at h
    apply hne
    ext <;> omega)
  have hsx : (s.x : K) = t.x + 2 * gx := by
    have : s.x = t.x + 2 * gx := by omega
    exact_mod_cast this
  have hsy : (s.y : K) = t.y + 2 * gy := by
    have : s.y = t.y + 2 * gy := by omega
    exact_mod_cast this
  have hsz : (s.z : K) = t.z + 2 * gz := by
    have : s.z = t.z + 2 * gz := by omega
    exact_mod_cast this
  have key : bzDistance b gr s + bzDistance b gr t
      = 2 * bzDistance b gr ⟨t.x + gx, t.y + gy, t.z + gz⟩
        + 2 * normSquared (mulVecD3 b.reclat (fun i => ((⟨gx, gy, gz⟩ : V3).e i : K))) := by
    have e0 : ∀ v : V3, v.e 0 = v.x := fun _ => rfl
    have e1 : ∀ v : V3, v.e 1 = v.y := fun _ => rfl
    have e2 : ∀ v : V3, v.e 2 = v.z := fun _ => rfl
    unfold bzDistance
    generalize qRed b gr = q
    generalize bzNint b gr = n
    unfold normSquared mulVecD3
    simp only [e0, e1, e2, hsx, hsy, hsz, Int.cast_add]
    ring
  change bzMinDistance b (bzTolerance b) gr ≤ _ at hm
  linarith

theorem images_le_eight (b : BZInput K) (htol : 0 ≤ bzTolerance b) (hG : NoShortVector b)
    (Qinv : M3) (gr : V3) : (bzImagesAt b (bzTolerance b) Qinv gr).length ≤ 8 := by
  unfold bzImagesAt
  rw [List.length_map]
  have hnd : (bzSearchSpace.filter (fun s => decide (bzDistance b gr s
      < bzMinDistance b (bzTolerance b) gr + bzTolerance b))).Nodup := bzSearchSpace_nodup.filter _
  let f : V3 → Bool × Bool × Bool :=
    fun s => (decide (s.x % 2 = 0), decide (s.y % 2 = 0), decide (s.z % 2 = 0))
  have hinj : ((bzSearchSpace.filter (fun s => decide (bzDistance b gr s
      < bzMinDistance b (bzTolerance b) gr + bzTolerance b))).map f).Nodup := by
    refine List.Nodup.map_on ?_ hnd
    intro s hs t ht e
    simp only [List.mem_filter, decide_eq_true_eq] at hs ht
    simp only [f, Prod.mk.injEq, decide_eq_decide] at e
    exact images_parity b htol hG gr s t hs.1 ht.1 hs.2 ht.2 (by omega) (by omega) (by omega)
  have := hinj.length_le_card
  rw [List.length_map] at this
  exact le_trans this (by decide)

theorem size_le_eight (b : BZInput K) (hD : PosMesh b.D) (hl : ∃ i j, b.reclat i j ≠ 0)
    (hG : NoShortVector b) (dense : Bool) (init bz : BZGridOut)
    (h : bzGrid b dense init = some bz) : bz.size ≤ 8 * numGrid b.D := by
  have F := bzGrid_facts b hD hl dense init bz h
  have hq := (bzGrid_some b dense init bz h).1
  have hN := numGrid_pos b.D hD
  have hoff : ∀ n : Nat,
      off2 (bzImages b (bzTolerance b) (b.Q.cofactorsDiv b.Q.det)) n ≤ 8 * n := by
    intro n
    induction n with
    | zero => simp [off2]
    | succ n ih =>
      rw [off2_succ]
      have : (bzImages b (bzTolerance b) (b.Q.cofactorsDiv b.Q.det) n).length ≤ 8 :=
        images_le_eight b (bzTolerance_pos b hD hq hl).le hG _ _
      push_cast
      omega
  have := hoff (numGrid b.D).toNat
  rw [← F.size_eq] at this
  omega

/-- Stored addresses that agree modulo the doubled mesh are equal. -/
theorem stored_distinct_doubled (b : BZInput K) (hD : PosMesh b.D) (hl : ∃ i j, b.reclat i j ≠ 0)
    (hG : NoShortVector b) (dense : Bool) (init bz : BZGridOut)
    (h : bzGrid b dense init = some bz) (k l : Int) (hk : 0 ≤ k ∧ k < bz.size)
    (hl' : 0 ≤ l ∧ l < bz.size)
    (e : gridIndex (bz.addresses k) (doubledMesh b.D) = gridIndex (bz.addresses l) (doubledMesh b.D)) :
    k = l := by
  have V := bzGrid_valid b hD hl dense init bz h
  have F := bzGrid_facts b hD hl dense init bz h
  have hq := (bzGrid_some b dense init bz h).1
  obtain ⟨i1, i2⟩ := M3.cofactorsDiv_mul b.Q hq
  apply V.distinct k l hk hl'
  have hp := (gridIndex_eq_iff _ _ _ (doubledMesh_pos b.D hD)).1 e
  obtain ⟨i, hi, hki⟩ := (F.cover k).1 hk
  obtain ⟨j, hj, hlj⟩ := (F.cover l).1 hl'
  have e1 := (V.filed i (by omega) hi k hki).2.2
  have e2 := (V.filed j (by omega) hj l hlj).2.2
  have hs : SamePoint b.D (bz.addresses k) (bz.addresses l) := by
    obtain ⟨h1, h2, h3⟩ := hp
    exact ⟨Dvd.dvd.trans ⟨2, rfl⟩ h1, Dvd.dvd.trans ⟨2, rfl⟩ h2, Dvd.dvd.trans ⟨2, rfl⟩ h3⟩
  have hij : (j : Int) = i := by
    rw [← e1, ← e2]
    exact ((gridIndex_eq_iff _ _ _ hD).2 hs).symm
  have hij' : j = i := by exact_mod_cast hij
  subst hij'
  have m1 := F.mem_images hi hki
  have m2 := F.mem_images hj hlj
  rw [bzImages, mem_bzImagesAt] at m1 m2
  obtain ⟨s, s1, s2, s3⟩ := m1
  obtain ⟨t, t1, t2, t3⟩ := m2
  rw [← s3, ← t3] at hp ⊢
  obtain ⟨⟨u, hu⟩, ⟨v, hv⟩, ⟨w, hw⟩⟩ := hp
  obtain ⟨d1, d2, d3⟩ := hD
  simp only [setBzAddress, V3.sub_x, V3.sub_y, V3.sub_z, V3.add_x, V3.add_y, V3.add_z, V3.mul_x,
    V3.mul_y, V3.mul_z, doubledMesh] at hu hv hw
  have hd : (b.Q.cofactorsDiv b.Q.det).mulVec
        (s - t) = V3.smul 2 ⟨u, v, w⟩ := by
    have e0 : s - t = (s - bzNint b (gridAddressFromIndex j b.D))
        - (t - bzNint b (gridAddressFromIndex j b.D)) := by ext <;> simp
    rw [e0, M3.mulVec_sub]
    ext
    · refine mul_right_cancel₀ d1.ne' ?_
      simp only [V3.sub_x, V3.smul]
      linear_combination hu
    · refine mul_right_cancel₀ d2.ne' ?_
      simp only [V3.sub_y, V3.smul]
      linear_combination hv
    · refine mul_right_cancel₀ d3.ne' ?_
      simp only [V3.sub_z, V3.smul]
      linear_combination hw
  have h2 := congrArg b.Q.mulVec hd
  rw [← M3.mul_mulVec, i2, M3.one_mulVec, M3.mulVec_smul] at h2
  have ex := congrArg V3.x h2
  have ey := congrArg V3.y h2
  have ez := congrArg V3.z h2
  simp only [V3.sub_x, V3.sub_y, V3.sub_z, V3.smul] at ex ey ez
  rw [images_parity b (bzTolerance_pos b ⟨d1, d2, d3⟩ hq hl).le hG _ s t s1 t1 s2 t2
    ⟨_, ex⟩ ⟨_, ey⟩ ⟨_, ez⟩]

end

end Phono3py
