/- Lemmas about triplets. -/
import Verif.Spec.Triplet
import Verif.Lemmas.BZGrid
import Verif.Lemmas.IrMap
import Verif.Lemmas.PointGroup

namespace Phono3py
open Spec

/-- Zero shift. -/
abbrev Z3 : V3 := ⟨0, 0, 0⟩

theorem shiftCompat_zero (R : M3) : ShiftCompat Z3 R := by
  simp [ShiftCompat, M3.mulVec]

theorem rot_zero (g : Int) (R : M3) (D : V3) :
    rotateGridIndex g R D Z3 = gridIndex (R.mulVec (gridAddressFromIndex g D)) D := by
  rw [rotateGridIndex_eq (shiftCompat_zero R)]
  congr 1
  ext <;> simp [shiftOf, M3.mulVec]

theorem mem_stabilizer {G : List M3} {D : V3} {q0 : Int} {R : M3} :
    R ∈ stabilizer G D q0 ↔ R ∈ G ∧ rotateGridIndex q0 R D Z3 = q0 := by
  unfold stabilizer
  rw [List.mem_filter, decide_eq_true_eq, rot_zero]

theorem stabilizer_group {G : List M3} {D : V3} (h : GridGroup G D Z3) {q0 : Int} (h0 : 0 ≤ q0)
    (h1 : q0 < numGrid D) : GridGroup (stabilizer G D q0) D Z3 := by
  refine ⟨h.pos, ⟨?_, ?_, ?_⟩, ?_, fun R _ => shiftCompat_zero R⟩
  · exact mem_stabilizer.2 ⟨h.grp.one_mem, rotate_one h.pos q0 h0 h1⟩
  · intro a ha b hb
    obtain ⟨ha, ea⟩ := mem_stabilizer.1 ha
    obtain ⟨hb, eb⟩ := mem_stabilizer.1 hb
    refine mem_stabilizer.2 ⟨h.grp.mul_mem _ ha _ hb, ?_⟩
    rw [← rotate_comp h.pos (h.mesh _ ha) (shiftCompat_zero _) (shiftCompat_zero _), eb, ea]
  · intro a ha
    obtain ⟨ha, ea⟩ := mem_stabilizer.1 ha
    obtain ⟨b, hb, e⟩ := h.grp.inv_mem a ha
    refine ⟨b, mem_stabilizer.2 ⟨hb, ?_⟩, e⟩
    conv_lhs => rw [← ea]
    rw [rotate_comp h.pos (h.mesh _ hb) (shiftCompat_zero _) (shiftCompat_zero _), e,
      rotate_one h.pos q0 h0 h1]
  · intro R hR
    exact h.mesh R (mem_stabilizer.1 hR).1

/-! ### exchange of q1 and q2 -/

theorem third_bounds (D : V3) (hD : PosMesh D) (q0 g : Int) :
    0 ≤ thirdGridPoint D q0 g ∧ thirdGridPoint D q0 g < numGrid D := gridIndex_bounds _ D hD

theorem Spec.SamePoint.neg {D a b : V3} (h : SamePoint D a b) : SamePoint D (-a) (-b) := by
  have := MeshTranslation.neg h
  unfold SamePoint
  have e : -a - -b = -(a - b) := by ext <;> simp <;> ring
  rw [e]; exact this

theorem Spec.SamePoint.add {D a b c d : V3} (h : SamePoint D a b) (h' : SamePoint D c d) :
    SamePoint D (a + c) (b + d) := by
  have := MeshTranslation.add h h'
  unfold SamePoint
  have e : a + c - (b + d) = (a - b) + (c - d) := by ext <;> simp <;> ring
  rw [e]; exact this

theorem Spec.SamePoint.sub {D a b c d : V3} (h : SamePoint D a b) (h' : SamePoint D c d) :
    SamePoint D (a - c) (b - d) := by
  have := h.add h'.neg
  have e1 : a + -c = a - c := by ext <;> simp <;> ring
  have e2 : b + -d = b - d := by ext <;> simp <;> ring
  rwa [e1, e2] at this

theorem third_same (D : V3) (hD : PosMesh D) (q0 g : Int) :
    SamePoint D (gridAddressFromIndex (thirdGridPoint D q0 g) D)
      (-(gridAddressFromIndex q0 D) - gridAddressFromIndex g D) :=
  address_samePoint_of_index _ D hD

theorem third_third (D : V3) (hD : PosMesh D) (q0 g : Int) (h0 : 0 ≤ g) (h1 : g < numGrid D) :
    thirdGridPoint D q0 (thirdGridPoint D q0 g) = g := by
  have h := third_same D hD q0 g
  conv_rhs => rw [← gridIndex_addressFromIndex g D hD h0 h1]
  rw [thirdGridPoint, gridIndex_eq_iff _ _ _ hD]
  have h2 := (SamePoint.refl D (-(gridAddressFromIndex q0 D))).sub h
  have e : -(gridAddressFromIndex q0 D) - (-(gridAddressFromIndex q0 D) - gridAddressFromIndex g D)
    = gridAddressFromIndex g D := by ext <;> simp
  rwa [e] at h2

theorem Spec.SamePoint.mulVec {D : V3} {R : M3} (hR : MeshCompat D R) {a b : V3}
    (h : SamePoint D a b) : SamePoint D (R.mulVec a) (R.mulVec b) := by
  have := hR _ h
  rw [M3.mulVec_sub] at this
  exact this

theorem rot_third {G : List M3} {D : V3} (h : GridGroup G D Z3) {q0 : Int} {R : M3}
    (hR : R ∈ stabilizer G D q0) (g : Int) :
    rotateGridIndex (thirdGridPoint D q0 g) R D Z3
      = thirdGridPoint D q0 (rotateGridIndex g R D Z3) := by
  obtain ⟨hG, e⟩ := mem_stabilizer.1 hR
  have hm := h.mesh R hG
  rw [rot_zero]
  show gridIndex (R.mulVec (gridAddressFromIndex (thirdGridPoint D q0 g) D)) D
    = gridIndex (-(gridAddressFromIndex q0 D)
        - gridAddressFromIndex (rotateGridIndex g R D Z3) D) D
  rw [gridIndex_eq_iff _ _ _ h.pos]
  have h1 := (third_same D h.pos q0 g).mulVec hm
  refine h1.trans ?_
  rw [M3.mulVec_sub, M3.mulVec_neg]
  have h2 : SamePoint D (R.mulVec (gridAddressFromIndex q0 D)) (gridAddressFromIndex q0 D) := by
    conv => rhs; rw [← e]
    rw [rot_zero]
    exact (address_samePoint_of_index _ D h.pos).symm
  have h3 : SamePoint D (R.mulVec (gridAddressFromIndex g D))
      (gridAddressFromIndex (rotateGridIndex g R D Z3) D) := by
    rw [rot_zero]
    exact (address_samePoint_of_index _ D h.pos).symm
  exact h2.neg.sub h3

/-! ### the loops -/

theorem permStep1_fold (mapQ : Int → Int) (D : V3) (q0 : Int) (init : Int → Int) (n : Nat) :
    let st := (List.range n).foldl (permStep1 mapQ D q0) (init, 0)
    (∀ g : Nat, g < n → mapQ g = g →
      st.1 g = min (g : Int) (mapQ (thirdGridPoint D q0 g))) ∧
    st.2 = (List.range n).countP fun (g : Nat) =>
      decide (mapQ g = g ∧ ¬ mapQ (thirdGridPoint D q0 g) < g) := by
  induction n with
  | zero => simp
  | succ n ih =>
    obtain ⟨h1, h2⟩ := ih
    simp only [List.range_succ, List.foldl_append, List.foldl_cons, List.foldl_nil,
      List.countP_append, List.countP_singleton]
    generalize (List.range n).foldl (permStep1 mapQ D q0) (init, 0) = st at *
    unfold permStep1
    by_cases hq : mapQ n = n
    · rw [if_pos hq]
      simp only
      by_cases hlt : mapQ (thirdGridPoint D q0 n) < n
      · rw [if_pos hlt]
        refine ⟨?_, by simp [h2, hlt]⟩
        intro g hg hm
        by_cases e : g = n
        · subst e; simp only [upd, if_true]; omega
        · simp only [upd]; rw [if_neg (by omega)]; exact h1 g (by omega) hm
      · rw [if_neg hlt]
        refine ⟨?_, by simp [h2, hlt, hq]⟩
        intro g hg hm
        by_cases e : g = n
        · subst e; simp only [upd, if_true]; omega
        · simp only [upd]; rw [if_neg (by omega)]; exact h1 g (by omega) hm
    · rw [if_neg hq]
      refine ⟨?_, by simp [h2, hq]⟩
      intro g hg hm
      by_cases e : g = n
      · subst e; exact absurd hm hq
      · exact h1 g (by omega) hm

theorem permStep2_fold (mapQ : Int → Int) (m : Int → Int) (N : Nat)
    (hidem : ∀ g : Nat, g < N → mapQ (mapQ g) = mapQ g) (n : Nat) (hn : n ≤ N) :
    let r := (List.range n).foldl (permStep2 mapQ) m
    ∀ g : Int, (mapQ g = g → r g = m g) ∧
      (0 ≤ g → g < n → r g = m (mapQ g)) := by
  induction n with
  | zero =>
    intro r g
    exact ⟨fun _ => rfl, fun h0 h1 => by simp at h1; omega⟩
  | succ n ih =>
    have ih := ih (by omega)
    simp only [List.range_succ, List.foldl_append, List.foldl_cons, List.foldl_nil]
    generalize (List.range n).foldl (permStep2 mapQ) m = r at *
    unfold permStep2
    have hi := hidem n (by omega)
    by_cases hq : mapQ n = n
    · have : ¬ (mapQ n ≠ n) := by simpa using hq
      rw [if_neg this]
      intro g
      refine ⟨(ih g).1, fun h0 h1 => ?_⟩
      by_cases e : g = n
      · subst e; rw [(ih _).1 hq, hq]
      · exact (ih g).2 h0 (by push_cast at h1; omega)
    · rw [if_pos hq]
      intro g
      refine ⟨fun hg => ?_, fun h0 h1 => ?_⟩
      · have e : g ≠ n := fun e => hq (e ▸ hg)
        simp only [upd]; rw [if_neg e]; exact (ih g).1 hg
      · by_cases e : g = n
        · subst e
          simp only [upd, if_true]
          exact (ih _).1 hi
        · simp only [upd]; rw [if_neg e]; exact (ih g).2 h0 (by push_cast at h1; omega)

theorem nopermStep_fold (mapQ : Int → Int) (init : Int → Int) (N : Nat)
    (hidem : ∀ g : Nat, g < N → mapQ (mapQ g) = mapQ g)
    (hle : ∀ g : Nat, g < N → 0 ≤ mapQ g ∧ mapQ g ≤ g) (n : Nat) (hn : n ≤ N) :
    let st := (List.range n).foldl (nopermStep mapQ) (init, 0)
    (∀ g : Nat, g < n → st.1 g = mapQ g) ∧
    st.2 = (List.range n).countP fun (g : Nat) => decide (mapQ g = g) := by
  induction n with
  | zero => simp
  | succ n ih =>
    obtain ⟨h1, h2⟩ := ih (by omega)
    simp only [List.range_succ, List.foldl_append, List.foldl_cons, List.foldl_nil,
      List.countP_append, List.countP_singleton]
    generalize (List.range n).foldl (nopermStep mapQ) (init, 0) = st at *
    unfold nopermStep
    by_cases hq : mapQ n = n
    · rw [if_pos hq]
      refine ⟨?_, by simp [h2, hq]⟩
      intro g hg
      by_cases e : g = n
      · subst e; simp [upd, hq]
      · simp only [upd]; rw [if_neg (by omega)]; exact h1 g (by omega)
    · rw [if_neg hq]
      refine ⟨?_, by simp [h2, hq]⟩
      intro g hg
      by_cases e : g = n
      · subst e
        simp only [upd, if_true]
        obtain ⟨b0, b1⟩ := hle g (by omega)
        obtain ⟨k, hk⟩ := Int.eq_ofNat_of_zero_le b0
        rw [hk, h1 k (by omega), ← hk, hidem g (by omega)]
      · simp only [upd]; rw [if_neg (by omega)]; exact h1 g (by omega)

/-! ### the triplet map -/

variable {G : List M3} {D : V3} {q0 : Int}

/-- The map produced for the group `G`. -/
def tripletMap (G : List M3) (D : V3) (q0 : Int) (sw : Bool) (init : Int → Int) : Int → Int :=
  (irTripletsAtQ G D q0 sw init).1

theorem mapQ_third (h : GridGroup G D Z3) (h0 : 0 ≤ q0) (h1 : q0 < numGrid D) {g k : Int}
    (g0 : 0 ≤ g) (g1 : g < numGrid D) (k0 : 0 ≤ k) (k1 : k < numGrid D)
    (e : irGridMap (stabilizer G D q0) D Z3 g = irGridMap (stabilizer G D q0) D Z3 k) :
    irGridMap (stabilizer G D q0) D Z3 (thirdGridPoint D q0 g)
      = irGridMap (stabilizer G D q0) D Z3 (thirdGridPoint D q0 k) := by
  have hs := stabilizer_group h h0 h1
  have hbg := third_bounds D h.pos q0 g
  have hbk := third_bounds D h.pos q0 k
  rw [irGridMap_eq_iff hs g k g0 g1 k0 k1] at e
  rw [irGridMap_eq_iff hs _ _ hbg.1 hbg.2 hbk.1 hbk.2]
  obtain ⟨R, hR, e⟩ := e
  exact ⟨R, hR, by rw [rot_third h hR, e]⟩

theorem mapQ_idem (h : GridGroup G D Z3) (h0 : 0 ≤ q0) (h1 : q0 < numGrid D) (g : Int)
    (g0 : 0 ≤ g) (g1 : g < numGrid D) :
    irGridMap (stabilizer G D q0) D Z3 (irGridMap (stabilizer G D q0) D Z3 g)
      = irGridMap (stabilizer G D q0) D Z3 g := by
  have hs := stabilizer_group h h0 h1
  obtain ⟨⟨R, hR, e⟩, _⟩ := irGridMap_min hs g g0 g1
  conv_lhs => rw [← e]
  exact irGridMap_rot hs g g0 g1 hR

theorem tripletMap_eq (h : GridGroup G D Z3) (h0 : 0 ≤ q0) (h1 : q0 < numGrid D) (sw : Bool)
    (init : Int → Int) (g : Int) (g0 : 0 ≤ g) (g1 : g < numGrid D) :
    tripletMap G D q0 sw init g =
      if sw then min (irGridMap (stabilizer G D q0) D Z3 g)
        (irGridMap (stabilizer G D q0) D Z3 (thirdGridPoint D q0 g))
      else irGridMap (stabilizer G D q0) D Z3 g := by
  have hs := stabilizer_group h h0 h1
  have hN := numGrid_pos D h.pos
  have hidem : ∀ g : Nat, g < (numGrid D).toNat →
      irGridMap (stabilizer G D q0) D Z3 (irGridMap (stabilizer G D q0) D Z3 g)
      = irGridMap (stabilizer G D q0) D Z3 g :=
    fun g hg => mapQ_idem h h0 h1 g (by omega) (by omega)
  have hle : ∀ g : Nat, g < (numGrid D).toNat → 0 ≤ irGridMap (stabilizer G D q0) D Z3 g ∧
      irGridMap (stabilizer G D q0) D Z3 g ≤ g :=
    fun g hg => irGridMap_bounds hs g (by omega) (by omega)
  obtain ⟨n, rfl⟩ := Int.eq_ofNat_of_zero_le g0
  unfold tripletMap irTripletsAtQ
  cases sw
  · simp only [Bool.false_eq_true, if_false]
    exact (nopermStep_fold _ init _ hidem hle _ le_rfl).1 n (by omega)
  · simp only [if_true]
    unfold irTripletsPerm
    simp only
    obtain ⟨a1, _⟩ := permStep1_fold (irGridMap (stabilizer G D q0) D Z3) D q0 init (numGrid D).toNat
    have a2 := permStep2_fold (irGridMap (stabilizer G D q0) D Z3)
      ((List.range (numGrid D).toNat).foldl
        (permStep1 (irGridMap (stabilizer G D q0) D Z3) D q0) (init, 0)).1
      (numGrid D).toNat hidem (numGrid D).toNat le_rfl n
    rw [a2.2 (by omega) (by omega)]
    obtain ⟨b0, b1⟩ := hle n (by omega)
    obtain ⟨k, hk⟩ := Int.eq_ofNat_of_zero_le b0
    have hkk : irGridMap (stabilizer G D q0) D Z3 k = k := by
      rw [← hk]; exact hidem n (by omega)
    rw [hk, a1 k (by omega) hkk]
    congr 1
    exact mapQ_third h h0 h1 (by omega) (by omega) (by omega) g1 (by rw [hkk, hk])

theorem tripletNum_eq (h : GridGroup G D Z3) (h0 : 0 ≤ q0) (h1 : q0 < numGrid D) (sw : Bool)
    (init : Int → Int) :
    (irTripletsAtQ G D q0 sw init).2.2 = (List.range (numGrid D).toNat).countP
      fun (g : Nat) => decide (tripletMap G D q0 sw init g = g) := by
  have hs := stabilizer_group h h0 h1
  have hN := numGrid_pos D h.pos
  have hidem : ∀ g : Nat, g < (numGrid D).toNat →
      irGridMap (stabilizer G D q0) D Z3 (irGridMap (stabilizer G D q0) D Z3 g)
      = irGridMap (stabilizer G D q0) D Z3 g :=
    fun g hg => mapQ_idem h h0 h1 g (by omega) (by omega)
  have hle : ∀ g : Nat, g < (numGrid D).toNat → 0 ≤ irGridMap (stabilizer G D q0) D Z3 g ∧
      irGridMap (stabilizer G D q0) D Z3 g ≤ g :=
    fun g hg => irGridMap_bounds hs g (by omega) (by omega)
  cases sw
  · have : (irTripletsAtQ G D q0 false init).2.2 = (List.range (numGrid D).toNat).countP
        fun (g : Nat) => decide (irGridMap (stabilizer G D q0) D Z3 g = g) :=
      (nopermStep_fold _ init _ hidem hle _ le_rfl).2
    rw [this]
    apply List.countP_congr
    intro g hg
    have hg := List.mem_range.1 hg
    rw [tripletMap_eq h h0 h1 false init g (by omega) (by omega)]
    simp
  · have : (irTripletsAtQ G D q0 true init).2.2 = (List.range (numGrid D).toNat).countP
        fun (g : Nat) => decide (irGridMap (stabilizer G D q0) D Z3 g = g ∧
          ¬ irGridMap (stabilizer G D q0) D Z3 (thirdGridPoint D q0 g) < g) :=
      (permStep1_fold _ D q0 init _).2
    rw [this]
    apply List.countP_congr
    intro g hg
    have hg := List.mem_range.1 hg
    rw [tripletMap_eq h h0 h1 true init g (by omega) (by omega)]
    obtain ⟨b0, b1⟩ := hle g hg
    simp only [if_true, decide_eq_true_eq]
    omega

theorem tripletMap_bounds (h : GridGroup G D Z3) (h0 : 0 ≤ q0) (h1 : q0 < numGrid D) (sw : Bool)
    (init : Int → Int) (g : Int) (g0 : 0 ≤ g) (g1 : g < numGrid D) :
    0 ≤ tripletMap G D q0 sw init g ∧ tripletMap G D q0 sw init g ≤ g := by
  have hs := stabilizer_group h h0 h1
  rw [tripletMap_eq h h0 h1 sw init g g0 g1]
  have a := irGridMap_bounds hs g g0 g1
  have hb := third_bounds D h.pos q0 g
  have b := irGridMap_bounds hs _ hb.1 hb.2
  split_ifs <;> omega

/-- The relation that the map identifies, on indices. -/
def TRel (G : List M3) (D : V3) (q0 : Int) (sw : Bool) (g k : Int) : Prop :=
  ∃ R ∈ stabilizer G D q0, rotateGridIndex g R D Z3 = k ∨
    (sw = true ∧ rotateGridIndex (thirdGridPoint D q0 g) R D Z3 = k)

theorem tripletMap_eq_iff (h : GridGroup G D Z3) (h0 : 0 ≤ q0) (h1 : q0 < numGrid D) (sw : Bool)
    (init : Int → Int) (g k : Int) (g0 : 0 ≤ g) (g1 : g < numGrid D) (k0 : 0 ≤ k)
    (k1 : k < numGrid D) :
    tripletMap G D q0 sw init g = tripletMap G D q0 sw init k ↔ TRel G D q0 sw g k := by
  have hs := stabilizer_group h h0 h1
  rw [tripletMap_eq h h0 h1 sw init g g0 g1, tripletMap_eq h h0 h1 sw init k k0 k1]
  have hbg := third_bounds D h.pos q0 g
  have hbk := third_bounds D h.pos q0 k
  have e1 := irGridMap_eq_iff hs g k g0 g1 k0 k1
  have e2 := irGridMap_eq_iff hs _ k hbg.1 hbg.2 k0 k1
  have t1 := mapQ_third h h0 h1 g0 g1 k0 k1
  have t1' := mapQ_third h h0 h1 hbg.1 hbg.2 hbk.1 hbk.2
  have t2 := mapQ_third h h0 h1 hbg.1 hbg.2 k0 k1
  have t3 := mapQ_third h h0 h1 g0 g1 hbk.1 hbk.2
  rw [third_third D h.pos q0 g g0 g1] at t1' t2
  rw [third_third D h.pos q0 k k0 k1] at t1' t3
  cases sw
  · simp only [Bool.false_eq_true, if_false, TRel, false_and, or_false]
    exact e1
  · simp only [if_true, TRel, true_and]
    rw [show (∃ R ∈ stabilizer G D q0, rotateGridIndex g R D Z3 = k ∨
        rotateGridIndex (thirdGridPoint D q0 g) R D Z3 = k) ↔
      (∃ R ∈ stabilizer G D q0, rotateGridIndex g R D Z3 = k) ∨
        ∃ R ∈ stabilizer G D q0, rotateGridIndex (thirdGridPoint D q0 g) R D Z3 = k from by
        constructor
        · rintro ⟨R, hR, e | e⟩
          · exact Or.inl ⟨R, hR, e⟩
          · exact Or.inr ⟨R, hR, e⟩
        · rintro (⟨R, hR, e⟩ | ⟨R, hR, e⟩)
          · exact ⟨R, hR, Or.inl e⟩
          · exact ⟨R, hR, Or.inr e⟩, ← e1, ← e2]
    generalize irGridMap (stabilizer G D q0) D Z3 g = a at *
    generalize irGridMap (stabilizer G D q0) D Z3 k = b at *
    generalize irGridMap (stabilizer G D q0) D Z3 (thirdGridPoint D q0 g) = c at *
    generalize irGridMap (stabilizer G D q0) D Z3 (thirdGridPoint D q0 k) = d at *
    constructor
    · intro e
      rcases le_total a c with hac | hac <;> rcases le_total b d with hbd | hbd <;>
        simp only [min_eq_left, min_eq_right, hac, hbd] at e
      · exact Or.inl e
      · exact Or.inr (t3 e)
      · exact Or.inr e
      · exact Or.inl (t1' e)
    · rintro (e | e)
      · rw [e, t1 e]
      · rw [e, t2 e, min_comm]

theorem TRel.mem (h : GridGroup G D Z3) (h0 : 0 ≤ q0) (h1 : q0 < numGrid D) (sw : Bool)
    (init : Int → Int) (g : Int) (g0 : 0 ≤ g) (g1 : g < numGrid D) :
    TRel G D q0 sw g (tripletMap G D q0 sw init g) := by
  have hs := stabilizer_group h h0 h1
  rw [tripletMap_eq h h0 h1 sw init g g0 g1]
  obtain ⟨⟨R, hR, e⟩, _⟩ := irGridMap_min hs g g0 g1
  have hbg := third_bounds D h.pos q0 g
  obtain ⟨⟨S, hS, e'⟩, _⟩ := irGridMap_min hs _ hbg.1 hbg.2
  cases sw
  · simp only [Bool.false_eq_true, if_false]
    exact ⟨R, hR, Or.inl e⟩
  · simp only [if_true]
    rcases le_total (irGridMap (stabilizer G D q0) D Z3 g)
      (irGridMap (stabilizer G D q0) D Z3 (thirdGridPoint D q0 g)) with hh | hh
    · rw [min_eq_left hh]; exact ⟨R, hR, Or.inl e⟩
    · rw [min_eq_right hh]; exact ⟨S, hS, Or.inr ⟨rfl, e'⟩⟩

theorem tripletMap_idem (h : GridGroup G D Z3) (h0 : 0 ≤ q0) (h1 : q0 < numGrid D) (sw : Bool)
    (init : Int → Int) (g : Int) (g0 : 0 ≤ g) (g1 : g < numGrid D) :
    tripletMap G D q0 sw init (tripletMap G D q0 sw init g) = tripletMap G D q0 sw init g := by
  have hb := tripletMap_bounds h h0 h1 sw init g g0 g1
  exact ((tripletMap_eq_iff h h0 h1 sw init g _ g0 g1 hb.1 (by omega)).2
    (TRel.mem h h0 h1 sw init g g0 g1)).symm

theorem tripletMap_le (h : GridGroup G D Z3) (h0 : 0 ≤ q0) (h1 : q0 < numGrid D) (sw : Bool)
    (init : Int → Int) (g k : Int) (g0 : 0 ≤ g) (g1 : g < numGrid D) (k0 : 0 ≤ k)
    (k1 : k < numGrid D) (hr : TRel G D q0 sw g k) : tripletMap G D q0 sw init g ≤ k := by
  rw [(tripletMap_eq_iff h h0 h1 sw init g k g0 g1 k0 k1).2 hr]
  exact (tripletMap_bounds h h0 h1 sw init k k0 k1).2

/-- Index relation and address specification agree. -/
theorem tRel_iff (h : GridGroup G D Z3) (h0 : 0 ≤ q0) (h1 : q0 < numGrid D) (sw : Bool) (g k : Int)
    (k0 : 0 ≤ k) (k1 : k < numGrid D) :
    TRel G D q0 sw g k ↔ TripletEquiv G D (gridAddressFromIndex q0 D) sw
      (gridAddressFromIndex g D) (gridAddressFromIndex k D) := by
  have key : ∀ (a : V3) (R : M3) (k : Int), 0 ≤ k → k < numGrid D →
      (gridIndex (R.mulVec a) D = k ↔ SamePoint D (R.mulVec a) (gridAddressFromIndex k D)) := by
    intro a R k k0 k1
    conv_lhs => rw [← gridIndex_addressFromIndex k D h.pos k0 k1]
    rw [gridIndex_eq_iff _ _ _ h.pos]
  unfold TRel TripletEquiv Little
  constructor
  · rintro ⟨R, hR, hh⟩
    obtain ⟨hG, e⟩ := mem_stabilizer.1 hR
    rw [rot_zero, key _ _ _ h0 h1] at e
    refine ⟨R, ⟨hG, e⟩, ?_⟩
    rcases hh with hh | ⟨hsw, hh⟩
    · rw [rot_zero, key _ _ _ k0 k1] at hh; exact Or.inl hh
    · rw [rot_zero, key _ _ _ k0 k1] at hh
      exact Or.inr ⟨hsw, ((third_same D h.pos q0 g).mulVec (h.mesh R hG)).symm.trans hh⟩
  · rintro ⟨R, ⟨hG, e⟩, hh⟩
    refine ⟨R, mem_stabilizer.2 ⟨hG, by rw [rot_zero, key _ _ _ h0 h1]; exact e⟩, ?_⟩
    rcases hh with hh | ⟨hsw, hh⟩
    · left; rw [rot_zero, key _ _ _ k0 k1]; exact hh
    · right
      refine ⟨hsw, ?_⟩
      rw [rot_zero, key _ _ _ k0 k1]
      exact ((third_same D h.pos q0 g).mulVec (h.mesh R hG)).trans hh

/-! ### counting -/

theorem irWeights_eq {n : Nat} {T : Int → Int} (hb : ∀ g : Nat, g < n → 0 ≤ T g ∧ T g < n)
    (hidem : ∀ g : Nat, g < n → T (T g) = T g) :
    irWeights n T = (irQ1 n T).map (fun (v : Nat) =>
      (List.range n).countP fun (g : Nat) => decide (T g = v)) := by
  unfold irWeights irQ1
  rw [List.filter_map]
  congr 1
  apply List.filter_congr
  intro v hv
  have hv := List.mem_range.1 hv
  simp only [Function.comp, gt_iff_lt, List.countP_pos_iff, decide_eq_decide, List.mem_range,
    decide_eq_true_eq]
  constructor
  · rintro ⟨g, hg, e⟩
    rw [← e]; exact hidem g hg
  · intro e; exact ⟨v, hv, e⟩

theorem irWeights_sum {n : Nat} {T : Int → Int} (hb : ∀ g : Nat, g < n → 0 ≤ T g ∧ T g < n)
    (hidem : ∀ g : Nat, g < n → T (T g) = T g) : (irWeights n T).sum = n := by
  rw [irWeights_eq hb hidem]
  have := sum_count_filter n ((List.range n).map (fun (g : Nat) => (T g).toNat)) (by
    intro v hv
    simp only [List.mem_map, List.mem_range] at hv
    obtain ⟨g, hg, rfl⟩ := hv
    have := hb g hg
    omega)
  rw [List.length_map, List.length_range] at this
  conv_rhs => rw [← this]
  congr 1
  have e1 : irQ1 n T = uniqueBelow n ((List.range n).map (fun (g : Nat) => (T g).toNat)) := by
    unfold irQ1 uniqueBelow
    apply List.filter_congr
    intro v hv
    have hv := List.mem_range.1 hv
    simp only [decide_eq_decide, List.mem_map, List.mem_range]
    constructor
    · intro e; exact ⟨v, hv, by omega⟩
    · rintro ⟨g, hg, e⟩
      have := hb g hg
      have e' : T g = v := by omega
      rw [← e']; exact hidem g hg
  rw [← e1]
  apply List.map_congr_left
  intro v _
  rw [List.count, List.countP_map]
  apply List.countP_congr
  intro g hg
  have := hb g (List.mem_range.1 hg)
  simp only [Function.comp, beq_iff_eq, decide_eq_true_eq]
  omega

theorem irWeights_length {n : Nat} {T : Int → Int} (hb : ∀ g : Nat, g < n → 0 ≤ T g ∧ T g < n)
    (hidem : ∀ g : Nat, g < n → T (T g) = T g) : (irWeights n T).length = (irQ1 n T).length := by
  rw [irWeights_eq hb hidem, List.length_map]

theorem dedup_table {n : Nat} {T : Int → Int} (hb : ∀ g : Nat, g < n → 0 ≤ T g ∧ T g < n)
    (hidem : ∀ g : Nat, g < n → T (T g) = T g) :
    ((List.range n).map fun (g : Nat) => T g).dedup.length = (irQ1 n T).length := by
  have : ((List.range n).map fun (g : Nat) => T g).dedup.Perm
      ((irQ1 n T).map (fun (v : Nat) => (v : Int))) := by
    rw [List.perm_ext_iff_of_nodup (List.nodup_dedup _)]
    · intro a
      simp only [List.mem_dedup, List.mem_map, List.mem_range, irQ1, List.mem_filter,
        decide_eq_true_eq]
      constructor
      · rintro ⟨g, hg, rfl⟩
        have hbg := hb g hg
        obtain ⟨k, hk⟩ := Int.eq_ofNat_of_zero_le hbg.1
        refine ⟨k, ⟨by omega, ?_⟩, hk.symm⟩
        rw [← hk]; exact hidem g hg
      · rintro ⟨v, ⟨hv, e⟩, rfl⟩
        exact ⟨v, hv, e⟩
    · refine List.Nodup.map (fun a b e => by exact_mod_cast e) ?_
      exact List.nodup_range.filter _
  rw [this.length_eq, List.length_map]


/-! ### the image search -/

section search
variable {K : Type _} [Field K] [LinearOrder K] [IsStrictOrderedRing K]

theorem tripletSearch_mem_or (bz : BZGridOut) (dist : V3 → K) (tol : K)
    (cs : List (Int × Int × Int)) (m : K) (t : Int × Int × Int) :
    tripletSearch bz dist tol cs m t = t ∨ tripletSearch bz dist tol cs m t ∈ cs := by
  induction cs generalizing m t with
  | nil => exact Or.inl rfl
  | cons c cs ih =>
    unfold tripletSearch
    split_ifs with h1 h2
    · exact Or.inr List.mem_cons_self
    · rcases ih (dist (comboG bz c)) c with h | h
      · rw [h]; exact Or.inr List.mem_cons_self
      · exact Or.inr (List.mem_cons_of_mem _ h)
    · rcases ih m t with h | h
      · exact Or.inl h
      · exact Or.inr (List.mem_cons_of_mem _ h)

/-- Starting from the signal value, the result is one of the combinations. -/
theorem tripletSearch_mem (bz : BZGridOut) (dist : V3 → K) (tol : K)
    (cs : List (Int × Int × Int)) (hc : cs ≠ []) (t : Int × Int × Int) :
    tripletSearch bz dist tol cs (-1) t ∈ cs := by
  cases cs with
  | nil => exact absurd rfl hc
  | cons c cs =>
    unfold tripletSearch
    split_ifs with h1 h2
    · exact List.mem_cons_self
    · rcases tripletSearch_mem_or bz dist tol cs (dist (comboG bz c)) c with h | h
      · rw [h]; exact List.mem_cons_self
      · exact List.mem_cons_of_mem _ h
    · exact absurd (Or.inr (by linarith [zero_lt_one (α := K)])) h2

/-- A combination that sums to zero wins. -/
theorem tripletSearch_zero (bz : BZGridOut) (dist : V3 → K) (tol : K)
    (cs : List (Int × Int × Int)) (m : K) (t : Int × Int × Int)
    (hz : ∃ c ∈ cs, comboG bz c = ⟨0, 0, 0⟩) :
    comboG bz (tripletSearch bz dist tol cs m t) = ⟨0, 0, 0⟩ := by
  induction cs generalizing m t with
  | nil => obtain ⟨_, h, _⟩ := hz; simp at h
  | cons c cs ih =>
    unfold tripletSearch
    obtain ⟨d, hd, hd0⟩ := hz
    split_ifs with h1 h2
    · exact h1
    all_goals
      refine ih _ _ ⟨d, ?_, hd0⟩
      rcases List.mem_cons.1 hd with rfl | h
      · exact absurd hd0 h1
      · exact h

/-- Without such a combination the distance of the result is minimal up to the tolerance. -/
theorem tripletSearch_min_aux (bz : BZGridOut) (dist : V3 → K) (tol : K) (htol : 0 ≤ tol)
    (hpos : ∀ G, 0 ≤ dist G) (cs : List (Int × Int × Int)) (m : K) (t : Int × Int × Int)
    (hm : m < 0 ∨ m = dist (comboG bz t))
    (hz : ∀ c ∈ cs, comboG bz c ≠ ⟨0, 0, 0⟩) :
    (0 ≤ m → dist (comboG bz (tripletSearch bz dist tol cs m t)) ≤ m) ∧
      ∀ c ∈ cs, dist (comboG bz (tripletSearch bz dist tol cs m t)) ≤ dist (comboG bz c) + tol := by
  induction cs generalizing m t with
  | nil =>
    refine ⟨fun h0 => ?_, by simp⟩
    rcases hm with hm | hm
    · exact absurd hm (not_lt.2 h0)
    · exact le_of_eq hm.symm
  | cons c cs ih =>
    unfold tripletSearch
    have hc0 := hz c List.mem_cons_self
    rw [if_neg hc0]
    split_ifs with h2
    · obtain ⟨h3, h4⟩ := ih (dist (comboG bz c)) c (Or.inr rfl)
        (fun d hd => hz d (List.mem_cons_of_mem _ hd))
      have h5 := h3 (hpos _)
      refine ⟨fun h0 => ?_, ?_⟩
      · rcases h2 with h2 | h2
        · linarith
        · exact absurd h2 (not_lt.2 h0)
      · intro d hd
        rcases List.mem_cons.1 hd with rfl | hd
        · linarith
        · exact h4 d hd
    · obtain ⟨h3, h4⟩ := ih m t hm (fun d hd => hz d (List.mem_cons_of_mem _ hd))
      push Not at h2
      refine ⟨h3, ?_⟩
      intro d hd
      rcases List.mem_cons.1 hd with rfl | hd
      · have := h3 h2.2
        linarith [h2.1]
      · exact h4 d hd

theorem squaredDistance_nonneg (G : V3) (m : Fin 3 → Fin 3 → K) : 0 ≤ squaredDistance G m := by
  unfold squaredDistance
  simp only
  exact add_nonneg (add_nonneg (add_nonneg le_rfl (mul_self_nonneg _)) (mul_self_nonneg _))
    (mul_self_nonneg _)

theorem bzTolerance_nonneg [FloorRing K] (b : BZInput K) : 0 ≤ bzTolerance b := by
  rw [bzTolerance_eq]
  unfold Spec.tolerance
  simp only
  refine div_nonneg (le_max_of_le_right ?_) (by norm_num)
  refine div_nonneg ?_ (mul_self_nonneg _)
  exact add_nonneg (add_nonneg (mul_self_nonneg _) (mul_self_nonneg _)) (mul_self_nonneg _)

end search

theorem mem_combos {l0 l1 l2 : List Int} {t : Int × Int × Int} :
    t ∈ combos l0 l1 l2 ↔ t.1 ∈ l0 ∧ t.2.1 ∈ l1 ∧ t.2.2 ∈ l2 := by
  obtain ⟨a, b, c⟩ := t
  simp [combos]

theorem combos_ne_nil {l0 l1 l2 : List Int} (h0 : l0 ≠ []) (h1 : l1 ≠ []) (h2 : l2 ≠ []) :
    combos l0 l1 l2 ≠ [] := by
  obtain ⟨a, ha⟩ := List.exists_mem_of_ne_nil _ h0
  obtain ⟨b, hb⟩ := List.exists_mem_of_ne_nil _ h1
  obtain ⟨c, hc⟩ := List.exists_mem_of_ne_nil _ h2
  exact List.ne_nil_of_mem (mem_combos.2 (show (a, b, c).1 ∈ l0 ∧ _ from ⟨ha, hb, hc⟩))

theorem visited2_eq (bz : BZGridOut) (D : V3) (g : Int) : visited2 bz g = block D true bz g := rfl

theorem visited1_eq (bz : BZGridOut) (D : V3) (g : Int)
    (hg : 0 ≤ bz.gpMap (8 * (D.x * D.y * D.z) + g + 1) - bz.gpMap (8 * (D.x * D.y * D.z) + g)) :
    visited1 bz D g = block D false bz g := by
  unfold visited1 block
  have e : numGrid D * 8 = 8 * (D.x * D.y * D.z) := by unfold numGrid; ring
  simp only [e, Bool.false_eq_true, if_false]
  obtain ⟨n, hn⟩ := Int.eq_ofNat_of_zero_le hg
  rw [hn]
  have : ((n : Int) + 1).toNat = n + 1 := by omega
  rw [this, Int.toNat_natCast, List.range_succ_eq_map, List.map_cons, List.map_map]
  congr 1
  apply List.map_congr_left
  intro k _
  simp only [Function.comp, Nat.succ_ne_zero, if_false]
  unfold numGrid
  push_cast
  ring


section onGrid
variable {K : Type _} [Field K] [LinearOrder K] [IsStrictOrderedRing K] [FloorRing K]
variable {K' : Type _} [Field K'] [LinearOrder K'] [IsStrictOrderedRing K'] [FloorRing K']

/-- The combinations searched for `q1`. -/
def bzCombos (D : V3) (bz : BZGridOut) (dense : Bool) (gp q1 : Int) : List (Int × Int × Int) :=
  combos (block D dense bz (bz.bzg2grg gp)) (block D dense bz q1)
    (block D dense bz (thirdGridPoint D (bz.bzg2grg gp) q1))

theorem bz_block_head {b : BZInput K} (hD : PosMesh b.D) (hl : ∃ i j, b.reclat i j ≠ 0)
    {dense : Bool} {init bz : BZGridOut} (h : bzGrid b dense init = some bz) {q : Int}
    (q0 : 0 ≤ q) (q1 : q < numGrid b.D) :
    (if dense then bz.gpMap q else q) ∈ block b.D dense bz q := by
  have V := bzGrid_valid b hD hl dense init bz h
  cases dense
  · simp [block]
  · have hne := V.nonempty q q0 q1
    unfold block at hne ⊢
    simp only [if_true, ne_eq, List.map_eq_nil_iff, List.range_eq_nil] at hne ⊢
    refine List.mem_map.2 ⟨0, List.mem_range.2 (by omega), by simp⟩

theorem bzTriplet_eq {b : BZInput K} (hD : PosMesh b.D) (hl : ∃ i j, b.reclat i j ≠ 0)
    {dense : Bool} {init bz : BZGridOut} (h : bzGrid b dense init = some bz)
    (s : BZInput K') (hs : s.D = b.D) {gp q1 : Int} (g0 : 0 ≤ gp) (g1 : gp < bz.size)
    (gd : dense = false → gp < numGrid b.D) (q0 : 0 ≤ q1) (q1' : q1 < numGrid b.D)
    (before : Int × Int × Int) :
    bzTriplet s bz dense gp q1 before
      = tripletSearch bz (fun G => squaredDistance G (lqdInv s)) (bzTolerance s)
          (bzCombos b.D bz dense gp q1) (-1) before := by
  have V := bzGrid_valid b hD hl dense init bz h
  have F := bzGrid_facts b hD hl dense init bz h
  obtain ⟨i, i0, i1, hi⟩ := V.cover gp g0 g1
  obtain ⟨_, ei, ai⟩ := V.filed i i0 i1 gp hi
  have hd := V.filed q1 q0 q1' _ (bz_block_head hD hl h q0 q1')
  have e2 : gridIndex (-(bz.addresses gp) - bz.addresses (if dense then bz.gpMap q1 else q1)) b.D
      = thirdGridPoint b.D (bz.bzg2grg gp) q1 := by
    unfold thirdGridPoint
    rw [gridIndex_eq_iff _ _ _ hD]
    apply Spec.SamePoint.sub
    · apply Spec.SamePoint.neg
      rw [ei, ← ai]
      exact (address_samePoint_of_index _ b.D hD).symm
    · conv_rhs => rw [← hd.2.2]
      exact (address_samePoint_of_index _ b.D hD).symm
  have hb2 := third_bounds b.D hD (bz.bzg2grg gp) q1
  unfold bzTriplet bzCombos
  simp only [hs]
  rw [e2]
  cases dense
  · have hg : bz.bzg2grg gp = gp :=
      (V.filed gp g0 (gd rfl) gp (by simp [block])).2.1
    have hp : ∀ g, 0 ≤ g → g < numGrid b.D → visited1 bz b.D g = block b.D false bz g := by
      intro g g0 g1
      apply visited1_eq
      obtain ⟨n, rfl⟩ := Int.eq_ofNat_of_zero_le g0
      have a := F.sparse_ptr rfl n (le_of_lt g1)
      have c := F.sparse_ptr rfl (n + 1) (by push_cast; omega)
      simp only [numGrid] at a c
      rw [show (8 * (b.D.x * b.D.y * b.D.z) + (n : Int) + 1) = 8 * (b.D.x * b.D.y * b.D.z) + ((n + 1 : Nat) : Int) by
        push_cast; ring]
      rw [a, c]
      have hne := bzImages_ne_nil b _ (bzTolerance_pos b hD (bzGrid_some b false init bz h).1 hl)
        (b.Q.cofactorsDiv b.Q.det)
      exact sub_nonneg.2 (off1_mono _ hne (Nat.le_succ n))
    simp only [Bool.false_eq_true, if_false]
    rw [hg] at hb2 ⊢
    rw [hp gp g0 (gd rfl), hp q1 q0 q1', hp _ hb2.1 hb2.2]
  · simp only [if_true]
    rw [ei] at hb2 ⊢
    rw [ai]
    rfl

end onGrid

end Phono3py
