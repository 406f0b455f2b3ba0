/-
Property theorems C38: the triplet of a grid point in the collision matrix.
-/
import Verif.Lemmas.TripletLookup
import Verif.Props.Triplet

set_option linter.unusedSectionVars false

namespace Phono3py.Props
open Phono3py Phono3py.Spec

section
variable {K : Type _} [Field K] [LinearOrder K] [IsStrictOrderedRing K] [FloorRing K]
variable {K' : Type _} [Field K'] [LinearOrder K'] [IsStrictOrderedRing K'] [FloorRing K']

/-- The arrays `triplets`, `map_triplets` and `map_q` handed to the collision matrix hold the
result of the triplet search. -/
structure HoldsTriplets (T : Triplets) (tri : Int → Fin 3 → Int) (mapT mapQ : Int → Int) :
    Prop where
  triplets : ∀ (i : Nat) (t : Int × Int × Int), T.triplets[i]? = some t →
    tri i 0 = t.1 ∧ tri i 1 = t.2.1 ∧ tri i 2 = t.2.2
  mapT : ∀ (g : Nat) (m : Int), T.mapTriplets[g]? = some m → mapT g = m
  mapQ : ∀ (g : Nat) (m : Int), T.mapQ[g]? = some m → mapQ g = m

/-- Everything about one grid point, on the level of indices. -/
theorem lookup_facts (b : BZInput K) (hD : PosMesh b.D) (hl : ∃ i j, b.reclat i j ≠ 0)
    (dense : Bool) (init bz : BZGridOut) (h : bzGrid b dense init = some bz)
    (s : BZInput K') (hs : s.D = b.D) (rots L : List M3) (hG : GridGroup rots b.D ⟨0, 0, 0⟩)
    (tr sw : Bool) (hL : reciprocalPointGroup rots tr false = some L)
    (gp : Int) (g0 : 0 ≤ gp) (g1 : gp < bz.size)
    (gd : dense = false → gp < numGrid b.D)
    (T : Triplets) (hT : getTripletsAtQ s bz dense rots gp tr sw = some T)
    (tri : Int → Fin 3 → Int) (mapT mapQ : Int → Int) (ha : HoldsTriplets T tri mapT mapQ) :
    let n := (numGrid b.D).toNat
    let q0 := bz.bzg2grg gp
    (0 ≤ q0 ∧ q0 < numGrid b.D) ∧
    (∀ g : Nat, g < n → mapT g = tripletMap L b.D q0 sw (fun _ => 0) g) ∧
    (∀ g : Nat, g < n → mapQ g = irGridMap (stabilizer L b.D q0) b.D Z3 g) ∧
    (∀ g : Nat, g < n → mapT g = g → rank mapT g < T.triplets.length ∧
      ((0 ≤ tri (rank mapT g : Nat) 1 ∧ tri (rank mapT g : Nat) 1 < bz.size) ∧
        (0 ≤ tri (rank mapT g : Nat) 2 ∧ tri (rank mapT g : Nat) 2 < bz.size)) ∧
      bz.bzg2grg (tri (rank mapT g : Nat) 0) = q0 ∧
      bz.bzg2grg (tri (rank mapT g : Nat) 1) = g ∧
      bz.bzg2grg (tri (rank mapT g : Nat) 2) = thirdGridPoint b.D q0 g) := by
  intro n q0
  have V := bzGrid_valid b hD hl dense init bz h
  obtain ⟨i, i0, i1, hi⟩ := V.cover gp g0 g1
  obtain ⟨_, ei, _⟩ := V.filed i i0 i1 gp hi
  have e := getTriplets_eq hD hl h s hs hG hL g0 g1 sw
  simp only at e
  rw [hT, Option.some.injEq] at e
  subst e
  have hN := numGrid_pos b.D hD
  have eT : ∀ g : Nat, g < n → mapT g = tripletMap L b.D q0 sw (fun _ => 0) g := by
    intro g hg
    apply ha.mapT g
    rw [List.getElem?_map, List.getElem?_range hg, Option.map_some]
  have eQ : ∀ g : Nat, g < n → mapQ g = irGridMap (stabilizer L b.D q0) b.D Z3 g := by
    intro g hg
    apply ha.mapQ g
    rw [List.getElem?_map, List.getElem?_range hg, Option.map_some]
  refine ⟨⟨by omega, by unfold numGrid; omega⟩, eT, eQ, fun g hg hf => ?_⟩
  have er : irQ1 n (tripletMap L b.D q0 sw fun _ => 0) = irQ1 n mapT := by
    unfold irQ1
    apply List.filter_congr
    intro x hx
    rw [eT x (List.mem_range.1 hx)]
  have hk := irQ1_rank hg hf
  have ht : (bzTripletsAtQ s bz dense gp n (tripletMap L b.D q0 sw fun _ => 0))[rank mapT g]? =
      some (bzTriplet s bz dense gp g (-1, -1, -1)) := by
    unfold bzTripletsAtQ
    rw [er, List.getElem?_map, hk]
    rfl
  obtain ⟨r, b1, b2, b3, _⟩ := triplet_row hD hl h s hs g0 g1 gd (q1 := g) (by omega) (by omega)
    (-1, -1, -1) _ rfl
  obtain ⟨c1, c2, c3⟩ := ha.triplets _ _ ht
  rw [c1, c2, c3]
  exact ⟨(List.getElem?_eq_some_iff.1 ht).1, ⟨r.2.1, r.2.2⟩, b1, b2, b3⟩

/-- C38: for every grid point `q1`, with `q2 = -q0 - q1`, the lookup gives a valid triplet
index; a rotation of the little group of `q0` carries `q1` and `q2` to the second and third
member of that triplet or, exactly when no such rotation exists and the exchange is reported,
to the third and second. The point returned for the occupation factor is the member that `q2`
is carried to. -/
theorem C38_lookup (b : BZInput K) (hD : PosMesh b.D) (hl : ∃ i j, b.reclat i j ≠ 0)
    (dense : Bool) (init bz : BZGridOut) (h : bzGrid b dense init = some bz)
    (s : BZInput K') (hs : s.D = b.D) (rots : List M3) (hG : GridGroup rots b.D ⟨0, 0, 0⟩)
    (tr sw : Bool) (gp : Int) (g0 : 0 ≤ gp) (g1 : gp < bz.size)
    (gd : dense = false → gp < numGrid b.D)
    (T : Triplets) (hT : getTripletsAtQ s bz dense rots gp tr sw = some T)
    (tri : Int → Fin 3 → Int) (mapT mapQ : Int → Int) (ha : HoldsTriplets T tri mapT mapQ)
    (mem : Int → Int) (n : Nat) (hn : (n : Int) = b.D.x * b.D.y * b.D.z) (g : Nat) (hg : g < n) :
    let q1 := gridAddressFromIndex g b.D
    let q2 := -(bz.addresses gp) - q1
    let Carries := fun (i j : Fin 3) (ti : Int) =>
      ∃ R, Little (withTimeReversal rots tr) b.D (bz.addresses gp) R ∧
        SamePoint b.D (R.mulVec q1) (bz.addresses (tri ti i)) ∧
        SamePoint b.D (R.mulVec q2) (bz.addresses (tri ti j))
    ∃ ti : Nat, createGp2tpMap mem mapT n (mapT g) = ti ∧ ti < T.triplets.length ∧
      ((inverseSinhPoint (tri ti) mapT mapQ g = (tri ti 2, false) ∧ Carries 1 2 ti) ∨
        (inverseSinhPoint (tri ti) mapT mapQ g = (tri ti 1, true) ∧ Carries 2 1 ti ∧
          ¬ Carries 1 2 ti ∧ sw = true)) := by
  intro q1 q2 Carries
  cases hL : reciprocalPointGroup rots tr false with
  | none => simp [getTripletsAtQ, tpkIrTripletsAtQ, hL] at hT
  | some L =>
    have hnn : (numGrid b.D).toNat = n := by unfold numGrid; omega
    obtain ⟨⟨p0, p1⟩, eT, eQ, F⟩ := lookup_facts b hD hl dense init bz h s hs rots L hG tr sw hL gp
      g0 g1 gd T hT tri mapT mapQ ha
    rw [hnn] at eT eQ F
    have hGL := reciprocal_gridGroup hG hL
    have hst := stabilizer_group hGL p0 p1
    have hN : (n : Int) = numGrid b.D := hn
    have gg : (g : Int) < numGrid b.D := by omega
    set q0 := bz.bzg2grg gp with hq0
    have bT := tripletMap_bounds hGL p0 p1 sw (fun _ => 0) g (by omega) gg
    have iT := tripletMap_idem hGL p0 p1 sw (fun _ => 0) g (by omega) gg
    rw [← eT g hg] at bT iT
    obtain ⟨m, hm⟩ := Int.eq_ofNat_of_zero_le bT.1
    have hmn : m < n := by omega
    rw [hm, ← eT m hmn] at iT
    obtain ⟨f1, ⟨f2, f3⟩, _, f4, f5⟩ := F m hmn iT
    have sp0 := samePoint_of_filed hD hl h g0 g1
    have spt := fun (k : Int) (hk : 0 ≤ k ∧ k < bz.size) => samePoint_of_filed hD hl h hk.1 hk.2
    have hmesh : ∀ R ∈ L, MeshCompat b.D R := hGL.mesh
    -- the third point of g
    have s3 : SamePoint b.D (gridAddressFromIndex (thirdGridPoint b.D q0 g) b.D) q2 :=
      (third_same b.D hD q0 g).trans (sp0.symm.neg.sub (SamePoint.refl _ _))
    have bt := third_bounds b.D hD q0 m
    have bg := third_bounds b.D hD q0 g
    have key : ∀ (a : V3) (k : Int), 0 ≤ k → k < numGrid b.D →
        (gridIndex a b.D = k ↔ SamePoint b.D a (gridAddressFromIndex k b.D)) := by
      intro a k k0 k1
      conv_lhs => rw [← gridIndex_addressFromIndex k b.D hD k0 k1]
      rw [gridIndex_eq_iff _ _ _ hD]
    have little : ∀ R, R ∈ stabilizer L b.D q0 ↔
        Little (withTimeReversal rots tr) b.D (bz.addresses gp) R := by
      intro R
      rw [mem_stabilizer, rot_zero, key _ _ p0 p1]
      unfold Little
      rw [mem_withTimeReversal hG.grp hL R]
      refine and_congr_right fun hR => ?_
      have hR' := hmesh R ((mem_withTimeReversal hG.grp hL R).2 hR)
      exact ⟨fun e => ((sp0.mulVec hR').trans e).trans sp0.symm,
        fun e => ((sp0.symm.mulVec hR').trans e).trans sp0⟩
    have carries : ∀ i j : Fin 3, (0 ≤ tri (rank mapT m : Nat) i ∧
        tri (rank mapT m : Nat) i < bz.size) → (0 ≤ tri (rank mapT m : Nat) j ∧
        tri (rank mapT m : Nat) j < bz.size) →
        (0 ≤ bz.bzg2grg (tri (rank mapT m : Nat) i) ∧
          bz.bzg2grg (tri (rank mapT m : Nat) i) < numGrid b.D) →
        (0 ≤ bz.bzg2grg (tri (rank mapT m : Nat) j) ∧
          bz.bzg2grg (tri (rank mapT m : Nat) j) < numGrid b.D) →
        (Carries i j (rank mapT m : Nat) ↔ ∃ R ∈ stabilizer L b.D q0,
          rotateGridIndex g R b.D Z3 = bz.bzg2grg (tri (rank mapT m : Nat) i) ∧
          rotateGridIndex (thirdGridPoint b.D q0 g) R b.D Z3 =
            bz.bzg2grg (tri (rank mapT m : Nat) j)) := by
      intro i j hi hj hi' hj'
      have si := spt _ hi
      have sj := spt _ hj
      refine exists_congr fun R => ?_
      rw [← little R]
      refine and_congr_right fun hR => ?_
      have hR' := hmesh R (mem_stabilizer.1 hR).1
      rw [rot_zero, rot_zero, key _ _ hi'.1 hi'.2, key _ _ hj'.1 hj'.2]
      exact ⟨fun e => ⟨e.1.trans si, (s3.mulVec hR').trans (e.2.trans sj)⟩,
        fun e => ⟨e.1.trans si.symm, (s3.symm.mulVec hR').trans (e.2.trans sj.symm)⟩⟩
    have c12 := carries 1 2 f2 f3 (by rw [f4]; omega) (by rw [f5]; exact bt)
    have c21 := carries 2 1 f3 f2 (by rw [f5]; exact bt) (by rw [f4]; omega)
    rw [f4, f5] at c12 c21
    -- the representative is also one without exchange
    have vT := tripletMap_eq hGL p0 p1 sw (fun _ => 0) g (by omega) gg
    have vM := tripletMap_eq hGL p0 p1 sw (fun _ => 0) m (by omega) (by omega)
    rw [← eT g hg, hm] at vT
    rw [← eT m hmn, iT] at vM
    have bQ := irGridMap_bounds hst m (by omega) (by omega)
    have Qm : irGridMap (stabilizer L b.D q0) b.D Z3 m = m := by
      cases sw <;> simp only [if_true, Bool.false_eq_true, if_false] at vM <;> omega
    have c12' : Carries 1 2 (rank mapT m : Nat) ↔ mapT g = mapQ g := by
      rw [c12, hm, eQ g hg]
      constructor
      · rintro ⟨R, hR, e, _⟩
        rw [← irGridMap_rot hst g (by omega) gg hR, e, Qm]
      · intro e
        obtain ⟨R, hR, e'⟩ := (irGridMap_eq_iff hst g m (by omega) gg (by omega) (by omega)).1
          (by rw [Qm]; exact e.symm)
        exact ⟨R, hR, e', by rw [rot_third hGL hR, e']⟩
    refine ⟨rank mapT m, ?_, f1, ?_⟩
    · rw [hm, createGp2tpMap_eq mem mapT hmn, if_pos iT]
    · unfold inverseSinhPoint
      by_cases hc : mapT g = mapQ g
      · rw [if_pos hc]
        exact .inl ⟨rfl, c12'.2 hc⟩
      · rw [if_neg hc]
        rw [hm, eQ g hg] at hc
        cases sw with
        | false => simp only [Bool.false_eq_true, if_false] at vT; exact absurd vT hc
        | true =>
          simp only [if_true] at vT
          refine .inr ⟨rfl, c21.2 ?_, fun e => hc (by rw [← hm, c12'.1 e, eQ g hg]), rfl⟩
          obtain ⟨R, hR, e'⟩ := (irGridMap_eq_iff hst (thirdGridPoint b.D q0 g) m bg.1 bg.2
            (by omega) (by omega)).1 (by rw [Qm]; omega)
          refine ⟨R, hR, ?_, e'⟩
          conv_lhs => rw [← third_third b.D hD q0 g (by omega) gg]
          rw [rot_third hGL hR, e']

/-- C38: the Python map succeeds, with its assertions, and gives for every grid point the same
triplet, the same point and the same report of exchange as the C routines. -/
theorem C38_python (b : BZInput K) (hD : PosMesh b.D) (hl : ∃ i j, b.reclat i j ≠ 0)
    (dense : Bool) (init bz : BZGridOut) (h : bzGrid b dense init = some bz)
    (s : BZInput K') (hs : s.D = b.D) (rots : List M3) (hG : GridGroup rots b.D ⟨0, 0, 0⟩)
    (tr sw : Bool) (gp : Int) (g0 : 0 ≤ gp) (g1 : gp < bz.size)
    (gd : dense = false → gp < numGrid b.D)
    (T : Triplets) (hT : getTripletsAtQ s bz dense rots gp tr sw = some T)
    (tri : Int → Fin 3 → Int) (mapT mapQ : Int → Int) (ha : HoldsTriplets T tri mapT mapQ)
    (mem : Int → Int) (n : Nat) (hn : (n : Int) = b.D.x * b.D.y * b.D.z) :
    ∃ st, pyGp2tp n tri mapT mapQ bz.bzg2grg = some st ∧ ∀ g : Nat, g < n →
      st.gp2tp g = createGp2tpMap mem mapT n (mapT g) ∧
      (st.tp2s g, st.swapped g) = inverseSinhPoint (tri (st.gp2tp g)) mapT mapQ g := by
  cases hL : reciprocalPointGroup rots tr false with
  | none => simp [getTripletsAtQ, tpkIrTripletsAtQ, hL] at hT
  | some L =>
    have hnn : (numGrid b.D).toNat = n := by unfold numGrid; omega
    obtain ⟨⟨p0, p1⟩, eT, eQ, F⟩ := lookup_facts b hD hl dense init bz h s hs rots L hG tr sw hL gp
      g0 g1 gd T hT tri mapT mapQ ha
    rw [hnn] at eT eQ F
    have hGL := reciprocal_gridGroup hG hL
    have hst := stabilizer_group hGL p0 p1
    have hN : (n : Int) = numGrid b.D := hn
    set q0 := bz.bzg2grg gp with hq0
    -- maps on the range
    have bQ : ∀ g : Nat, g < n → 0 ≤ mapQ g ∧ mapQ g ≤ g := by
      intro g hg
      rw [eQ g hg]; exact irGridMap_bounds hst g (by omega) (by omega)
    have bT : ∀ g : Nat, g < n → 0 ≤ mapT g ∧ mapT g ≤ g := by
      intro g hg
      rw [eT g hg]; exact tripletMap_bounds hGL p0 p1 sw _ g (by omega) (by omega)
    have eT' : ∀ x : Int, 0 ≤ x → x < n →
        mapT x = tripletMap L b.D q0 sw (fun _ => 0) x := by
      intro x x0 x1
      have := eT x.toNat (by omega)
      rwa [Int.toNat_of_nonneg x0] at this
    have eQ' : ∀ x : Int, 0 ≤ x → x < n →
        mapQ x = irGridMap (stabilizer L b.D q0) b.D Z3 x := by
      intro x x0 x1
      have := eQ x.toNat (by omega)
      rwa [Int.toNat_of_nonneg x0] at this
    have iT : ∀ g : Nat, g < n → mapT (mapT g) = mapT g := by
      intro g hg
      have := bT g hg
      rw [eT' (mapT g) (by omega) (by omega), eT g hg]
      exact tripletMap_idem hGL p0 p1 sw _ g (by omega) (by omega)
    have iQ : ∀ g : Nat, g < n → mapQ (mapQ g) = mapQ g := by
      intro g hg
      have := bQ g hg
      rw [eQ' (mapQ g) (by omega) (by omega), eQ g hg]
      exact mapQ_idem hGL p0 p1 g (by omega) (by omega)
    have vT : ∀ g : Nat, g < n → mapT g = if sw then min (mapQ g)
        (mapQ (thirdGridPoint b.D q0 g)) else mapQ g := by
      intro g hg
      have bt := third_bounds b.D hD q0 g
      rw [eT g hg, tripletMap_eq hGL p0 p1 sw _ g (by omega) (by omega), eQ g hg,
        eQ' (thirdGridPoint b.D q0 g) bt.1 (by omega)]
    have vT' : ∀ x : Int, 0 ≤ x → x < n → mapT x = if sw then min (mapQ x)
        (mapQ (thirdGridPoint b.D q0 x)) else mapQ x := by
      intro x x0 x1
      have := vT x.toNat (by omega)
      rwa [Int.toNat_of_nonneg x0] at this
    have TQ : ∀ g : Nat, g < n → mapT (mapQ g) = mapT g := by
      intro g hg
      have := bQ g hg
      have bt := third_bounds b.D hD q0 g
      have bt' := third_bounds b.D hD q0 (mapQ g)
      rw [vT' (mapQ g) (by omega) (by omega), vT g hg, iQ g hg]
      have e : mapQ (thirdGridPoint b.D q0 (mapQ g)) = mapQ (thirdGridPoint b.D q0 g) := by
        rw [eQ' _ bt.1 (by omega), eQ' _ bt'.1 (by omega)]
        refine mapQ_third hGL p0 p1 (by omega) (by omega) (by omega) (by omega) ?_
        have := iQ g hg
        rw [eQ' (mapQ g) (by omega) (by omega)] at this
        rw [this, eQ g hg]
      rw [e]
    have hin : LookupInput n tri mapT mapQ bz.bzg2grg := by
      refine ⟨bQ, bT, iQ, iT, TQ, fun g hg e => ⟨?_, (F g hg e).2.2.2.1⟩, fun g hg e1 e2 => ?_⟩
      · have h1 := vT g hg
        have h2 := bQ g hg
        cases sw <;> simp only [if_true, Bool.false_eq_true, if_false] at h1 <;> omega
      · have h1 := vT g hg
        have h2 := bT g hg
        have bt := third_bounds b.D hD q0 g
        cases sw with
        | false => simp only [Bool.false_eq_true, if_false] at h1; omega
        | true =>
          simp only [if_true] at h1
          have h3 : mapT g = mapQ (thirdGridPoint b.D q0 g) := by omega
          have hm : ((mapT g).toNat : Int) = mapT g := by omega
          obtain ⟨_, _, _, _, f5⟩ := F (mapT g).toNat (by omega) (by rw [hm]; exact iT g hg)
          rw [f5, hm]
          have bt' := third_bounds b.D hD q0 (mapT g)
          rw [eQ' _ bt'.1 (by omega)]
          have e := mapQ_third hGL p0 p1 (g := mapT g) (k := thirdGridPoint b.D q0 g) (by omega)
            (by omega) bt.1 bt.2 ?_
          · rw [e, third_third b.D hD q0 g (by omega) (by omega), ← eQ g hg]; exact e1
          · have h4 := mapQ_idem hGL p0 p1 (thirdGridPoint b.D q0 g) bt.1 bt.2
            rw [← eQ' (thirdGridPoint b.D q0 g) bt.1 (by omega), ← h3] at h4
            rw [h4, h3, eQ' (thirdGridPoint b.D q0 g) bt.1 (by omega)]
    obtain ⟨st, e1, _, _, e2⟩ := pyGp2tp_fold hin n le_rfl
    refine ⟨st, e1, fun g hg => ?_⟩
    obtain ⟨f1, f2, f3⟩ := e2 g hg
    have h2 := bT g hg
    have hm : ((mapT g).toNat : Int) = mapT g := by omega
    constructor
    · have := createGp2tpMap_eq mem mapT (n := n) (g := (mapT g).toNat) (by omega)
      rw [hm, if_pos (iT g hg)] at this
      rw [this, f1]
    · rw [f1, f2, f3]

end

/-- The point (1,0,0) of the 3x2x1 example has the triplets (1,0,2), (1,1,1), (1,3,8), (1,5,5),
the triplet map 0,1,0,3,4,3 and the map 0..5 of `q1`. `q1` with index 2 is found in triplet 0
through the exchange. -/
example : (List.range 6).map (fun (g : Nat) =>
    let T : Int → Int := fun g => [0, 1, 0, 3, 4, 3].getD g.toNat 0
    let ti := createGp2tpMap (fun _ => 77) T 6 (T g)
    let tri : Int → Fin 3 → Int := fun i j =>
      ([[1, 0, 2], [1, 1, 1], [1, 3, 8], [1, 5, 5]].getD i.toNat []).getD j 0
    (ti, inverseSinhPoint (tri ti) T (fun g => g) g)) =
    [(0, 2, false), (1, 1, false), (0, 0, true), (2, 8, false), (3, 5, false), (2, 3, true)] := by
  decide +kernel

end Phono3py.Props
