import Verif.Props.DeltaFc2Example

/-!
# Displacements below the symmetry tolerance (C149)
-/

namespace Phono3py

open Matrix Spec

section
variable {K : Type} [Field K] [LinearOrder K] [IsStrictOrderedRing K]
variable {T : FcTools K} {p2 : Nat → Nat → FcBlock K} {f : Legs → K} {σ : Nat → Rot → Nat → Nat}

theorem sum_left {B : List Rot} (h : RotGroup B) {r : Rot} (hr : r ∈ B)
    (g : Rot → K) : (B.map fun s => g (r * s)).sum = (B.map g).sum := by
  obtain ⟨t, ht, htr, htr'⟩ := h.inv r hr
  have hinj : Function.Injective fun s : Rot => r * s := by
    intro s s' he
    have := congrArg (t * ·) he
    simpa only [← mul_assoc, htr, one_mul] using this
  have hp : (B.map fun s => r * s).Perm B := by
    rw [List.perm_ext_iff_of_nodup (h.nodup.map hinj) h.nodup]
    intro s
    constructor
    · intro hs
      obtain ⟨q, hq, rfl⟩ := List.mem_map.1 hs
      exact h.mul r hr q hq
    · intro hs
      refine List.mem_map.2 ⟨t * s, h.mul t ht s hs, ?_⟩
      simp only [← mul_assoc, htr', one_mul]
  have := (hp.map g).sum_eq
  rw [List.map_map] at this
  exact this

theorem cart_mul (hs : ToolsSound T σ) (r s : Rot) : T.cart (r * s) = T.cart r * T.cart s := by
  unfold FcTools.cart
  have e : (r * s).map (Int.cast : Int → K) =
      r.map (Int.cast : Int → K) * s.map (Int.cast : Int → K) :=
    Matrix.map_mul (f := Int.castRingHom K)
  calc T.lattice * (r * s).map (Int.cast : Int → K) * T.latticeInv
      = T.lattice * r.map (Int.cast : Int → K) * (T.latticeInv * T.lattice) *
          s.map (Int.cast : Int → K) * T.latticeInv := by
        rw [hs.lattice, Matrix.mul_one, e]; simp only [Matrix.mul_assoc]
    _ = _ := by simp only [Matrix.mul_assoc]

theorem sum_sq_turn {C : FcBlock K} (hC : Cᵀ * C = 1) (x : Vec K) :
    ∑ b, ((C *ᵥ x) b) ^ 2 = ∑ b, (x b) ^ 2 := by
  have : (C *ᵥ x) ⬝ᵥ (C *ᵥ x) = x ⬝ᵥ x := by
    rw [Matrix.dotProduct_mulVec, ← Matrix.mulVec_transpose, Matrix.mulVec_mulVec, hC,
      Matrix.one_mulVec]
  simpa only [dotProduct, sq] using this

/-- The sum of squares does not change when the force constants are turned, if the atom is kept. -/
theorem residual_turn (hs : ToolsSound T σ) {B : List Rot} (hB : RotGroup B)
    (horth : ∀ r ∈ B, (T.cart r)ᵀ * T.cart r = 1) {back : Rot → Nat → Nat} {k : Nat}
    (hk : ∀ r ∈ B, back r k = k) (disps : List (Vec K)) (forces : List (Nat → Vec K)) {r : Rot}
    (hr : r ∈ B) (X : FcBlock K) :
    residual (turnedRows T.cart back disps forces B k) (T.cart r * X * (T.cart r)ᵀ) =
      residual (turnedRows T.cart back disps forces B k) X := by
  unfold residual turnedRows
  rw [List.map_flatMap, List.map_flatMap, sum_flatMap', sum_flatMap']
  refine congrArg List.sum (List.map_congr_left fun p _ => ?_)
  rw [List.map_map, List.map_map]
  rw [← sum_left hB hr]
  refine congrArg List.sum (List.map_congr_left fun s hs' => ?_)
  simp only [Function.comp]
  rw [hk _ (hB.mul r hr s hs'), hk s hs', cart_mul hs, ← Matrix.mulVec_mulVec,
    ← Matrix.mulVec_mulVec, vecMul_turn _ _ (horth r hr)]
  rw [← sum_sq_turn (horth r hr) (fun b => ((T.cart s *ᵥ p.1) ᵥ* X) b + (T.cart s *ᵥ p.2 k) b)]
  refine Finset.sum_congr rfl fun b _ => ?_
  congr 1
  change _ = (T.cart r *ᵥ (((T.cart s *ᵥ p.1) ᵥ* X) + (T.cart s *ᵥ p.2 k))) b
  rw [Matrix.mulVec_add]; rfl

end

namespace Props

section
variable {K : Type} [Field K] [LinearOrder K] [IsStrictOrderedRing K]
variable {T : FcTools K} {p2 : Nat → Nat → FcBlock K} {f : Legs → K} {σ : Nat → Rot → Nat → Nat}

/-- C149, displacements below the tolerance: if all operations of the site change the displacement
by less than the symmetry tolerance, then, whatever the forces, the block of the displaced atom has
the symmetry of the crystal at rest. -/
theorem C149_small_displacements (hs : ToolsSound T σ)
    (hsym : ∀ d ∈ T.leastDisps, SiteSymmetry T p2 f (σ d.1) d.1)
    (F : (Nat → Vec K) → Nat → Vec K) {dist : K} (hd : dist ≠ 0)
    (dirs : List (DirFirst (Vec Int) K)) (hdirs : T.thirdOrderDisplacements = some dirs)
    (ds : DispDataset (Vec K) K)
    (hds : directionToDisplacement (T.toDisplacement dist) T.natom none dirs = some ds)
    (fc2 : Nat → Nat → FcBlock K) :
    ∀ d ∈ ds.first, (∀ r ∈ T.siteSym d.number, ∀ i, |(T.latticeInv *ᵥ d.displacement) i -
        turnVec r (T.latticeInv *ᵥ d.displacement) i| < T.tol) →
      ∃ delta, T.firstDelta fc2 (filled T.natom F d) = some (d.displacement, delta) ∧
        ∀ r ∈ T.siteSym d.number,
          T.cart r * (delta d.number d.number + fc2 d.number d.number) * (T.cart r)ᵀ =
            delta d.number d.number + fc2 d.number d.number := by
  obtain ⟨dups, -, rfl⟩ := Option.map_eq_some_iff.1 hds
  have hall := entries_of_leastDisps hdirs dist none 0 (dirs.length + 1)
  intro d hd' hsmall
  obtain ⟨n, hn, rfl⟩ := List.mem_iff_getElem.1 hd'
  have hlen := hall.length_eq
  have hx := List.forall₂_iff_get.1 hall
  obtain ⟨e1, e2, l, hl, c, e3⟩ := hx.2 n (by rw [hlen]; exact hn) hn
  simp only [List.get_eq_getElem] at e1 e2 hl e3
  have hmem : T.leastDisps[n]'(by rw [hlen]; exact hn) ∈ T.leastDisps := List.getElem_mem _
  clear hd' hx
  generalize (stampFirst (T.toDisplacement dist) none 0 (dirs.length + 1) dirs)[n] = d at *
  have h := hsym _ hmem
  generalize T.leastDisps[n]'(by rw [hlen]; exact hn) = g at *
  obtain ⟨a, dir⟩ := g
  simp only at e1 e2 hl e3 h
  subst e1
  have hred : T.reducedOfDirection d.number dir =
      (T.siteSym d.number).filter fun r => decide (r *ᵥ dir = dir) :=
    reduced_eq_one hs.tol_pos hs.tol_le _ _
  have hg : RotGroup (T.reducedOfDirection d.number dir) := by
    rw [hred]; exact keeping_group h.group dir
  have hB : ∀ r ∈ T.reducedOfDirection d.number dir, r ∈ T.siteSym d.number := by
    intro r hr; rw [hred] at hr; exact (List.mem_filter.1 hr).1
  obtain ⟨l', hl', hnd, hlt, hcov, -⟩ := Props.C58_cover (site_group h hg hB)
  obtain rfl : l' = l := Option.some.inj (hl'.symm.trans hl)
  obtain ⟨hdisp, hatoms⟩ := generated_seconds hs h hg hB F dist d hnd hlt none c e3
  have hall' : reducedSiteSym T.tol (T.siteSym d.number) (T.latticeInv *ᵥ d.displacement) =
      T.siteSym d.number := by
    unfold reducedSiteSym
    rw [List.filter_eq_self]
    intro r hr
    rw [decide_eq_true_eq]
    exact hsmall r hr
  have hinj : ∀ r ∈ T.siteSym d.number, ∀ x, σ d.number r x = d.number → x = d.number := by
    intro r hr x hx
    obtain ⟨s, hs', h1, -⟩ := h.group.inv r hr
    have : σ d.number s (σ d.number r x) = x := by rw [← h.map_mul s hs' r hr, h1, h.map_one]
    rw [hx, h.fixed s hs'] at this
    exact this.symm
  have ha : d.number ∈ l' := by
    obtain ⟨v, hv, r, hr, he⟩ := hcov d.number h.lt
    rwa [hinj r (hB r hr) v he] at hv
  have hbond : T.bondSym (T.siteSym d.number) d.number d.number = T.siteSym d.number := by
    rw [bond_eq h (fun _ hr => hr) h.lt, List.filter_eq_self]
    intro r hr
    simpa using h.fixed r hr
  set S := (filled T.natom F d).second with hS
  set F1 : Nat → Vec K := fun k => ((List.range T.natom).map
    (F (point d.number d.displacement))).getD k 0 with hF1
  let disps : Nat → List (Vec K) := fun b =>
    (d.second.filter fun e => e.number == b).map fun e => e.displacement
  let row : Nat → Nat → FcBlock K := fun b => T.solveRow b (disps b)
    ((disps b).map fun v k => ((List.range T.natom).map
      (F (point d.number d.displacement + point b v))).getD k 0 - F1 k)
    (T.bondSym (T.siteSym d.number) d.number b)
  have hstep : ∀ x, ∀ b ∈ T.secondAtoms S,
      T.solveSecond S d.number F1 (T.siteSym d.number) x b =
        some (Function.update x b (row b)) := by
    intro x b hb
    unfold FcTools.solveSecond
    rw [hS, secondData_filled]
    simp only [Option.map_some, List.map_map]
    congr 3
    simp [disps, Function.comp_def]
  obtain ⟨out, ho, hval⟩ := hs.distribute d.number
    (fun i => if i ∈ T.secondAtoms S then row i else fun _ => 0) (T.secondAtoms S)
    (T.siteSym d.number) (fun _ hr => hr) (by
      intro i hi
      obtain ⟨v, hv, r, hr, he⟩ := hcov i hi
      obtain ⟨s, hs', h1, -⟩ := h.group.inv r (hB r hr)
      refine ⟨s, hs', (hatoms _).2 ?_⟩
      rw [← he, ← h.map_mul s hs' r (hB r hr), h1, h.map_one]
      exact hv)
  refine ⟨fun i j => out i j - fc2 i j, ?_, ?_⟩
  · unfold FcTools.firstDelta FcTools.deltaFc2 FcTools.constrainedFc2
    change (((((T.secondAtoms S).foldlM (T.solveSecond S d.number F1 (reducedSiteSym T.tol
      (T.siteSym d.number) (T.latticeInv *ᵥ d.displacement))) fun _ _ => 0).bind fun fc2 =>
        T.distribute d.number fc2 (T.secondAtoms S) (reducedSiteSym T.tol
          (T.siteSym d.number) (T.latticeInv *ᵥ d.displacement))).map _).map _) = _
    rw [hall', foldlM_rows _ _ _ hstep]
    simp only [Option.bind_some]
    rw [ho]; rfl
  · simp only [sub_add_cancel]
    obtain ⟨q, hq, hdone, hval⟩ := hval d.number h.lt
    rw [hval _ h.lt, h.fixed q hq, if_pos ((hatoms _).2 ha)]
    -- the row of the displaced atom
    have hspan : Spanning ((disps d.number).flatMap fun u => (T.siteSym d.number).map fun r =>
        T.cart r *ᵥ u) := by
      have h1 : disps d.number = (T.nextDirections (T.reducedOfDirection d.number dir) d.number
        d.number).map (T.toDisplacement dist) := hdisp _ ha
      rw [h1, List.flatMap_map]
      apply spanning_disps hs hd
      intro w hw
      apply hs.directions _ (bond_group h hg hB h.lt)
      intro v hv
      obtain ⟨e, hel, hv⟩ := List.mem_flatMap.1 hv
      obtain ⟨r, hr, rfl⟩ := List.mem_map.1 hv
      apply hw
      refine List.mem_flatMap.2 ⟨e, ?_, List.mem_map.2 ⟨r, ?_, rfl⟩⟩
      · unfold FcTools.nextDirections
        refine List.mem_flatMap.2 ⟨e, hel, ?_⟩
        split <;> simp
      · exact hB r (List.mem_of_mem_filter hr)
    have hfit := hs.solve d.number d.number (disps d.number) ((disps d.number).map fun v k =>
      ((List.range T.natom).map (F (point d.number d.displacement + point d.number v))).getD k 0 -
        F1 k) (T.siteSym d.number) (by simp) (fun _ hr => hr) h.fixed hspan d.number h.lt
    have hrow : row d.number d.number = T.solveRow d.number (disps d.number)
        ((disps d.number).map fun v k => ((List.range T.natom).map
          (F (point d.number d.displacement + point d.number v))).getD k 0 - F1 k)
        (T.siteSym d.number) d.number := by
      simp only [row, hbond]
    rw [← hrow] at hfit
    generalize row d.number d.number = X at hfit
    have hback : ∀ r ∈ T.siteSym d.number, T.sentByInv d.number r d.number = d.number :=
      fun r hr => hinj r hr _ (hs.sent d.number r hr _ h.lt).2
    have hinv : ∀ r ∈ T.siteSym d.number, T.cart r * X * (T.cart r)ᵀ = X := by
      intro r hr
      refine fit_unique ?_ (fun Y => ?_) hfit
      · have : (turnedRows T.cart (T.sentByInv d.number) (disps d.number)
            ((disps d.number).map fun v k => ((List.range T.natom).map
              (F (point d.number d.displacement + point d.number v))).getD k 0 - F1 k)
            (T.siteSym d.number) d.number).map (fun p => p.1) =
            (disps d.number).flatMap fun u => (T.siteSym d.number).map fun r => T.cart r *ᵥ u := by
          unfold turnedRows
          rw [List.map_flatMap]
          conv_rhs => rw [← List.map_fst_zip (l₁ := disps d.number)
            (l₂ := (disps d.number).map fun v k => ((List.range T.natom).map
              (F (point d.number d.displacement + point d.number v))).getD k 0 - F1 k) (by simp)]
          rw [List.flatMap_map]
          refine List.flatMap_congr fun p _ => ?_
          rw [List.map_map]; rfl
        rw [this]; exact hspan
      · rw [residual_turn hs h.group h.orth hback _ _ hr]
        exact hfit Y
    have hX : (T.cart q)ᵀ * X * T.cart q = X := by
      conv_lhs => rw [← hinv q hq]
      rw [← Matrix.mul_assoc, ← Matrix.mul_assoc, h.orth q hq, Matrix.one_mul, Matrix.mul_assoc,
        h.orth q hq, Matrix.mul_one]
    rw [hX]
    exact hinv

end

/-- Force constants of the first atom: one for one displacement along the first axis and two along
the third. -/
def exampleShear (x : Legs) : ℚ :=
  if (∀ s, (x s).1 = 0) ∧ ∃ s, (x s).2 = 0 ∧ ∀ t, t ≠ s → (x t).2 = 2 then 1 else 0

theorem shear_symmetric (n : Nat) : PermutationSymmetric n exampleShear := by
  intro x _ τ
  unfold exampleShear
  refine if_congr (and_congr ⟨fun h s => by simpa using h (τ.symm s), fun h s => h (τ s)⟩
    ⟨?_, ?_⟩) rfl rfl
  · rintro ⟨s, h1, h2⟩
    refine ⟨τ s, h1, fun t ht => ?_⟩
    have := h2 (τ.symm t) (by rintro rfl; simp at ht)
    simpa using this
  · rintro ⟨s, h1, h2⟩
    refine ⟨τ.symm s, by simpa using h1, fun t ht => h2 (τ t) ?_⟩
    rintro rfl; simp at ht

theorem shear_invariant (r : Rot) (hr : r = 1 ∨ r = mirrorZ) :
    InvariantUnder 3 (swapAtoms r) (natMat (exampleTools.cart r)) exampleShear := by
  have hR : ∃ z : ℚ, z * z = 1 ∧ ∀ l < 3, ∀ a < 3, natMat (exampleTools.cart r) l a =
      if l = a then (if l = 2 then z else 1) else 0 := by
    rcases hr with rfl | rfl
    · refine ⟨1, by norm_num, ?_⟩
      rw [example_cart_one]; unfold natMat; decide +kernel
    · refine ⟨-1, by norm_num, ?_⟩
      rw [example_cart_mirror]; unfold natMat; decide +kernel
  obtain ⟨z, hz, hR⟩ := hR
  generalize natMat (exampleTools.cart r) = R at hR
  have hzero : ∀ i, swapAtoms r i = 0 ↔ i = 0 := by
    intro i
    have : swapAtoms r 0 = 0 := by unfold swapAtoms; simp
    constructor
    · intro h; rw [← swap_swap r i, h, this]
    · rintro rfl; exact this
  intro x hx
  have h1 := (hx 0).2
  have h2 := (hx 1).2
  have h3 := (hx 2).2
  have hmove : exampleShear (moveAtoms (swapAtoms r) x) = exampleShear x := by
    unfold exampleShear moveAtoms
    simp only [hzero]
  rw [hmove]
  unfold rotateLegs
  rw [Finset.sum_eq_single (x 0).2 ?_ (by simp [h1]), Finset.sum_eq_single (x 1).2 ?_ (by simp [h2]),
    Finset.sum_eq_single (x 2).2 ?_ (by simp [h3])]
  · rw [hR _ h1 _ h1, hR _ h2 _ h2, hR _ h3 _ h3]
    simp only [if_true]
    have hx' : ![((x 0).1, (x 0).2), ((x 1).1, (x 1).2), ((x 2).1, (x 2).2)] = x := by
      funext s; fin_cases s <;> rfl
    rw [hx']
    by_cases hc : (∀ s, (x s).1 = 0) ∧ ∃ s, (x s).2 = 0 ∧ ∀ t, t ≠ s → (x t).2 = 2
    · obtain ⟨-, s, e1, e2⟩ := hc
      have : (if (x 0).2 = 2 then z else 1) * (if (x 1).2 = 2 then z else 1) *
          (if (x 2).2 = 2 then z else 1) = 1 := by
        fin_cases s
        · rw [e2 1 (by decide), e2 2 (by decide)]
          simp only [Fin.zero_eta] at e1
          simp [e1, hz]
        · rw [e2 0 (by decide), e2 2 (by decide)]
          simp only [Fin.mk_one] at e1
          simp [e1, hz]
        · rw [e2 0 (by decide), e2 1 (by decide)]
          simp only [Fin.reduceFinMk] at e1
          simp [e1, hz]
      rw [this, one_mul]
    · unfold exampleShear
      rw [if_neg hc, mul_zero]
  · intro b hb hne
    rw [hR _ h3 _ (Finset.mem_range.1 hb), if_neg (Ne.symm hne)]; simp
  · intro b hb hne
    refine Finset.sum_eq_zero fun c _ => ?_
    rw [hR _ h2 _ (Finset.mem_range.1 hb), if_neg (Ne.symm hne)]; simp
  · intro b hb hne
    refine Finset.sum_eq_zero fun c _ => Finset.sum_eq_zero fun e _ => ?_
    rw [hR _ h1 _ (Finset.mem_range.1 hb), if_neg (Ne.symm hne)]; simp

/-- C149, the length matters: in a crystal that meets all other hypotheses of `C149_delta`, every
displacement below half the tolerance gives a change of fc2 that is not the induced one. -/
theorem C149_length_matters :
    ToolsSound exampleTools (fun _ => swapAtoms) ∧
    (∀ d ∈ exampleTools.leastDisps,
      SiteSymmetry exampleTools exampleQuadratic exampleShear swapAtoms d.1) ∧
    PermutationSymmetric 3 exampleShear ∧
    ∀ dist : ℚ, dist ≠ 0 → 2 * |dist| < exampleTools.tol →
      ∀ dirs, exampleTools.thirdOrderDisplacements = some dirs →
      ∀ ds, directionToDisplacement (exampleTools.toDisplacement dist) exampleTools.natom none dirs
        = some ds →
      ∃ d ∈ ds.first, ∃ delta,
        exampleTools.firstDelta exampleQuadratic (filled exampleTools.natom
          (crystalForce exampleTools.natom (fun _ _ => 5) exampleQuadratic exampleShear) d) =
            some (d.displacement, delta) ∧
        delta 0 0 ≠ inducedBlock exampleShear d.number d.displacement 0 0 := by
  have hsym : ∀ d ∈ exampleTools.leastDisps,
      SiteSymmetry exampleTools exampleQuadratic exampleShear swapAtoms d.1 :=
    fun d hd => example_site shear_invariant d.1 (example_first hd)
  refine ⟨exampleTools_sound, hsym, shear_symmetric 3, ?_⟩
  intro dist hdist hsmall dirs hdirs ds hds
  have hgen := C149_small_displacements exampleTools_sound hsym
    (crystalForce exampleTools.natom (fun _ _ => 5) exampleQuadratic exampleShear) hdist dirs hdirs ds hds
    exampleQuadratic
  obtain ⟨dups, -, rfl⟩ := Option.map_eq_some_iff.1 hds
  have hall := entries_of_leastDisps hdirs dist none 0 (dirs.length + 1)
  have hx := List.forall₂_iff_get.1 hall
  have h2 : 2 < (stampFirst (exampleTools.toDisplacement dist) none 0 (dirs.length + 1) dirs).length
    := by rw [← hx.1]; decide
  obtain ⟨e1, e2, -⟩ := hx.2 2 (by decide) h2
  simp only [List.get_eq_getElem] at e1 e2
  have hm : (stampFirst (exampleTools.toDisplacement dist) none 0 (dirs.length + 1) dirs)[2] ∈
    stampFirst (exampleTools.toDisplacement dist) none 0 (dirs.length + 1) dirs :=
    List.getElem_mem _
  generalize (stampFirst (exampleTools.toDisplacement dist) none 0 (dirs.length + 1) dirs)[2] = d
    at e1 e2 hm
  have e1 : d.number = 0 := e1
  have e2 : d.displacement = ![0, 0, dist] := by
    rw [e2]
    change exampleTools.toDisplacement dist ![0, 0, 1] = _
    unfold FcTools.toDisplacement
    simp only [exampleTools, Matrix.one_mulVec]
    funext i
    fin_cases i <;> simp
  refine ⟨d, hm, ?_⟩
  have hinvL : exampleTools.latticeInv *ᵥ d.displacement = ![0, 0, dist] := by
    rw [e2]; simp [exampleTools]
  obtain ⟨delta, h3, h4⟩ := hgen d hm (by
    rw [hinvL]
    intro r hr i
    have htol : 0 < exampleTools.tol := exampleTools_sound.tol_pos
    rcases example_ops hr with rfl | ⟨-, rfl⟩
    · simpa [turnVec] using htol
    · have hv : turnVec mirrorZ ![0, 0, dist] = ![0, 0, -dist] := by
        funext i
        simp only [turnVec, Matrix.mulVec, dotProduct, Fin.sum_univ_three, Matrix.map_apply]
        fin_cases i <;> simp [mirrorZ]
      rw [hv]
      fin_cases i
      · simpa using htol
      · simpa using htol
      · have : |dist + dist| = 2 * |dist| := by
          rw [← two_mul, abs_mul]; norm_num
        simpa [this] using hsmall)
  refine ⟨delta, h3, ?_⟩
  rw [e1] at h4
  have h5 := congrFun (congrFun (h4 mirrorZ (by simp [exampleTools])) 0) 2
  rw [example_cart_mirror] at h5
  simp only [Matrix.mul_apply, Fin.sum_univ_three] at h5
  simp [exampleQuadratic] at h5
  intro hc
  rw [e1, e2] at hc
  have h6 := congrFun (congrFun hc 0) 2
  have h7 : inducedBlock exampleShear 0 ![0, 0, dist] 0 0 0 2 = dist := by
    unfold inducedBlock
    rw [Fin.sum_univ_three]
    have : exampleShear ![(0, ((2 : Fin 3) : Nat)), (0, ((0 : Fin 3) : Nat)),
        (0, ((2 : Fin 3) : Nat))] = 1 := by decide +kernel
    rw [this]; simp
  rw [h7] at h6
  apply hdist
  linarith

/-- There are lengths, and datasets, for `C149_length_matters`. -/
example : ∃ dist : ℚ, dist ≠ 0 ∧ 2 * |dist| < exampleTools.tol ∧
    ∃ dirs, exampleTools.thirdOrderDisplacements = some dirs ∧
    ∃ ds, directionToDisplacement (exampleTools.toDisplacement dist) exampleTools.natom none dirs =
      some ds := by
  refine ⟨1 / 1000000, by norm_num, by rw [abs_of_pos (by norm_num)]; norm_num [exampleTools], ?_⟩
  obtain ⟨dirs, hdirs⟩ := C149_generated exampleTools_sound
    (fun d hd => example_site cubic_invariant d.1 (example_first hd))
  refine ⟨dirs, hdirs, ?_⟩
  have h : (exampleTools.thirdOrderDisplacements.bind findDuplicates).isSome := by
    decide +kernel
  rw [hdirs, Option.bind_some] at h
  obtain ⟨l, hl⟩ := Option.isSome_iff_exists.1 h
  unfold directionToDisplacement
  rw [hl]
  exact ⟨_, rfl⟩

end Props

end Phono3py
