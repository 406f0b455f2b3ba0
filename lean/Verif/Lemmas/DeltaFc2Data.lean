import Verif.Lemmas.DeltaFc2Rows

/-! The change of fc2 computed from a generated first displacement. -/

namespace Phono3py

open Matrix Spec

section lists
variable {V K : Type}

theorem mapM_some' {α β : Type} (g : α → Option β) (g' : α → β) (l : List α)
    (h : ∀ x ∈ l, g x = some (g' x)) : l.mapM g = some (l.map g') := by
  induction l with
  | nil => rfl
  | cons x l ih =>
    rw [List.mapM_cons, h x (by simp), ih fun y hy => h y (by simp [hy])]
    rfl

theorem stampDirections_number {D : Type} (cart : D → V) (m : Nat) (x : K) (inc : Option Bool)
    (c : Nat) (ds : List D) : ∀ e ∈ stampDirections cart m x inc c ds, e.number = m := by
  induction ds generalizing c with
  | nil => intro e he; cases he
  | cons d ds ih =>
    intro e he
    rcases List.mem_cons.1 he with rfl | he
    · rfl
    · exact ih _ e he

theorem stampDirections_disp {D : Type} (cart : D → V) (m : Nat) (x : K) (inc : Option Bool)
    (c : Nat) (ds : List D) :
    (stampDirections cart m x inc c ds).map (fun e => e.displacement) = ds.map cart := by
  induction ds generalizing c with
  | nil => rfl
  | cons d ds ih => simp [stampDirections, ih]

variable [LT K] [DecidableLT K]

/-- The displacements of one of the second atoms are those of its directions. -/
theorem stampSecond_disp {D : Type} (cart : D → V) (cutoff : Option K) (c : Nat)
    (l : List (DirSecond D K)) (hl : (l.map fun s => s.number).Nodup) {s : DirSecond D K}
    (hs : s ∈ l) :
    ((stampSecond cart cutoff c l).filter fun e => e.number == s.number).map
      (fun e => e.displacement) = s.directions.map cart := by
  induction l generalizing c with
  | nil => cases hs
  | cons t l ih =>
    rw [List.map_cons, List.nodup_cons] at hl
    unfold stampSecond
    rw [List.filter_append, List.map_append]
    rcases List.mem_cons.1 hs with rfl | hs'
    · have h1 : (stampDirections cart s.number s.distance
          (cutoff.map fun r => decide (s.distance < r)) c s.directions).filter
            (fun e => e.number == s.number) = stampDirections cart s.number s.distance
          (cutoff.map fun r => decide (s.distance < r)) c s.directions := by
        rw [List.filter_eq_self]
        intro e he
        simp [stampDirections_number _ _ _ _ _ _ e he]
      have h2 : (stampSecond cart cutoff (c + s.directions.length) l).filter
          (fun e => e.number == s.number) = [] := by
        rw [List.filter_eq_nil_iff]
        intro e he hc
        have hn : ∀ (l : List (DirSecond D K)) c, ∀ e ∈ stampSecond cart cutoff c l,
            e.number ∈ l.map fun s => s.number := by
          intro l
          induction l with
          | nil => intro c e he; cases he
          | cons t l ih =>
            intro c e he
            unfold stampSecond at he
            rcases List.mem_append.1 he with he | he
            · simp [stampDirections_number _ _ _ _ _ _ e he]
            · simp only [List.map_cons, List.mem_cons]
              exact Or.inr (ih _ e he)
        have := hn l _ e he
        rw [beq_iff_eq] at hc
        rw [hc] at this
        exact hl.1 this
      rw [h1, h2, stampDirections_disp]; simp
    · have h1 : (stampDirections cart t.number t.distance
          (cutoff.map fun r => decide (t.distance < r)) c t.directions).filter
            (fun e => e.number == s.number) = [] := by
        rw [List.filter_eq_nil_iff]
        intro e he hc
        rw [stampDirections_number _ _ _ _ _ _ e he, beq_iff_eq] at hc
        exact hl.1 (List.mem_map.2 ⟨s, hs', hc.symm⟩)
      rw [h1]
      simpa using ih _ hl.2 hs'

end lists

section
variable {K : Type} [Field K] [LinearOrder K] [IsStrictOrderedRing K]
variable {T : FcTools K} {p2 : Nat → Nat → FcBlock K} {f : Legs → K} {σ : Nat → Rot → Nat → Nat}

theorem site_group {a : Nat} (h : SiteSymmetry T p2 f (σ a) a) {B : List Rot} (hg : RotGroup B)
    (hB : ∀ r ∈ B, r ∈ T.siteSym a) : SiteGroup T.near (T.turnAbout a) T.positions B (σ a) := by
  have hpos : ∀ x p, T.positions[x]? = some p → x < T.natom ∧ T.pos x = p := by
    intro x p hp
    obtain ⟨hx, he⟩ := List.getElem?_eq_some_iff.1 hp
    refine ⟨hx, ?_⟩
    unfold FcTools.pos
    rw [List.getD_eq_getElem?_getD, hp]; rfl
  refine ⟨?_, ?_, ⟨1, hg.one, fun x _ => h.map_one x⟩, ?_, ?_⟩
  · intro r hr x y p q hp hq
    obtain ⟨hx, rfl⟩ := hpos x p hp
    obtain ⟨hy, rfl⟩ := hpos y q hq
    exact h.acts r (hB r hr) x hx y hy
  · intro r hr x hx
    exact h.map_lt r (hB r hr) x hx
  · intro r hr s hs
    exact ⟨r * s, hg.mul r hr s hs, fun x _ => h.map_mul r (hB r hr) s (hB s hs) x⟩
  · intro r hr
    obtain ⟨s, hs, h1, -⟩ := hg.inv r hr
    refine ⟨s, hs, fun x _ => ?_⟩
    rw [← h.map_mul s (hB s hs) r (hB r hr), h1, h.map_one]

theorem nextDirections_ne (hs : ToolsSound T σ) {a b : Nat} {B : List Rot}
    (hg : RotGroup (T.bondSym B a b)) : T.nextDirections B a b ≠ [] := by
  intro h0
  have hne : T.getDisplacement (T.bondSym B a b) = [] := by
    rw [List.eq_nil_iff_forall_not_mem]
    intro d hd
    have : d ∈ T.nextDirections B a b := by
      unfold FcTools.nextDirections
      refine List.mem_flatMap.2 ⟨d, hd, ?_⟩
      split <;> simp
    rw [h0] at this
    cases this
  have h1 := hs.directions (T.bondSym B a b) hg
  rw [hne] at h1
  have := congrFun (h1 (fun _ => 1) (by simp)) 0
  exact one_ne_zero this

/-- The displacements and forces taken for one second atom. -/
theorem secondData_filled (n : Nat) (F : (Nat → Vec K) → Nat → Vec K) (d : Disp1 (Vec K) K)
    (forces1 : Nat → Vec K) (b : Nat) :
    secondData (filled n F d).second forces1 b =
      some (((d.second.filter fun e => e.number == b).map fun e => e.displacement).map fun v =>
        (v, fun k => ((List.range n).map
          (F (point d.number d.displacement + point b v))).getD k 0 - forces1 k)) := by
  unfold secondData filled
  simp only
  rw [List.filter_map, List.mapM_map]
  rw [mapM_some' _ (fun e => (e.displacement, fun k => ((List.range n).map
    (F (point d.number d.displacement + point b e.displacement))).getD k 0 - forces1 k))]
  · rw [List.map_map]; rfl
  · intro e he
    have : e.number = b := by
      have := (List.mem_filter.1 he).2
      simpa using this
    simp [this]

theorem foldlM_rows {α : Type} (g : Nat → α) (step : (Nat → α) → Nat → Option (Nat → α))
    (l : List Nat) (hstep : ∀ x, ∀ b ∈ l, step x b = some (Function.update x b (g b)))
    (x : Nat → α) :
    l.foldlM step x = some fun i => if i ∈ l then g i else x i := by
  induction l generalizing x with
  | nil => simp
  | cons b l ih =>
    rw [List.foldlM_cons, hstep x b (by simp)]
    change l.foldlM step _ = _
    rw [ih (fun y c hc => hstep y c (by simp [hc]))]
    congr 1
    funext i
    by_cases h1 : i ∈ l
    · simp [h1]
    · by_cases h2 : i = b
      · subst h2; simp [h1]
      · simp [h1, h2]

theorem displaced_turn {a : Nat} (h : SiteSymmetry T p2 f (σ a) a) {r : Rot}
    (hr : r ∈ T.siteSym a) {u : Vec K} (hu : T.cart r *ᵥ u = u) {i j : Nat} (hi : i < T.natom)
    (hj : j < T.natom) :
    displacedFc2 p2 f a u (σ a r i) (σ a r j) =
      T.cart r * displacedFc2 p2 f a u i j * (T.cart r)ᵀ := by
  have h3 := induced_turn (h.inv3 r hr) (h.orth r hr) h.lt hi hj u
  rw [h.fixed r hr, hu] at h3
  unfold displacedFc2
  rw [h.inv2 r hr i hi j hj, h3, Matrix.mul_add, Matrix.add_mul]

theorem rangeMap_getD {n k : Nat} (hk : k < n) (g : Nat → Vec K) :
    ((List.range n).map g).getD k 0 = g k := by
  rw [List.getD_eq_getElem?_getD, List.getElem?_map, List.getElem?_range hk]; rfl

/-- The second atoms of a generated first displacement and their displacements. -/
theorem generated_seconds (hs : ToolsSound T σ) {a : Nat} (h : SiteSymmetry T p2 f (σ a) a)
    {B : List Rot} (hg : RotGroup B) (hB : ∀ r ∈ B, r ∈ T.siteSym a)
    (F : (Nat → Vec K) → Nat → Vec K) (dist : K) (d : Disp1 (Vec K) K) {l' : List Nat}
    (hnd : l'.Nodup) (hlt : ∀ b ∈ l', b < T.natom) (cutoff : Option K) (c : Nat)
    (hsec : d.second = stampSecond (T.toDisplacement dist) cutoff c (l'.map fun b =>
        ⟨b, T.pairDistance a b, T.nextDirections B a b⟩)) :
    (∀ b ∈ l', (d.second.filter fun e => e.number == b).map (fun e => e.displacement) =
      (T.nextDirections B a b).map (T.toDisplacement dist)) ∧
    ∀ b, b ∈ T.secondAtoms (filled T.natom F d).second ↔ b ∈ l' := by
  set S := (filled T.natom F d).second with hS
  -- data of one second atom
  have hdisp : ∀ b ∈ l', (d.second.filter fun e => e.number == b).map (fun e => e.displacement) =
      (T.nextDirections B a b).map (T.toDisplacement dist) := by
    intro b hb
    rw [hsec]
    have := stampSecond_disp (T.toDisplacement dist) cutoff c (l'.map fun b =>
      (⟨b, T.pairDistance a b, T.nextDirections B a b⟩ : DirSecond (Vec Int) K))
      (by rw [List.map_map]; change (l'.map fun b => b).Nodup; simpa using hnd)
      (s := ⟨b, T.pairDistance a b, T.nextDirections B a b⟩) (List.mem_map.2 ⟨b, hb, rfl⟩)
    exact this
  -- atoms with displacements
  have hnum : ∀ b, (S.any fun e => e.number == b) = true ↔ b ∈ l' := by
    intro b
    have e1 : (S.any fun e => e.number == b) = d.second.any fun e => e.number == b := by
      rw [hS]; unfold filled; rw [List.any_map]; rfl
    rw [e1, hsec]
    constructor
    · intro hb
      obtain ⟨e, he, hb⟩ := List.any_eq_true.1 hb
      rw [beq_iff_eq] at hb
      have hn : ∀ (l : List (DirSecond (Vec Int) K)) c,
          ∀ e ∈ stampSecond (T.toDisplacement dist) cutoff c l,
          e.number ∈ l.map fun s => s.number := by
        intro l
        induction l with
        | nil => intro c e he; cases he
        | cons t l ih =>
          intro c e he
          unfold stampSecond at he
          rcases List.mem_append.1 he with he | he
          · simp [stampDirections_number _ _ _ _ _ _ e he]
          · simp only [List.map_cons, List.mem_cons]
            exact Or.inr (ih _ e he)
      have := hn _ _ e he
      rw [List.map_map, hb] at this
      simpa using this
    · intro hb
      rw [← hsec]
      have hne := nextDirections_ne hs (a := a) (b := b) (B := B) (bond_group h hg hB (hlt b hb))
      have := hdisp b hb
      rw [List.any_eq_true]
      cases hfil : d.second.filter fun e => e.number == b with
      | nil =>
        rw [hfil] at this
        exact absurd (List.map_eq_nil_iff.1 this.symm) hne
      | cons e rest =>
        have he := List.mem_filter.1 (hfil ▸ List.mem_cons_self : e ∈ d.second.filter fun e => e.number == b)
        exact ⟨e, he.1, he.2⟩
  have hatoms : ∀ b, b ∈ T.secondAtoms S ↔ b ∈ l' := by
    intro b
    unfold FcTools.secondAtoms
    rw [List.mem_filter, List.mem_range, hnum]
    exact ⟨fun h => h.2, fun h => ⟨hlt b h, h⟩⟩
  exact ⟨hdisp, hatoms⟩

/-- fc2 of the crystal with the first atom displaced is obtained from the forces. -/
theorem constrained_exact (hs : ToolsSound T σ) {a : Nat} (h : SiteSymmetry T p2 f (σ a) a)
    (hf : PermutationSymmetric T.natom f) (f0 : Nat → Vec K) {dist : K} (hd : dist ≠ 0)
    {B : List Rot} (hg : RotGroup B) (hB : ∀ r ∈ B, r ∈ T.siteSym a)
    (d : Disp1 (Vec K) K) (hda : d.number = a)
    (hu : ∀ r ∈ B, T.cart r *ᵥ d.displacement = d.displacement) (l : List Nat)
    (hl : leastOrbits T.near (T.turnAbout a) T.positions B = some l) (cutoff : Option K) (c : Nat)
    (hsec : d.second = stampSecond (T.toDisplacement dist) cutoff c (l.map fun b =>
        ⟨b, T.pairDistance a b, T.nextDirections B a b⟩)) :
    ∃ out, T.constrainedFc2 (filled T.natom (crystalForce T.natom f0 p2 f) d).second a
        (fun k => ((List.range T.natom).map
          (crystalForce T.natom f0 p2 f (point a d.displacement))).getD k 0) B = some out ∧
      ∀ i < T.natom, ∀ j < T.natom, out i j = displacedFc2 p2 f a d.displacement i j := by
  obtain ⟨l', hl', hnd, hlt, hcov, -⟩ := Props.C58_cover (site_group h hg hB)
  obtain rfl : l' = l := Option.some.inj (hl'.symm.trans hl)
  set S := (filled T.natom (crystalForce T.natom f0 p2 f) d).second with hS
  set F1 : Nat → Vec K := fun k => ((List.range T.natom).map
    (crystalForce T.natom f0 p2 f (point a d.displacement))).getD k 0 with hF1
  obtain ⟨hdisp, hatoms⟩ := generated_seconds hs h hg hB (crystalForce T.natom f0 p2 f) dist d hnd hlt
    cutoff c hsec
  -- the rows that are solved
  have hstep : ∀ x, ∀ b ∈ T.secondAtoms S, T.solveSecond S a F1 B x b =
      some (Function.update x b (T.solveRow b
        ((T.nextDirections B a b).map (T.toDisplacement dist))
        (((T.nextDirections B a b).map (T.toDisplacement dist)).map fun v k =>
          ((List.range T.natom).map (crystalForce T.natom f0 p2 f
            (point a d.displacement + point b v))).getD k 0 - F1 k)
        (T.bondSym B a b))) := by
    intro x b hb
    unfold FcTools.solveSecond
    rw [hS, secondData_filled, hdisp b ((hatoms b).1 hb), hda]
    simp only [Option.map_some, List.map_map]
    rfl
  have hrow : ∀ b ∈ l', ∀ k < T.natom, T.solveRow b
        ((T.nextDirections B a b).map (T.toDisplacement dist))
        (((T.nextDirections B a b).map (T.toDisplacement dist)).map fun v k =>
          ((List.range T.natom).map (crystalForce T.natom f0 p2 f
            (point a d.displacement + point b v))).getD k 0 - F1 k)
        (T.bondSym B a b) k = displacedFc2 p2 f a d.displacement b k := by
    intro b hb k hk
    refine row_exact hs h hf f0 hd hg hB d.displacement hu (hlt b hb) _ (by simp) ?_ hk
    intro x hx k hk
    rw [show ((T.nextDirections B a b).map (T.toDisplacement dist)) =
      ((T.nextDirections B a b).map (T.toDisplacement dist)).map id by simp] at hx
    rw [List.map_map, List.map_map, zip_map_self] at hx
    obtain ⟨y, -, rfl⟩ := List.mem_map.1 hx
    simp only [Function.comp, hF1, rangeMap_getD hk]
  unfold FcTools.constrainedFc2
  rw [foldlM_rows _ _ _ hstep]
  obtain ⟨out, ho, hval⟩ := hs.distribute a _ (T.secondAtoms S) B hB (by
    intro i hi
    obtain ⟨v, hv, r, hr, he⟩ := hcov i hi
    obtain ⟨s, hs', h1, -⟩ := hg.inv r hr
    refine ⟨s, hs', (hatoms _).2 ?_⟩
    rw [← he, ← h.map_mul s (hB s hs') r (hB r hr), h1, h.map_one]
    exact hv)
  refine ⟨out, ho, ?_⟩
  intro i hi j hj
  obtain ⟨r, hr, hdone, hval⟩ := hval i hi
  rw [hval j hj]
  simp only [if_pos hdone]
  rw [hrow _ ((hatoms _).1 hdone) _ (h.map_lt r (hB r hr) j hj),
    displaced_turn h (hB r hr) (hu r hr) hi hj]
  have horth := h.orth r (hB r hr)
  rw [← Matrix.mul_assoc, ← Matrix.mul_assoc, horth, Matrix.one_mul, Matrix.mul_assoc, horth,
    Matrix.mul_one]

/-- The change of fc2 taken for one first displacement. -/
theorem delta_exact (hs : ToolsSound T σ) {a : Nat} (h : SiteSymmetry T p2 f (σ a) a)
    (hf : PermutationSymmetric T.natom f) (f0 : Nat → Vec K) {dist : K} (hd : dist ≠ 0)
    (dir : Vec Int) (hsize : T.tol ≤ |lengthFactor T dist dir|)
    (d : Disp1 (Vec K) K) (hda : d.number = a) (hdd : d.displacement = T.toDisplacement dist dir)
    (l : List Nat) (hl : leastOrbits T.near (T.turnAbout a) T.positions
      (T.reducedOfDirection a dir) = some l) (cutoff : Option K) (c : Nat)
    (hsec : d.second = stampSecond (T.toDisplacement dist) cutoff c (l.map fun b =>
        ⟨b, T.pairDistance a b, T.nextDirections (T.reducedOfDirection a dir) a b⟩))
    (fc2 : Nat → Nat → FcBlock K) :
    ∃ delta, T.firstDelta fc2 (filled T.natom (crystalForce T.natom f0 p2 f) d) =
        some (d.displacement, delta) ∧
      ∀ i < T.natom, ∀ j < T.natom,
        delta i j = inducedBlock f a d.displacement i j + (p2 i j - fc2 i j) := by
  have hred : T.reducedOfDirection a dir = (T.siteSym a).filter fun r => decide (r *ᵥ dir = dir) :=
    reduced_eq_one hs.tol_pos hs.tol_le _ _
  have hred' : reducedSiteSym T.tol (T.siteSym a) (T.latticeInv.mulVec d.displacement) =
      T.reducedOfDirection a dir := by
    have : T.latticeInv.mulVec d.displacement =
        fun i => lengthFactor T dist dir * (dir i : K) := by
      rw [hdd, toDisplacement_eq, Matrix.mulVec_smul, Matrix.mulVec_mulVec, hs.lattice,
        Matrix.one_mulVec]
      rfl
    rw [this, reduced_eq hs.tol_pos hsize, hred]
  have hg : RotGroup (T.reducedOfDirection a dir) := by rw [hred]; exact keeping_group h.group dir
  have hB : ∀ r ∈ T.reducedOfDirection a dir, r ∈ T.siteSym a := by
    intro r hr; rw [hred] at hr; exact (List.mem_filter.1 hr).1
  have hu : ∀ r ∈ T.reducedOfDirection a dir, T.cart r *ᵥ d.displacement = d.displacement := by
    intro r hr
    rw [hred] at hr
    have he : r *ᵥ dir = dir := by simpa using (List.mem_filter.1 hr).2
    rw [hdd, cart_disp hs, turnVec_cast, he]
    rfl
  obtain ⟨out, ho, hval⟩ := constrained_exact hs h hf f0 hd hg hB d hda hu l hl cutoff c hsec
  refine ⟨fun i j => out i j - fc2 i j, ?_, ?_⟩
  · unfold FcTools.firstDelta FcTools.deltaFc2
    have e1 : (filled T.natom (crystalForce T.natom f0 p2 f) d).forces =
      some ((List.range T.natom).map (crystalForce T.natom f0 p2 f (point d.number d.displacement))) := rfl
    have e2 : (filled T.natom (crystalForce T.natom f0 p2 f) d).number = a := hda
    have e3 : (filled T.natom (crystalForce T.natom f0 p2 f) d).displacement = d.displacement := rfl
    rw [e1, e2, e3, hred', hda, Option.bind_some, ho]
    rfl
  · intro i hi j hj
    simp only
    rw [hval i hi j hj]
    unfold displacedFc2
    abel

end

end Phono3py
