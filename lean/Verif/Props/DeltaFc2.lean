import Verif.Lemmas.DeltaFc2Data
import Verif.Props.Fc3Solve

/-!
# fc3 from the forces of generated displacements (C149)
-/

namespace Phono3py

open Matrix Spec

section
variable {K : Type} [Field K] [LinearOrder K] [IsStrictOrderedRing K]
variable {T : FcTools K} {p2 : Nat → Nat → FcBlock K} {f : Legs → K} {σ : Nat → Rot → Nat → Nat}

theorem natMat_orth {C : FcBlock K} (h : Cᵀ * C = 1) : Orthogonal (natMat C) := by
  intro a ha b hb
  have := congrFun (congrFun h ⟨a, ha⟩) ⟨b, hb⟩
  rw [Matrix.mul_apply] at this
  rw [Finset.sum_range]
  have hof : ∀ (x : Nat) (hx : x < 3), Fin.ofNat 3 x = ⟨x, hx⟩ := by
    intro x hx; apply Fin.ext; simp [Fin.ofNat, Nat.mod_eq_of_lt hx]
  simp only [natMat, Fin.ofNat_val_eq_self, hof a ha, hof b hb]
  simp only [Matrix.transpose_apply, Matrix.one_apply, Fin.mk.injEq] at this
  exact this

theorem rotatedDisps_length (disps : List (Vec K)) (site : List Rot) :
    (T.rotatedDisps disps site).length = disps.length * site.length := by
  induction disps with
  | nil => simp [FcTools.rotatedDisps]
  | cons u l ih =>
    have : T.rotatedDisps (u :: l) site =
        (site.map fun r => (T.cart r).mulVec u) ++ T.rotatedDisps l site := rfl
    rw [this, List.length_append, ih, List.length_map, List.length_cons]
    ring

theorem rotatedDisps_getD (disps : List (Vec K)) (site : List Rot) {d s : Nat}
    (hd : d < disps.length) (hs : s < site.length) :
    (T.rotatedDisps disps site).getD (d * site.length + s) 0 =
      T.cart (site.getD s 1) *ᵥ disps.getD d 0 := by
  induction disps generalizing d with
  | nil => simp at hd
  | cons u l ih =>
    have : T.rotatedDisps (u :: l) site =
        (site.map fun r => (T.cart r).mulVec u) ++ T.rotatedDisps l site := rfl
    rw [this]
    cases d with
    | zero =>
      rw [List.getD_append _ _ _ _ (by simpa using hs), zero_mul, zero_add]
      simp [List.getD_eq_getElem?_getD, List.getElem?_map, List.getElem?_eq_getElem hs]
    | succ d =>
      rw [List.getD_append_right _ _ _ _ (by rw [List.length_map]; nlinarith)]
      rw [List.length_map, show (d + 1) * site.length + s - site.length = d * site.length + s by
        rw [Nat.add_mul, one_mul]; omega]
      rw [ih (by simpa using hd)]
      simp

/-- Data of one first atom with the changes of fc2 of the crystal determine its row. -/
theorem siteData_fits (hs : ToolsSound T σ) {a : Nat} (h : SiteSymmetry T p2 f (σ a) a)
    (data : List (Vec K × (Nat → Nat → FcBlock K)))
    (hdelta : ∀ x ∈ data, ∀ i < T.natom, ∀ j < T.natom, x.2 i j = inducedBlock f a x.1 i j)
    (hspan : Spanning (T.rotatedDisps (data.map fun x => x.1) (T.siteSym a))) :
    (T.siteData a data).Fits f a
      (fun d k => (data.map fun x => x.1).getD d 0 (Fin.ofNat 3 k))
      (fun sym => σ a ((T.siteSym a).getD sym 1)) := by
  have hof : ∀ (x : Nat) (hx : x < 3), Fin.ofNat 3 x = ⟨x, hx⟩ := by
    intro x hx; apply Fin.ext; simp [Fin.ofNat, Nat.mod_eq_of_lt hx]
  have hmem : ∀ sym < (T.siteSym a).length, (T.siteSym a).getD sym 1 ∈ T.siteSym a := by
    intro sym hsym
    rw [List.getD_eq_getElem _ _ hsym]
    exact List.getElem_mem hsym
  refine ⟨h.lt, ?_, ?_, ?_, ?_, ?_, ?_, ?_⟩
  · intro d hd i hi j hj l hl m hm
    change d < data.length at hd
    change i < T.natom at hi
    change j < T.natom at hj
    have hn : 0 < T.natom := by omega
    have hij : i * T.natom + j < T.natom * T.natom := digits_lt hi hj
    have e0 : d * T.natom * T.natom + i * T.natom + j =
        T.natom * T.natom * d + (i * T.natom + j) := by ring
    have e1 : (d * T.natom * T.natom + i * T.natom + j) / (T.natom * T.natom) = d := by
      rw [e0, Nat.mul_add_div (by positivity), Nat.div_eq_of_lt hij, add_zero]
    have e2 : (d * T.natom * T.natom + i * T.natom + j) % (T.natom * T.natom) =
        i * T.natom + j := by
      rw [e0, Nat.mul_add_mod, Nat.mod_eq_of_lt hij]
    have e3 : (i * T.natom + j) / T.natom = i := by
      rw [mul_comm, Nat.mul_add_div hn, Nat.div_eq_of_lt hj, add_zero]
    have e4 : (d * T.natom * T.natom + i * T.natom + j) % T.natom = j := by
      rw [show d * T.natom * T.natom + i * T.natom + j = T.natom * (d * T.natom + i) + j by ring,
        Nat.mul_add_mod, Nat.mod_eq_of_lt hj]
    change (data.map fun q => q.2).getD ((d * T.natom * T.natom + i * T.natom + j) /
      (T.natom * T.natom)) (fun _ _ => 0) ((d * T.natom * T.natom + i * T.natom + j) %
      (T.natom * T.natom) / T.natom) ((d * T.natom * T.natom + i * T.natom + j) % T.natom)
      (Fin.ofNat 3 l) (Fin.ofNat 3 m) = _
    rw [e1, e2, e3, e4]
    have e5 : (data.map fun q => q.2).getD d (fun _ _ => 0) = (data[d]).2 := by
      rw [List.getD_eq_getElem _ _ (by simpa using hd), List.getElem_map]
    have e6 : (data.map fun x => x.1).getD d 0 = (data[d]).1 := by
      rw [List.getD_eq_getElem _ _ (by simpa using hd), List.getElem_map]
    rw [e5, hdelta _ (List.getElem_mem hd) i hi j hj]
    unfold inducedBlock inducedFc2
    rw [Finset.sum_range]
    refine Finset.sum_congr rfl fun k _ => ?_
    simp only [e6, Fin.ofNat_val_eq_self, hof l hl, hof m hm]
  · intro sym hsym
    exact h.fixed _ (hmem sym hsym)
  · intro sym hsym
    exact natMat_orth (h.orth _ (hmem sym hsym))
  · intro sym hsym
    exact h.inv3 _ (hmem sym hsym)
  · intro sym hsym i hi
    change i < T.natom at hi
    change T.sentByInv a ((T.siteSym a).getD ((sym * T.natom + i) / T.natom) 1)
      ((sym * T.natom + i) % T.natom) < T.natom
    rw [mul_comm, Nat.mul_add_div (by omega), Nat.div_eq_of_lt hi, add_zero, Nat.mul_add_mod,
      Nat.mod_eq_of_lt hi]
    exact (hs.sent a _ (hmem sym hsym) i hi).1
  · intro sym hsym i hi
    change i < T.natom at hi
    change σ a _ (T.sentByInv a ((T.siteSym a).getD ((sym * T.natom + i) / T.natom) 1)
      ((sym * T.natom + i) % T.natom)) = i
    rw [mul_comm sym, Nat.mul_add_div (by omega), Nat.div_eq_of_lt hi, add_zero, Nat.mul_add_mod,
      Nat.mod_eq_of_lt hi]
    exact (hs.sent a _ (hmem sym hsym) i hi).2
  · intro k hk k' hk'
    have hp := hs.pinv _ hspan ⟨k, hk⟩ ⟨k', hk'⟩
    rw [rotatedDisps_length, List.length_map, sum_pairs] at hp
    simp only [Fin.mk.injEq] at hp
    rw [← hp]
    refine Finset.sum_congr rfl fun d hd => Finset.sum_congr rfl fun sym hsym => ?_
    change d ∈ Finset.range data.length at hd
    change sym ∈ Finset.range (T.siteSym a).length at hsym
    rw [Finset.mem_range] at hd hsym
    have hlt : d * (T.siteSym a).length + sym < (T.siteSym a).length * data.length := by
      rw [mul_comm (T.siteSym a).length]; exact digits_lt hd hsym
    have e1 : (T.siteData a data).invU (k * (T.siteSym a).length * data.length +
        (d * (T.siteSym a).length + sym)) =
        T.pinv (T.rotatedDisps (data.map fun x => x.1) (T.siteSym a)) k
          (d * (T.siteSym a).length + sym) := by
      change T.pinv _ ((k * (T.siteSym a).length * data.length +
        (d * (T.siteSym a).length + sym)) / ((T.siteSym a).length * data.length))
        ((k * (T.siteSym a).length * data.length +
        (d * (T.siteSym a).length + sym)) % ((T.siteSym a).length * data.length)) = _
      rw [show k * (T.siteSym a).length * data.length = (T.siteSym a).length * data.length * k by
        ring, Nat.mul_add_div (by omega), Nat.div_eq_of_lt hlt, add_zero, Nat.mul_add_mod,
        Nat.mod_eq_of_lt hlt]
    have e2 := rotatedDisps_getD (T := T) (data.map fun x => x.1) (T.siteSym a) (d := d) (s := sym)
      (by simpa using hd) hsym
    change (T.siteData a data).invU (k * (T.siteSym a).length * data.length +
        (d * (T.siteSym a).length + sym)) * _ = T.pinv _ k (at2 (T.siteSym a).length d sym) *
        (T.rotatedDisps _ _).getD (at2 (T.siteSym a).length d sym) 0 ⟨k', hk'⟩
    rw [e1]
    unfold at2
    rw [e2]
    congr 1
    rw [Finset.sum_range]
    change ∑ x : Fin 3, T.cart ((T.siteSym a).getD sym 1) (Fin.ofNat 3 k') (Fin.ofNat 3 x) * _ = _
    simp only [Fin.ofNat_val_eq_self, hof k' hk']
    rfl

theorem stampFirst_forall₂ {D V : Type} (cart : D → V) (cutoff : Option K) (i c : Nat)
    (fs : List (DirFirst D K)) :
    List.Forall₂ (fun (g : DirFirst D K) (e : Disp1 V K) => e.number = g.number ∧
      e.displacement = cart g.direction ∧ ∃ c, e.second = stampSecond cart cutoff c g.second) fs
      (stampFirst cart cutoff i c fs) := by
  induction fs generalizing i c with
  | nil => exact List.Forall₂.nil
  | cons g fs ih => exact List.Forall₂.cons ⟨rfl, rfl, c, rfl⟩ (ih _ _)

/-- The entries of the dataset generated for the least displacements. -/
theorem entries_of_leastDisps {dirs : List (DirFirst (Vec Int) K)}
    (h : T.thirdOrderDisplacements = some dirs) (dist : K) (cutoff : Option K) (i c : Nat) :
    List.Forall₂ (fun (d : Nat × Vec Int) (e : Disp1 (Vec K) K) => e.number = d.1 ∧
      e.displacement = T.toDisplacement dist d.2 ∧
      ∃ l, leastOrbits T.near (T.turnAbout d.1) T.positions (T.reducedOfDirection d.1 d.2) = some l ∧
        ∃ c, e.second = stampSecond (T.toDisplacement dist) cutoff c (l.map fun b =>
          ⟨b, T.pairDistance d.1 b, T.nextDirections (T.reducedOfDirection d.1 d.2) d.1 b⟩))
      T.leastDisps (stampFirst (T.toDisplacement dist) cutoff i c dirs) := by
  have h1 := (mapM_forall₂ _ _ _).1 h
  have h2 := stampFirst_forall₂ (T.toDisplacement dist) cutoff i c dirs
  clear h
  revert h1 h2
  generalize T.leastDisps = L
  generalize stampFirst (T.toDisplacement dist) cutoff i c dirs = E
  intro h1
  induction h1 generalizing E with
  | nil => intro h2; cases h2; exact List.Forall₂.nil
  | cons hx _ ih =>
    intro h2
    cases h2 with
    | cons hy h2 =>
      refine List.Forall₂.cons ?_ (ih _ h2)
      unfold FcTools.displaceFirst at hx
      obtain ⟨l, hl, rfl⟩ := Option.map_eq_some_iff.1 hx
      obtain ⟨e1, e2, c, e3⟩ := hy
      exact ⟨e1, e2, l, hl, c, e3⟩

theorem forall₂_filter {α β : Type} {R : α → β → Prop} {P : α → Bool} {Q : β → Bool}
    (hPQ : ∀ x y, R x y → P x = Q y) :
    ∀ {l : List α} {l' : List β}, List.Forall₂ R l l' →
      List.Forall₂ R (l.filter P) (l'.filter Q)
  | _, _, .nil => .nil
  | x :: _, y :: _, .cons h t => by
    have ih := forall₂_filter hPQ t
    rw [List.filter_cons, List.filter_cons, hPQ x y h]
    split
    · exact .cons h ih
    · exact ih

theorem forall₂_mapM {α β γ : Type} {R : α → β → Prop} {S : α → γ → Prop} (g : β → Option γ) :
    ∀ {l : List α} {l' : List β}, List.Forall₂ R l l' →
      (∀ x ∈ l, ∀ y, R x y → ∃ z, g y = some z ∧ S x z) →
      ∃ out, l'.mapM g = some out ∧ List.Forall₂ S l out
  | _, _, .nil, _ => ⟨[], rfl, .nil⟩
  | x :: _, y :: _, .cons h t, hg => by
    obtain ⟨z, hz, hS⟩ := hg x (by simp) y h
    obtain ⟨out, ho, hf⟩ := forall₂_mapM g t fun x hx => hg x (by simp [hx])
    refine ⟨z :: out, ?_, .cons hS hf⟩
    rw [List.mapM_cons, hz, ho]; rfl

theorem leastAtomsLoop_eq (row : Nat → Nat) (mem : Int → K) (fc2 : Nat → Nat → FcBlock K)
    (first : List (Disp1 (Vec K) K)) (sol : Nat → Int → K) (l : List Nat)
    (h : ∀ a ∈ l, T.solveFirst mem fc2 first a = some (sol a)) (A : Int → K) :
    T.leastAtomsLoop row mem fc2 first l A =
      some (l.foldl (fun fc3 i => setRow T.natom (row i) (sol i) fc3) A) := by
  induction l generalizing A with
  | nil => rfl
  | cons a l ih =>
    unfold FcTools.leastAtomsLoop
    rw [h a (by simp), Option.bind_some, ih fun b hb => h b (by simp [hb])]
    rfl

end

namespace Props

section
variable {K : Type} [Field K] [LinearOrder K] [IsStrictOrderedRing K]
variable {T : FcTools K} {p2 : Nat → Nat → FcBlock K} {f : Legs → K} {σ : Nat → Rot → Nat → Nat}

/-- C149: displacements are generated for every crystal. -/
theorem C149_generated (hs : ToolsSound T σ)
    (hsym : ∀ d ∈ T.leastDisps, SiteSymmetry T p2 f (σ d.1) d.1) :
    ∃ dirs, T.thirdOrderDisplacements = some dirs := by
  have h : ∀ d ∈ T.leastDisps, ∃ g, T.displaceFirst d = some g := by
    intro d hd
    have hred : T.reducedOfDirection d.1 d.2 =
        (T.siteSym d.1).filter fun r => decide (r *ᵥ d.2 = d.2) :=
      reduced_eq_one hs.tol_pos hs.tol_le _ _
    have hg : RotGroup (T.reducedOfDirection d.1 d.2) := by
      rw [hred]; exact keeping_group (hsym d hd).group d.2
    obtain ⟨l, hl, -⟩ := C58_cover (site_group (hsym d hd) hg (by
      intro r hr; rw [hred] at hr; exact (List.mem_filter.1 hr).1))
    unfold FcTools.displaceFirst
    rw [hl]
    exact ⟨_, rfl⟩
  unfold FcTools.thirdOrderDisplacements
  generalize T.leastDisps = L at h
  induction L with
  | nil => exact ⟨[], rfl⟩
  | cons d L ih =>
    obtain ⟨g, hg⟩ := h d (by simp)
    obtain ⟨gs, hgs⟩ := ih fun x hx => h x (by simp [hx])
    refine ⟨g :: gs, ?_⟩
    rw [List.mapM_cons, hg, hgs]; rfl

/-- C149: for every generated first displacement of a crystal with forces of third order, the change
of fc2 is the one induced by fc3, up to the error of the fc2 that is subtracted. The displacement
must not be smaller than the symmetry tolerance in crystal coordinates. -/
theorem C149_delta (hs : ToolsSound T σ)
    (hsym : ∀ d ∈ T.leastDisps, SiteSymmetry T p2 f (σ d.1) d.1)
    (hf : PermutationSymmetric T.natom f) (f0 : Nat → Vec K) {dist : K} (hd : dist ≠ 0)
    (hsize : ∀ d ∈ T.leastDisps, T.tol ≤ |dist / T.norm (T.lattice *ᵥ fun i => (d.2 i : K))|)
    (dirs : List (DirFirst (Vec Int) K)) (hdirs : T.thirdOrderDisplacements = some dirs)
    (ds : DispDataset (Vec K) K)
    (hds : directionToDisplacement (T.toDisplacement dist) T.natom none dirs = some ds)
    (fc2 : Nat → Nat → FcBlock K) :
    ∀ d ∈ ds.first, ∃ delta,
      T.firstDelta fc2 (filled T.natom (crystalForce T.natom f0 p2 f) d) =
        some (d.displacement, delta) ∧
      ∀ i < T.natom, ∀ j < T.natom,
        delta i j = inducedBlock f d.number d.displacement i j + (p2 i j - fc2 i j) := by
  obtain ⟨dups, -, rfl⟩ := Option.map_eq_some_iff.1 hds
  have hall := entries_of_leastDisps hdirs dist none 0 (dirs.length + 1)
  intro d hd'
  obtain ⟨n, hn, rfl⟩ := List.mem_iff_getElem.1 hd'
  have hlen := hall.length_eq
  have hx := List.forall₂_iff_get.1 hall
  obtain ⟨e1, e2, l, hl, c, e3⟩ := hx.2 n (by rw [hlen]; exact hn) hn
  simp only [List.get_eq_getElem] at e1 e2 hl e3
  have hmem : T.leastDisps[n]'(by rw [hlen]; exact hn) ∈ T.leastDisps := List.getElem_mem _
  obtain ⟨delta, h1, h2⟩ := delta_exact hs (hsym _ hmem) hf f0 hd _ (hsize _ hmem) _ e1 e2 l hl none
    c e3 fc2
  refine ⟨delta, h1, ?_⟩
  intro i hi j hj
  rw [e1]
  exact h2 i hi j hj

/-- C149: fc3 computed from the forces of the generated displacements of a crystal with forces of
third order is the fc3 of the crystal, whatever the length of the displacements above the symmetry
tolerance. -/
theorem C149_get_fc3 (hs : ToolsSound T σ)
    (hsym : ∀ d ∈ T.leastDisps, SiteSymmetry T p2 f (σ d.1) d.1)
    (hf : PermutationSymmetric T.natom f) (f0 : Nat → Vec K) {dist : K} (hd : dist ≠ 0)
    (hsize : ∀ d ∈ T.leastDisps, T.tol ≤ |dist / T.norm (T.lattice *ᵥ fun i => (d.2 i : K))|)
    (hspan : ∀ d ∈ T.leastDisps, Spanning
      ((T.leastDisps.filter fun e => e.1 == d.1).flatMap fun e =>
        (T.siteSym d.1).map fun r => turnVec r fun i => (e.2 i : K)))
    (dirs : List (DirFirst (Vec Int) K)) (hdirs : T.thirdOrderDisplacements = some dirs)
    (ds : DispDataset (Vec K) K)
    (hds : directionToDisplacement (T.toDisplacement dist) T.natom none dirs = some ds)
    (fc2 : Nat → Nat → FcBlock K) (hfc2 : ∀ i < T.natom, ∀ j < T.natom, fc2 i j = p2 i j)
    (ops : List (SymOp K)) (p2s : List Nat)
    (hlt : ∀ o ∈ ops, ∀ i < T.natom, o.perm i < T.natom)
    (horth : ∀ o ∈ ops, Orthogonal o.rotCart)
    (hinv : ∀ o ∈ ops, InvariantUnder T.natom o.perm o.rotCart f)
    (hp2s : ∀ d ∈ T.leastDisps, d.1 ∈ p2s) (hp2lt : ∀ i ∈ p2s, i < T.natom)
    (hreach : ∀ i < T.natom, ∃ o ∈ ops, ∃ d ∈ T.leastDisps, o.perm i = d.1) (mem : Int → K) :
    ∃ A, T.fc3FromForces mem fc2 ops p2s
        (ds.first.map (filled T.natom (crystalForce T.natom f0 p2 f))) = some A ∧
      ∀ x, Legs.Valid T.natom x → A (fc3Pos T.natom x : Nat) = f x := by
  obtain ⟨dups, -, rfl⟩ := Option.map_eq_some_iff.1 hds
  have hall := entries_of_leastDisps hdirs dist none 0 (dirs.length + 1)
  simp only at *
  generalize stampFirst (T.toDisplacement dist) none 0 (dirs.length + 1) dirs = E at hall ⊢
  -- the first atoms
  have hfirst : ∀ a, a ∈ T.firstAtoms (E.map (filled T.natom (crystalForce T.natom f0 p2 f))) ↔
      ∃ d ∈ T.leastDisps, d.1 = a := by
    intro a
    unfold FcTools.firstAtoms
    rw [List.mem_filter, List.mem_range, List.any_map, List.any_eq_true]
    have hx := List.forall₂_iff_get.1 hall
    constructor
    · rintro ⟨-, e, he, ha⟩
      obtain ⟨n, hn, rfl⟩ := List.mem_iff_getElem.1 he
      have hn' : n < T.leastDisps.length := by rw [hx.1]; exact hn
      obtain ⟨e1, -⟩ := hx.2 n hn' hn
      refine ⟨T.leastDisps[n], List.getElem_mem _, ?_⟩
      rw [Function.comp, beq_iff_eq] at ha
      exact e1.symm.trans ha
    · rintro ⟨d, hd', rfl⟩
      refine ⟨(hsym d hd').lt, ?_⟩
      obtain ⟨n, hn, rfl⟩ := List.mem_iff_getElem.1 hd'
      have hn' : n < E.length := by rw [← hx.1]; exact hn
      obtain ⟨e1, -⟩ := hx.2 n hn hn'
      refine ⟨E[n], List.getElem_mem _, ?_⟩
      rw [Function.comp, beq_iff_eq]
      exact e1
  -- the data of one first atom
  have hdata : ∀ a, (∃ d ∈ T.leastDisps, d.1 = a) → ∃ data,
      T.solveFirst mem fc2 (E.map (filled T.natom (crystalForce T.natom f0 p2 f))) a =
        some (rotateDeltaFc2 (T.siteData a data) mem fun _ => 0) ∧
      (T.siteData a data).Fits f a
        (fun d k => (data.map fun x => x.1).getD d 0 (Fin.ofNat 3 k))
        (fun sym => σ a ((T.siteSym a).getD sym 1)) := by
    rintro a ⟨d0, hd0, rfl⟩
    have hfil : List.Forall₂ _ (T.leastDisps.filter fun e => e.1 == d0.1)
        (E.filter fun e => e.number == d0.1) :=
      forall₂_filter (fun x y h => by rw [h.1]) hall
    obtain ⟨data, ho, hS⟩ := forall₂_mapM (S := fun (d : Nat × Vec Int)
        (z : Vec K × (Nat → Nat → FcBlock K)) => z.1 = T.toDisplacement dist d.2 ∧
          ∀ i < T.natom, ∀ j < T.natom, z.2 i j = inducedBlock f d0.1 z.1 i j)
      (fun e => T.firstDelta fc2 (filled T.natom (crystalForce T.natom f0 p2 f) e)) hfil (by
        intro d hdm y hy
        obtain ⟨hdm, hda⟩ := List.mem_filter.1 hdm
        rw [beq_iff_eq] at hda
        obtain ⟨e1, e2, l, hl, c, e3⟩ := hy
        obtain ⟨delta, h1, h2⟩ := delta_exact hs (hsym _ hdm) hf f0 hd _ (hsize _ hdm) _ e1 e2 l hl
          none c e3 fc2
        refine ⟨_, h1, e2, ?_⟩
        intro i hi j hj
        change delta i j = inducedBlock f d0.1 y.displacement i j
        rw [h2 i hi j hj, hfc2 i hi j hj, sub_self, add_zero, hda])
    refine ⟨data, ?_, siteData_fits hs (hsym d0 hd0) data ?_ ?_⟩
    · unfold FcTools.solveFirst
      rw [List.filter_map, List.mapM_map]
      have : (fun d : Disp1 (Vec K) K => d.number == d0.1) ∘
          filled T.natom (crystalForce T.natom f0 p2 f) = fun e => e.number == d0.1 := rfl
      rw [this]
      change Option.map _ ((E.filter _).mapM fun e =>
        T.firstDelta fc2 (filled T.natom (crystalForce T.natom f0 p2 f) e)) = _
      rw [ho]; rfl
    · intro z hz
      obtain ⟨n, hn, rfl⟩ := List.mem_iff_getElem.1 hz
      have hx := List.forall₂_iff_get.1 hS
      exact (hx.2 n (by rw [hx.1]; exact hn) hn).2
    · have hdisps : data.map (fun x => x.1) =
          (T.leastDisps.filter fun e => e.1 == d0.1).map fun e => T.toDisplacement dist e.2 := by
        clear ho
        generalize (T.leastDisps.filter fun e => e.1 == d0.1) = L at hS
        induction hS with
        | nil => rfl
        | cons h _ ih => rw [List.map_cons, List.map_cons, ih, h.1]
      rw [hdisps]
      unfold FcTools.rotatedDisps
      rw [List.flatMap_map]
      have := spanning_disps hs hd ((T.leastDisps.filter fun e => e.1 == d0.1).map fun e => e.2)
        (T.siteSym d0.1) (by rw [List.flatMap_map]; exact hspan d0 hd0)
      rw [List.flatMap_map] at this
      exact this
  choose! data hsol hfit using hdata
  unfold FcTools.fc3FromForces
  rw [leastAtomsLoop_eq id mem fc2 _ (fun a => rotateDeltaFc2 (T.siteData a (data a)) mem fun _ => 0)
    _ (fun a ha => hsol a ((hfirst a).1 ha)), Option.bind_some]
  set firsts := T.firstAtoms (E.map (filled T.natom (crystalForce T.natom f0 p2 f))) with hfirsts
  -- the expansion succeeds
  have hsome : (expandFc3Full T.natom ops firsts p2s (fc3LeastAtoms T.natom id
      (fun a => rotateDeltaFc2 (T.siteData a (data a)) mem fun _ => 0) firsts)).isSome := by
    have hsub : (firsts.all fun i => p2s.contains i) = true := by
      rw [List.all_eq_true]
      intro a ha
      obtain ⟨d, hd', rfl⟩ := (hfirst a).1 ha
      simpa using hp2s d hd'
    unfold expandFc3Full
    rw [if_pos hsub]
    simp only
    have h1 : ∀ A : Int → K, (distributeFc3 T.natom id ops firsts
        (p2s.filter fun i => !firsts.contains i) A).isSome := by
      intro A
      rw [C34_succeeds_iff]
      intro t ht
      obtain ⟨o, ho, d, hd', he⟩ := hreach t (hp2lt t (List.mem_filter.1 ht).1)
      exact ⟨o, ho, by rw [he]; exact (hfirst _).2 ⟨d, hd', rfl⟩⟩
    obtain ⟨A1, hA1⟩ := Option.isSome_iff_exists.1 (h1 (fc3LeastAtoms T.natom id
      (fun a => rotateDeltaFc2 (T.siteData a (data a)) mem fun _ => 0) firsts))
    rw [hA1]
    simp only
    rw [C34_succeeds_iff]
    intro t ht
    obtain ⟨o, ho, d, hd', he⟩ := hreach t (List.mem_range.1 (List.mem_filter.1 ht).1)
    refine ⟨o, ho, ?_⟩
    rw [he, List.mem_filter, List.mem_range]
    refine ⟨(hsym d hd').lt, ?_⟩
    have : d.1 ∈ firsts := (hfirst _).2 ⟨d, hd', rfl⟩
    simp [this]
  obtain ⟨A, hA⟩ := Option.isSome_iff_exists.1 hsome
  refine ⟨A, hA, fun x hx => ?_⟩
  exact C73_get_fc3_full T.natom ops firsts p2s (fun a => T.siteData a (data a)) f _ _
    (fun _ => mem) (fun _ _ => rfl) (fun a ha => hfit a ((hfirst a).1 ha)) hlt horth hinv A hA x hx

end
end Props

end Phono3py
