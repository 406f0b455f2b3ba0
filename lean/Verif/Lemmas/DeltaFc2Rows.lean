import Verif.Lemmas.DeltaFc2
import Verif.Props.Orbits
import Mathlib.Algebra.Order.Group.Abs

/-! Rows of the second atoms, and the groups they are solved with. -/

namespace Phono3py

open Matrix Spec

section groups

theorem group_filter {B : List Rot} (h : RotGroup B) (P : Rot → Bool) (h1 : P 1 = true)
    (hm : ∀ r ∈ B, ∀ s ∈ B, P r = true → P s = true → P (r * s) = true)
    (hi : ∀ r ∈ B, ∀ s ∈ B, P r = true → s * r = 1 → P s = true) : RotGroup (B.filter P) := by
  refine ⟨h.nodup.filter _, List.mem_filter.2 ⟨h.one, h1⟩, ?_, ?_⟩
  · intro r hr s hs
    obtain ⟨hr, hr'⟩ := List.mem_filter.1 hr
    obtain ⟨hs, hs'⟩ := List.mem_filter.1 hs
    exact List.mem_filter.2 ⟨h.mul r hr s hs, hm r hr s hs hr' hs'⟩
  · intro r hr
    obtain ⟨hr, hr'⟩ := List.mem_filter.1 hr
    obtain ⟨s, hs, h2, h3⟩ := h.inv r hr
    exact ⟨s, List.mem_filter.2 ⟨hs, hi r hr s hs hr' h2⟩, h2, h3⟩

variable {K : Type} [Field K] [LinearOrder K] [IsStrictOrderedRing K]

/-- Up to the tolerance, an operation keeps a multiple of an integer direction exactly if it keeps
the direction, unless the multiple is too small. -/
theorem reduced_eq {tol c : K} (ht : 0 < tol) (hc : tol ≤ |c|) (site : List Rot) (d : Vec Int) :
    reducedSiteSym tol site (fun i => c * (d i : K)) =
      site.filter fun r => decide (r *ᵥ d = d) := by
  unfold reducedSiteSym
  refine List.filter_congr fun r _ => ?_
  rw [decide_eq_decide]
  have hval : ∀ i, c * (d i : K) - turnVec r (fun i => c * (d i : K)) i =
      c * (((d i - (r *ᵥ d) i : Int)) : K) := by
    intro i
    have : (fun i => c * (d i : K)) = c • fun i => (d i : K) := rfl
    rw [this]
    have h2 : turnVec r (c • fun i => (d i : K)) = c • turnVec r fun i => (d i : K) := by
      unfold turnVec; rw [Matrix.mulVec_smul]
    rw [h2, turnVec_cast]
    simp only [Pi.smul_apply, smul_eq_mul]
    push_cast; ring
  constructor
  · intro h
    funext i
    by_contra hne
    have h1 := h i
    rw [hval, abs_mul] at h1
    have h2 : (1 : K) ≤ |(((d i - (r *ᵥ d) i : Int)) : K)| := by
      rw [← Int.cast_abs]
      have : (1 : Int) ≤ |d i - (r *ᵥ d) i| := Int.one_le_abs (by
        intro h0; exact hne (by omega))
      exact_mod_cast this
    have h3 : |c| * 1 ≤ |c| * |(((d i - (r *ᵥ d) i : Int)) : K)| :=
      mul_le_mul_of_nonneg_left h2 (abs_nonneg c)
    linarith
  · intro h i
    rw [hval, h]
    simpa using ht

theorem reduced_eq_one {tol : K} (ht : 0 < tol) (h1 : tol ≤ 1) (site : List Rot) (d : Vec Int) :
    reducedSiteSym tol site (fun i => (d i : K)) = site.filter fun r => decide (r *ᵥ d = d) := by
  have := reduced_eq (c := (1 : K)) ht (by rwa [abs_one]) site d
  simpa using this

theorem keeping_group {B : List Rot} (h : RotGroup B) (d : Vec Int) :
    RotGroup (B.filter fun r => decide (r *ᵥ d = d)) := by
  refine group_filter h _ (by simp) ?_ ?_
  · intro r _ s _ hr hs
    rw [decide_eq_true_eq] at *
    rw [← Matrix.mulVec_mulVec, hs, hr]
  · intro r _ s _ hr hs
    rw [decide_eq_true_eq] at *
    conv_lhs => rw [← hr]
    rw [Matrix.mulVec_mulVec, hs, Matrix.one_mulVec]

end groups

section
variable {K : Type} [Field K] [LinearOrder K] [IsStrictOrderedRing K]
variable {T : FcTools K} {p2 : Nat → Nat → FcBlock K} {f : Legs → K} {σ : Nat → Rot → Nat → Nat}

theorem near_iff {a : Nat} (h : SiteSymmetry T p2 f (σ a) a) {r : Rot} (hr : r ∈ T.siteSym a)
    {b : Nat} (hb : b < T.natom) :
    T.near (T.pos b) (T.turnAbout a r (T.pos b)) = true ↔ σ a r b = b := by
  rw [h.acts r hr b hb b hb]
  exact eq_comm

theorem bond_eq {a : Nat} (h : SiteSymmetry T p2 f (σ a) a) {B : List Rot}
    (hB : ∀ r ∈ B, r ∈ T.siteSym a) {b : Nat} (hb : b < T.natom) :
    T.bondSym B a b = B.filter fun r => decide (σ a r b = b) := by
  unfold FcTools.bondSym
  refine List.filter_congr fun r hr => ?_
  have := near_iff h (hB r hr) hb
  by_cases hc : σ a r b = b
  · rw [this.2 hc]; simp [hc]
  · have h2 : T.near (T.pos b) (T.turnAbout a r (T.pos b)) = false := by
      by_contra h3
      exact hc (this.1 (by simpa using h3))
    rw [h2]; simp [hc]

theorem bond_group {a : Nat} (h : SiteSymmetry T p2 f (σ a) a) {B : List Rot} (hg : RotGroup B)
    (hB : ∀ r ∈ B, r ∈ T.siteSym a) {b : Nat} (hb : b < T.natom) :
    RotGroup (T.bondSym B a b) := by
  rw [bond_eq h hB hb]
  refine group_filter hg _ (by simp [h.map_one]) ?_ ?_
  · intro r hr s hs h1 h2
    rw [decide_eq_true_eq] at *
    rw [h.map_mul r (hB r hr) s (hB s hs), h2, h1]
  · intro r hr s hs h1 h2
    rw [decide_eq_true_eq] at *
    conv_lhs => rw [← h1]
    rw [← h.map_mul s (hB s hs) r (hB r hr), h2, h.map_one]

theorem lattice_inv_right (hs : ToolsSound T σ) : T.lattice * T.latticeInv = 1 :=
  mul_eq_one_comm.1 hs.lattice

theorem cart_lattice (hs : ToolsSound T σ) (r : Rot) (x : Vec K) :
    T.cart r *ᵥ (T.lattice *ᵥ x) = T.lattice *ᵥ turnVec r x := by
  unfold FcTools.cart turnVec
  rw [Matrix.mulVec_mulVec, Matrix.mul_assoc, hs.lattice, Matrix.mul_one, ← Matrix.mulVec_mulVec]

/-- The factor that gives a direction the requested length. -/
def lengthFactor (T : FcTools K) (dist : K) (d : Vec Int) : K :=
  dist / T.norm (T.lattice.mulVec fun i => (d i : K))

theorem toDisplacement_eq (dist : K) (d : Vec Int) :
    T.toDisplacement dist d = lengthFactor T dist d • (T.lattice *ᵥ fun i => (d i : K)) := rfl

theorem lengthFactor_neg (hs : ToolsSound T σ) (dist : K) (d : Vec Int) :
    lengthFactor T dist (-d) = lengthFactor T dist d := by
  unfold lengthFactor
  have : (T.lattice.mulVec fun i => (((-d) i : Int) : K)) =
      -(T.lattice.mulVec fun i => (d i : K)) := by
    rw [← Matrix.mulVec_neg]
    congr 1
    funext i; simp
  rw [this, hs.norm_neg]

theorem cart_disp (hs : ToolsSound T σ) (dist : K) (r : Rot) (d : Vec Int) :
    T.cart r *ᵥ T.toDisplacement dist d =
      lengthFactor T dist d • (T.lattice *ᵥ turnVec r fun i => (d i : K)) := by
  rw [toDisplacement_eq, Matrix.mulVec_smul, cart_lattice hs]

/-- The turned displacements span space if the turned directions do. -/
theorem spanning_disps (hs : ToolsSound T σ) {dist : K} (hd : dist ≠ 0) (l : List (Vec Int))
    (B : List Rot)
    (h : Spanning (l.flatMap fun d => B.map fun r => turnVec r fun i => (d i : K))) :
    Spanning (l.flatMap fun d => B.map fun r => T.cart r *ᵥ T.toDisplacement dist d) := by
  intro w hw
  have h0 : T.latticeᵀ *ᵥ w = 0 := by
    apply h
    intro v hv
    obtain ⟨d, hdl, hv⟩ := List.mem_flatMap.1 hv
    obtain ⟨r, hr, rfl⟩ := List.mem_map.1 hv
    have h1 := hw (T.cart r *ᵥ T.toDisplacement dist d)
      (List.mem_flatMap.2 ⟨d, hdl, List.mem_map.2 ⟨r, hr, rfl⟩⟩)
    rw [cart_disp hs, smul_dotProduct, smul_eq_mul] at h1
    by_cases hz : (T.lattice *ᵥ fun i => (d i : K)) = 0
    · have h2 : (fun i => (d i : K)) = 0 := by
        have := congrArg (T.latticeInv *ᵥ ·) hz
        simpa [Matrix.mulVec_mulVec, hs.lattice] using this
      rw [h2]
      simp [turnVec]
    · have hf : lengthFactor T dist d ≠ 0 := div_ne_zero hd (hs.norm_pos _ hz).ne'
      have h3 := (mul_eq_zero.1 h1).resolve_left hf
      rw [Matrix.dotProduct_mulVec, Matrix.vecMul_transpose]
      exact h3
  have := congrArg (T.latticeInvᵀ *ᵥ ·) h0
  simpa [Matrix.mulVec_mulVec, ← Matrix.transpose_mul, lattice_inv_right hs] using this

theorem zip_map_self {α β γ : Type} (l : List α) (g : α → β) (g' : α → γ) :
    (l.map g).zip (l.map g') = l.map fun x => (g x, g' x) := by
  induction l with
  | nil => rfl
  | cons x l ih => simp [ih]

theorem sum_flatMap' {α : Type} (l : List α) (g : α → List K) :
    (l.flatMap g).sum = (l.map fun x => (g x).sum).sum := by
  induction l with
  | nil => rfl
  | cons x l ih => rw [List.flatMap_cons, List.sum_append, ih, List.map_cons, List.sum_cons]

/-- The row of a second atom solved from the forces is the row of fc2 of the crystal with the first
atom displaced. -/
theorem row_exact (hs : ToolsSound T σ) {a b : Nat} (h : SiteSymmetry T p2 f (σ a) a)
    (hf : PermutationSymmetric T.natom f) (f0 : Nat → Vec K) {dist : K} (hd : dist ≠ 0)
    {B : List Rot} (hg : RotGroup B) (hB : ∀ r ∈ B, r ∈ T.siteSym a) (u : Vec K)
    (hu : ∀ r ∈ B, T.cart r *ᵥ u = u) (hb : b < T.natom) (forces : List (Nat → Vec K))
    (hforces : forces.length = (T.nextDirections B a b).length)
    (hval : ∀ x ∈ ((T.nextDirections B a b).map (T.toDisplacement dist)).zip forces,
      ∀ k < T.natom, x.2 k =
        crystalForce T.natom f0 p2 f (point a u + point b x.1) k -
          crystalForce T.natom f0 p2 f (point a u) k) {k : Nat} (hk : k < T.natom) :
    T.solveRow b ((T.nextDirections B a b).map (T.toDisplacement dist)) forces
        (T.bondSym B a b) k = displacedFc2 p2 f a u b k := by
  have hbond := bond_group h hg hB hb
  have hbs : ∀ r ∈ T.bondSym B a b, r ∈ B ∧ σ a r b = b := by
    intro r hr
    rw [bond_eq h hB hb] at hr
    have := List.mem_filter.1 hr
    exact ⟨this.1, by simpa using this.2⟩
  have hspan : Spanning ((T.nextDirections B a b).flatMap fun d => (T.bondSym B a b).map fun r =>
      T.cart r *ᵥ T.toDisplacement dist d) := by
    apply spanning_disps hs hd
    intro w hw
    apply hs.directions (T.bondSym B a b) hbond
    intro v hv
    apply hw
    obtain ⟨d, hdl, hv⟩ := List.mem_flatMap.1 hv
    refine List.mem_flatMap.2 ⟨d, ?_, hv⟩
    unfold FcTools.nextDirections
    refine List.mem_flatMap.2 ⟨d, hdl, ?_⟩
    split <;> simp
  have hfit := hs.solve a b ((T.nextDirections B a b).map (T.toDisplacement dist)) forces
    (T.bondSym B a b) (by simp [hforces]) (fun r hr => hB r (hbs r hr).1)
    (fun r hr => (hbs r hr).2) (by rw [List.flatMap_map]; exact hspan) k hk
  -- the turned rows are the forces for the turned displacements
  have hrows : turnedRows T.cart (T.sentByInv a)
      ((T.nextDirections B a b).map (T.toDisplacement dist)) forces (T.bondSym B a b) k =
      (T.nextDirections B a b).flatMap fun d => (T.bondSym B a b).map fun r =>
        (T.cart r *ᵥ T.toDisplacement dist d,
          -((T.cart r *ᵥ T.toDisplacement dist d) ᵥ* displacedFc2 p2 f a u b k) -
            (2 : K)⁻¹ • ((T.cart r *ᵥ T.toDisplacement dist d) ᵥ*
              inducedBlock f b (T.cart r *ᵥ T.toDisplacement dist d) b k)) := by
    unfold turnedRows
    have hz : ((T.nextDirections B a b).map (T.toDisplacement dist)).zip forces =
        ((T.nextDirections B a b).zip forces).map fun x => (T.toDisplacement dist x.1, x.2) := by
      rw [List.zip_map_left]
      rfl
    rw [hz] at hval ⊢
    have hl : (T.nextDirections B a b) = ((T.nextDirections B a b).zip forces).map fun x => x.1 := by
      rw [List.map_fst_zip (le_of_eq hforces.symm)]
    conv_rhs => rw [hl]
    rw [List.flatMap_map, List.flatMap_map]
    refine List.flatMap_congr fun x hx => ?_
    refine List.map_congr_left fun r hr => ?_
    obtain ⟨hrB, hrb⟩ := hbs r hr
    have hrs := hB r hrB
    obtain ⟨hlt, hback⟩ := hs.sent a r hrs k hk
    congr 1
    have h1 := hval _ (List.mem_map_of_mem hx) _ hlt
    simp only at h1 ⊢
    rw [h1, force_change h.lt hb f0 p2 f hf u _ hlt]
    generalize T.toDisplacement dist x.1 = v
    have horth := h.orth r hrs
    have e1 : displacedFc2 p2 f a u b k =
        T.cart r * (p2 b (T.sentByInv a r k) + inducedBlock f a u b (T.sentByInv a r k)) *
          (T.cart r)ᵀ := by
      have h2 := h.inv2 r hrs b hb _ hlt
      have h3 := induced_turn (h.inv3 r hrs) horth h.lt hb hlt u
      rw [hrb, hback] at h2
      rw [hrb, hback, h.fixed r hrs, hu r hrB] at h3
      unfold displacedFc2
      rw [h2, h3, Matrix.mul_add, Matrix.add_mul]
    have e2 : inducedBlock f b (T.cart r *ᵥ v) b k =
        T.cart r * inducedBlock f b v b (T.sentByInv a r k) * (T.cart r)ᵀ := by
      have h3 := induced_turn (h.inv3 r hrs) horth hb hb hlt v
      rwa [hrb, hback] at h3
    rw [e1, e2, vecMul_turn _ _ horth, vecMul_turn _ _ horth, Matrix.mulVec_sub,
      Matrix.mulVec_neg, Matrix.mulVec_smul]
  rw [hrows] at hfit
  refine fit_eq _ _ _ hfit ?_ ?_
  · -- spanning
    have : ((T.nextDirections B a b).flatMap fun d => (T.bondSym B a b).map fun r =>
        (T.cart r *ᵥ T.toDisplacement dist d,
          -((T.cart r *ᵥ T.toDisplacement dist d) ᵥ* displacedFc2 p2 f a u b k) -
            (2 : K)⁻¹ • ((T.cart r *ᵥ T.toDisplacement dist d) ᵥ*
              inducedBlock f b (T.cart r *ᵥ T.toDisplacement dist d) b k))).map (fun p => p.1) =
        (T.nextDirections B a b).flatMap fun d => (T.bondSym B a b).map fun r =>
          T.cart r *ᵥ T.toDisplacement dist d := by
      rw [List.map_flatMap]
      refine List.flatMap_congr fun d _ => ?_
      rw [List.map_map]; rfl
    rw [this]
    exact hspan
  · -- normal equations
    intro i j
    have hodd := odd_sum (T := T) hbond (hs.minus (T.bondSym B a b))
      (fun d v => (lengthFactor T dist d • (T.lattice *ᵥ v)) i *
        (-((2 : K)⁻¹ • ((lengthFactor T dist d • (T.lattice *ᵥ v)) ᵥ*
          inducedBlock f b (lengthFactor T dist d • (T.lattice *ᵥ v)) b k)) j))
      (fun d => by funext v; simp only [lengthFactor_neg hs])
      (fun d v => by
        have e : lengthFactor T dist d • (T.lattice *ᵥ (-v)) =
            -(lengthFactor T dist d • (T.lattice *ᵥ v)) := by
          rw [Matrix.mulVec_neg, smul_neg]
        rw [e]
        generalize lengthFactor T dist d • (T.lattice *ᵥ v) = x
        have e2 : inducedBlock f b (-x) b k = -inducedBlock f b x b k := by
          funext l m
          simp [inducedBlock, Finset.sum_neg_distrib]
        rw [e2]
        simp [Matrix.neg_vecMul, Matrix.vecMul_neg])
      (T.getDisplacement (T.bondSym B a b))
    rw [List.map_flatMap, sum_flatMap']
    rw [← hodd]
    change _ = ((T.nextDirections B a b).map _).sum
    refine congrArg List.sum (List.map_congr_left fun d _ => ?_)
    rw [List.map_map]
    refine congrArg List.sum (List.map_congr_left fun r _ => ?_)
    simp only [Function.comp, cart_disp hs]
    congr 1
    simp only [Pi.sub_apply, Pi.neg_apply]
    ring

end

end Phono3py
