/-
Property theorems C109 and C110 (positive): the two layouts of the collision matrix give the same
conductivity, and it is positive.
-/
import Verif.Props.LBTE
import Verif.Lemmas.LBTEFlat
import Verif.Props.Collision

set_option linter.unusedSectionVars false

namespace Phono3py.Props
open Phono3py Phono3py.Spec Finset

section
variable {K : Type _} [Field K] [LinearOrder K] [IsStrictOrderedRing K]

/-! ### Averages over bands that are not degenerate -/

/-- No bands are degenerate: all sets have one member. -/
def NoDegeneracy (sets : Nat → List (List Nat)) : Prop := ∀ i, ∀ s ∈ sets i, ∃ b, s = [b]

theorem foldl_same {α β : Type _} (l : List α) (f : β → α → β) (z : β) (h : ∀ x ∈ l, f z x = z) :
    l.foldl f z = z := by
  induction l with
  | nil => rfl
  | cons x l ih =>
    rw [List.foldl_cons, h x (List.mem_cons_self ..)]
    exact ih fun y hy => h y (List.mem_cons_of_mem _ hy)

theorem average_none {ρ : Type _} (points : List Nat) (sets : Nat → List (List Nat))
    (h : NoDegeneracy sets) (M : Nat × Nat × ρ → Nat × Nat × ρ → K) :
    averageMatrixByDegeneracy points sets M = M := by
  have hr : ∀ (i b : Nat) (M : Nat × Nat × ρ → Nat × Nat × ρ → K), averageRows i [b] M = M := by
    intro i b M
    funext r c
    unfold averageRows
    split_ifs with hr
    · obtain ⟨r1, r2, r3⟩ := r
      simp only [List.mem_singleton] at hr
      obtain ⟨rfl, rfl⟩ := hr
      simp
    · rfl
  have hc : ∀ (i b : Nat) (M : Nat × Nat × ρ → Nat × Nat × ρ → K), averageColumns i [b] M = M := by
    intro i b M
    funext r c
    unfold averageColumns
    split_ifs with hr
    · obtain ⟨c1, c2, c3⟩ := c
      simp only [List.mem_singleton] at hr
      obtain ⟨rfl, rfl⟩ := hr
      simp
    · rfl
  unfold averageMatrixByDegeneracy
  dsimp only
  rw [foldl_same points (fun M i => (sets i).foldl (fun M s => averageRows i s M) M) M,
    foldl_same]
  · intro i _
    refine foldl_same _ _ _ fun s hs => ?_
    obtain ⟨b, rfl⟩ := h i s hs
    exact hc i b M
  · intro i _
    refine foldl_same _ _ _ fun s hs => ?_
    obtain ⟨b, rfl⟩ := h i s hs
    exact hr i b M

theorem symmetrize_symm (n : Nat) (M : Nat → Nat → K) : SymmetricMatrix n (lbteSymmetrize M) := by
  intro i _ j _
  unfold lbteSymmetrize
  rw [add_comm]

/-! ### The prepared matrices -/

variable {G : Type _} [Group G] [Fintype G] {nq nI numOps : Nat} [MulAction G (Fin nq)]

/-- The collision matrix has the symmetry of the crystal. -/
def MatrixInvariant (G : Type _) [Group G] {nq : Nat} [MulAction G (Fin nq)]
    (S : Fin nq → Nat → Fin nq → Nat → K) : Prop :=
  ∀ (g : G) q l q' l', S (g • q) l (g • q') l' = S q l q' l'

theorem fullCollision_invariant (Om : Fin nq → Nat → Fin nq → Nat → K) (hOm : MatrixInvariant G Om)
    (lw : Fin nq → Nat → K) (hlw : Invariant G lw) : MatrixInvariant G (fullCollision Om lw) := by
  intro g q l q' l'
  unfold fullCollision
  simp only [hOm g, hlw g, smul_left_cancel_iff]

/-- **C109 (irreducible layout).** The matrix prepared from the irreducible elements is the full
collision matrix between the irreducible points and their images, with the weights of the points. -/
theorem C109_matrix_irreducible (op : Fin numOps ≃ G) (R : G →* Matrix (Fin 3) (Fin 3) K)
    (hO : ∀ (g : G) (a b : Fin 3), R g⁻¹ a b = R g b a)
    (ir : Fin nI → Fin nq) (h : StarsCover G ir) (irGp : Nat → Int)
    (rotGp : Nat → Nat → Int) (rotation : Nat → Nat → Nat → K)
    (hir : ∀ k : Fin nI, irGp k = ((ir k : Nat) : Int))
    (hrot : ∀ (k : Fin nI) (j : Fin numOps), rotGp k j = ((op j • ir k : Fin nq) : Nat))
    (hR : ∀ (j : Fin numOps) (a b : Fin 3), rotation j a b = R (op j) a b)
    (Om : Fin nq → Nat → Fin nq → Nat → K) (hOm : MatrixInvariant G Om)
    (lw : Fin nq → Nat → K) (hlw : Invariant G lw)
    (diag : Nat → Nat → K) (hdiag : ∀ (i : Fin nI) l, diag i l = lw (ir i) l) (nb : Nat)
    (M : Nat → Nat → Nat → Nat → Nat → Nat → K)
    (hM : ∀ (i i' : Fin nI) (l l' : Nat) (a b : Fin 3), l < nb → l' < nb →
      M i l a i' l' b = ∑ j : Fin numOps, Om (ir i) l (op j • ir i') l' * R (op j) a b)
    (sets : Nat → List (List Nat)) (hsets : NoDegeneracy sets) (w : Nat → K)
    (i i' : Fin nI) (l l' : Nat) (a b : Fin 3) (hl : l < nb) (hl' : l' < nb) :
    prepareIr nI numOps nb irGp rotGp rotation diag sets w M ((i * nb + l) * 3 + (a : Nat))
        ((i' * nb + l') * 3 + (b : Nat)) =
      reducedMatrix R ir (fun k => w k) (fullCollision Om lw) i l a i' l' b := by
  -- the sum over the operations, with the main diagonal
  have comb : ∀ (i i' : Fin nI) (l l' : Nat) (a b : Fin 3), l < nb → l' < nb →
      combineCollisions numOps irGp rotGp rotation diag M i l a i' l' b =
        ∑ g : G, (Om (ir i) l (g • ir i') l' +
          if ir i = g • ir i' ∧ l = l' then lw (ir i) l else 0) * R g a b := by
    intro i i' l l' a b hl hl'
    rw [combine_eq op ir irGp rotGp rotation (R ·) hir hrot hR, hM i i' l l' a b hl hl',
      Equiv.sum_comp op fun g => Om (ir i) l (g • ir i') l' * R g a b]
    simp only [add_mul, Finset.sum_add_distrib]
    congr 1
    by_cases hi : i = i' ∧ l = l'
    · obtain ⟨rfl, rfl⟩ := hi
      rw [if_pos ⟨rfl, rfl⟩, hdiag, Finset.mul_sum]
      refine Finset.sum_congr rfl fun g _ => ?_
      by_cases hg : g • ir i = ir i
      · rw [if_pos hg, if_pos ⟨hg.symm, rfl⟩]
      · rw [if_neg hg, if_neg fun e => hg e.1.symm, mul_zero, zero_mul]
    · rw [if_neg hi]
      refine (Finset.sum_eq_zero fun g _ => ?_).symm
      rw [if_neg, zero_mul]
      rintro ⟨e1, e2⟩
      exact hi ⟨(h.different i' i ⟨g, e1.symm⟩).symm, e2⟩
  unfold prepareIr
  rw [average_none _ _ hsets]
  unfold lbteSymmetrize multiplyWeights
  beta_reduce
  rw [unravel3_at hl, unravel3_at hl']
  dsimp only
  rw [comb i i' l l' a b hl hl', comb i' i l' l b a hl' hl]
  -- the transposed sum
  have turn : (∑ g : G, (Om (ir i') l' (g • ir i) l +
        if ir i' = g • ir i ∧ l' = l then lw (ir i') l' else 0) * R g b a) =
      ∑ g : G, (Om (g • ir i') l' (ir i) l +
        if ir i = g • ir i' ∧ l = l' then lw (ir i) l else 0) * R g a b := by
    rw [← Equiv.sum_comp (Equiv.inv G)]
    refine Finset.sum_congr rfl fun g _ => ?_
    rw [Equiv.inv_apply, hO g]
    congr 2
    · have := hOm g (ir i') l' (g⁻¹ • ir i) l
      rw [smul_inv_smul] at this
      exact this.symm
    · by_cases e : ir i = g • ir i' ∧ l = l'
      · rw [if_pos e, if_pos ⟨by rw [e.1, inv_smul_smul], e.2.symm⟩, e.1, hlw, e.2]
      · rw [if_neg e, if_neg]
        rintro ⟨e1, e2⟩
        exact e ⟨by rw [e1, smul_inv_smul], e2.symm⟩
  rw [turn]
  unfold reducedMatrix fullCollision
  rw [show ∀ A B C D : K, (A * (C * D) + B * (D * C)) / 2 = C * D * ((A + B) / 2) by intros; ring,
    ← Finset.sum_add_distrib, Finset.sum_div]
  congr 1
  refine Finset.sum_congr rfl fun g _ => ?_
  ring

/-- **C109 (reducible layout).** The matrix prepared from the rows of the irreducible points is the
full collision matrix. -/
theorem C109_matrix_reducible (op : Fin numOps ≃ G) (rot irArr : Int → Int)
    (ht : TableOf nq op rot) (ir : Fin nI → Fin nq) (h : StarsCover G ir)
    (hir : ∀ k : Fin nI, irArr ((k : Nat) : Int) = ((ir k : Nat) : Int))
    (Om : Fin nq → Nat → Fin nq → Nat → K) (hOm : MatrixInvariant G Om)
    (lw : Fin nq → Nat → K) (diag : Nat → Nat → K)
    (hdiag : ∀ (q : Fin nq) l, diag q l = lw q l) (nb : Nat)
    (M : Nat × Nat × Unit → Nat × Nat × Unit → K)
    (hrow : ∀ (k : Fin nI) (l : Nat) (q' : Fin nq) (l' : Nat), l < nb → l' < nb →
      M (ir k, l, ()) (q', l', ()) = Om (ir k) l q' l')
    (hz : ∀ (k : Fin nI) (g : G), g • ir k ≠ ir k → ∀ l < nb, ∀ (q' : Fin nq), ∀ l' < nb,
      M ((g • ir k : Fin nq), l, ()) (q', l', ()) = 0)
    (sets : Nat → List (List Nat)) (hsets : NoDegeneracy sets)
    (q q' : Fin nq) (l l' : Nat) (hl : l < nb) (hl' : l' < nb) :
    prepareReducible true nI nq numOps nb rot irArr sets diag M (q * nb + l) (q' * nb + l') =
      fullCollision Om lw q l q' l' := by
  have hflat : ∀ (q q' : Fin nq) (l l' : Nat), l < nb → l' < nb →
      ravelMatrix (nq * nb) (fun r c => M ((unravel2 nb r).1, (unravel2 nb r).2, ())
        ((unravel2 nb c).1, (unravel2 nb c).2, ()))
        ((at6 1 nq nb nq nb 0 0 q l q' l' : Nat) : Int) = M (q, l, ()) (q', l', ()) := by
    intro q q' l l' hl hl'
    have e : at6 1 nq nb nq nb 0 0 q l q' l' = (q * nb + l) * (nq * nb) + (q' * nb + l') := by
      unfold at6; ring
    unfold ravelMatrix
    rw [e, Int.toNat_natCast, (index2 (at2_lt' q' hl')).1, (index2 (at2_lt' q' hl')).2]
    beta_reduce
    rw [unravel2_at hl, unravel2_at hl']
  have hrest : ∀ (q q' : Fin nq) (l l' : Nat), l < nb → l' < nb →
      expandCollisionMatrix rot irArr nI nq numOps 1 1 nb
        (ravelMatrix (nq * nb) (fun r c => M ((unravel2 nb r).1, (unravel2 nb r).2, ())
          ((unravel2 nb c).1, (unravel2 nb c).2, ())))
        (((q * nb + l) * (nq * nb) + (q' * nb + l') : Nat) : Int) = Om q l q' l' := by
    intro q q' l l' hl hl'
    obtain ⟨k, g, rfl⟩ := h.cover q
    have := C36_restores op rot irArr ht ir hir h.different 1 1 nb 0 0 (by decide) (by decide)
      (ravelMatrix (nq * nb) (fun r c => M ((unravel2 nb r).1, (unravel2 nb r).2, ())
          ((unravel2 nb c).1, (unravel2 nb c).2, ())))
      (by
        intro k g hg m hm n p hp
        rw [hflat _ _ _ _ hm hp, hz k g hg m hm n p hp]) Om hOm
      (by
        intro k m hm n p hp
        rw [hflat _ _ _ _ hm hp, hrow k m n p hm hp]) k g q' l l' hl hl'
    rw [← this]
    congr 2
    unfold at6; ring
  unfold prepareReducible
  dsimp only
  rw [average_none _ _ hsets]
  unfold lbteSymmetrize combineReducible fullCollision
  simp only [if_true, unravel2_at hl, unravel2_at hl']
  rw [hrest q q' l l' hl hl', hrest q' q l' l hl' hl]
  congr 1
  by_cases e : q = q' ∧ l = l'
  · obtain ⟨rfl, rfl⟩ := e
    simp only [and_self, if_true, hdiag]
  · have e1 : ¬ ((q : Nat) = q' ∧ l = l') := fun x => e ⟨Fin.ext x.1, x.2⟩
    have e2 : ¬ ((q' : Nat) = q ∧ l' = l) := fun x => e ⟨(Fin.ext x.1).symm, x.2.symm⟩
    rw [if_neg e, if_neg e1, if_neg e2, add_zero, add_zero]

/-! ### Conductivity in the two layouts -/

/-- The calculation `k` is about the points `pts` of a mesh with frequencies `f` and velocities
`v`. -/
structure OnMesh {n : Nat} (k : LBTEInput K) (pts : Fin n → Fin nq) (f : Fin nq → Nat → K)
    (v : Fin nq → Nat → Fin 3 → K) : Prop where
  numGp : k.numGp = n
  frequencies : ∀ (i : Fin n) l, k.frequencies i l = f (pts i) l
  gv : ∀ (i : Fin n) l, k.gv i l = v (pts i) l

/-- The vectors `x` on the mesh: velocity times `ħω / (4 k T² sinh (ħω / 2 k T))`. -/
def meshX (k : LBTEInput K) (f : Fin nq → Nat → K) (v : Fin nq → Nat → Fin 3 → K) (q : Fin nq)
    (l : Nat) (a : Fin 3) : K := v q l a * freqsSinh k (f q l)

/-- The full matrix as a flat array. -/
def flatMatrix (nb : Nat) (S : Fin nq → Nat → Fin nq → Nat → K) (p p' : Nat) : K :=
  flat2 nb (fun q l => flat2 nb (S q l) p') p

/-- `(f(A) x)` on the mesh, component by component, where `A` has the eigensystem `(w, V)`. -/
def meshSolution (nq nb : Nat) (w : Nat → K) (V : Nat → Nat → K) (f : K → K)
    (x : Fin nq → Nat → Fin 3 → K) (q : Fin nq) (l : Nat) (a : Fin 3) : K :=
  spectral (nq * nb) w V f (flat2 nb fun q l => x q l a) (q * nb + l)

theorem meshX_equivariant (k : LBTEInput K) (R : G →* Matrix (Fin 3) (Fin 3) K)
    (f : Fin nq → Nat → K) (hf : Invariant G f) (v : Fin nq → Nat → Fin 3 → K)
    (hv : Equivariant (R ·) v) : Equivariant (R ·) (meshX k f v) := by
  intro g q l
  have e : ∀ q : Fin nq, meshX k f v q l = freqsSinh k (f q l) • v q l := fun q =>
    funext fun a => mul_comm _ _
  rw [e, e, hf, hv g, Matrix.mulVec_smul]

theorem lbteX_mesh {n : Nat} (k : LBTEInput K) (ht : 0 < k.t) (pts : Fin n → Fin nq)
    (f : Fin nq → Nat → K) (v : Fin nq → Nat → Fin 3 → K) (hm : OnMesh k pts f v) (i : Fin n)
    (l : Nat) (hl : l < k.numBand) (a : Fin 3) :
    lbteX k (i * k.numBand + l) a = k.weights i * meshX k f v (pts i) l a := by
  unfold lbteX meshX
  rw [if_pos ht, (index2 hl).1, (index2 hl).2, hm.frequencies, hm.gv]
  ring

theorem spectral_congr {n : Nat} (w : Nat → K) (V : Nat → Nat → K) (f : K → K) (x y : Nat → K)
    (h : ∀ p < n, x p = y p) (i : Nat) : spectral n w V f x i = spectral n w V f y i := by
  unfold spectral
  refine Finset.sum_congr rfl fun k _ => ?_
  congr 2
  exact Finset.sum_congr rfl fun p hp => by rw [h p (Finset.mem_range.1 hp)]

/-- **C109 (conductivity, irreducible layout).** With the reduced matrix, the conductivity of the
irreducible layout is that of the full mesh: of the fields `x` and `f(Ω) x`, where `f` is the
cut-off inverse and `Ω` the full collision matrix with any eigensystem `(wS, VS)`. -/
theorem C109_irreducible (r : ColmatRoutines K) (pinvSolver solver : Nat)
    (hs : EigenSolver pinvSolver solver) (method : Int) (cutoff : K) (k : LBTEInput K)
    (ht : 0 < k.t) (old : Nat → Nat → Fin 6 → K) (hskip : SkippedVanish k old)
    (op : Fin k.numOps ≃ G) (R : G →* Matrix (Fin 3) (Fin 3) K)
    (hR : ∀ (j : Fin k.numOps) (a b : Fin 3), k.rotations j a b = R (op j) a b)
    (ir : Fin nI → Fin nq) (h : StarsCover G ir)
    (hw : ∀ i : Fin nI, k.weights i * k.weights i =
      ((star G (ir i)).card : K) / (Fintype.card G : K))
    (f : Fin nq → Nat → K) (hf : Invariant G f) (v : Fin nq → Nat → Fin 3 → K)
    (hv : Equivariant (R ·) v) (hm : OnMesh k ir f v)
    (S : Fin nq → Nat → Fin nq → Nat → K) (hS : MatrixInvariant G S)
    (wS : Nat → K) (VS : Nat → Nat → K)
    (hE : IsEigensystem (nq * k.numBand) (flatMatrix k.numBand S) wS VS)
    (MI : Nat → Nat → K) (hsym : SymmetricMatrix (nI * k.numBand * 3) MI)
    (hMI : ∀ (i i' : Fin nI) (l l' : Nat) (a b : Fin 3), l < k.numBand → l' < k.numBand →
      MI ((i * k.numBand + l) * 3 + (a : Nat)) ((i' * k.numBand + l') * 3 + (b : Nat)) =
        reducedMatrix R ir (fun i => k.weights i) S i l a i' l' b)
    (hr : EighOn r (nI * k.numBand * 3) MI) :
    ∃ Y, solveColmat r false pinvSolver solver method cutoff (nI * k.numBand * 3) MI (lbteX k) =
        some Y ∧
      ∀ a b, tensorOf (lbteKappa false k (lbteX k) Y old).2 a b =
        fieldConductivity (k.factor * k.kb * k.t ^ 2) k.n k.numBand (meshX k f v)
          (meshSolution nq k.numBand wS VS (cutInverse method cutoff) (meshX k f v)) a b := by
  obtain ⟨Y, hY, hval⟩ := C111_eigen r false pinvSolver solver hs method cutoff
    (nI * k.numBand * 3) MI hr hsym _ _ hr.straight (lbteX k)
  refine ⟨Y, hY, fun a b => ?_⟩
  have hx := meshX_equivariant k R f hf v hv
  obtain ⟨sol, eqv⟩ := reduced_solution R ir h (fun i => k.weights i) hw S hS k.numBand MI hMI _ _
    hr.straight (flatMatrix k.numBand S) (by
      intro q q' l l' hl hl'
      unfold flatMatrix
      rw [flat2_at _ q hl, flat2_at _ q' hl']) wS VS hE (meshX k f v) hx (cutInverse method cutoff)
  -- the solution with the symmetry of the crystal
  have hy : Equivariant (R ·) fun (q : Fin nq) l a => if l < k.numBand then
      meshSolution nq k.numBand wS VS (cutInverse method cutoff) (meshX k f v) q l a else 0 := by
    intro g q l
    by_cases hl : l < k.numBand
    · simp only [if_pos hl]
      exact eqv g q l hl
    · simp only [if_neg hl]
      exact (Matrix.mulVec_zero _).symm
  have hYv : ∀ (i : Fin nI) (l : Nat), l < k.numBand → Y (i * k.numBand + l) = fun a =>
      k.weights i * meshSolution nq k.numBand wS VS (cutInverse method cutoff) (meshX k f v)
        (ir i) l a := by
    intro i l hl
    funext a
    rw [hval _ a (by
      unfold rowOf
      exact at3_lt i.2 hl a)]
    simp only [Bool.false_eq_true, if_false]
    unfold meshSolution
    rw [← sol i l a hl]
    refine spectral_congr _ _ _ _ _ (fun p hp => ?_) _
    obtain ⟨i', l', b, hl', rfl⟩ := split3 hp
    rw [ravel_at, flat3_at _ i' hl', lbteX_mesh k ht ir f v hm i' l' hl']
  have hXv : ∀ (i : Fin nI) (l : Nat), l < k.numBand → lbteX k (i * k.numBand + l) = fun a =>
      k.weights i * meshX k f v (ir i) l a := fun i l hl =>
    funext fun a => lbteX_mesh k ht ir f v hm i l hl a
  have e1 := reduced_sum R ir (fun i => k.weights i) k.numBand (meshX k f v) _ hx hy h hw a b
  have e2 := reduced_sum R ir (fun i => k.weights i) k.numBand (meshX k f v) _ hx hy h hw b a
  rw [lbte_tensor false k old hskip, hm.numGp, Finset.sum_range]
  unfold fieldConductivity
  simp only [Bool.false_eq_true, if_false, mul_one]
  congr 1
  simp only [Finset.sum_add_distrib]
  congr 1
  · refine Eq.trans (Eq.trans ?_ e1) ?_
    · refine Finset.sum_congr rfl fun i _ => Finset.sum_congr rfl fun l hl => ?_
      have hl := Finset.mem_range.1 hl
      rw [outer_group k op R hR, hXv i l hl, hYv i l hl]
      simp only [if_pos hl]
    · refine Finset.sum_congr rfl fun q _ => Finset.sum_congr rfl fun l hl => ?_
      rw [if_pos (Finset.mem_range.1 hl)]
  · refine Eq.trans (Eq.trans ?_ e2) ?_
    · refine Finset.sum_congr rfl fun i _ => Finset.sum_congr rfl fun l hl => ?_
      have hl := Finset.mem_range.1 hl
      rw [outer_group k op R hR, hXv i l hl, hYv i l hl]
      simp only [if_pos hl]
    · refine Finset.sum_congr rfl fun q _ => Finset.sum_congr rfl fun l hl => ?_
      rw [if_pos (Finset.mem_range.1 hl)]

/-- The permutation of the points by `g` as a flat matrix. -/
def pointPerm (nq nb : Nat) [MulAction G (Fin nq)] (g : G) (p p' : Nat) : K :=
  flat2 nb (fun (q : Fin nq) l => flat2 nb (fun (q' : Fin nq) l' =>
    if q = g⁻¹ • q' ∧ l = l' then 1 else 0) p') p

theorem pointPerm_at (nb : Nat) (g : G) (q q' : Fin nq) {l l' : Nat} (hl : l < nb) (hl' : l' < nb) :
    pointPerm (K := K) nq nb g (q * nb + l) (q' * nb + l') =
      if q = g⁻¹ • q' ∧ l = l' then 1 else 0 := by
  unfold pointPerm
  rw [flat2_at _ q hl, flat2_at _ q' hl']

theorem intertwine_rotation (nb : Nat) (S : Fin nq → Nat → Fin nq → Nat → K)
    (hS : MatrixInvariant G S) (wS : Nat → K) (VS : Nat → Nat → K)
    (hE : IsEigensystem (nq * nb) (flatMatrix nb S) wS VS) (R : G →* Matrix (Fin 3) (Fin 3) K)
    (x : Fin nq → Nat → Fin 3 → K) (hx : Equivariant (R ·) x) (f : K → K) (g : G) (q : Fin nq)
    (l : Nat) (hl : l < nb) :
    (fun a => meshSolution nq nb wS VS f x (g • q) l a) =
      (R g).mulVec fun a => meshSolution nq nb wS VS f x q l a := by
  funext a
  unfold meshSolution
  -- the permutation of the points by `g`
  have key := fun z : Fin nq → Nat → K => intertwine hE hE
    (pointPerm nq nb g)
    (by
      intro p hp p' hp'
      obtain ⟨q, l, hl, rfl⟩ := split2 hp
      obtain ⟨q', l', hl', rfl⟩ := split2 hp'
      rw [sum_flat2, sum_flat2]
      have e1 : (∑ i : Fin nq, ∑ m ∈ range nb, flatMatrix nb S (q * nb + l) (i * nb + m) *
          pointPerm nq nb g (i * nb + m) (q' * nb + l')) = S q l (g⁻¹ • q') l' := by
        rw [Finset.sum_eq_single (g⁻¹ • q')]
        · rw [Finset.sum_eq_single l']
          · unfold flatMatrix
            rw [flat2_at _ q hl, flat2_at _ _ hl', pointPerm_at nb g _ _ hl' hl',
              if_pos ⟨rfl, rfl⟩, mul_one]
          · intro m hm hne
            have hm := Finset.mem_range.1 hm
            rw [pointPerm_at nb g _ _ hm hl', if_neg fun e => hne e.2, mul_zero]
          · intro hn
            exact absurd (Finset.mem_range.2 hl') hn
        · intro i _ hne
          refine Finset.sum_eq_zero fun m hm => ?_
          have hm := Finset.mem_range.1 hm
          rw [pointPerm_at nb g _ _ hm hl', if_neg fun e => hne e.1, mul_zero]
        · intro hn
          exact absurd (Finset.mem_univ _) hn
      have e2 : (∑ i : Fin nq, ∑ m ∈ range nb,
          pointPerm nq nb g (q * nb + l) (i * nb + m) * flatMatrix nb S (i * nb + m) (q' * nb + l')) =
          S (g • q) l q' l' := by
        rw [Finset.sum_eq_single (g • q)]
        · rw [Finset.sum_eq_single l]
          · unfold flatMatrix
            rw [flat2_at _ (g • q) hl, flat2_at _ _ hl', pointPerm_at nb g _ _ hl hl,
              if_pos ⟨by rw [inv_smul_smul], rfl⟩, one_mul]
          · intro m hm hne
            have hm := Finset.mem_range.1 hm
            rw [pointPerm_at nb g _ _ hl hm, if_neg fun e => hne e.2.symm, zero_mul]
          · intro hn
            exact absurd (Finset.mem_range.2 hl) hn
        · intro i _ hne
          refine Finset.sum_eq_zero fun m hm => ?_
          have hm := Finset.mem_range.1 hm
          rw [pointPerm_at nb g _ _ hl hm, if_neg, zero_mul]
          rintro ⟨e, _⟩
          exact hne (by rw [e, smul_inv_smul])
        · intro hn
          exact absurd (Finset.mem_univ _) hn
      rw [e1, e2, ← hS g, smul_inv_smul])
    f (flat2 nb z) (q * nb + l) (at2_lt' q hl)
  have perm : ∀ (z : Fin nq → Nat → K) (F : Nat → K), ∀ (q : Fin nq) (l : Nat), l < nb →
      (∑ j ∈ range (nq * nb), pointPerm nq nb g (q * nb + l) j * F j) =
        F ((g • q : Fin nq) * nb + l) := by
    intro z F q l hl
    rw [sum_flat2, Finset.sum_eq_single (g • q)]
    · rw [Finset.sum_eq_single l]
      · rw [pointPerm_at nb g _ _ hl hl, if_pos ⟨by rw [inv_smul_smul], rfl⟩, one_mul]
      · intro m hm hne
        have hm := Finset.mem_range.1 hm
        rw [pointPerm_at nb g _ _ hl hm, if_neg fun e => hne e.2.symm, zero_mul]
      · intro hn
        exact absurd (Finset.mem_range.2 hl) hn
    · intro i _ hne
      refine Finset.sum_eq_zero fun m hm => ?_
      have hm := Finset.mem_range.1 hm
      rw [pointPerm_at nb g _ _ hl hm, if_neg, zero_mul]
      rintro ⟨e, _⟩
      exact hne (by rw [e, smul_inv_smul])
    · intro hn
      exact absurd (Finset.mem_univ _) hn
  have k1 := key fun q l => x q l a
  rw [perm (fun q l => x q l a) _ q l hl] at k1
  rw [← k1]
  -- spectral of the rotated field is linear in the components
  have e3 : spectral (nq * nb) wS VS f (fun k => ∑ j ∈ range (nq * nb),
      pointPerm nq nb g k j * flat2 nb (fun q l => x q l a) j) (q * nb + l) =
      spectral (nq * nb) wS VS f (fun p => ∑ c : Fin 3, R g a c * flat2 nb (fun q l => x q l c) p)
        (q * nb + l) := by
    refine spectral_congr _ _ _ _ _ (fun p hp => ?_) _
    obtain ⟨q1, l1, hl1, rfl⟩ := split2 hp
    rw [perm (fun q l => x q l a) _ q1 l1 hl1, flat2_at _ (g • q1) hl1, hx g]
    unfold Matrix.mulVec dotProduct
    refine Finset.sum_congr rfl fun c _ => ?_
    rw [flat2_at _ q1 hl1]
  rw [e3]
  unfold Matrix.mulVec dotProduct
  simp only [spectral_eq, Finset.mul_sum]
  rw [Finset.sum_comm]
  refine Finset.sum_congr rfl fun c _ => Finset.sum_congr rfl fun p _ => ?_
  ring

/-- **C109 (conductivity, reducible layout).** -/
theorem C109_reducible (r : ColmatRoutines K) (pinvSolver solver : Nat)
    (hs : EigenSolver pinvSolver solver) (method : Int) (cutoff : K) (k : LBTEInput K)
    (ht : 0 < k.t) (old : Nat → Nat → Fin 6 → K) (hskip : SkippedVanish k old)
    (op : Fin k.numOps ≃ G) (R : G →* Matrix (Fin 3) (Fin 3) K)
    (hR : ∀ (j : Fin k.numOps) (a b : Fin 3), k.rotations j a b = R (op j) a b)
    (hw : ∀ q : Fin nq, k.weights q = 1)
    (f : Fin nq → Nat → K) (hf : Invariant G f) (v : Fin nq → Nat → Fin 3 → K)
    (hv : Equivariant (R ·) v) (hm : OnMesh k (fun q : Fin nq => q) f v)
    (S : Fin nq → Nat → Fin nq → Nat → K) (hS : MatrixInvariant G S)
    (wS : Nat → K) (VS : Nat → Nat → K)
    (hE : IsEigensystem (nq * k.numBand) (flatMatrix k.numBand S) wS VS)
    (MR : Nat → Nat → K) (hsym : SymmetricMatrix (nq * k.numBand) MR)
    (hMR : ∀ (q q' : Fin nq) (l l' : Nat), l < k.numBand → l' < k.numBand →
      MR (q * k.numBand + l) (q' * k.numBand + l') = S q l q' l')
    (hr : EighOn r (nq * k.numBand) MR) :
    ∃ Y, solveColmat r true pinvSolver solver method cutoff (nq * k.numBand) MR (lbteX k) =
        some Y ∧
      ∀ a b, tensorOf (lbteKappa true k (lbteX k) Y old).2 a b =
        fieldConductivity (k.factor * k.kb * k.t ^ 2) k.n k.numBand (meshX k f v)
          (meshSolution nq k.numBand wS VS (cutInverse method cutoff) (meshX k f v)) a b := by
  have hE' : IsEigensystem (nq * k.numBand) MR wS VS := by
    refine ⟨hE.orthonormal, fun i hi j hj => ?_⟩
    rw [← hE.eigen i hi j hj]
    obtain ⟨q, l, hl, rfl⟩ := split2 hi
    obtain ⟨q', l', hl', rfl⟩ := split2 hj
    rw [hMR q q' l l' hl hl']
    unfold flatMatrix
    rw [flat2_at _ q hl, flat2_at _ q' hl']
  obtain ⟨Y, hY, hval⟩ := C111_eigen r true pinvSolver solver hs method cutoff
    (nq * k.numBand) MR hr hsym _ _ hE' (lbteX k)
  refine ⟨Y, hY, fun a b => ?_⟩
  have hx := meshX_equivariant k R f hf v hv
  have hy : Equivariant (R ·) fun (q : Fin nq) l a => if l < k.numBand then
      meshSolution nq k.numBand wS VS (cutInverse method cutoff) (meshX k f v) q l a else 0 := by
    intro g q l
    by_cases hl : l < k.numBand
    · simp only [if_pos hl]
      exact intertwine_rotation k.numBand S hS wS VS hE R _ hx _ g q l hl
    · simp only [if_neg hl]
      exact (Matrix.mulVec_zero _).symm
  have hXv : ∀ (q : Fin nq) (l : Nat), l < k.numBand → lbteX k (q * k.numBand + l) =
      meshX k f v q l := fun q l hl => funext fun a => by
    rw [lbteX_mesh k ht (fun q => q) f v hm q l hl a, hw, one_mul]
  have hYv : ∀ (q : Fin nq) (l : Nat), l < k.numBand → Y (q * k.numBand + l) =
      meshSolution nq k.numBand wS VS (cutInverse method cutoff) (meshX k f v) q l := by
    intro q l hl
    funext a
    rw [hval _ a (at2_lt' q hl)]
    simp only [if_true]
    unfold meshSolution
    refine spectral_congr _ _ _ _ _ (fun p hp => ?_) _
    obtain ⟨q', l', hl', rfl⟩ := split2 hp
    rw [flat2_at _ q' hl', hXv q' l' hl']
  have hc : (k.numOps : K) = (Fintype.card G : K) := by
    rw [← Fintype.card_congr op, Fintype.card_fin]
  have hc0 : (Fintype.card G : K) ≠ 0 := by
    have : 0 < Fintype.card G := Fintype.card_pos_iff.2 ⟨1⟩
    positivity
  have e1 := full_sum R k.numBand (meshX k f v) _ hx hy a b
  have e2 := full_sum R k.numBand (meshX k f v) _ hx hy b a
  have f1 : ∀ a b : Fin 3, (∑ q : Fin nq, ∑ l ∈ range k.numBand,
      starOuter k (lbteX k (q * k.numBand + l)) (Y (q * k.numBand + l)) a b) =
      ∑ q : Fin nq, ∑ l ∈ range k.numBand, ∑ g : G, (R g).mulVec (meshX k f v q l) a *
        (R g).mulVec (fun a => if l < k.numBand then meshSolution nq k.numBand wS VS
          (cutInverse method cutoff) (meshX k f v) q l a else 0) b := by
    intro a b
    refine Finset.sum_congr rfl fun q _ => Finset.sum_congr rfl fun l hl => ?_
    have hl := Finset.mem_range.1 hl
    rw [outer_group k op R hR, hXv q l hl, hYv q l hl]
    simp only [if_pos hl]
  have f2 : ∀ a b : Fin 3, (∑ q : Fin nq, ∑ l ∈ range k.numBand, meshX k f v q l a *
      if l < k.numBand then meshSolution nq k.numBand wS VS
          (cutInverse method cutoff) (meshX k f v) q l b else 0) =
      ∑ q : Fin nq, ∑ l ∈ range k.numBand, meshX k f v q l a * meshSolution nq k.numBand wS VS
          (cutInverse method cutoff) (meshX k f v) q l b := by
    intro a b
    refine Finset.sum_congr rfl fun q _ => Finset.sum_congr rfl fun l hl => ?_
    rw [if_pos (Finset.mem_range.1 hl)]
  rw [lbte_tensor true k old hskip, hm.numGp, Finset.sum_range]
  unfold fieldConductivity
  simp only [if_true, Finset.sum_add_distrib]
  rw [f1 a b, f1 b a, e1, e2, f2, f2, hc, ← mul_add]
  field_simp

/-- Two calculations with the same settings. -/
structure SameConstants (k k' : LBTEInput K) : Prop where
  numBand : k'.numBand = k.numBand
  cutoff : k'.cutoff = k.cutoff
  t : k'.t = k.t
  kb : k'.kb = k.kb
  toEv : k'.toEv = k.toEv
  sinh : k'.sinh = k.sinh
  factor : k'.factor = k.factor
  n : k'.n = k.n

theorem meshX_same (k k' : LBTEInput K) (h : SameConstants k k') (f : Fin nq → Nat → K)
    (v : Fin nq → Nat → Fin 3 → K) : meshX k' f v = meshX k f v := by
  funext q l a
  unfold meshX freqsSinh
  rw [h.cutoff, h.t, h.kb, h.toEv, h.sinh]

/-- **C109 (layouts agree).** Without degenerate bands, the conductivities of the irreducible and of
the reducible layout are equal. The elements `Om` of the collision matrix and the linewidths `lw`
have the symmetry of the crystal; the irreducible layout reads the elements summed over the
operations as in C75, the reducible layout the rows of the irreducible points and zeros elsewhere.
The solvers may differ. `ki` and `kr` are the calculations of the two layouts. -/
theorem C109_layouts_partial (ki kr : LBTEInput K) (hsame : SameConstants ki kr) (ht : 0 < ki.t)
    (op : Fin ki.numOps ≃ G) (op' : Fin kr.numOps ≃ G) (R : G →* Matrix (Fin 3) (Fin 3) K)
    (hO : ∀ (g : G) (a b : Fin 3), R g⁻¹ a b = R g b a)
    (hR : ∀ (j : Fin ki.numOps) (a b : Fin 3), ki.rotations j a b = R (op j) a b)
    (hR' : ∀ (j : Fin kr.numOps) (a b : Fin 3), kr.rotations j a b = R (op' j) a b)
    (ir : Fin nI → Fin nq) (h : StarsCover G ir)
    -- phonons
    (f : Fin nq → Nat → K) (hf : Invariant G f) (v : Fin nq → Nat → Fin 3 → K)
    (hv : Equivariant (R ·) v) (hmi : OnMesh ki ir f v)
    (hmr : OnMesh kr (fun q : Fin nq => q) f v)
    (hw : ∀ i : Fin nI, ki.weights i * ki.weights i =
      ((star G (ir i)).card : K) / (Fintype.card G : K))
    (hw' : ∀ q : Fin nq, kr.weights q = 1)
    (oldI oldR : Nat → Nat → Fin 6 → K) (hsi : SkippedVanish ki oldI) (hsr : SkippedVanish kr oldR)
    -- scattering
    (Om : Fin nq → Nat → Fin nq → Nat → K) (hOm : MatrixInvariant G Om)
    (lw : Fin nq → Nat → K) (hlw : Invariant G lw)
    (sets sets' : Nat → List (List Nat)) (hsets : NoDegeneracy sets) (hsets' : NoDegeneracy sets')
    -- the irreducible layout
    (irGp : Nat → Int) (hir : ∀ k : Fin nI, irGp k = ((ir k : Nat) : Int))
    (rotGp : Nat → Nat → Int)
    (hrot : ∀ (k : Fin nI) (j : Fin ki.numOps), rotGp k j = ((op j • ir k : Fin nq) : Nat))
    (rotation : Nat → Nat → Nat → K)
    (hRi : ∀ (j : Fin ki.numOps) (a b : Fin 3), rotation j a b = R (op j) a b)
    (diag : Nat → Nat → K) (hdiag : ∀ (i : Fin nI) l, diag i l = lw (ir i) l)
    (M : Nat → Nat → Nat → Nat → Nat → Nat → K)
    (hM : ∀ (i i' : Fin nI) (l l' : Nat) (a b : Fin 3), l < ki.numBand → l' < ki.numBand →
      M i l a i' l' b = ∑ j : Fin ki.numOps, Om (ir i) l (op j • ir i') l' * R (op j) a b)
    -- the reducible layout
    (rot irArr : Int → Int) (htab : TableOf nq op' rot)
    (hirr : ∀ k : Fin nI, irArr ((k : Nat) : Int) = ((ir k : Nat) : Int))
    (diag' : Nat → Nat → K) (hdiag' : ∀ (q : Fin nq) l, diag' q l = lw q l)
    (M' : Nat × Nat × Unit → Nat × Nat × Unit → K)
    (hrow : ∀ (k : Fin nI) (l : Nat) (q' : Fin nq) (l' : Nat), l < ki.numBand → l' < ki.numBand →
      M' (ir k, l, ()) (q', l', ()) = Om (ir k) l q' l')
    (hz : ∀ (k : Fin nI) (g : G), g • ir k ≠ ir k → ∀ l < ki.numBand, ∀ (q' : Fin nq),
      ∀ l' < ki.numBand, M' ((g • ir k : Fin nq), l, ()) (q', l', ()) = 0)
    -- the solvers
    (ri rr : ColmatRoutines K) (psi si psr sr : Nat) (hs : EigenSolver psi si)
    (hs' : EigenSolver psr sr) (method : Int) (cutoff : K)
    (hri : EighOn ri (nI * ki.numBand * 3)
      (prepareIr nI ki.numOps ki.numBand irGp rotGp rotation diag sets ki.weights M))
    (hrr : EighOn rr (nq * kr.numBand)
      (prepareReducible true nI nq kr.numOps kr.numBand rot irArr sets' diag' M')) :
    ∃ Yi Yr,
      solveColmat ri false psi si method cutoff (nI * ki.numBand * 3)
        (prepareIr nI ki.numOps ki.numBand irGp rotGp rotation diag sets ki.weights M)
        (lbteX ki) = some Yi ∧
      solveColmat rr true psr sr method cutoff (nq * kr.numBand)
        (prepareReducible true nI nq kr.numOps kr.numBand rot irArr sets' diag' M')
        (lbteX kr) = some Yr ∧
      ∀ a b, tensorOf (lbteKappa false ki (lbteX ki) Yi oldI).2 a b =
        tensorOf (lbteKappa true kr (lbteX kr) Yr oldR).2 a b := by
  have hS := fullCollision_invariant (G := G) Om hOm lw hlw
  have hMR : ∀ (q q' : Fin nq) (l l' : Nat), l < kr.numBand → l' < kr.numBand →
      prepareReducible true nI nq kr.numOps kr.numBand rot irArr sets' diag' M'
        (q * kr.numBand + l) (q' * kr.numBand + l') = fullCollision Om lw q l q' l' :=
    fun q q' l l' hl hl' => C109_matrix_reducible op' rot irArr htab ir h hirr Om hOm lw diag'
      hdiag' kr.numBand M' (by rw [hsame.numBand]; exact hrow) (by rw [hsame.numBand]; exact hz)
      sets' hsets' q q' l l' hl hl'
  have hE : IsEigensystem (nq * kr.numBand) (flatMatrix kr.numBand (fullCollision Om lw))
      (rr.eigh (nq * kr.numBand) (prepareReducible true nI nq kr.numOps kr.numBand rot irArr sets'
        diag' M')).1
      (rr.eigh (nq * kr.numBand) (prepareReducible true nI nq kr.numOps kr.numBand rot irArr sets'
        diag' M')).2 := by
    refine ⟨hrr.straight.orthonormal, fun i hi j hj => ?_⟩
    rw [← hrr.straight.eigen i hi j hj]
    obtain ⟨q, l, hl, rfl⟩ := split2 hi
    obtain ⟨q', l', hl', rfl⟩ := split2 hj
    rw [hMR q q' l l' hl hl']
    unfold flatMatrix
    rw [flat2_at _ q hl, flat2_at _ q' hl']
  obtain ⟨Yr, hYr, er⟩ := C109_reducible rr psr sr hs' method cutoff kr (by rw [hsame.t]; exact ht)
    oldR hsr op' R hR' hw' f hf v hv hmr (fullCollision Om lw) hS _ _ hE
    (prepareReducible true nI nq kr.numOps kr.numBand rot irArr sets' diag' M')
    (symmetrize_symm _ _) hMR hrr
  rw [hsame.numBand] at hE
  obtain ⟨Yi, hYi, ei⟩ := C109_irreducible ri psi si hs method cutoff ki ht oldI hsi op R hR ir h hw
    f hf v hv hmi (fullCollision Om lw) hS _ _ hE
    (prepareIr nI ki.numOps ki.numBand irGp rotGp rotation diag sets ki.weights M)
    (symmetrize_symm _ _)
    (fun i i' l l' a b hl hl' => C109_matrix_irreducible op R hO ir h irGp rotGp rotation hir hrot
      hRi Om hOm lw hlw diag hdiag ki.numBand M hM sets hsets ki.weights i i' l l' a b hl hl') hri
  refine ⟨Yi, Yr, hYi, hYr, fun a b => ?_⟩
  rw [ei, er, meshX_same ki kr hsame, hsame.factor, hsame.kb, hsame.t, hsame.n, hsame.numBand]

/-! ## C110 -/

theorem cutInverse_nonneg (method : Int) (cutoff x : K)
    (h : cutoff < (if method = 0 then |x| else x) → 0 ≤ x) : 0 ≤ cutInverse method cutoff x := by
  unfold cutInverse
  by_cases h1 : cutoff < (if method = 0 then |x| else x)
  · rw [if_pos h1]
    exact inv_nonneg.2 (h h1)
  · rw [if_neg h1]

theorem fieldConductivity_nonneg (scale n : K) (hs : 0 ≤ scale) (hn : 0 ≤ n) (nb : Nat)
    (wS : Nat → K) (VS : Nat → Nat → K) (f : K → K) (hf : ∀ k < nq * nb, 0 ≤ f (wS k))
    (x : Fin nq → Nat → Fin 3 → K) (u : Fin 3 → K) :
    0 ≤ quadratic (fieldConductivity scale n nb x (meshSolution nq nb wS VS f x)) u := by
  -- the component of `x` along `u`
  have hlin : ∀ (q : Fin nq) (l : Nat), (∑ b, u b * meshSolution nq nb wS VS f x q l b) =
      spectral (nq * nb) wS VS f (flat2 nb fun q l => ∑ b, u b * x q l b) (q * nb + l) := by
    intro q l
    unfold meshSolution
    simp only [spectral_eq]
    have e : ∀ p, flat2 nb (fun (q : Fin nq) l => ∑ b, u b * x q l b) p =
        ∑ b, u b * flat2 nb (fun (q : Fin nq) l => x q l b) p := by
      intro p
      unfold flat2
      split_ifs
      · rfl
      · simp
    simp only [e, Finset.mul_sum]
    rw [Finset.sum_comm]
    exact Finset.sum_congr rfl fun p _ => Finset.sum_congr rfl fun b _ => by ring
  have hq : quadratic (fieldConductivity scale n nb x (meshSolution nq nb wS VS f x)) u =
      scale / n * (2 * ∑ q : Fin nq, ∑ l ∈ range nb,
        (∑ a, u a * x q l a) * spectral (nq * nb) wS VS f
          (flat2 nb fun q l => ∑ b, u b * x q l b) (q * nb + l)) := by
    unfold quadratic fieldConductivity
    simp only [← hlin]
    have e1 : ∀ a b : Fin 3, u a * (scale / n * ∑ q : Fin nq, ∑ l ∈ range nb,
        (x q l a * meshSolution nq nb wS VS f x q l b +
          x q l b * meshSolution nq nb wS VS f x q l a)) * u b =
        scale / n * ∑ q : Fin nq, ∑ l ∈ range nb,
          ((u a * x q l a) * (u b * meshSolution nq nb wS VS f x q l b) +
            (u b * x q l b) * (u a * meshSolution nq nb wS VS f x q l a)) := by
      intro a b
      rw [show ∀ A : K, u a * (scale / n * A) * u b = scale / n * (u a * u b * A) by intros; ring,
        Finset.mul_sum]
      congr 1
      refine Finset.sum_congr rfl fun q _ => ?_
      rw [Finset.mul_sum]
      exact Finset.sum_congr rfl fun l _ => by ring
    simp only [e1, ← Finset.mul_sum]
    congr 1
    rw [Finset.mul_sum]
    calc _ = ∑ a : Fin 3, ∑ q : Fin nq, ∑ b : Fin 3, ∑ l ∈ range nb,
          ((u a * x q l a) * (u b * meshSolution nq nb wS VS f x q l b) +
            (u b * x q l b) * (u a * meshSolution nq nb wS VS f x q l a)) :=
          Finset.sum_congr rfl fun a _ => Finset.sum_comm
      _ = ∑ q : Fin nq, ∑ a : Fin 3, ∑ b : Fin 3, ∑ l ∈ range nb,
          ((u a * x q l a) * (u b * meshSolution nq nb wS VS f x q l b) +
            (u b * x q l b) * (u a * meshSolution nq nb wS VS f x q l a)) := Finset.sum_comm
      _ = ∑ q : Fin nq, ∑ l ∈ range nb, ∑ a : Fin 3, ∑ b : Fin 3,
          ((u a * x q l a) * (u b * meshSolution nq nb wS VS f x q l b) +
            (u b * x q l b) * (u a * meshSolution nq nb wS VS f x q l a)) := by
          refine Finset.sum_congr rfl fun q _ => ?_
          rw [Finset.sum_comm]
          conv_rhs => rw [Finset.sum_comm]
          rw [Finset.sum_comm]
          refine Finset.sum_congr rfl fun a _ => Finset.sum_comm
      _ = _ := by
          refine Finset.sum_congr rfl fun q _ => ?_
          rw [Finset.mul_sum]
          refine Finset.sum_congr rfl fun l _ => ?_
          simp only [Fin.sum_univ_three]
          ring
  have hpos : (∑ q : Fin nq, ∑ l ∈ range nb, (∑ a, u a * x q l a) *
      spectral (nq * nb) wS VS f (flat2 nb fun q l => ∑ b, u b * x q l b) (q * nb + l)) =
      ∑ k ∈ range (nq * nb), f (wS k) * (∑ p ∈ range (nq * nb), VS p k *
        flat2 nb (fun (q : Fin nq) l => ∑ b, u b * x q l b) p) ^ 2 := by
    have e : (∑ q : Fin nq, ∑ l ∈ range nb, (∑ a, u a * x q l a) *
        spectral (nq * nb) wS VS f (flat2 nb fun q l => ∑ b, u b * x q l b) (q * nb + l)) =
        ∑ p ∈ range (nq * nb), flat2 nb (fun (q : Fin nq) l => ∑ b, u b * x q l b) p *
          spectral (nq * nb) wS VS f (flat2 nb fun q l => ∑ b, u b * x q l b) p := by
      rw [sum_flat2]
      refine Finset.sum_congr rfl fun q _ => Finset.sum_congr rfl fun l hl => ?_
      rw [flat2_at _ q (Finset.mem_range.1 hl)]
    rw [e]
    unfold spectral
    generalize flat2 nb (fun (q : Fin nq) l => ∑ b, u b * x q l b) = z
    have e2 : ∀ p, z p * ∑ k ∈ range (nq * nb), VS p k * (f (wS k) *
        ∑ j ∈ range (nq * nb), VS j k * z j) = ∑ k ∈ range (nq * nb), (VS p k * z p) *
        (f (wS k) * ∑ j ∈ range (nq * nb), VS j k * z j) := fun p => by
      rw [Finset.mul_sum]
      exact Finset.sum_congr rfl fun k _ => by ring
    simp only [e2]
    rw [Finset.sum_comm]
    refine Finset.sum_congr rfl fun k _ => ?_
    rw [← Finset.sum_mul]
    ring
  rw [hq, hpos]
  refine mul_nonneg (div_nonneg hs hn) (mul_nonneg (by norm_num) ?_)
  exact Finset.sum_nonneg fun k hk => mul_nonneg (hf k (Finset.mem_range.1 hk)) (sq_nonneg _)

theorem quadratic_congr (S T : Fin 3 → Fin 3 → K) (h : ∀ a b, S a b = T a b) (u : Fin 3 → K) :
    quadratic S u = quadratic T u := by
  rw [show S = T from funext fun a => funext fun b => h a b]

/-- **C110 (positive, reducible layout).** When no negative eigenvalue of the collision matrix is
kept (always so with `pinv_method` 1 and a cutoff that is not negative), no direction conducts heat
backwards. -/
theorem C110_positive_reducible (r : ColmatRoutines K) (pinvSolver solver : Nat)
    (hs : EigenSolver pinvSolver solver) (method : Int) (cutoff : K) (k : LBTEInput K)
    (ht : 0 < k.t) (old : Nat → Nat → Fin 6 → K) (hskip : SkippedVanish k old)
    (op : Fin k.numOps ≃ G) (R : G →* Matrix (Fin 3) (Fin 3) K)
    (hR : ∀ (j : Fin k.numOps) (a b : Fin 3), k.rotations j a b = R (op j) a b)
    (hw : ∀ q : Fin nq, k.weights q = 1)
    (f : Fin nq → Nat → K) (hf : Invariant G f) (v : Fin nq → Nat → Fin 3 → K)
    (hv : Equivariant (R ·) v) (hm : OnMesh k (fun q : Fin nq => q) f v)
    (S : Fin nq → Nat → Fin nq → Nat → K) (hS : MatrixInvariant G S)
    (wS : Nat → K) (VS : Nat → Nat → K)
    (hE : IsEigensystem (nq * k.numBand) (flatMatrix k.numBand S) wS VS)
    (MR : Nat → Nat → K) (hsym : SymmetricMatrix (nq * k.numBand) MR)
    (hMR : ∀ (q q' : Fin nq) (l l' : Nat), l < k.numBand → l' < k.numBand →
      MR (q * k.numBand + l) (q' * k.numBand + l') = S q l q' l')
    (hr : EighOn r (nq * k.numBand) MR) (hfac : 0 ≤ k.factor * k.kb) (hn : 0 ≤ k.n)
    (hpos : ∀ i < nq * k.numBand, cutoff < (if method = 0 then |wS i| else wS i) → 0 ≤ wS i) :
    ∃ Y, solveColmat r true pinvSolver solver method cutoff (nq * k.numBand) MR (lbteX k) =
        some Y ∧
      ∀ u, 0 ≤ quadratic (tensorOf (lbteKappa true k (lbteX k) Y old).2) u := by
  obtain ⟨Y, hY, e⟩ := C109_reducible r pinvSolver solver hs method cutoff k ht old hskip op R hR hw
    f hf v hv hm S hS wS VS hE MR hsym hMR hr
  refine ⟨Y, hY, fun u => ?_⟩
  rw [quadratic_congr _ _ e]
  exact fieldConductivity_nonneg _ _ (mul_nonneg hfac (sq_nonneg _)) hn _ wS VS _
    (fun i hi => cutInverse_nonneg _ _ _ (hpos i hi)) _ u

/-- **C110 (positive, irreducible layout).** The same in the irreducible layout, in terms of the
eigenvalues of the full matrix. -/
theorem C110_positive_irreducible (r : ColmatRoutines K) (pinvSolver solver : Nat)
    (hs : EigenSolver pinvSolver solver) (method : Int) (cutoff : K) (k : LBTEInput K)
    (ht : 0 < k.t) (old : Nat → Nat → Fin 6 → K) (hskip : SkippedVanish k old)
    (op : Fin k.numOps ≃ G) (R : G →* Matrix (Fin 3) (Fin 3) K)
    (hR : ∀ (j : Fin k.numOps) (a b : Fin 3), k.rotations j a b = R (op j) a b)
    (ir : Fin nI → Fin nq) (h : StarsCover G ir)
    (hw : ∀ i : Fin nI, k.weights i * k.weights i =
      ((star G (ir i)).card : K) / (Fintype.card G : K))
    (f : Fin nq → Nat → K) (hf : Invariant G f) (v : Fin nq → Nat → Fin 3 → K)
    (hv : Equivariant (R ·) v) (hm : OnMesh k ir f v)
    (S : Fin nq → Nat → Fin nq → Nat → K) (hS : MatrixInvariant G S)
    (wS : Nat → K) (VS : Nat → Nat → K)
    (hE : IsEigensystem (nq * k.numBand) (flatMatrix k.numBand S) wS VS)
    (MI : Nat → Nat → K) (hsym : SymmetricMatrix (nI * k.numBand * 3) MI)
    (hMI : ∀ (i i' : Fin nI) (l l' : Nat) (a b : Fin 3), l < k.numBand → l' < k.numBand →
      MI ((i * k.numBand + l) * 3 + (a : Nat)) ((i' * k.numBand + l') * 3 + (b : Nat)) =
        reducedMatrix R ir (fun i => k.weights i) S i l a i' l' b)
    (hr : EighOn r (nI * k.numBand * 3) MI) (hfac : 0 ≤ k.factor * k.kb) (hn : 0 ≤ k.n)
    (hpos : ∀ i < nq * k.numBand, cutoff < (if method = 0 then |wS i| else wS i) → 0 ≤ wS i) :
    ∃ Y, solveColmat r false pinvSolver solver method cutoff (nI * k.numBand * 3) MI (lbteX k) =
        some Y ∧
      ∀ u, 0 ≤ quadratic (tensorOf (lbteKappa false k (lbteX k) Y old).2) u := by
  obtain ⟨Y, hY, e⟩ := C109_irreducible r pinvSolver solver hs method cutoff k ht old hskip op R hR
    ir h hw f hf v hv hm S hS wS VS hE MI hsym hMI hr
  refine ⟨Y, hY, fun u => ?_⟩
  rw [quadratic_congr _ _ e]
  exact fieldConductivity_nonneg _ _ (mul_nonneg hfac (sq_nonneg _)) hn _ wS VS _
    (fun i hi => cutInverse_nonneg _ _ _ (hpos i hi)) _ u

end
end Phono3py.Props
