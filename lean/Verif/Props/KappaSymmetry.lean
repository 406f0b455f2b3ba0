/-
C78, C80-C82: sampling points, sign, symmetry and symmetry reduction of the thermal conductivity in
the relaxation time approximation.
-/
import Mathlib.Tactic.Linarith
import Mathlib.Tactic.FieldSimp
import Mathlib.Data.ZMod.Basic
import Mathlib.Data.Fin.VecNotation
import Mathlib.Data.Matrix.Diagonal
import Verif.Props.Kappa

namespace Phono3py.Props
open Finset Spec

section
variable {K : Type _} [Field K] [LinearOrder K] [IsStrictOrderedRing K]

/-! ### The tensor -/

theorem gv_symm (e : CondEnv K) (i : Nat) (v : Fin 3 → K) (a b : Fin 3) :
    gvByGv e i v a b = gvByGv e i v b a := by
  unfold gvByGv
  congr 2
  funext j
  rw [mul_comm]

theorem gv_voigt (e : CondEnv K) (i : Nat) (v : Fin 3 → K) (a b : Fin 3) :
    gvByGv e i v (voigt (voigtIndex a b)).1 (voigt (voigtIndex a b)).2 = gvByGv e i v a b := by
  fin_cases a <;> fin_cases b <;> first | rfl | exact gv_symm e i v _ _

/-- Weight of a mode in the conductivity. -/
def modeWeight (k : KappaInput K) (i l : Nat) : K :=
  if k.frequencies i l < k.cutoff ∨ k.gSum i l = 0 then 0
  else k.cv i l / (2 * k.gSum i l) * k.factor

theorem kappa_sum (k : KappaInput K) (c : Fin 6) :
    kappaRTA k c = (∑ i ∈ range k.numGp, ∑ l ∈ range k.numBand,
      modeWeight k i l * k.gvSum2 i l c) / k.n := by
  unfold kappaRTA kappaOf
  simp only [sumLoop_eq]
  rw [Finset.sum_comm]
  congr 1
  refine Finset.sum_congr rfl fun i hi => Finset.sum_congr rfl fun l hl => ?_
  unfold modeKappaRTA modeWeight
  rw [if_pos ⟨Finset.mem_range.1 hi, Finset.mem_range.1 hl⟩]
  by_cases h1 : k.frequencies i l < k.cutoff
  · rw [if_pos h1, if_pos (Or.inl h1), zero_mul]
  · rw [if_neg h1]
    by_cases h2 : k.gSum i l = 0
    · rw [if_pos (by rw [h2, zero_mul]), if_pos (Or.inr h2), zero_mul]
    · rw [if_neg (mul_ne_zero h2 two_ne_zero), if_neg (not_or.2 ⟨h1, h2⟩)]
      field_simp

/-- The tensors of squared velocities are those of the velocities `v`. -/
def TensorsOf (e : CondEnv K) (k : KappaInput K) (v : Nat → Nat → Fin 3 → K) : Prop :=
  ∀ i < k.numGp, ∀ l < k.numBand, ∀ c,
    k.gvSum2 i l c = gvByGv e i (v i l) (voigt c).1 (voigt c).2

theorem kappa_tensor (e : CondEnv K) (k : KappaInput K) (v : Nat → Nat → Fin 3 → K)
    (h : TensorsOf e k v) (a b : Fin 3) :
    tensorOf (kappaRTA k) a b = (∑ i ∈ range k.numGp, ∑ l ∈ range k.numBand,
      modeWeight k i l * gvByGv e i (v i l) a b) / k.n := by
  unfold tensorOf
  rw [kappa_sum]
  congr 1
  refine Finset.sum_congr rfl fun i hi => Finset.sum_congr rfl fun l hl => ?_
  rw [h i (Finset.mem_range.1 hi) l (Finset.mem_range.1 hl), gv_voigt]

theorem quadratic_gv (e : CondEnv K) (i : Nat) (v u : Fin 3 → K) :
    quadratic (gvByGv e i v) u =
      (∑ j ∈ range e.numOps, (∑ a, u a * rotateVector (e.rotations j) v a) ^ 2) / (e.multi i : K) := by
  unfold quadratic gvByGv
  simp only [sumLoop_eq, mul_div_assoc', div_mul_eq_mul_div, ← Finset.sum_div, Finset.mul_sum,
    Finset.sum_mul]
  congr 1
  calc _ = ∑ a, ∑ j ∈ range e.numOps, ∑ b, u a * (rotateVector (e.rotations j) v a *
        rotateVector (e.rotations j) v b) * u b :=
        Finset.sum_congr rfl fun a _ => Finset.sum_comm
    _ = ∑ j ∈ range e.numOps, ∑ a, ∑ b, u a * (rotateVector (e.rotations j) v a *
        rotateVector (e.rotations j) v b) * u b := Finset.sum_comm
    _ = _ := by
        refine Finset.sum_congr rfl fun j _ => ?_
        rw [pow_two, Finset.sum_mul_sum]
        exact Finset.sum_congr rfl fun a _ => Finset.sum_congr rfl fun b _ => by ring

theorem quadratic_gv_nonneg (e : CondEnv K) (i : Nat) (v u : Fin 3 → K) :
    0 ≤ quadratic (gvByGv e i v) u := by
  rw [quadratic_gv]
  exact div_nonneg (Finset.sum_nonneg fun j _ => sq_nonneg _) (Nat.cast_nonneg _)

theorem quadratic_kappa (e : CondEnv K) (k : KappaInput K) (v : Nat → Nat → Fin 3 → K)
    (h : TensorsOf e k v) (u : Fin 3 → K) :
    quadratic (tensorOf (kappaRTA k)) u = (∑ i ∈ range k.numGp, ∑ l ∈ range k.numBand,
      modeWeight k i l * quadratic (gvByGv e i (v i l)) u) / k.n := by
  have h1 : quadratic (tensorOf (kappaRTA k)) u =
      ∑ a, ∑ b, ∑ i ∈ range k.numGp, ∑ l ∈ range k.numBand,
        modeWeight k i l * (u a * gvByGv e i (v i l) a b * u b) / k.n := by
    unfold quadratic
    refine Finset.sum_congr rfl fun a _ => Finset.sum_congr rfl fun b _ => ?_
    rw [kappa_tensor e k v h]
    simp only [Finset.sum_div, Finset.mul_sum, Finset.sum_mul]
    exact Finset.sum_congr rfl fun i _ => Finset.sum_congr rfl fun l _ => by ring
  rw [h1]
  unfold quadratic
  simp only [Finset.sum_div, Finset.mul_sum]
  calc _ = ∑ a, ∑ i ∈ range k.numGp, ∑ l ∈ range k.numBand, ∑ b,
        modeWeight k i l * (u a * gvByGv e i (v i l) a b * u b) / k.n := by
        refine Finset.sum_congr rfl fun a _ => ?_
        rw [Finset.sum_comm]
        exact Finset.sum_congr rfl fun i _ => Finset.sum_comm
    _ = _ := by
        rw [Finset.sum_comm]
        exact Finset.sum_congr rfl fun i _ => Finset.sum_comm

/-! ### C80: sign -/

theorem modeWeight_nonneg (k : KappaInput K) (i l : Nat) (hg : 0 ≤ k.gSum i l) (hc : 0 ≤ k.cv i l)
    (hf : 0 ≤ k.factor) : 0 ≤ modeWeight k i l := by
  unfold modeWeight
  split
  · exact le_refl _
  · exact mul_nonneg (div_nonneg hc (by linarith)) hf

/-- **C80 (positive).** With non-negative linewidths and heat capacities the conductivity tensor is
positive semidefinite: no direction conducts heat backwards. -/
theorem C80_positive (e : CondEnv K) (k : KappaInput K) (v : Nat → Nat → Fin 3 → K)
    (h : TensorsOf e k v) (hg : ∀ i < k.numGp, ∀ l < k.numBand, 0 ≤ k.gSum i l)
    (hc : ∀ i < k.numGp, ∀ l < k.numBand, 0 ≤ k.cv i l) (hf : 0 ≤ k.factor) (hn : 0 ≤ k.n)
    (u : Fin 3 → K) : 0 ≤ quadratic (tensorOf (kappaRTA k)) u := by
  rw [quadratic_kappa e k v h]
  refine div_nonneg (Finset.sum_nonneg fun i hi => Finset.sum_nonneg fun l hl => ?_) hn
  have hi' := Finset.mem_range.1 hi
  have hl' := Finset.mem_range.1 hl
  exact mul_nonneg (modeWeight_nonneg k i l (hg i hi' l hl') (hc i hi' l hl') hf)
    (quadratic_gv_nonneg e i _ _)

/-- **C80 (linewidths).** Raising linewidths, for instance by a further scattering channel, never
raises the conductivity in any direction, provided the modes that take part had a linewidth
before. -/
theorem C80_antitone (e : CondEnv K) (k : KappaInput K) (v : Nat → Nat → Fin 3 → K)
    (h : TensorsOf e k v) (g : Nat → Nat → K)
    (hg : ∀ i < k.numGp, ∀ l < k.numBand, k.cutoff ≤ k.frequencies i l → 0 < k.gSum i l)
    (hle : ∀ i < k.numGp, ∀ l < k.numBand, k.gSum i l ≤ g i l)
    (hc : ∀ i < k.numGp, ∀ l < k.numBand, 0 ≤ k.cv i l) (hf : 0 ≤ k.factor) (hn : 0 ≤ k.n)
    (u : Fin 3 → K) :
    quadratic (tensorOf (kappaRTA { k with gSum := g })) u ≤
      quadratic (tensorOf (kappaRTA k)) u := by
  rw [quadratic_kappa e k v h, quadratic_kappa e { k with gSum := g } v h]
  refine div_le_div_of_nonneg_right ?_ hn
  refine Finset.sum_le_sum fun i hi => Finset.sum_le_sum fun l hl => ?_
  have hi' := Finset.mem_range.1 hi
  have hl' := Finset.mem_range.1 hl
  refine mul_le_mul_of_nonneg_right ?_ (quadratic_gv_nonneg e i _ _)
  unfold modeWeight
  dsimp only
  by_cases h1 : k.frequencies i l < k.cutoff
  · rw [if_pos (Or.inl h1), if_pos (Or.inl h1)]
  · have h2 := hg i hi' l hl' (not_lt.1 h1)
    have h3 := lt_of_lt_of_le h2 (hle i hi' l hl')
    rw [if_neg (not_or.2 ⟨h1, h3.ne'⟩), if_neg (not_or.2 ⟨h1, h2.ne'⟩)]
    refine mul_le_mul_of_nonneg_right ?_ hf
    exact div_le_div_of_nonneg_left (hc i hi' l hl') (by linarith)
      (by linarith [hle i hi' l hl'])

/-- **C80 (vanishing linewidth).** A mode without linewidth is left out, although it would conduct
without limit: giving it a small linewidth raises the conductivity, so `C80_antitone` needs its
condition. -/
theorem C80_zero_linewidth (k : KappaInput K) (i l : Nat) (h : k.gSum i l = 0) (c : Fin 6) :
    modeKappaRTA k (fun _ _ _ => 0) i l c = 0 := by
  unfold modeKappaRTA
  split
  · split
    · rfl
    · rw [if_pos (by rw [h, zero_mul])]
  · rfl

end

/-! ### C81: symmetry -/

section
variable {K : Type _} [Field K] [LinearOrder K] [IsStrictOrderedRing K]
variable {G : Type _} [Group G] [Fintype G] [DecidableEq G]

theorem rotate_mulVec (R : Matrix (Fin 3) (Fin 3) K) (v : Fin 3 → K) :
    rotateVector (fun a b => R a b) v = R.mulVec v := by
  funext a
  simp only [rotateVector, Matrix.mulVec, dotProduct, Fin.sum_univ_three]
  ring

/-- The Cartesian operations of the object represent the group `G` by `R`. -/
def Represents (e : CondEnv K) (op : Fin e.numOps ≃ G)
    (R : G →* Matrix (Fin 3) (Fin 3) K) : Prop :=
  ∀ (j : Fin e.numOps) (a b : Fin 3), e.rotations j a b = R (op j) a b

theorem gv_group (e : CondEnv K) (op : Fin e.numOps ≃ G) (R : G →* Matrix (Fin 3) (Fin 3) K)
    (hR : Represents e op R) (i : Nat) (v : Fin 3 → K) (a b : Fin 3) :
    gvByGv e i v a b =
      (∑ g : G, (R g).mulVec v a * (R g).mulVec v b) / (e.multi i : K) := by
  unfold gvByGv
  rw [sumLoop_eq, Finset.sum_range, ← Equiv.sum_comp op]
  congr 1
  refine Finset.sum_congr rfl fun j _ => ?_
  rw [show e.rotations (j : Nat) = fun a b => R (op j) a b from
    funext fun a => funext fun b => hR j a b, rotate_mulVec]

/-- `R T Rᵀ`. -/
def rotateTensor (R : Matrix (Fin 3) (Fin 3) K) (T : Fin 3 → Fin 3 → K) (a b : Fin 3) : K :=
  ∑ c, ∑ d, R a c * T c d * R b d

theorem gv_invariant (e : CondEnv K) (op : Fin e.numOps ≃ G) (R : G →* Matrix (Fin 3) (Fin 3) K)
    (hR : Represents e op R) (i : Nat) (v : Fin 3 → K) (g : G) (a b : Fin 3) :
    rotateTensor (R g) (gvByGv e i v) a b = gvByGv e i v a b := by
  unfold rotateTensor
  simp only [gv_group e op R hR]
  simp only [mul_div_assoc', div_mul_eq_mul_div, ← Finset.sum_div, Finset.mul_sum, Finset.sum_mul]
  congr 1
  rw [← Equiv.sum_comp (Equiv.mulLeft g) (fun g' : G => (R g').mulVec v a * (R g').mulVec v b)]
  calc _ = ∑ c, ∑ g' : G, ∑ d, R g a c * ((R g').mulVec v c * (R g').mulVec v d) * R g b d :=
        Finset.sum_congr rfl fun c _ => Finset.sum_comm
    _ = ∑ g' : G, ∑ c, ∑ d, R g a c * ((R g').mulVec v c * (R g').mulVec v d) * R g b d :=
        Finset.sum_comm
    _ = _ := by
        refine Finset.sum_congr rfl fun g' _ => ?_
        have hm : (R (g * g')).mulVec v = (R g).mulVec ((R g').mulVec v) := by
          rw [map_mul, Matrix.mulVec_mulVec]
        show _ = (R (g * g')).mulVec v a * (R (g * g')).mulVec v b
        rw [hm]
        show _ = (∑ c, R g a c * (R g').mulVec v c) * (∑ d, R g b d * (R g').mulVec v d)
        rw [Finset.sum_mul_sum]
        exact Finset.sum_congr rfl fun c _ => Finset.sum_congr rfl fun d _ => by ring

/-- **C81 (symmetric).** The conductivity tensor has the symmetry of the crystal: it is not changed
by any operation of the point group, whatever velocities, heat capacities and linewidths are. -/
theorem C81_symmetric (e : CondEnv K) (op : Fin e.numOps ≃ G) (R : G →* Matrix (Fin 3) (Fin 3) K)
    (hR : Represents e op R) (k : KappaInput K) (v : Nat → Nat → Fin 3 → K)
    (h : TensorsOf e k v) (g : G) (a b : Fin 3) :
    rotateTensor (R g) (tensorOf (kappaRTA k)) a b = tensorOf (kappaRTA k) a b := by
  rw [kappa_tensor e k v h]
  have h1 : rotateTensor (R g) (tensorOf (kappaRTA k)) a b =
      (∑ i ∈ range k.numGp, ∑ l ∈ range k.numBand,
        modeWeight k i l * rotateTensor (R g) (gvByGv e i (v i l)) a b) / k.n := by
    unfold rotateTensor
    have hk : ∀ c d, R g a c * tensorOf (kappaRTA k) c d * R g b d =
        ∑ i ∈ range k.numGp, ∑ l ∈ range k.numBand,
          modeWeight k i l * (R g a c * gvByGv e i (v i l) c d * R g b d) / k.n := by
      intro c d
      rw [kappa_tensor e k v h]
      simp only [Finset.sum_div, Finset.mul_sum, Finset.sum_mul]
      exact Finset.sum_congr rfl fun i _ => Finset.sum_congr rfl fun l _ => by ring
    simp only [hk, Finset.sum_div, Finset.mul_sum]
    calc _ = ∑ c, ∑ i ∈ range k.numGp, ∑ l ∈ range k.numBand, ∑ d,
          modeWeight k i l * (R g a c * gvByGv e i (v i l) c d * R g b d) / k.n := by
          refine Finset.sum_congr rfl fun c _ => ?_
          rw [Finset.sum_comm]
          exact Finset.sum_congr rfl fun i _ => Finset.sum_comm
      _ = _ := by
          rw [Finset.sum_comm]
          exact Finset.sum_congr rfl fun i _ => Finset.sum_comm
  rw [h1]
  simp only [gv_invariant e op R hR]

/-! ### C78, C82: symmetry reduction -/

variable {nq : Nat} [MulAction G (Fin nq)]

/-- The grid points of the object are one point per star, with the orders of their stabilizers as
multiplicities. -/
structure Reduced (e : CondEnv K) (op : Fin e.numOps ≃ G) (ir : Fin e.numGp → Fin nq) : Prop where
  stars : StarsCover G ir
  multi : ∀ i : Fin e.numGp, e.multi i = (Finset.univ.filter fun g : G => g • ir i = ir i).card

theorem kstar_card (e : CondEnv K) (op : Fin e.numOps ≃ G) (ir : Fin e.numGp → Fin nq)
    (h : Reduced e op ir) (i : Fin e.numGp) : kstarOrder e i = (star G (ir i)).card := by
  have hc : e.numOps = Fintype.card G := by
    rw [← Fintype.card_congr op, Fintype.card_fin]
  have hp : 0 < (Finset.univ.filter fun g : G => g • ir i = ir i).card :=
    Finset.card_pos.2 ⟨1, by simp⟩
  unfold kstarOrder
  rw [hc, h.multi i, card_group (G := G) (ir i), Nat.mul_div_cancel_left _ hp]

/-- **C78 (total).** After all irreducible grid points, without failures beyond the velocities, the
number of sampling grid points is the number of grid points of the mesh. -/
theorem C78_total (e : CondEnv K) (op : Fin e.numOps ≃ G) (ir : Fin e.numGp → Fin nq)
    (h : Reduced e op ir) (gamma : Nat → Nat → Nat → Nat → K) (cs : List (Option Nat))
    (hcs : ∀ n, some n ∈ cs → n ≤ 1)
    (hy : yielded (condRun e (condInit gamma e) cs).2 = List.range e.numGp) :
    (condRun e (condInit gamma e) cs).1.numSampling = nq := by
  rw [C78_sampling_partial e gamma _ hcs, hy, List.length_range, Finset.sum_range]
  have := sum_stars (K := ℚ) h.stars (fun _ => 1)
  simp only [Finset.sum_const, Finset.card_univ, Fintype.card_fin, nsmul_eq_mul, mul_one] at this
  rw [Finset.sum_congr rfl fun i _ => kstar_card e op ir h i]
  exact_mod_cast this.symm

/-- A scalar mode property with the symmetry of the crystal. -/
def Invariant (G : Type _) [Group G] {nq : Nat} [MulAction G (Fin nq)] (f : Fin nq → Nat → K) :
    Prop := ∀ (g : G) q l, f (g • q) l = f q l

/-- **C82 (symmetry reduction).** The conductivity computed from one grid point per star, with the
velocity tensors summed over the operations and divided by the multiplicities and the number of
sampling points counted during the iteration, is the conductivity of the full mesh. `f`, `cv`, `Γ`
and `v` are frequencies, heat capacities, linewidths and velocities on the full mesh with the
symmetry of the crystal. -/
theorem C82_full_mesh (e : CondEnv K) (op : Fin e.numOps ≃ G) (R : G →* Matrix (Fin 3) (Fin 3) K)
    (hR : Represents e op R) (ir : Fin e.numGp → Fin nq) (h : Reduced e op ir)
    (gamma : Nat → Nat → Nat → Nat → K) (cs : List (Option Nat))
    (hcs : ∀ n, some n ∈ cs → n ≤ 1)
    (hy : yielded (condRun e (condInit gamma e) cs).2 = List.range e.numGp)
    (f cv Γ : Fin nq → Nat → K) (v : Fin nq → Nat → Fin 3 → K)
    (hf : Invariant G f) (hc : Invariant G cv) (hG : Invariant G Γ) (hv : Equivariant (R ·) v)
    (temp : Nat) (cutoff factor : K) (frequencies gSum : Nat → Nat → K)
    (hf' : ∀ (i : Fin e.numGp) l, frequencies i l = f (ir i) l)
    (hc' : ∀ (i : Fin e.numGp) l, e.heatCapacity temp i l = cv (ir i) l)
    (hG' : ∀ (i : Fin e.numGp) l, gSum i l = Γ (ir i) l)
    (hv' : ∀ (i : Fin e.numGp) l, e.velocity i l = v (ir i) l) (a b : Fin 3) :
    tensorOf (kappaRTA (kappaInput e (condRun e (condInit gamma e) cs).1 temp frequencies cutoff
      gSum factor)) a b = meshConductivity factor cutoff e.numBand f cv Γ v a b := by
  have hn := C78_total e op ir h gamma cs hcs hy
  have hfill : ∀ i < e.numGp, Filled e (condRun e (condInit gamma e) cs).1 (i + 1) := fun i hi =>
    C41_results e gamma cs i (by rw [hy]; exact List.mem_range.2 hi)
  rw [kappa_tensor e _ e.velocity fun i hi l _ c => (hfill i hi).gvSum2 i (Nat.lt_succ_self i) l c]
  show _ / ((condRun e (condInit gamma e) cs).1.numSampling : K) = _
  rw [hn]
  unfold meshConductivity
  rw [Fintype.card_fin, sum_stars h.stars, div_mul_eq_mul_div]
  congr 1
  show (∑ i ∈ range e.numGp, ∑ l ∈ range e.numBand, _) = _
  rw [Finset.sum_range, Finset.mul_sum]
  refine Finset.sum_congr rfl fun i _ => ?_
  have hm : ((Finset.univ.filter fun g : G => g • ir i = ir i).card : K) ≠ 0 := card_stab_ne' (ir i)
  have hs := sum_over_group (G := G) (ir i) fun q => ∑ l ∈ range e.numBand,
    if f q l < cutoff ∨ Γ q l = 0 then 0 else cv q l / (2 * Γ q l) * (v q l a * v q l b)
  rw [nsmul_eq_mul] at hs
  rw [eq_comm, ← mul_left_inj' hm, mul_assoc, mul_comm (∑ q ∈ star G (ir i), _) _, ← hs,
    Finset.sum_mul, Finset.sum_comm, Finset.mul_sum]
  refine Finset.sum_congr rfl fun l _ => ?_
  have hcv : (condRun e (condInit gamma e) cs).1.cv temp i l = cv (ir i) l := by
    rw [(hfill i i.2).cv temp i (Nat.lt_succ_self _), hc']
  have e1 : ∀ g : G, (if f (g • ir i) l < cutoff ∨ Γ (g • ir i) l = 0 then 0 else
      cv (g • ir i) l / (2 * Γ (g • ir i) l) * (v (g • ir i) l a * v (g • ir i) l b)) =
      (if f (ir i) l < cutoff ∨ Γ (ir i) l = 0 then 0 else cv (ir i) l / (2 * Γ (ir i) l)) *
        ((R g).mulVec (v (ir i) l) a * (R g).mulVec (v (ir i) l) b) := by
    intro g
    rw [hf g, hG g, hc g, hv g]
    split
    · rw [zero_mul]
    · rfl
  rw [Finset.sum_congr rfl fun g _ => e1 g, ← Finset.mul_sum, gv_group e op R hR, hv', h.multi i,
    mul_assoc, div_mul_cancel₀ _ hm, ← mul_assoc]
  congr 1
  unfold modeWeight
  show _ = if frequencies i l < cutoff ∨ gSum i l = 0 then 0 else
    (condRun e (condInit gamma e) cs).1.cv temp i l / (2 * gSum i l) * factor
  rw [hf', hG', hcv]
  split
  · rw [mul_zero]
  · rw [mul_comm]

end

/-! ### The hypotheses are met -/

/-- The group of two elements. -/
abbrev Mirror := Multiplicative (ZMod 2)

/-- A mirror exchanges the points 0 and 1 of a mesh of three points and fixes 2. -/
local instance : MulAction Mirror (Fin 3) where
  smul u q := if u = 1 then q else Equiv.swap 0 1 q
  one_smul := by decide +kernel
  mul_smul := by decide +kernel

/-- The mirror at the plane `x = 0`. -/
def mirrorMatrix : Mirror →* Matrix (Fin 3) (Fin 3) ℚ where
  toFun u := if u = 1 then 1 else Matrix.diagonal ![-1, 1, 1]
  map_one' := rfl
  map_mul' u w := by
    have hm : ∀ g : Mirror, g = 1 ∨ g = Multiplicative.ofAdd 1 := by decide +kernel
    rcases hm u with rfl | rfl <;> rcases hm w with rfl | rfl
    · simp
    · rw [one_mul, if_pos rfl, one_mul]
    · rw [mul_one, if_pos rfl, mul_one]
    · rw [if_pos (by decide), if_neg (by decide), Matrix.diagonal_mul_diagonal]
      ext a b
      fin_cases a <;> fin_cases b <;> simp [Matrix.diagonal, Matrix.one_apply]

/-- The two operations in the order of the object. -/
def mirrorOp : Fin 2 ≃ Mirror where
  toFun := ![1, Multiplicative.ofAdd 1]
  invFun g := if g = 1 then 0 else 1
  left_inv := by unfold Function.LeftInverse; decide +kernel
  right_inv := by unfold Function.RightInverse Function.LeftInverse; decide +kernel

/-- Velocities on the mesh of three points. -/
def mirrorVelocity (q : Fin 3) (_ : Nat) : Fin 3 → ℚ :=
  if q = 0 then ![3, 4, 4] else if q = 1 then ![-3, 4, 4] else ![0, 1, 1]

/-- The hypotheses of C78, C81 and C82 are met by an object with two irreducible points on a mesh
of three points. -/
example : ∃ (op : Fin condExample.numOps ≃ Mirror) (ir : Fin condExample.numGp → Fin 3),
    Represents condExample op mirrorMatrix ∧ Reduced condExample op ir ∧
    Equivariant (mirrorMatrix ·) mirrorVelocity ∧
    (∀ (i : Fin condExample.numGp) l, condExample.velocity (i : Nat) l = mirrorVelocity (ir i) l) ∧
    yielded (condRun condExample (condInit (fun _ _ _ _ => 0) condExample)
      [none, some 1, none]).2 = List.range condExample.numGp := by
  refine ⟨mirrorOp,
    (![0, 2] : Fin 2 → Fin 3), ?_, ⟨⟨?_, ?_⟩, ?_⟩, ?_, ?_, ?_⟩
  · intro j a b
    change Fin 2 at j
    revert j a b
    decide +kernel
  · change DifferentStars Mirror (![0, 2] : Fin 2 → Fin 3)
    unfold DifferentStars
    decide +kernel
  · change ∀ q : Fin 3, ∃ (k : Fin 2) (g : Mirror), g • (![0, 2] : Fin 2 → Fin 3) k = q
    decide +kernel
  · intro i
    change Fin 2 at i
    revert i
    decide +kernel
  · intro g q l
    funext a
    show mirrorVelocity (g • q) 0 a = (mirrorMatrix g).mulVec (mirrorVelocity q 0) a
    revert g q a
    decide +kernel
  · intro i l
    change Fin 2 at i
    show condExample.velocity (i : Nat) 0 = mirrorVelocity ((![0, 2] : Fin 2 → Fin 3) i) 0
    revert i
    decide +kernel
  · decide +kernel

/-- The conductivity of this object: `(2 · 9 / 2 + 0) / 3` along `x` for unit heat capacity of the
first point. -/
example : tensorOf (kappaRTA (kappaInput condExample (condRun condExample
    (condInit (fun _ _ _ _ => 0) condExample) [none, some 1, none]).1 0 (fun _ _ => 5) 1
    (fun _ _ => 1) 1)) 0 0 = 3 := by
  decide +kernel

/-- The hypotheses of C80 are met by the same object. -/
example : TensorsOf condExample (kappaInput condExample (condRun condExample
    (condInit (fun _ _ _ _ => 0) condExample) [none, some 1, none]).1 0 (fun _ _ => 5) 1
    (fun _ _ => 1) 1) condExample.velocity := fun i hi l _ c =>
  (C41_results condExample _ [none, some 1, none] i (by
    rw [show yielded (condRun condExample (condInit (fun _ _ _ _ => 0) condExample)
      [none, some 1, none]).2 = List.range 2 by decide +kernel]
    exact List.mem_range.2 hi)).gvSum2 i (Nat.lt_succ_self i) l c

end Phono3py.Props
