/- C105, C106: products of velocity operators, and group velocity matrices. -/
import Verif.Props.Velocity
import Verif.Spec.DynMat
import Mathlib.Algebra.BigOperators.Group.List.Basic

namespace Phono3py.Props
open Phono3py.Spec Matrix

section
variable {K : Type} [Field K] {n : Nat}

theorem rotatedOperator_eq (r : Fin 3 → Fin 3 → K) (v : Fin 3 → BandMatrix n K) (s t : Fin n)
    (i : Fin 3) : rotatedOperator r v s t i = rotateC r (fun j => v j s t) i := by
  unfold rotatedOperator rotateC
  exact Finset.sum_congr rfl fun j _ => cscale_eq _ _

theorem list_sum_im {α : Type} (l : List α) (f : α → Cplx K) (h : ∀ a ∈ l, (f a).im = 0) :
    (l.map f).sum.im = 0 := by
  induction l with
  | nil => rfl
  | cons a l ih =>
    rw [List.map_cons, List.sum_cons, Cplx.add_im, h a List.mem_cons_self,
      ih fun b hb => h b (List.mem_cons_of_mem _ hb), add_zero]

theorem list_sum_star {α : Type} (l : List α) (f : α → Cplx K) :
    Star.star (l.map f).sum = (l.map fun a => Star.star (f a)).sum := by
  induction l with
  | nil => exact star_zero _
  | cons a l ih => rw [List.map_cons, List.map_cons, List.sum_cons, List.sum_cons, star_add, ih]

theorem star_scale (z : Cplx K) (r : K) : Star.star (z.scale r) = (Star.star z).scale r := by
  ext <;> simp [Cplx.scale, star_re, star_im]

theorem star_rotateC (r : Fin 3 → Fin 3 → K) (v : Fin 3 → Cplx K) (i : Fin 3) :
    Star.star (rotateC r v i) = rotateC r (fun j => Star.star (v j)) i := by
  unfold rotateC
  rw [star_sum]
  refine Finset.sum_congr rfl fun j _ => ?_
  rw [star_mul, star_real, mul_comm]

/-- **C105 (products).** The squared velocity operator of a pair of bands is the sum of the rotated
products, divided by the order of the little group. -/
theorem C105_products (rots : List (Fin 3 → Fin 3 → K)) (multi : Nat) (v : Fin 3 → BandMatrix n K)
    (s t : Fin n) (i j : Fin 3) :
    gvByGvOperator rots multi v s t i j = ((rots.map fun r =>
      rotateC r (fun k => v k s t) i * Star.star (rotateC r (fun k => v k s t) j)).sum).scale
        (1 / multi) := by
  unfold gvByGvOperator
  simp only [rotatedOperator_eq]

/-- **C105 (order of the pair).** Both orders of a pair of bands have the same real part, because the
operators are Hermitian. -/
theorem C105_pair_order (rots : List (Fin 3 → Fin 3 → K)) (multi : Nat)
    (v : Fin 3 → BandMatrix n K) (hv : ∀ k, (v k)ᴴ = v k) (s t : Fin n) (i j : Fin 3) :
    gvByGvOperator rots multi v t s i j = Star.star (gvByGvOperator rots multi v s t i j) := by
  rw [C105_products, C105_products, star_scale, list_sum_star]
  congr 3
  funext r
  have h : ∀ k, v k t s = Star.star (v k s t) := by
    intro k
    rw [← Matrix.conjTranspose_apply, hv]
  simp only [h, star_mul, star_star, ← star_rotateC]
  ring

/-- Together with `C83_order`: both orders of a pair contribute the same to the conductivity. -/
theorem C105_contribution [LinearOrder K] [IsStrictOrderedRing K] (k : WignerInput K) (i : Nat) (l m : Fin n)
    (rots : List (Fin 3 → Fin 3 → K)) (multi : Nat) (v : Fin 3 → BandMatrix n K)
    (hv : ∀ k, (v k)ᴴ = v k) (c : Fin 6)
    (hk : ∀ s t : Fin n, k.gvoSum2 i s t c = gvByGvOperator rots multi v s t (voigt c).1 (voigt c).2) :
    wignerContribution k i l m c = wignerContribution k i m l c := by
  refine C83_order k i l m c ?_
  rw [hk, hk, C105_pair_order rots multi v hv m l]
  rfl

/-- **C105 (symmetry).** The tensor of a pair of bands has the symmetry of every rotation `R` that
permutes the rotations by multiplication. -/
theorem C105_tensor_symmetry (rots : List (Fin 3 → Fin 3 → K)) (multi : Nat)
    (v : Fin 3 → BandMatrix n K) (R : Fin 3 → Fin 3 → K)
    (hR : (rots.map (rotMul R)).Perm rots) (s t : Fin n) (i j : Fin 3) :
    ∑ a, ∑ b, (gvByGvOperator rots multi v s t a b).scale (R i a * R j b) =
      gvByGvOperator rots multi v s t i j := by
  have hrot : ∀ r, ∀ i, rotateC (rotMul R r) (fun k => v k s t) i =
      ∑ a, rotateC r (fun k => v k s t) a * ⟨R i a, 0⟩ := by
    intro r i
    unfold rotateC rotMul
    simp only [Finset.sum_mul]
    rw [Finset.sum_comm]
    refine Finset.sum_congr rfl fun k _ => ?_
    have : (⟨∑ a, R i a * r a k, 0⟩ : Cplx K) = ∑ a, (⟨R i a * r a k, 0⟩ : Cplx K) := by
      simp only [Fin.sum_univ_three]
      ext <;> simp
    rw [this, Finset.mul_sum]
    refine Finset.sum_congr rfl fun a _ => ?_
    ext <;> simp <;> ring
  set F : (Fin 3 → Fin 3 → K) → Fin 3 → Fin 3 → Cplx K := fun r i j =>
    rotateC r (fun k => v k s t) i * Star.star (rotateC r (fun k => v k s t) j) with hF
  have hFR : ∀ r, F (rotMul R r) i j = ∑ a, ∑ b, (F r a b).scale (R i a * R j b) := by
    intro r
    simp only [hF, hrot, star_sum, star_mul, star_real, Finset.sum_mul, Finset.mul_sum, cscale_eq]
    rw [Finset.sum_comm]
    refine Finset.sum_congr rfl fun a _ => Finset.sum_congr rfl fun b _ => ?_
    have : (⟨R i a * R j b, 0⟩ : Cplx K) = ⟨R i a, 0⟩ * ⟨R j b, 0⟩ := by ext <;> simp
    rw [this]
    ring
  have hperm : (rots.map fun r => F r i j).sum = (rots.map fun r => F (rotMul R r) i j).sum := by
    rw [← (hR.map fun r => F r i j).sum_eq, List.map_map]
    rfl
  have hlin : ∀ l : List (Fin 3 → Fin 3 → K), (l.map fun r => ∑ a, ∑ b,
      (F r a b).scale (R i a * R j b)).sum =
        ∑ a, ∑ b, ((l.map fun r => F r a b).sum).scale (R i a * R j b) := by
    intro l
    induction l with
    | nil => simp [cscale_eq]
    | cons r l ih =>
      rw [List.map_cons, List.sum_cons, ih]
      simp only [List.map_cons, List.sum_cons, ← Finset.sum_add_distrib, cscale_eq, add_mul]
  rw [C105_products]
  change _ = ((rots.map fun r => F r i j).sum).scale (1 / multi)
  rw [hperm]
  simp only [hFR, hlin, C105_products]
  simp only [cscale_eq, Finset.sum_mul]
  refine Finset.sum_congr rfl fun a _ => Finset.sum_congr rfl fun b _ => ?_
  ring

end

section
variable {K : Type} [Field K] [LinearOrder K] [IsStrictOrderedRing K] {n : Nat}

/-- **C105 (sign).** Diagonal elements of the tensor are real and not negative. -/
theorem C105_nonneg (rots : List (Fin 3 → Fin 3 → K)) (multi : Nat) (v : Fin 3 → BandMatrix n K)
    (s t : Fin n) (i : Fin 3) :
    0 ≤ (gvByGvOperator rots multi v s t i i).re ∧ (gvByGvOperator rots multi v s t i i).im = 0 := by
  rw [C105_products]
  constructor
  · refine mul_nonneg ?_ (by positivity)
    induction rots with
    | nil => exact le_rfl
    | cons r l ih =>
      rw [List.map_cons, List.sum_cons, Cplx.add_re]
      refine add_nonneg ?_ ih
      simp only [Cplx.mul_re, star_re, star_im]
      nlinarith [mul_self_nonneg (rotateC r (fun k => v k s t) i).re,
        mul_self_nonneg (rotateC r (fun k => v k s t) i).im]
  · simp only [Cplx.scale]
    rw [list_sum_im]
    · rw [zero_mul]
    · intro r _
      simp only [Cplx.mul_im, star_re, star_im]
      ring

/-! ### C106: group velocity matrices -/

/-- **C106 (formula).** An element of the group velocity matrix of two modes above the cutoff is the
derivative of the dynamical matrix between the two eigenvectors, over
`sqrt (2 f) sqrt (2 f')`; other elements are zero. -/
theorem C106_formula (sqrt : K → K) (factor cutoff : K) (freqs : Fin n → K) (E ddm : BandMatrix n K)
    (s t : Fin n) :
    groupVelocityMatrix sqrt factor cutoff freqs E ddm s t =
      if cutoff < freqs s ∧ cutoff < freqs t then
        (braket E ddm s t).scale (factor ^ 2 / (sqrt (2 * freqs s) * sqrt (2 * freqs t)))
      else 0 := by
  have h : groupVelocityMatrix sqrt factor cutoff freqs E ddm s t =
      (braket E ddm s t).scale (factor ^ 2 *
        ((if cutoff < freqs s then 1 / sqrt (2 * freqs s) else 0) *
          (if cutoff < freqs t then 1 / sqrt (2 * freqs t) else 0))) := by
    simp only [groupVelocityMatrix, Matrix.mul_apply, Matrix.conjTranspose_apply, Matrix.map_apply,
      scaledVecs, gt_iff_lt, Finset.mul_sum, braket, cscale_eq, Finset.sum_mul, star_mul, star_real]
    refine Finset.sum_congr rfl fun a _ => Finset.sum_congr rfl fun b _ => ?_
    have e : ∀ x y z : K, (⟨x * (y * z), 0⟩ : Cplx K) = ⟨x, 0⟩ * ⟨y, 0⟩ * ⟨z, 0⟩ := by
      intro x y z; ext <;> simp; ring
    rw [e]
    by_cases h1 : cutoff < freqs s <;> by_cases h2 : cutoff < freqs t <;> simp only [h1, h2, if_true,
      if_false] <;> ring
  rw [h]
  by_cases h1 : cutoff < freqs s <;> by_cases h2 : cutoff < freqs t
  · simp only [h1, h2, if_true, and_self]
    congr 1
    rw [div_mul_div_comm, mul_one, ← mul_div_assoc, mul_one]
  all_goals simp [h1, h2, Cplx.scale]; rfl

/-- **C106 (diagonal).** On the diagonal this is the Hellmann-Feynman group velocity
`⟨e| dD/dq |e⟩ / (2 f)`. -/
theorem C106_diagonal {sqrt : K → K} (hs : IsSqrt sqrt) (factor : K) {cutoff : K} (hc : 0 ≤ cutoff)
    (freqs : Fin n → K) (E ddm : BandMatrix n K) (s : Fin n) (h : cutoff < freqs s) :
    groupVelocityMatrix sqrt factor cutoff freqs E ddm s s =
      (braket E ddm s s).scale (factor ^ 2 / (2 * freqs s)) := by
  rw [C106_formula, if_pos ⟨h, h⟩, hs.sq]
  linarith

/-- **C106 (Hermitian).** -/
theorem C106_hermitian (sqrt : K → K) (factor cutoff : K) (freqs : Fin n → K) (E ddm : BandMatrix n K)
    (hd : ddmᴴ = ddm) :
    (groupVelocityMatrix sqrt factor cutoff freqs E ddm)ᴴ =
      groupVelocityMatrix sqrt factor cutoff freqs E ddm := by
  simp only [groupVelocityMatrix, map_scale]
  rw [Matrix.conjTranspose_mul, Matrix.conjTranspose_mul, Matrix.conjTranspose_smul, star_real, hd,
    Matrix.conjTranspose_conjTranspose, Matrix.mul_assoc]

theorem symmetrizeGvm_apply (rots : List (Fin 3 → Fin 3 → K)) (gvm : Fin 3 → BandMatrix n K)
    (i : Fin 3) (s t : Fin n) : symmetrizeGvm rots gvm i s t =
      (((rots.map fun r => ∑ j, (gvm j s t).scale (r i j)).sum).scale (1 / (rots.length : K)) +
        Star.star (((rots.map fun r => ∑ j, (gvm j t s).scale (r i j)).sum).scale
          (1 / (rots.length : K)))).scale (1 / 2) := rfl

/-- **C106 (Hermitian with symmetry).** -/
theorem C106_symmetrized_hermitian (rots : List (Fin 3 → Fin 3 → K)) (gvm : Fin 3 → BandMatrix n K)
    (i : Fin 3) : (symmetrizeGvm rots gvm i)ᴴ = symmetrizeGvm rots gvm i := by
  ext1 s t
  rw [Matrix.conjTranspose_apply, symmetrizeGvm_apply, symmetrizeGvm_apply, star_scale, star_add,
    star_star, add_comm]

theorem list_sum_const {α : Type} (l : List α) (z : Cplx K) (f : α → Cplx K) (h : ∀ a ∈ l, f a = z) :
    (l.map f).sum = z.scale l.length := by
  induction l with
  | nil => ext <;> simp [Cplx.scale]
  | cons a l ih =>
    rw [List.map_cons, List.sum_cons, h a List.mem_cons_self,
      ih fun b hb => h b (List.mem_cons_of_mem _ hb)]
    ext <;> simp [Cplx.scale] <;> ring

/-- **C106 (symmetry), in part.** The average over the rotations that leave `q` unchanged keeps
velocities that are Hermitian and invariant under these rotations, element by element. Missing:
elements between modes of different symmetry are not invariant, and are lost
(`C106_interband_erased`). -/
theorem C106_symmetrized_partial (rots : List (Fin 3 → Fin 3 → K)) (hne : rots ≠ [])
    (gvm : Fin 3 → BandMatrix n K) (hh : ∀ i, (gvm i)ᴴ = gvm i)
    (hinv : ∀ r ∈ rots, ∀ s t i, rotateC r (fun j => gvm j s t) i = gvm i s t) (i : Fin 3) :
    symmetrizeGvm rots gvm i = gvm i := by
  have hlen : (rots.length : K) ≠ 0 := by
    rw [Nat.cast_ne_zero]
    exact fun h => hne (List.length_eq_zero_iff.1 h)
  have havg : ∀ s t, ((rots.map fun r => ∑ j, (gvm j s t).scale (r i j)).sum).scale
      (1 / (rots.length : K)) = gvm i s t := by
    intro s t
    rw [list_sum_const rots (gvm i s t)]
    · ext <;> simp [Cplx.scale] <;> field_simp
    · intro r hr
      rw [← hinv r hr s t i]
      unfold rotateC
      exact Finset.sum_congr rfl fun j _ => cscale_eq _ _
  ext1 s t
  rw [symmetrizeGvm_apply, havg, havg, ← Matrix.conjTranspose_apply, hh]
  ext <;> simp [Cplx.scale] <;> ring

/-- **C106 (invariance).** The symmetrised velocities are invariant under the rotations that permute
the list by multiplication. -/
theorem C106_invariant (rots : List (Fin 3 → Fin 3 → K)) (gvm : Fin 3 → BandMatrix n K)
    (R : Fin 3 → Fin 3 → K) (hR : (rots.map (rotMul R)).Perm rots) (s t : Fin n) (i : Fin 3) :
    rotateC R (fun j => symmetrizeGvm rots gvm j s t) i = symmetrizeGvm rots gvm i s t := by
  set F : Fin n → Fin n → (Fin 3 → Fin 3 → K) → Fin 3 → Cplx K := fun s t r i =>
    ∑ j, (gvm j s t).scale (r i j) with hF
  have hform : ∀ i, symmetrizeGvm rots gvm i s t =
      (((rots.map fun r => F s t r i).sum).scale (1 / (rots.length : K)) +
        Star.star (((rots.map fun r => F t s r i).sum).scale (1 / (rots.length : K)))).scale
          (1 / 2) := by
    intro i
    rw [symmetrizeGvm_apply]
  have hFR : ∀ s t r, F s t (rotMul R r) i = ∑ a, (F s t r a).scale (R i a) := by
    intro s t r
    simp only [hF, rotMul, cscale_eq, Finset.sum_mul]
    rw [Finset.sum_comm]
    refine Finset.sum_congr rfl fun k _ => ?_
    have : (⟨∑ a, R i a * r a k, 0⟩ : Cplx K) = ∑ a, (⟨R i a * r a k, 0⟩ : Cplx K) := by
      simp only [Fin.sum_univ_three]
      ext <;> simp
    rw [this, Finset.mul_sum]
    refine Finset.sum_congr rfl fun a _ => ?_
    ext <;> simp <;> ring
  have hlin : ∀ s t, ∀ l : List (Fin 3 → Fin 3 → K), (l.map fun r => ∑ a,
      (F s t r a).scale (R i a)).sum = ∑ a, ((l.map fun r => F s t r a).sum).scale (R i a) := by
    intro s t l
    induction l with
    | nil => simp [cscale_eq]
    | cons r l ih =>
      rw [List.map_cons, List.sum_cons, ih]
      simp only [List.map_cons, List.sum_cons, ← Finset.sum_add_distrib, cscale_eq, add_mul]
  have hperm : ∀ s t, (rots.map fun r => F s t r i).sum =
      ∑ a, ((rots.map fun r => F s t r a).sum).scale (R i a) := by
    intro s t
    rw [← hlin s t, ← (hR.map fun r => F s t r i).sum_eq, List.map_map]
    congr 1
    refine List.map_congr_left fun r _ => ?_
    exact hFR s t r
  rw [hform i, hperm s t, hperm t s]
  unfold rotateC
  simp only [hform, cscale_eq, Finset.sum_mul, star_sum, star_mul, star_real, add_mul,
    Finset.sum_add_distrib]
  congr 1 <;> refine Finset.sum_congr rfl fun a _ => ?_ <;> ring

/-- The opposite of a rotation. -/
def rotNeg (r : Fin 3 → Fin 3 → K) : Fin 3 → Fin 3 → K := fun i j => -r i j

/-- C106 fails: where inversion or time reversal leaves the wave vector unchanged, as at the zone
centre, all elements of the group velocity matrix are erased, not only those on the diagonal. -/
theorem C106_interband_erased (rots : List (Fin 3 → Fin 3 → K))
    (hneg : (rots.map rotNeg).Perm rots) (gvm : Fin 3 → BandMatrix n K) (i : Fin 3) :
    symmetrizeGvm rots gvm i = 0 := by
  have hsum : ∀ s t, (rots.map fun r => ∑ j, (gvm j s t).scale (r i j)).sum = 0 := by
    intro s t
    set F : (Fin 3 → Fin 3 → K) → Cplx K := fun r => ∑ j, (gvm j s t).scale (r i j) with hF
    have h1 : (rots.map F).sum = (rots.map fun r => F (rotNeg r)).sum := by
      rw [← (hneg.map F).sum_eq, List.map_map]
      rfl
    have h2 : ∀ r, F (rotNeg r) = -F r := by
      intro r
      simp only [hF, rotNeg, ← Finset.sum_neg_distrib]
      refine Finset.sum_congr rfl fun j _ => ?_
      ext <;> simp [Cplx.scale]
    have h3 : ∀ l : List (Fin 3 → Fin 3 → K), (l.map fun r => F (rotNeg r)).sum =
        -(l.map F).sum := by
      intro l
      induction l with
      | nil => simp
      | cons r l ih => rw [List.map_cons, List.map_cons, List.sum_cons, List.sum_cons, ih, h2]; ring
    rw [h3] at h1
    have e1 := congrArg Cplx.re h1
    have e2 := congrArg Cplx.im h1
    simp only [Cplx.neg_re, Cplx.neg_im] at e1 e2
    ext
    · simp only [Cplx.zero_re]; linarith
    · simp only [Cplx.zero_im]; linarith
  ext1 s t
  rw [symmetrizeGvm_apply, hsum, hsum, Matrix.zero_apply]
  ext <;> simp [Cplx.scale, star_re, star_im]

/-- C106: exactly those operations are used that map the reduced `q` to itself within the tolerance;
`mulVec` is the product of the operation with `q`. -/
theorem C106_little_group (rint : K → K) (tol : K) (ops : List (Fin 3 → Fin 3 → K)) (q : Fin 3 → K)
    (r : Fin 3 → Fin 3 → K) : r ∈ rotationsAtQ rint tol ops q ↔ r ∈ ops ∧
      ∀ d, |(q d - rint (q d)) - Matrix.mulVec r (fun e => q e - rint (q e)) d| <
        tol := by
  unfold rotationsAtQ
  rw [List.mem_filter, decide_eq_true_eq]
  rfl

/-- C106: at the zone centre every operation of the crystal is used. -/
theorem C106_all_at_gamma (rint : K → K) (hr : rint 0 = 0) {tol : K} (ht : 0 < tol)
    (ops : List (Fin 3 → Fin 3 → K)) : rotationsAtQ rint tol ops (fun _ => 0) = ops := by
  unfold rotationsAtQ
  rw [List.filter_eq_self]
  intro r _
  simp [hr, ht]

/-- **C106 (phases).** The products summed over the images of `q` do not depend on the phases of the
eigenvectors at any of them. -/
theorem C106_phase {ι : Type} (sqrt : K → K) (factor cutoff : K) (freqs : Fin n → K)
    (images : List ι) (vecs : ι → BandMatrix n K) (ddm : ι → Fin 3 → BandMatrix n K)
    (u : ι → Fin n → Cplx K) (hu : ∀ r s, Star.star (u r s) * u r s = 1)
    (multi : Nat) (a b : Fin 3) (s t : Fin n) :
    gvmByGvm (images.map fun r i => groupVelocityMatrix sqrt factor cutoff freqs
        (vecs r * Matrix.diagonal (u r)) (ddm r i)) multi a b s t =
      gvmByGvm (images.map fun r i => groupVelocityMatrix sqrt factor cutoff freqs
        (vecs r) (ddm r i)) multi a b s t := by
  unfold gvmByGvm
  rw [List.map_map, List.map_map]
  congr 2
  refine List.map_congr_left fun r _ => ?_
  simp only [Function.comp, C106_formula]
  have hb : ∀ (A : BandMatrix n K) (s t : Fin n), braket (vecs r * Matrix.diagonal (u r)) A s t =
      Star.star (u r s) * u r t * braket (vecs r) A s t := by
    intro A s t
    unfold braket
    simp only [Finset.mul_sum, Matrix.mul_diagonal, star_mul]
    refine Finset.sum_congr rfl fun x _ => Finset.sum_congr rfl fun y _ => ?_
    ring
  by_cases h : cutoff < freqs s ∧ cutoff < freqs t
  · rw [if_pos h, if_pos h.symm, if_pos h, if_pos h.symm]
    simp only [cscale_eq, hb]
    have h1 := hu r s
    have h2 := hu r t
    generalize braket (vecs r) (ddm r a) s t = x
    generalize braket (vecs r) (ddm r b) t s = y
    generalize (⟨factor ^ 2 / (sqrt (2 * freqs s) * sqrt (2 * freqs t)), 0⟩ : Cplx K) = p
    generalize (⟨factor ^ 2 / (sqrt (2 * freqs t) * sqrt (2 * freqs s)), 0⟩ : Cplx K) = p'
    linear_combination (x * p * y * p' * (Star.star (u r t) * u r t)) * h1 + x * p * y * p' * h2
  · rw [if_neg h, if_neg h]
    ring

/-- **C106 (sign).** With Hermitian matrices the squares are real and not negative. -/
theorem C106_square_nonneg (images : List (Fin 3 → BandMatrix n K))
    (hh : ∀ g ∈ images, ∀ i, (g i)ᴴ = g i) (multi : Nat) (a : Fin 3) (s t : Fin n) :
    0 ≤ (gvmByGvm images multi a a s t).re ∧ (gvmByGvm images multi a a s t).im = 0 := by
  have hp : ∀ g ∈ images, g a s t * g a t s = g a s t * Star.star (g a s t) := by
    intro g hg
    rw [← Matrix.conjTranspose_apply, hh g hg]
  have hsum : (images.map fun (g : Fin 3 → BandMatrix n K) => g a s t * g a t s) =
      images.map fun (g : Fin 3 → BandMatrix n K) => g a s t * Star.star (g a s t) :=
    List.map_congr_left hp
  unfold gvmByGvm
  rw [hsum]
  constructor
  · refine mul_nonneg ?_ (by positivity)
    clear hsum hp hh
    induction images with
    | nil => exact le_rfl
    | cons g l ih =>
      rw [List.map_cons, List.sum_cons, Cplx.add_re]
      refine add_nonneg ?_ ih
      simp only [Cplx.mul_re, star_re, star_im]
      nlinarith [mul_self_nonneg (g a s t).re, mul_self_nonneg (g a s t).im]
  · simp only [Cplx.scale]
    rw [list_sum_im]
    · rw [zero_mul]
    · intro r _
      simp only [Cplx.mul_im, star_re, star_im]
      ring

end
end Phono3py.Props
