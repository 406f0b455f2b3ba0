import Verif.Spec.DeltaFc2
import Verif.Lemmas.Fc3Solve
import Mathlib.Data.Matrix.Basic
import Mathlib.LinearAlgebra.Matrix.NonsingularInverse
import Mathlib.Algebra.BigOperators.Fin
import Mathlib.Tactic.Linarith
import Mathlib.Tactic.FieldSimp

/-! Lemmas for fc3 from the forces of generated displacements. -/

namespace Phono3py

open Matrix Spec

section fit
variable {K : Type} [Field K] [LinearOrder K] [IsStrictOrderedRing K]

theorem residual_split (rows : List (Vec K × Vec K)) (X0 X : FcBlock K)
    (hn : ∀ a b, (rows.map fun p => p.1 a * (p.2 b + (p.1 ᵥ* X0) b)).sum = 0) :
    residual rows X = residual rows X0 +
      (rows.map fun p => ∑ b, ((p.1 ᵥ* (X - X0)) b) ^ 2).sum := by
  unfold residual
  have key : ∀ p : Vec K × Vec K, ∑ b, ((p.1 ᵥ* X) b + p.2 b) ^ 2 =
      ∑ b, ((p.1 ᵥ* X0) b + p.2 b) ^ 2 + ∑ b, ((p.1 ᵥ* (X - X0)) b) ^ 2 +
        ∑ b, ∑ a, 2 * ((X - X0) a b) * (p.1 a * (p.2 b + (p.1 ᵥ* X0) b)) := by
    intro p
    rw [← Finset.sum_add_distrib, ← Finset.sum_add_distrib]
    refine Finset.sum_congr rfl fun b _ => ?_
    have e1 : (p.1 ᵥ* X) b = (p.1 ᵥ* X0) b + (p.1 ᵥ* (X - X0)) b := by
      rw [Matrix.vecMul_sub]; simp
    have e2 : ∑ a, 2 * ((X - X0) a b) * (p.1 a * (p.2 b + (p.1 ᵥ* X0) b)) =
        2 * (p.1 ᵥ* (X - X0)) b * (p.2 b + (p.1 ᵥ* X0) b) := by
      have : (p.1 ᵥ* (X - X0)) b = ∑ a, p.1 a * (X - X0) a b := rfl
      rw [this, Finset.mul_sum, Finset.sum_mul]
      exact Finset.sum_congr rfl fun a _ => by ring
    rw [e1, e2]; ring
  rw [List.map_congr_left (fun p _ => key p)]
  rw [List.sum_map_add, List.sum_map_add]
  have h0 : (rows.map fun p => ∑ b, ∑ a, 2 * ((X - X0) a b) *
      (p.1 a * (p.2 b + (p.1 ᵥ* X0) b))).sum = 0 := by
    simp only [← Fin.sum_univ_fun_getElem]
    rw [Finset.sum_comm]
    refine Finset.sum_eq_zero fun b _ => ?_
    rw [Finset.sum_comm]
    refine Finset.sum_eq_zero fun a _ => ?_
    rw [← Finset.mul_sum]
    have := hn a b
    rw [← Fin.sum_univ_fun_getElem] at this
    rw [this, mul_zero]
  rw [h0, add_zero]

/-- A least-squares fit to spanning displacements is the solution of the normal equations. -/
theorem fit_eq (rows : List (Vec K × Vec K)) (X0 X : FcBlock K) (hX : IsFit rows X)
    (hs : Spanning (rows.map fun p => p.1))
    (hn : ∀ a b, (rows.map fun p => p.1 a * (p.2 b + (p.1 ᵥ* X0) b)).sum = 0) : X = X0 := by
  have h1 := hX X0
  rw [residual_split rows X0 X hn] at h1
  have hnn : ∀ x ∈ rows.map fun p => ∑ b, ((p.1 ᵥ* (X - X0)) b) ^ 2, 0 ≤ x := by
    intro x hx
    obtain ⟨p, -, rfl⟩ := List.mem_map.1 hx
    exact Finset.sum_nonneg fun b _ => sq_nonneg _
  have h2 : (rows.map fun p => ∑ b, ((p.1 ᵥ* (X - X0)) b) ^ 2).sum = 0 :=
    le_antisymm (by linarith) (List.sum_nonneg hnn)
  have h3 : ∀ p ∈ rows, ∑ b, ((p.1 ᵥ* (X - X0)) b) ^ 2 = 0 := by
    intro p hp
    have := List.single_le_sum hnn _ (List.mem_map_of_mem (f := fun p : Vec K × Vec K =>
      ∑ b, ((p.1 ᵥ* (X - X0)) b) ^ 2) hp)
    rw [h2] at this
    exact le_antisymm this (hnn _ (List.mem_map_of_mem hp))
  have h4 : X - X0 = 0 := by
    ext a b
    have : (fun a => (X - X0) a b) = 0 := by
      apply hs
      intro v hv
      obtain ⟨p, hp, rfl⟩ := List.mem_map.1 hv
      have := (Finset.sum_eq_zero_iff_of_nonneg (fun b _ => sq_nonneg _)).1 (h3 p hp) b
        (Finset.mem_univ b)
      exact pow_eq_zero_iff (two_ne_zero) |>.1 this
    exact congrFun this a
  exact sub_eq_zero.1 h4

end fit

section moments
variable {K : Type} [Field K] [LinearOrder K] [IsStrictOrderedRing K]

theorem sum_right {B : List Rot} (h : RotGroup B) {r : Rot} (hr : r ∈ B)
    (g : Rot → K) : (B.map fun s => g (s * r)).sum = (B.map g).sum := by
  obtain ⟨t, ht, htr', htr⟩ := h.inv r hr
  have hinj : Function.Injective fun s : Rot => s * r := by
    intro s s' he
    have := congrArg (· * t) he
    simpa only [mul_assoc, htr, mul_one] using this
  have hp : (B.map fun s => s * r).Perm B := by
    rw [List.perm_ext_iff_of_nodup (h.nodup.map hinj) h.nodup]
    intro s
    constructor
    · intro hs
      obtain ⟨q, hq, rfl⟩ := List.mem_map.1 hs
      exact h.mul q hq r hr
    · intro hs
      refine List.mem_map.2 ⟨s * t, h.mul s hs t ht, ?_⟩
      simp only [mul_assoc, htr', mul_one]
  have := (hp.map g).sum_eq
  rw [List.map_map] at this
  exact this

theorem turnVec_mul (r s : Rot) (x : Vec K) : turnVec (r * s) x = turnVec r (turnVec s x) := by
  unfold turnVec
  rw [Matrix.mulVec_mulVec]
  congr 1
  exact Matrix.map_mul (f := Int.castRingHom K)

theorem turnVec_cast (r : Rot) (d : Vec Int) :
    turnVec r (fun i => (d i : K)) = fun i => ((r *ᵥ d) i : K) := by
  funext i
  simp [turnVec, Matrix.mulVec, dotProduct]

theorem turnVec_neg (r : Rot) (x : Vec K) : turnVec r (-x) = -turnVec r x := by
  unfold turnVec; rw [Matrix.mulVec_neg]

theorem sum_map_neg' {α : Type} (l : List α) (g : α → K) :
    (l.map fun x => -g x).sum = -(l.map g).sum := by
  induction l with
  | nil => simp
  | cons x l ih => simp only [List.map_cons, List.sum_cons, ih]; ring

/-- Odd functions of the turned directions add up to zero. -/
theorem odd_sum {T : FcTools K} {B : List Rot} (hB : RotGroup B)
    (hm : ∀ d, T.isMinus d B = false → ∃ r ∈ B, r *ᵥ d = -d)
    (g : Vec Int → Vec K → K) (hd : ∀ d, g (-d) = g d) (hg : ∀ d v, g d (-v) = -g d v)
    (l : List (Vec Int)) :
    ((l.flatMap fun d => if T.isMinus d B then [d, -d] else [d]).map fun d =>
      (B.map fun r => g d (turnVec r fun i => (d i : K))).sum).sum = 0 := by
  have hneg : ∀ d : Vec Int, (B.map fun r => g d (turnVec r fun i => (((-d) i : Int) : K))).sum =
      -(B.map fun r => g d (turnVec r fun i => (d i : K))).sum := by
    intro d
    have : ∀ r, g d (turnVec r fun i => (((-d) i : Int) : K)) =
        -g d (turnVec r fun i => (d i : K)) := by
      intro r
      rw [← hg, ← turnVec_neg]
      congr 2
      funext i; simp
    simp only [this]
    exact sum_map_neg' _ _
  induction l with
  | nil => simp
  | cons d l ih =>
    rw [List.flatMap_cons, List.map_append, List.sum_append, ih, add_zero]
    by_cases hd' : T.isMinus d B
    · rw [if_pos hd']
      simp only [List.map_cons, List.map_nil, List.sum_cons, List.sum_nil]
      rw [hd, hneg]; ring
    · rw [if_neg hd']
      simp only [List.map_cons, List.map_nil, List.sum_cons, List.sum_nil, add_zero]
      obtain ⟨r, hr, he⟩ := hm d (by simpa using hd')
      have h1 := sum_right hB hr fun s => g d (turnVec s fun i => (d i : K))
      have h2 : ∀ s, g d (turnVec (s * r) fun i => (d i : K)) =
          g d (turnVec s fun i => (((-d) i : Int) : K)) := by
        intro s; rw [turnVec_mul, turnVec_cast, he]
      simp only [h2] at h1
      rw [hneg] at h1
      linarith

end moments

section forces
variable {K : Type} [Field K] [LinearOrder K] [IsStrictOrderedRing K]

theorem sum_point {n p : Nat} (hp : p < n) (u : Vec K) (w : Nat → Fin 3 → K) :
    ∑ i ∈ Finset.range n, ∑ a, point p u i a * w i a = ∑ a, u a * w p a := by
  rw [Finset.sum_eq_single p]
  · simp [point]
  · intro i _ hi
    exact Finset.sum_eq_zero fun a _ => by simp [point, hi]
  · intro h; exact absurd (Finset.mem_range.2 hp) h

/-- The part of the force quadratic in the displacements. -/
theorem quad_points {n p q : Nat} (hp : p < n) (hq : q < n) (u v : Vec K) (f : Legs → K)
    (k : Nat) (b : Fin 3) :
    ∑ i ∈ Finset.range n, ∑ j ∈ Finset.range n, ∑ a, ∑ c,
      point p u i a * point q v j c * f ![(i, (a : Fin 3)), (j, (c : Fin 3)), (k, b)] =
    (v ᵥ* inducedBlock f p u q k) b := by
  have e : ∀ i, ∑ j ∈ Finset.range n, ∑ a : Fin 3, ∑ c : Fin 3,
      point p u i a * point q v j c * f ![(i, (a : Nat)), (j, (c : Nat)), (k, (b : Nat))] =
      ∑ a : Fin 3, point p u i a * ∑ c : Fin 3, v c *
        f ![(i, (a : Nat)), (q, (c : Nat)), (k, (b : Nat))] := by
    intro i
    rw [Finset.sum_comm]
    refine Finset.sum_congr rfl fun a _ => ?_
    rw [← sum_point hq v fun j c => f ![(i, (a : Nat)), (j, (c : Nat)), (k, (b : Nat))],
      Finset.mul_sum]
    refine Finset.sum_congr rfl fun j _ => ?_
    rw [Finset.mul_sum]
    exact Finset.sum_congr rfl fun c _ => by ring
  rw [Finset.sum_congr rfl fun i _ => e i, sum_point hp u fun i a => ∑ c : Fin 3, v c *
    f ![(i, (a : Nat)), (q, (c : Nat)), (k, (b : Nat))]]
  simp only [Matrix.vecMul, dotProduct, inducedBlock, Finset.mul_sum]
  rw [Finset.sum_comm]
  exact Finset.sum_congr rfl fun c _ => Finset.sum_congr rfl fun a _ => by ring

/-- Change of the forces by the second displacement. -/
theorem force_change {n p q : Nat} (hp : p < n) (hq : q < n) (f0 : Nat → Vec K)
    (p2 : Nat → Nat → FcBlock K) (f : Legs → K) (hf : PermutationSymmetric n f) (u v : Vec K)
    {k : Nat} (hk : k < n) :
    crystalForce n f0 p2 f (point p u + point q v) k - crystalForce n f0 p2 f (point p u) k =
      -(v ᵥ* (p2 q k + inducedBlock f p u q k)) - (2 : K)⁻¹ • (v ᵥ* inducedBlock f q v q k) := by
  funext b
  simp only [crystalForce, Pi.sub_apply, Pi.neg_apply, Pi.smul_apply, smul_eq_mul, Pi.add_apply]
  have h1 : ∑ i ∈ Finset.range n, ∑ a, (point p u i a + point q v i a) * p2 i k a b =
      ∑ i ∈ Finset.range n, ∑ a, point p u i a * p2 i k a b + (v ᵥ* p2 q k) b := by
    rw [show (v ᵥ* p2 q k) b = ∑ a, v a * p2 q k a b from rfl,
      ← sum_point hq v fun i a => p2 i k a b, ← Finset.sum_add_distrib]
    refine Finset.sum_congr rfl fun i _ => ?_
    rw [← Finset.sum_add_distrib]
    exact Finset.sum_congr rfl fun a _ => by ring
  have hsym : inducedBlock f q v p k = fun (l m : Fin 3) => ∑ c : Fin 3, v c *
      f ![(p, (l : Nat)), (q, (c : Nat)), (k, (m : Nat))] := by
    funext l m
    refine Finset.sum_congr rfl fun c _ => ?_
    have := hf ![(p, (l : Nat)), (q, (c : Nat)), (k, (m : Nat))] (by
      intro s; fin_cases s
      · exact ⟨hp, l.2⟩
      · exact ⟨hq, c.2⟩
      · exact ⟨hk, m.2⟩) (Equiv.swap 0 1)
    rw [← this]
    congr 2
    funext s; fin_cases s <;> rfl
  have h3 : (u ᵥ* inducedBlock f q v p k) b = (v ᵥ* inducedBlock f p u q k) b := by
    rw [hsym]
    simp only [Matrix.vecMul, dotProduct, inducedBlock, Finset.mul_sum]
    rw [Finset.sum_comm]
    exact Finset.sum_congr rfl fun c _ => Finset.sum_congr rfl fun a _ => by ring
  have h2 : ∑ i ∈ Finset.range n, ∑ j ∈ Finset.range n, ∑ a : Fin 3, ∑ c : Fin 3,
      (point p u i a + point q v i a) * (point p u j c + point q v j c) *
        f ![(i, (a : Nat)), (j, (c : Nat)), (k, (b : Nat))] =
      (∑ i ∈ Finset.range n, ∑ j ∈ Finset.range n, ∑ a : Fin 3, ∑ c : Fin 3,
        point p u i a * point p u j c * f ![(i, (a : Nat)), (j, (c : Nat)), (k, (b : Nat))]) +
      2 * (v ᵥ* inducedBlock f p u q k) b + (v ᵥ* inducedBlock f q v q k) b := by
    have hpq := quad_points hp hq u v f k b
    have hqp := quad_points hq hp v u f k b
    have hqq := quad_points hq hq v v f k b
    rw [h3] at hqp
    rw [two_mul]
    nth_rewrite 1 [← hpq]
    rw [← hqp, ← hqq]
    simp only [← Finset.sum_add_distrib]
    exact Finset.sum_congr rfl fun i _ => Finset.sum_congr rfl fun j _ =>
      Finset.sum_congr rfl fun a _ => Finset.sum_congr rfl fun c _ => by ring
  rw [h1, h2, Matrix.vecMul_add]
  simp only [Pi.add_apply]
  field_simp
  ring

theorem induced_turn {n : Nat} {σ : Nat → Nat} {C : FcBlock K} {f : Legs → K}
    (h : InvariantUnder n σ (natMat C) f) (hC : Cᵀ * C = 1) {p i j : Nat} (hp : p < n) (hi : i < n)
    (hj : j < n) (u : Vec K) :
    inducedBlock f (σ p) (C *ᵥ u) (σ i) (σ j) = C * inducedBlock f p u i j * Cᵀ := by
  have hu : u = Cᵀ *ᵥ (C *ᵥ u) := by rw [Matrix.mulVec_mulVec, hC, Matrix.one_mulVec]
  generalize C *ᵥ u = w at hu
  subst hu
  have hval : ∀ a b c : Fin 3, f ![(σ p, (a : Nat)), (σ i, (b : Nat)), (σ j, (c : Nat))] =
      ∑ a' : Fin 3, ∑ b' : Fin 3, ∑ c' : Fin 3, C a a' * C b b' * C c c' *
        f ![(p, (a' : Nat)), (i, (b' : Nat)), (j, (c' : Nat))] := by
    intro a b c
    have := h ![(p, (a : Nat)), (i, (b : Nat)), (j, (c : Nat))] (by
      intro s; fin_cases s
      · exact ⟨hp, a.2⟩
      · exact ⟨hi, b.2⟩
      · exact ⟨hj, c.2⟩)
    rw [moveAtoms_set] at this
    rw [this]
    have hN : ∀ a b : Fin 3, natMat C (a : Nat) (b : Nat) = C a b := by
      intro a b
      unfold natMat
      rw [Fin.ofNat_val_eq_self, Fin.ofNat_val_eq_self]
    change ∑ a' ∈ Finset.range 3, ∑ b' ∈ Finset.range 3, ∑ c' ∈ Finset.range 3,
      natMat C a a' * natMat C b b' * natMat C c c' * f ![(p, a'), (i, b'), (j, c')] = _
    simp only [Finset.sum_range, hN]
  ext l m
  simp only [inducedBlock, hval, Matrix.mul_apply, Matrix.transpose_apply, Matrix.mulVec,
    dotProduct, Fin.sum_univ_three]
  ring

/-- fc2 of the crystal with atom `p` displaced by `u`. -/
def displacedFc2 (p2 : Nat → Nat → FcBlock K) (f : Legs → K) (p : Nat) (u : Vec K) (i j : Nat) :
    FcBlock K := p2 i j + inducedBlock f p u i j

theorem vecMul_turn (C M : FcBlock K) (hC : Cᵀ * C = 1) (v : Vec K) :
    (C *ᵥ v) ᵥ* (C * M * Cᵀ) = C *ᵥ (v ᵥ* M) := by
  rw [← Matrix.vecMul_transpose, Matrix.vecMul_vecMul, ← Matrix.mul_assoc, ← Matrix.mul_assoc, hC,
    Matrix.one_mul, ← Matrix.vecMul_vecMul, Matrix.vecMul_transpose]

end forces

end Phono3py
