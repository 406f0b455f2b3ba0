/- Linear algebra for the internal relaxation of a strained crystal. -/
import Verif.Spec.Gruneisen
import Mathlib.LinearAlgebra.Matrix.NonsingularInverse
import Mathlib.Algebra.BigOperators.Fin
import Mathlib.Tactic.Ring

namespace Phono3py
open Phono3py.Spec Finset

section
variable {K : Type} [Field K] [LinearOrder K] [IsStrictOrderedRing K]

/-- The symmetric matrix from its eigenvalues. -/
theorem realEigen_matrix {n : Nat} {A : Nat → Nat → K} {vals : Nat → K} {vecs : Nat → Nat → K}
    (h : RealEigen n A vals vecs) {a b : Nat} (ha : a < n) (hb : b < n) :
    A a b = ∑ s ∈ range n, vals s * vecs a s * vecs b s := by
  have h1 : A a b = ∑ x ∈ range n, A a x * (if x = b then 1 else 0) := by
    rw [Finset.sum_eq_single b]
    · simp
    · intro x _ hx
      simp [hx]
    · intro hn
      exact absurd (mem_range.2 hb) hn
  rw [h1]
  have h2 : ∀ x ∈ range n, A a x * (if x = b then 1 else 0) =
      ∑ s ∈ range n, A a x * (vecs x s * vecs b s) := by
    intro x hx
    rw [← h.complete x (mem_range.1 hx) b hb, Finset.mul_sum]
  rw [Finset.sum_congr rfl h2, Finset.sum_comm]
  refine Finset.sum_congr rfl fun s hs => ?_
  rw [← h.eigen s (mem_range.1 hs) a ha, Finset.sum_mul]
  exact Finset.sum_congr rfl fun x _ => by ring

theorem realEigen_symm {n : Nat} {A : Nat → Nat → K} {vals : Nat → K} {vecs : Nat → Nat → K}
    (h : RealEigen n A vals vecs) {a b : Nat} (ha : a < n) (hb : b < n) : A a b = A b a := by
  rw [realEigen_matrix h ha hb, realEigen_matrix h hb ha]
  exact Finset.sum_congr rfl fun s _ => by ring

theorem sum_split3 {n : Nat} (hn : 3 ≤ n) (f : Nat → K) :
    ∑ s ∈ range n, f s = ∑ s ∈ range 3, f s + ∑ s ∈ range (n - 3), f (3 + s) := by
  obtain ⟨m, rfl⟩ := Nat.exists_eq_add_of_le hn
  rw [Finset.sum_range_add, Nat.add_sub_cancel_left]

/-- The first three eigenvectors span the same space as three given orthonormal vectors of
eigenvalue zero, when all other eigenvalues do not vanish. -/
theorem acoustic_projector {n : Nat} (hn : 3 ≤ n) {A : Nat → Nat → K} {vals : Nat → K}
    {vecs : Nat → Nat → K} (h : RealEigen n A vals vecs)
    (hvals : ∀ s, 3 ≤ s → s < n → vals s ≠ 0) (r : Nat → Nat → K)
    (hr : ∀ α < 3, ∀ a < n, ∑ b ∈ range n, A a b * r α b = 0)
    (ho : ∀ α < 3, ∀ β < 3, ∑ a ∈ range n, r α a * r β a = if α = β then 1 else 0)
    {a b : Nat} (ha : a < n) (hb : b < n) :
    ∑ s ∈ range 3, vecs a s * vecs b s = ∑ α ∈ range 3, r α a * r α b := by
  let O : Nat → Nat → K := fun α s => ∑ x ∈ range n, r α x * vecs x s
  have hO : ∀ α < 3, ∀ s, 3 ≤ s → s < n → O α s = 0 := by
    intro α hα s h3 hs
    have : vals s * O α s = 0 := by
      calc vals s * O α s = ∑ x ∈ range n, r α x * (vals s * vecs x s) := by
            rw [Finset.mul_sum]
            exact Finset.sum_congr rfl fun x _ => by ring
        _ = ∑ x ∈ range n, ∑ y ∈ range n, A y x * r α x * vecs y s := by
            refine Finset.sum_congr rfl fun x hx => ?_
            rw [← h.eigen s hs x (mem_range.1 hx), Finset.mul_sum]
            refine Finset.sum_congr rfl fun y hy => ?_
            rw [realEigen_symm h (mem_range.1 hx) (mem_range.1 hy)]
            ring
        _ = 0 := by
            rw [Finset.sum_comm]
            refine Finset.sum_eq_zero fun y hy => ?_
            rw [← Finset.sum_mul, hr α hα y (mem_range.1 hy), zero_mul]
    exact (mul_eq_zero.1 this).resolve_left (hvals s h3 hs)
  have hexp : ∀ α < 3, ∀ x < n, r α x = ∑ s ∈ range 3, O α s * vecs x s := by
    intro α hα x hx
    have h1 : r α x = ∑ s ∈ range n, O α s * vecs x s := by
      simp only [O, Finset.sum_mul]
      rw [Finset.sum_comm]
      have : ∀ y ∈ range n, ∑ s ∈ range n, r α y * vecs y s * vecs x s =
          r α y * (if y = x then 1 else 0) := by
        intro y hy
        rw [← h.complete y (mem_range.1 hy) x hx, Finset.mul_sum]
        exact Finset.sum_congr rfl fun s _ => by ring
      rw [Finset.sum_congr rfl this, Finset.sum_eq_single x]
      · simp
      · intro y _ hy
        simp [hy]
      · intro hn
        exact absurd (mem_range.2 hx) hn
    rw [h1, sum_split3 hn]
    rw [Finset.sum_eq_zero (s := range (n - 3)), add_zero]
    intro s hs
    rw [hO α hα (3 + s) (by omega) (by have := mem_range.1 hs; omega), zero_mul]
  have hOO : ∀ α < 3, ∀ β < 3, ∑ s ∈ range 3, O α s * O β s = if α = β then 1 else 0 := by
    intro α hα β hβ
    rw [← ho α hα β hβ]
    have : ∀ x ∈ range n, r α x * r β x = ∑ s ∈ range 3, O α s * (r β x * vecs x s) := by
      intro x hx
      rw [hexp α hα x (mem_range.1 hx), Finset.sum_mul]
      exact Finset.sum_congr rfl fun s _ => by ring
    rw [Finset.sum_congr rfl this, Finset.sum_comm]
    refine Finset.sum_congr rfl fun s _ => ?_
    rw [← Finset.mul_sum]
  let M : Matrix (Fin 3) (Fin 3) K := fun α s => O α s
  have hM : M * M.transpose = 1 := by
    ext α β
    rw [Matrix.mul_apply, Matrix.one_apply]
    have := hOO α α.2 β β.2
    rw [Finset.sum_range] at this
    refine this.trans ?_
    simp only [Fin.ext_iff]
  have hM' : M.transpose * M = 1 := mul_eq_one_comm.1 hM
  have hOt : ∀ s < 3, ∀ t < 3, ∑ α ∈ range 3, O α s * O α t = if s = t then 1 else 0 := by
    intro s hs t ht
    have := congrFun (congrFun hM' ⟨s, hs⟩) ⟨t, ht⟩
    rw [Matrix.mul_apply, Matrix.one_apply] at this
    rw [Finset.sum_range]
    refine Eq.trans ?_ (this.trans ?_)
    · rfl
    · simp only [Fin.mk.injEq]
  have h1 : ∀ α ∈ range 3, r α a * r α b =
      ∑ s ∈ range 3, ∑ t ∈ range 3, O α s * O α t * (vecs a s * vecs b t) := by
    intro α hα
    rw [hexp α (mem_range.1 hα) a ha, hexp α (mem_range.1 hα) b hb, Finset.sum_mul_sum]
    exact Finset.sum_congr rfl fun s _ => Finset.sum_congr rfl fun t _ => by ring
  rw [Finset.sum_congr rfl h1, Finset.sum_comm]
  refine Finset.sum_congr rfl fun s hs => ?_
  rw [Finset.sum_comm]
  have h2 : ∀ t ∈ range 3, ∑ α ∈ range 3, O α s * O α t * (vecs a s * vecs b t) =
      (if s = t then 1 else 0) * (vecs a s * vecs b t) := by
    intro t ht
    rw [← Finset.sum_mul, hOt s (mem_range.1 hs) t (mem_range.1 ht)]
  rw [Finset.sum_congr rfl h2, Finset.sum_eq_single s]
  · simp
  · intro t _ ht
    simp [Ne.symm ht]
  · intro hn
    exact absurd hs hn

/-- The pseudo-inverse built from the other eigenvectors. -/
theorem pseudo_inverse {n : Nat} (hn : 3 ≤ n) {A : Nat → Nat → K} {vals : Nat → K}
    {vecs : Nat → Nat → K} (h : RealEigen n A vals vecs)
    (hvals : ∀ s, 3 ≤ s → s < n → vals s ≠ 0) {a c : Nat} (ha : a < n) (hc : c < n) :
    ∑ b ∈ range n, A a b * (∑ s ∈ range (n - 3), vecs b (3 + s) * vecs c (3 + s) / vals (3 + s)) =
      (if a = c then 1 else 0) - ∑ s ∈ range 3, vecs a s * vecs c s := by
  rw [← h.complete a ha c hc, sum_split3 hn (fun s => vecs a s * vecs c s), add_sub_cancel_left]
  have : ∀ b ∈ range n, A a b * (∑ s ∈ range (n - 3),
      vecs b (3 + s) * vecs c (3 + s) / vals (3 + s)) =
      ∑ s ∈ range (n - 3), A a b * vecs b (3 + s) * (vecs c (3 + s) / vals (3 + s)) := by
    intro b _
    rw [Finset.mul_sum]
    exact Finset.sum_congr rfl fun s _ => by ring
  rw [Finset.sum_congr rfl this, Finset.sum_comm]
  refine Finset.sum_congr rfl fun s hs => ?_
  have hs' : 3 + s < n := by have := mem_range.1 hs; omega
  have hv := hvals (3 + s) (by omega) hs'
  rw [← Finset.sum_mul, h.eigen (3 + s) hs' a ha]
  field_simp

end
end Phono3py
