/- Functions of symmetric matrices and their intertwiners; values of the direct solution model. -/
import Verif.Model.LBTE
import Verif.Spec.LBTE
import Verif.Lemmas.Adds
import Verif.Props.Pinv
import Mathlib.Algebra.BigOperators.Fin
import Mathlib.LinearAlgebra.Matrix.NonsingularInverse

set_option linter.unusedSectionVars false

namespace Phono3py
open Phono3py.Spec Finset

section
variable {K : Type _} [Field K] [LinearOrder K] [IsStrictOrderedRing K]

/-! ### Flat indices -/

theorem at3_lt {n nb i l : Nat} (hi : i < n) (hl : l < nb) (a : Fin 3) :
    (i * nb + l) * 3 + (a : Nat) < n * nb * 3 := by
  have h : i * nb + l < n * nb := by
    calc i * nb + l < i * nb + nb := by omega
      _ = (i + 1) * nb := by ring
      _ ≤ n * nb := Nat.mul_le_mul_right _ hi
  have := a.2
  omega

theorem unravel3_at {nb i l : Nat} (hl : l < nb) (a : Fin 3) :
    unravel3 nb ((i * nb + l) * 3 + (a : Nat)) = (i, l, a) := by
  unfold unravel3
  have h1 : ((i * nb + l) * 3 + (a : Nat)) / 3 = i * nb + l := by have := a.2; omega
  have h2 : ((i * nb + l) * 3 + (a : Nat)) % 3 = a := by have := a.2; omega
  have h3 : (i * nb + l) / nb = i := by
    rw [Nat.mul_comm, Nat.mul_add_div (by omega), Nat.div_eq_of_lt hl, Nat.add_zero]
  have h4 : (i * nb + l) % nb = l := by
    rw [Nat.mul_comm, Nat.mul_add_mod, Nat.mod_eq_of_lt hl]
  simp only [h1, h3, h4, h2]

theorem unravel2_at {nb i l : Nat} (hl : l < nb) : unravel2 nb (i * nb + l) = (i, l) := by
  unfold unravel2
  rw [Nat.mul_comm, Nat.mul_add_div (by omega), Nat.div_eq_of_lt hl, Nat.add_zero,
    Nat.mul_add_mod, Nat.mod_eq_of_lt hl]

theorem sum_flat2 {α : Type _} [AddCommMonoid α] (n nb : Nat) (F : Nat → α) :
    ∑ p ∈ range (n * nb), F p = ∑ i : Fin n, ∑ l ∈ range nb, F (i * nb + l) := by
  rw [sum_pairs, Finset.sum_range]
  rfl

theorem sum_flat3 {α : Type _} [AddCommMonoid α] (n nb : Nat) (F : Nat → α) :
    ∑ r ∈ range (n * nb * 3), F r =
      ∑ i : Fin n, ∑ l ∈ range nb, ∑ a : Fin 3, F ((i * nb + l) * 3 + (a : Nat)) := by
  rw [sum_pairs, sum_pairs, Finset.sum_range]
  refine Finset.sum_congr rfl fun i _ => Finset.sum_congr rfl fun l _ => ?_
  rw [Finset.sum_range]
  rfl

/-! ### Functions of matrices -/

/-- The `n x m` corner of a matrix. -/
def corner (n m : Nat) (A : Nat → Nat → K) : Matrix (Fin n) (Fin m) K := fun i j => A i j

theorem corner_apply (n m : Nat) (A : Nat → Nat → K) (i : Fin n) (j : Fin m) :
    corner n m A i j = A i j := rfl

theorem intertwine_matrix {ι κ : Type _} [Fintype ι] [Fintype κ] [DecidableEq ι] [DecidableEq κ]
    (E1 : Matrix ι ι K) (h1 : E1.transpose * E1 = 1) (E2 : Matrix κ κ K)
    (h2 : E2.transpose * E2 = 1) (l1 : ι → K) (l2 : κ → K) (V : Matrix ι κ K)
    (h : E1 * Matrix.diagonal l1 * E1.transpose * V = V * (E2 * Matrix.diagonal l2 * E2.transpose))
    (f : K → K) :
    E1 * Matrix.diagonal (fun i => f (l1 i)) * E1.transpose * V =
      V * (E2 * Matrix.diagonal (fun i => f (l2 i)) * E2.transpose) := by
  have h1' : E1 * E1.transpose = 1 := mul_eq_one_comm.1 h1
  have h2' : E2 * E2.transpose = 1 := mul_eq_one_comm.1 h2
  have hW : Matrix.diagonal l1 * (E1.transpose * V * E2) =
      E1.transpose * V * E2 * Matrix.diagonal l2 := by
    calc _ = E1.transpose * E1 * Matrix.diagonal l1 * E1.transpose * V * E2 := by
          rw [h1, Matrix.one_mul]; simp only [Matrix.mul_assoc]
      _ = E1.transpose * (E1 * Matrix.diagonal l1 * E1.transpose * V) * E2 := by
          simp only [Matrix.mul_assoc]
      _ = E1.transpose * V * E2 * Matrix.diagonal l2 * (E2.transpose * E2) := by
          rw [h]; simp only [Matrix.mul_assoc]
      _ = _ := by rw [h2, Matrix.mul_one]
  have hf : Matrix.diagonal (fun i => f (l1 i)) * (E1.transpose * V * E2) =
      E1.transpose * V * E2 * Matrix.diagonal (fun i => f (l2 i)) := by
    ext s t
    have e := congrFun (congrFun hW s) t
    rw [Matrix.diagonal_mul, Matrix.mul_diagonal] at e ⊢
    by_cases hst : l1 s = l2 t
    · rw [hst, mul_comm]
    · have : (E1.transpose * V * E2) s t = 0 := by
        have e' : (l1 s - l2 t) * (E1.transpose * V * E2) s t = 0 := by rw [sub_mul, e]; ring
        exact (mul_eq_zero.1 e').resolve_left (sub_ne_zero.2 hst)
      rw [this, mul_zero, zero_mul]
  calc _ = E1 * Matrix.diagonal (fun i => f (l1 i)) * E1.transpose * V * (E2 * E2.transpose) := by
        rw [h2', Matrix.mul_one]
    _ = E1 * (Matrix.diagonal (fun i => f (l1 i)) * (E1.transpose * V * E2)) * E2.transpose := by
        simp only [Matrix.mul_assoc]
    _ = E1 * E1.transpose * (V * (E2 * Matrix.diagonal (fun i => f (l2 i)) * E2.transpose)) := by
        rw [hf]; simp only [Matrix.mul_assoc]
    _ = _ := by rw [h1', Matrix.one_mul]

theorem _root_.Phono3py.Spec.IsEigensystem.orth {n : Nat} {A : Nat → Nat → K} {w : Nat → K}
    {V : Nat → Nat → K} (h : IsEigensystem n A w V) :
    (corner n n V).transpose * corner n n V = 1 := by
  ext i j
  rw [Matrix.mul_apply, Matrix.one_apply]
  have := h.orthonormal i i.2 j j.2
  rw [Finset.sum_range] at this
  simp only [Matrix.transpose_apply, corner_apply]
  rw [this]
  by_cases e : i = j
  · rw [if_pos (by rw [e]), if_pos e]
  · rw [if_neg (fun h => e (Fin.ext h)), if_neg e]

theorem sandwich_apply {n : Nat} (V : Nat → Nat → K) (d : Fin n → K) (i j : Fin n) :
    (corner n n V * Matrix.diagonal d * (corner n n V).transpose) i j =
      ∑ k : Fin n, V i k * (d k * V j k) := by
  rw [Matrix.mul_apply]
  refine Finset.sum_congr rfl fun k _ => ?_
  rw [Matrix.mul_diagonal, Matrix.transpose_apply, corner_apply, corner_apply, mul_assoc]

theorem _root_.Phono3py.Spec.IsEigensystem.matrix {n : Nat} {A : Nat → Nat → K} {w : Nat → K}
    {V : Nat → Nat → K} (h : IsEigensystem n A w V) :
    corner n n A = corner n n V * Matrix.diagonal (fun k : Fin n => w k) *
      (corner n n V).transpose := by
  ext i j
  rw [sandwich_apply, corner_apply, h.eigen i i.2 j j.2, Finset.sum_range]

/-- The matrix `f(A)`. -/
def spectralMatrix (n : Nat) (w : Nat → K) (V : Nat → Nat → K) (f : K → K) (i j : Nat) : K :=
  ∑ k ∈ range n, V i k * (f (w k) * V j k)

theorem spectral_eq (n : Nat) (w : Nat → K) (V : Nat → Nat → K) (f : K → K) (x : Nat → K)
    (i : Nat) : spectral n w V f x i = ∑ j ∈ range n, spectralMatrix n w V f i j * x j := by
  unfold spectral spectralMatrix
  simp only [Finset.mul_sum, Finset.sum_mul]
  rw [Finset.sum_comm]
  refine Finset.sum_congr rfl fun j _ => Finset.sum_congr rfl fun k _ => ?_
  ring

theorem spectralMatrix_symm (n : Nat) (w : Nat → K) (V : Nat → Nat → K) (f : K → K) (i j : Nat) :
    spectralMatrix n w V f i j = spectralMatrix n w V f j i := by
  unfold spectralMatrix
  exact Finset.sum_congr rfl fun k _ => by ring

/-- A matrix that intertwines `A` and `B` intertwines `f(A)` and `f(B)`. -/
theorem intertwine {n m : Nat} {A : Nat → Nat → K} {w : Nat → K} {V : Nat → Nat → K}
    (hA : IsEigensystem n A w V) {B : Nat → Nat → K} {w' : Nat → K} {V' : Nat → Nat → K}
    (hB : IsEigensystem m B w' V') (T : Nat → Nat → K)
    (h : ∀ i < n, ∀ j < m, ∑ k ∈ range n, A i k * T k j = ∑ k ∈ range m, T i k * B k j)
    (f : K → K) (x : Nat → K) (i : Nat) (hi : i < n) :
    spectral n w V f (fun k => ∑ j ∈ range m, T k j * x j) i =
      ∑ j ∈ range m, T i j * spectral m w' V' f x j := by
  have key := intertwine_matrix (corner n n V) hA.orth (corner m m V') hB.orth
    (fun k => w k) (fun k => w' k) (corner n m T) (by
      rw [← hA.matrix, ← hB.matrix]
      ext p q
      rw [Matrix.mul_apply, Matrix.mul_apply]
      have := h p p.2 q q.2
      rw [Finset.sum_range, Finset.sum_range] at this
      exact this) f
  have e : ∀ j < m, ∑ k ∈ range n, spectralMatrix n w V f i k * T k j =
      ∑ k ∈ range m, T i k * spectralMatrix m w' V' f k j := by
    intro j hj
    have := congrFun (congrFun key ⟨i, hi⟩) ⟨j, hj⟩
    rw [Matrix.mul_apply, Matrix.mul_apply] at this
    rw [Finset.sum_range, Finset.sum_range]
    simp only [sandwich_apply, corner_apply] at this
    unfold spectralMatrix
    simp only [Finset.sum_range]
    exact this
  rw [spectral_eq]
  simp only [spectral_eq, Finset.mul_sum]
  rw [Finset.sum_comm]
  conv_rhs => rw [Finset.sum_comm]
  refine Finset.sum_congr rfl fun j hj => ?_
  have hj := Finset.mem_range.1 hj
  simp only [← mul_assoc]
  rw [← Finset.sum_mul, ← Finset.sum_mul, e j hj]

theorem cutInverse_eq (method : Int) (cutoff : K) (w : Nat → K) (l : Nat) :
    eigvalsPinv method cutoff w l = cutInverse method cutoff (w l) := by
  unfold eigvalsPinv cutInverse keepEigenvalue
  by_cases h : cutoff < if method = 0 then |w l| else w l
  · rw [if_pos h, if_pos (by simpa using h), one_div]
  · rw [if_neg h, if_neg (by simpa using h)]

theorem pinvDot_spectral (size : Nat) (v : Nat → Nat → K) (method : Int) (cutoff : K)
    (w x : Nat → K) (i : Nat) :
    pinvDot size v (eigvalsPinv method cutoff w) x i =
      spectral size w v (cutInverse method cutoff) x i := by
  unfold pinvDot spectral
  rw [sumLoop_eq]
  refine Finset.sum_congr rfl fun k _ => ?_
  rw [cutInverse_eq, sumLoop_eq]

/-! ### The vector `Y` -/

/-- The array `X` in C order. -/
def ravel (X : Nat → Fin 3 → K) (r : Nat) : K := X (r / 3) ⟨r % 3, Nat.mod_lt _ (by decide)⟩

theorem ravel_at (X : Nat → Fin 3 → K) (p : Nat) (a : Fin 3) :
    ravel X (p * 3 + (a : Nat)) = X p a := by
  unfold ravel
  have h1 : (p * 3 + (a : Nat)) / 3 = p := by have := a.2; omega
  have h2 : (p * 3 + (a : Nat)) % 3 = a := by have := a.2; omega
  simp only [h1, h2]

/-- `Y` of the two layouts for a matrix with the given eigensystem. -/
def solution (reducible : Bool) (size : Nat) (w : Nat → K) (V : Nat → Nat → K) (f : K → K)
    (X : Nat → Fin 3 → K) (p : Nat) (a : Fin 3) : K :=
  if reducible then spectral size w V f (fun r => X r a) p
  else spectral size w V f (ravel X) (p * 3 + (a : Nat))

theorem dot_pinv (method : Int) (cutoff : K) (size : Nat) (w : Nat → K) (V : Nat → Nat → K)
    (x : Nat → K) (i : Nat) (hi : i < size) :
    dotVector size (fun i j => pinvFromEigensolution (fun i => w i.toNat) size cutoff method
      (ravelMatrix size V) ((i * size + j : Nat) : Int)) x i =
      spectral size w V (cutInverse method cutoff) x i := by
  unfold dotVector
  rw [sumLoop_eq, spectral_eq]
  refine Finset.sum_congr rfl fun j hj => ?_
  have hj := Finset.mem_range.1 hj
  congr 1
  beta_reduce
  rw [show i * size + j = at2 size i j from rfl,
    pinv_value (fun i => w i.toNat) size cutoff method (ravelMatrix size V) hi hj]
  unfold spectralMatrix
  refine Finset.sum_congr rfl fun k hk => ?_
  have hk := Finset.mem_range.1 hk
  have hr : ∀ p < size, ravelMatrix size V ((at2 size p k : Nat) : Int) = V p k := by
    intro p _
    unfold ravelMatrix at2
    rw [Int.toNat_natCast, Nat.mul_comm p, Nat.mul_add_div (by omega), Nat.div_eq_of_lt hk,
      Nat.add_zero, Nat.mul_add_mod, Nat.mod_eq_of_lt hk]
  rw [hr i hi, hr j hj]
  unfold cutInverse keepEigenvalue
  simp only [Int.toNat_natCast]
  by_cases h : cutoff < if method = 0 then |w k| else w k
  · rw [if_pos h, if_pos (by simpa using h)]
    ring
  · rw [if_neg h, if_neg (by simpa using h)]
    ring

end
end Phono3py
