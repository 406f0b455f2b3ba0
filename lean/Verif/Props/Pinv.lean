/-
Property theorems C37: the pseudo-inverse of the collision matrix.
-/
import Verif.Lemmas.Pinv
import Mathlib.Data.Matrix.Diagonal
import Mathlib.LinearAlgebra.Matrix.NonsingularInverse
import Mathlib.Algebra.Order.Field.Rat

set_option linter.unusedSectionVars false

namespace Phono3py.Props
open Phono3py Phono3py.Spec

section
variable {K : Type _} [Field K] [LinearOrder K] [IsStrictOrderedRing K]

/-- The documented rule: method 0 looks at `|lambda|`, the others at `lambda`. -/
def Kept (method : Int) (cutoff x : K) : Prop :=
  (method = 0 → cutoff < |x|) ∧ (method ≠ 0 → cutoff < x)

theorem keepEigenvalue_iff (method : Int) (cutoff x : K) :
    keepEigenvalue method cutoff x = true ↔ Kept method cutoff x := by
  unfold keepEigenvalue Kept
  by_cases h : method = 0 <;> simp [h]

open Classical in
/-- `f lambda` for kept eigenvalues and 0 for the others. -/
noncomputable def onKept (method : Int) (cutoff : K) (f : K → K) (x : K) : K :=
  if Kept method cutoff x then f x else 0

/-- The `n x n` matrix stored row by row at the beginning of `a`. -/
def stored (n : Nat) (a : Int → K) : Matrix (Fin n) (Fin n) K :=
  fun i j => a (at2 n i j : Nat)

/-- C37: on return the array holds `V diag(1/lambda or 0) Vᵀ`. -/
theorem C37_value (n : Nat) (cutoff : K) (method : Int) (eigvals V : Int → K) :
    stored n (pinvFromEigensolution eigvals n cutoff method V) =
      stored n V * Matrix.diagonal (fun k : Fin n =>
        onKept method cutoff (fun x => 1 / x) (eigvals ((k : Nat) : Int))) *
        (stored n V).transpose := by
  ext i j
  rw [Matrix.mul_apply]
  simp only [Matrix.mul_diagonal, Matrix.transpose_apply]
  unfold stored
  rw [pinv_value eigvals n cutoff method V i.2 j.2, Finset.sum_range]
  refine Finset.sum_congr rfl fun k _ => ?_
  unfold onKept
  by_cases h : Kept method cutoff (eigvals ((k : Nat) : Int))
  · rw [if_pos h, if_pos ((keepEigenvalue_iff _ _ _).2 h)]
    ring
  · rw [if_neg h, if_neg (fun h' => h ((keepEigenvalue_iff _ _ _).1 h'))]
    ring

/-- C37: nothing outside the matrix is written. -/
theorem C37_outside (n : Nat) (cutoff : K) (method : Int) (eigvals V : Int → K) (p : Int)
    (hp : p < 0 ∨ ((n * n : Nat) : Int) ≤ p) :
    pinvFromEigensolution eigvals n cutoff method V p = V p :=
  pinv_outside eigvals n cutoff method V hp

/-- C37: the stores of the parallel loop and of the odd middle row can be made in any order. -/
theorem C37_schedule (n : Nat) (cutoff : K) (method : Int) (eigvals V : Int → K)
    (order : List (Int × K))
    (h : (pinvWrites V eigvals (keptModes method cutoff eigvals n) n).Perm order) :
    runWrites V order = pinvFromEigensolution eigvals n cutoff method V :=
  (runWrites_perm V h (pinv_agree _ _ _ _)).symm

theorem kept_ne_zero {method : Int} {cutoff x : K} (hc : 0 ≤ cutoff) (h : Kept method cutoff x) :
    x ≠ 0 := by
  rintro rfl
  unfold Kept at h
  by_cases hm : method = 0
  · have := h.1 hm
    rw [abs_zero] at this
    exact absurd hc (not_le.2 this)
  · exact absurd hc (not_le.2 (h.2 hm))

/-- The four Penrose conditions. -/
structure IsPinv {n : Nat} (A P : Matrix (Fin n) (Fin n) K) : Prop where
  apa : A * P * A = A
  pap : P * A * P = P
  ap_symm : (A * P).transpose = A * P
  pa_symm : (P * A).transpose = P * A

theorem sandwich {n : Nat} {V : Matrix (Fin n) (Fin n) K} (hV : V.transpose * V = 1)
    (d e : Fin n → K) :
    V * Matrix.diagonal d * V.transpose * (V * Matrix.diagonal e * V.transpose) =
      V * Matrix.diagonal (fun k => d k * e k) * V.transpose := by
  calc _ = V * (Matrix.diagonal d * (V.transpose * V) * Matrix.diagonal e) * V.transpose := by
        simp only [Matrix.mul_assoc]
    _ = _ := by rw [hV, Matrix.mul_one, Matrix.diagonal_mul_diagonal]

theorem sandwich_symm {n : Nat} (V : Matrix (Fin n) (Fin n) K) (d : Fin n → K) :
    (V * Matrix.diagonal d * V.transpose).transpose = V * Matrix.diagonal d * V.transpose := by
  rw [Matrix.transpose_mul, Matrix.transpose_mul, Matrix.transpose_transpose,
    Matrix.diagonal_transpose, Matrix.mul_assoc]

/-- C37: with orthonormal eigenvectors the result is the Moore-Penrose inverse of the part of
the matrix that belongs to the kept eigenvalues. -/
theorem C37_penrose (n : Nat) (cutoff : K) (hc : 0 ≤ cutoff) (method : Int) (eigvals V : Int → K)
    (hV : (stored n V).transpose * stored n V = 1) :
    IsPinv
      (stored n V * Matrix.diagonal (fun k : Fin n =>
        onKept method cutoff (fun x => x) (eigvals ((k : Nat) : Int))) * (stored n V).transpose)
      (stored n (pinvFromEigensolution eigvals n cutoff method V)) := by
  rw [C37_value]
  have h1 : ∀ x : K, onKept method cutoff (fun x => x) x * onKept method cutoff (fun x => 1 / x) x *
      onKept method cutoff (fun x => x) x = onKept method cutoff (fun x => x) x := by
    intro x
    unfold onKept
    split_ifs with h
    · have := kept_ne_zero hc h
      field_simp
    · ring
  have h2 : ∀ x : K, onKept method cutoff (fun x => 1 / x) x * onKept method cutoff (fun x => x) x *
      onKept method cutoff (fun x => 1 / x) x = onKept method cutoff (fun x => 1 / x) x := by
    intro x
    unfold onKept
    split_ifs with h
    · have := kept_ne_zero hc h
      field_simp
    · ring
  refine ⟨?_, ?_, ?_, ?_⟩
  · rw [sandwich hV, sandwich hV]
    simp only [h1]
  · rw [sandwich hV, sandwich hV]
    simp only [h2]
  · rw [sandwich hV]; exact sandwich_symm _ _
  · rw [sandwich hV]; exact sandwich_symm _ _

/-- C37: when only vanishing eigenvalues are dropped, it is the Moore-Penrose inverse of the
matrix itself. -/
theorem C37_null_space (n : Nat) (cutoff : K) (hc : 0 ≤ cutoff) (method : Int)
    (eigvals V : Int → K) (A : Matrix (Fin n) (Fin n) K)
    (hV : (stored n V).transpose * stored n V = 1)
    (hA : A = stored n V * Matrix.diagonal (fun k : Fin n => eigvals ((k : Nat) : Int)) *
      (stored n V).transpose)
    (hd : ∀ k : Fin n, ¬ Kept method cutoff (eigvals ((k : Nat) : Int)) →
      eigvals ((k : Nat) : Int) = 0) :
    IsPinv A (stored n (pinvFromEigensolution eigvals n cutoff method V)) := by
  have h := C37_penrose n cutoff hc method eigvals V hV
  have e : (fun k : Fin n => onKept method cutoff (fun x => x) (eigvals ((k : Nat) : Int))) =
      fun k : Fin n => eigvals ((k : Nat) : Int) := by
    funext k
    unfold onKept
    split_ifs with hk
    · rfl
    · exact (hd k hk).symm
  rw [e, ← hA] at h
  exact h

/-- C37: when all eigenvalues are kept, it is the inverse. -/
theorem C37_inverse (n : Nat) (cutoff : K) (hc : 0 ≤ cutoff) (method : Int)
    (eigvals V : Int → K) (A : Matrix (Fin n) (Fin n) K)
    (hV : (stored n V).transpose * stored n V = 1)
    (hA : A = stored n V * Matrix.diagonal (fun k : Fin n => eigvals ((k : Nat) : Int)) *
      (stored n V).transpose)
    (hk : ∀ k : Fin n, Kept method cutoff (eigvals ((k : Nat) : Int))) :
    A * stored n (pinvFromEigensolution eigvals n cutoff method V) = 1 := by
  rw [C37_value, hA, sandwich hV]
  have e : (fun k : Fin n => eigvals ((k : Nat) : Int) *
      onKept method cutoff (fun x => 1 / x) (eigvals ((k : Nat) : Int))) = fun _ => 1 := by
    funext k
    unfold onKept
    rw [if_pos (hk k), mul_one_div, div_self (kept_ne_zero hc (hk k))]
  rw [e, Matrix.diagonal_one, Matrix.mul_one]
  exact mul_eq_one_comm.1 hV

/-- C37: dropped modes are annihilated and kept modes are divided by their eigenvalue. -/
theorem C37_modes (n : Nat) (cutoff : K) (method : Int) (eigvals V : Int → K)
    (hV : (stored n V).transpose * stored n V = 1) (k : Fin n) :
    (stored n (pinvFromEigensolution eigvals n cutoff method V)).mulVec
        (fun i => stored n V i k) =
      fun i => onKept method cutoff (fun x => 1 / x) (eigvals ((k : Nat) : Int)) *
        stored n V i k := by
  rw [C37_value]
  have h : (fun i => stored n V i k) = (stored n V).mulVec (Pi.single k 1) := by
    funext i; simp
  rw [h, Matrix.mulVec_mulVec, Matrix.mul_assoc, hV, Matrix.mul_one]
  funext i
  simp [mul_comm]

/-- C37: the Python path, which multiplies with the inverted eigenvalues, gives the product of
the pseudo-inverse with the vector. -/
theorem C37_python (n : Nat) (cutoff : K) (method : Int) (w : Nat → K) (v : Nat → Nat → K)
    (eigvals V : Int → K) (hw : ∀ k < n, eigvals ((k : Nat) : Int) = w k)
    (hv : ∀ i < n, ∀ k < n, V (at2 n i k : Nat) = v i k) (x : Nat → K) (i : Fin n) :
    pinvDot n v (eigvalsPinv method cutoff w) x i =
      (stored n (pinvFromEigensolution eigvals n cutoff method V)).mulVec
        (fun j : Fin n => x j) i := by
  rw [C37_value, Matrix.mul_assoc, ← Matrix.mulVec_mulVec, ← Matrix.mulVec_mulVec]
  unfold pinvDot
  rw [sumLoop_eq, Finset.sum_range]
  simp only [Matrix.mulVec, dotProduct, Matrix.diagonal_apply, ite_mul, zero_mul,
    Finset.sum_ite_eq, Finset.mem_univ, if_true, Matrix.transpose_apply]
  refine Finset.sum_congr rfl fun k _ => ?_
  rw [sumLoop_eq, Finset.sum_range]
  unfold stored eigvalsPinv onKept
  rw [hv i i.2 k k.2, hw k k.2]
  have e : ∑ j : Fin n, v j k * x j = ∑ j : Fin n, V (at2 n j k : Nat) * x j :=
    Finset.sum_congr rfl fun j _ => by rw [hv j j.2 k k.2]
  rw [e]
  by_cases h : Kept method cutoff (w k)
  · rw [if_pos h, if_pos ((keepEigenvalue_iff _ _ _).2 h)]
  · rw [if_neg h, if_neg (fun h' => h ((keepEigenvalue_iff _ _ _).1 h'))]

end

/-- A rotation of the 3-4-5 triangle with eigenvalues 25, -50 and 0: method 0 keeps the first
two, method 1 only the first. -/
def rotation345 : Int → ℚ := fun p =>
  match p with
  | 0 => 3/5 | 1 => -4/5 | 3 => 4/5 | 4 => 3/5 | 8 => 1 | _ => 0

def eigenvalues345 : Int → ℚ := fun k => match k with | 0 => 25 | 1 => -50 | _ => 0

example : (stored 3 rotation345).transpose * stored 3 rotation345 = 1 ∧
    (∀ k : Fin 3, ¬ (keepEigenvalue 0 (1 : ℚ) (eigenvalues345 ((k : Nat) : Int)) = true) →
      eigenvalues345 ((k : Nat) : Int) = 0) ∧
    (List.range 9).map (fun (p : Nat) => pinvFromEigensolution eigenvalues345 3 1 0 rotation345 p) =
      [1/625, 18/625, 0, 18/625, 23/1250, 0, 0, 0, 0] ∧
    (List.range 9).map (fun (p : Nat) => pinvFromEigensolution eigenvalues345 3 1 1 rotation345 p) =
      [9/625, 12/625, 0, 12/625, 16/625, 0, 0, 0, 0] := by
  refine ⟨?_, by decide +kernel, by decide +kernel, by decide +kernel⟩
  have h : ∀ i j : Fin 3, (∑ k : Fin 3, rotation345 (at2 3 k i : Nat) * rotation345 (at2 3 k j : Nat)) =
      if i = j then 1 else 0 := by decide +kernel
  ext i j
  rw [Matrix.mul_apply, Matrix.one_apply]
  exact h i j

end Phono3py.Props
