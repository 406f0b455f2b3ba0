/-
Property theorems C108, C110 (symmetry) and C111: conductivity by direct solution, the solvers of
the collision matrix and the relaxation time approximation of the direct solution.
-/
import Verif.Lemmas.LBTEReduction
import Verif.Spec.DynMat
import Mathlib.Algebra.Order.Field.Rat
import Mathlib.Tactic.LinearCombination
import Mathlib.Analysis.SpecialFunctions.Trigonometric.DerivHyp

set_option linter.unusedSectionVars false

namespace Phono3py.Props
open Phono3py Phono3py.Spec Finset

section
variable {K : Type _} [Field K] [LinearOrder K] [IsStrictOrderedRing K]

/-! ## C111 -/

/-- The eigensolver is right about the matrix `M`, whichever way round it reads it. -/
structure EighOn (r : ColmatRoutines K) (size : Nat) (M : Nat → Nat → K) : Prop where
  straight : IsEigensystem size M (r.eigh size M).1 (r.eigh size M).2
  turned : IsEigensystem size (fun i j => M j i) (r.eigh size fun i j => M j i).1
    (r.eigh size fun i j => M j i).2

/-- What the direct solution makes of a collision matrix: diagonalisation, then `Y`. -/
def solveColmat (r : ColmatRoutines K) (reducible : Bool) (pinvSolver solver : Nat) (method : Int)
    (cutoff : K) (size : Nat) (M : Nat → Nat → K) (X : Nat → Fin 3 → K) :
    Option (Nat → Fin 3 → K) :=
  (diagonalizeColmat r solver size M).bind fun d =>
    lbteY reducible pinvSolver solver method cutoff size (d.1.getD fun _ => 0) d.2 X

/-- Vectors of the two layouts that `Y` has. -/
def rowOf (reducible : Bool) (p : Nat) (a : Fin 3) : Nat := if reducible then p else p * 3 + (a : Nat)

theorem spectral_unique {n : Nat} {A : Nat → Nat → K} {w w' : Nat → K} {V V' : Nat → Nat → K}
    (h : IsEigensystem n A w V) (h' : IsEigensystem n A w' V') (f : K → K) (x : Nat → K) (i : Nat)
    (hi : i < n) : spectral n w V f x i = spectral n w' V' f x i := by
  have e := intertwine h h' (fun i j => if i = j then 1 else 0) (fun i hi j hj => by
    simp [hi, hj]) f x i hi
  have e2 : ∀ k, (∑ j ∈ range n, (if k = j then (1 : K) else 0) * x j) = if k < n then x k else 0 := by
    intro k
    simp
  simp only [e2] at e
  have e3 : spectral n w V f (fun k => if k < n then x k else 0) i = spectral n w V f x i := by
    unfold spectral
    refine Finset.sum_congr rfl fun k _ => ?_
    congr 2
    refine Finset.sum_congr rfl fun j hj => ?_
    beta_reduce
    rw [if_pos (Finset.mem_range.1 hj)]
  rw [e3] at e
  rw [e]
  simp [hi]

/-- The settings that lead to eigenvalues and eigenvectors: number 6 diagonalises with 3. -/
def EigenSolver (pinvSolver solver : Nat) : Prop :=
  pinvSolver = 6 ∧ solver = 3 ∨
    pinvSolver ≠ 6 ∧ (solver = 1 ∨ solver = 2 ∨ solver = 3 ∨ solver = 4 ∨ solver = 5)

/-- **C111 (choice of the solver).** Whatever is asked for, with LAPACKE the solver chosen is one
that diagonalises, or 7 when 7 is asked for. -/
theorem C111_select (scipy : Bool) (dflt pinvSolver : Nat)
    (hd : dflt = 1 ∨ dflt = 2 ∨ dflt = 3 ∨ dflt = 4 ∨ dflt = 5) :
    ∃ s, selectColmatSolver true scipy dflt pinvSolver = some s ∧
      if pinvSolver = 7 then s = 7 else EigenSolver pinvSolver s := by
  unfold selectColmatSolver EigenSolver
  simp only [Bool.not_true, Bool.false_and, Bool.false_eq_true, if_false]
  by_cases h6 : pinvSolver = 6
  · subst h6
    exact ⟨3, by simp, by simp⟩
  · by_cases h7 : pinvSolver = 7
    · subst h7
      exact ⟨7, by simp, by simp⟩
    · simp only [if_neg h6, if_neg h7]
      by_cases h0 : pinvSolver = 0
      · subst h0
        cases scipy <;> rcases hd with rfl | rfl | rfl | rfl | rfl <;> simp
      · rw [if_neg h0]
        by_cases hs : pinvSolver = 1 ∨ pinvSolver = 2 ∨ pinvSolver = 3 ∨ pinvSolver = 4 ∨
            pinvSolver = 5 ∨ pinvSolver = 6 ∨ pinvSolver = 7
        · exact ⟨pinvSolver, by rw [if_pos hs], Or.inr ⟨h6, by omega⟩⟩
        · exact ⟨dflt, by rw [if_neg hs], Or.inr ⟨h6, hd⟩⟩

/-- **C111 (default solver).** When no solver is asked for, the default one is taken, except that
one that needs scipy (3, 4, 5) is replaced by a LAPACK one when scipy is missing. -/
theorem C111_select_default (scipy : Bool) (dflt : Nat) :
    ∃ s, selectColmatSolver true scipy dflt 0 = some s ∧
      (scipy = true ∨ ¬ (dflt = 3 ∨ dflt = 4 ∨ dflt = 5) → s = dflt) ∧
      (scipy = false → ¬ (s = 3 ∨ s = 4 ∨ s = 5)) := by
  unfold selectColmatSolver
  by_cases h : dflt = 3 ∨ dflt = 4 ∨ dflt = 5
  · cases scipy
    · exact ⟨1, by simp [h], by simp [h], by simp⟩
    · exact ⟨dflt, by simp [h], by simp, by simp⟩
  · exact ⟨dflt, by simp [h], by simp, fun _ => h⟩

/-- **C111 (no LAPACKE).** Without LAPACKE the solvers 1, 2 and 6 are refused. -/
theorem C111_select_lapacke (scipy : Bool) (dflt pinvSolver : Nat) :
    selectColmatSolver false scipy dflt pinvSolver = none ↔
      pinvSolver = 1 ∨ pinvSolver = 2 ∨ pinvSolver = 6 := by
  unfold selectColmatSolver
  by_cases h : pinvSolver = 1 ∨ pinvSolver = 2 ∨ pinvSolver = 6
  · simp [h, or_assoc]
  · have h' : ¬ ((!false && (pinvSolver = 1 || pinvSolver = 2 || pinvSolver = 6)) = true) := by
      simpa [or_assoc] using h
    rw [if_neg h']
    simp only [h, iff_false]
    split_ifs <;> simp

/-- **C111 (eigensolvers).** With every solver that diagonalises, and for both layouts, `Y` is the
cut-off inverse of the collision matrix applied to `X`. The eigensystem `(w, V)` on the right is any
one of the matrix, so neither the order of the eigenvalues nor the choice of eigenvectors in
degenerate subspaces nor their storage by rows or columns matters. -/
theorem C111_eigen (r : ColmatRoutines K) (reducible : Bool) (pinvSolver solver : Nat)
    (hs : EigenSolver pinvSolver solver) (method : Int) (cutoff : K) (size : Nat)
    (M : Nat → Nat → K) (hr : EighOn r size M) (hM : SymmetricMatrix size M) (w : Nat → K)
    (V : Nat → Nat → K) (hV : IsEigensystem size M w V) (X : Nat → Fin 3 → K) :
    ∃ Y, solveColmat r reducible pinvSolver solver method cutoff size M X = some Y ∧
      ∀ p a, rowOf reducible p a < size →
        Y p a = if reducible then spectral size w V (cutInverse method cutoff) (fun q => X q a) p
          else spectral size w V (cutInverse method cutoff) (ravel X) (p * 3 + (a : Nat)) := by
  have ht : IsEigensystem size M (r.eigh size fun i j => M j i).1
      (r.eigh size fun i j => M j i).2 :=
    ⟨hr.turned.orthonormal, fun i hi j hj => by rw [hM i hi j hj]; exact hr.turned.eigen i hi j hj⟩
  rcases hs with ⟨rfl, rfl⟩ | ⟨h6, hs⟩
  · unfold solveColmat diagonalizeColmat lbteY
    cases reducible
    · refine ⟨_, rfl, fun p a hp => ?_⟩
      exact (dot_pinv method cutoff size _ _ _ _ hp).trans
        (spectral_unique hr.straight hV _ _ _ hp)
    · refine ⟨_, rfl, fun p a hp => ?_⟩
      exact (dot_pinv method cutoff size _ _ _ _ hp).trans
        (spectral_unique hr.straight hV _ _ _ hp)
  · have hrow : ∀ s, (s = 1 ∨ s = 2 ∨ s = 4 ∨ s = 5) → s = solver →
        ∃ Y, solveColmat r reducible pinvSolver solver method cutoff size M X = some Y ∧
        ∀ p a, rowOf reducible p a < size →
          Y p a = if reducible then spectral size w V (cutInverse method cutoff) (fun q => X q a) p
            else spectral size w V (cutInverse method cutoff) (ravel X) (p * 3 + (a : Nat)) := by
      rintro s h4 rfl
      have h5 : s ≤ 5 := by omega
      have hrs : rowSolver s = true := by
        rcases h4 with rfl | rfl | rfl | rfl <;> rfl
      unfold solveColmat diagonalizeColmat lbteY
      simp only [hrs, if_true, Option.bind_some, if_neg h6, if_pos h5, Option.getD_some]
      cases reducible
      · refine ⟨_, rfl, fun p a hp => ?_⟩
        rw [pinvDot_spectral]
        exact spectral_unique ht hV _ _ _ hp
      · refine ⟨_, rfl, fun p a hp => ?_⟩
        rw [pinvDot_spectral]
        exact spectral_unique ht hV _ _ _ hp
    by_cases h3 : solver = 3
    · subst h3
      unfold solveColmat diagonalizeColmat lbteY
      simp only [show rowSolver 3 = false from rfl, Bool.false_eq_true, if_false, if_true,
        Option.bind_some, if_neg h6, show 3 ≤ 5 by decide, Option.getD_some]
      cases reducible
      · refine ⟨_, rfl, fun p a hp => ?_⟩
        rw [pinvDot_spectral]
        exact spectral_unique hr.straight hV _ _ _ hp
      · refine ⟨_, rfl, fun p a hp => ?_⟩
        rw [pinvDot_spectral]
        exact spectral_unique hr.straight hV _ _ _ hp
    · exact hrow solver (by omega) rfl

theorem pinv_unique {n : Nat} {A P Q : Matrix (Fin n) (Fin n) K} (hP : IsPinv A P)
    (hQ : IsPinv A Q) : P = Q := by
  have e1 : A * P = A * Q := by
    calc A * P = (A * P).transpose := hP.ap_symm.symm
      _ = (A * Q * A * P).transpose := by rw [hQ.apa]
      _ = ((A * Q) * (A * P)).transpose := by simp only [Matrix.mul_assoc]
      _ = (A * P).transpose * (A * Q).transpose := Matrix.transpose_mul _ _
      _ = (A * P) * (A * Q) := by rw [hP.ap_symm, hQ.ap_symm]
      _ = A * P * A * Q := by simp only [Matrix.mul_assoc]
      _ = A * Q := by rw [hP.apa]
  have e2 : P * A = Q * A := by
    calc P * A = (P * A).transpose := hP.pa_symm.symm
      _ = (P * (A * Q * A)).transpose := by rw [hQ.apa]
      _ = ((P * A) * (Q * A)).transpose := by simp only [Matrix.mul_assoc]
      _ = (Q * A).transpose * (P * A).transpose := Matrix.transpose_mul _ _
      _ = (Q * A) * (P * A) := by rw [hP.pa_symm, hQ.pa_symm]
      _ = Q * (A * P * A) := by simp only [Matrix.mul_assoc]
      _ = Q * A := by rw [hP.apa]
  calc P = P * A * P := hP.pap.symm
    _ = Q * (A * P) := by rw [e2, Matrix.mul_assoc]
    _ = Q * A * Q := by rw [e1, Matrix.mul_assoc]
    _ = Q := hQ.pap

theorem spectral_pinv {n : Nat} {A : Nat → Nat → K} {w : Nat → K} {V : Nat → Nat → K}
    (h : IsEigensystem n A w V) (f : K → K) (hf : ∀ k < n, f (w k) = (w k)⁻¹) :
    IsPinv (corner n n A) (corner n n (spectralMatrix n w V f)) := by
  have hS : corner n n (spectralMatrix n w V f) =
      corner n n V * Matrix.diagonal (fun k : Fin n => (w k)⁻¹) * (corner n n V).transpose := by
    ext i j
    rw [sandwich_apply, corner_apply]
    unfold spectralMatrix
    rw [Finset.sum_range]
    exact Finset.sum_congr rfl fun k _ => by rw [hf k k.2]
  have hw : ∀ x : K, x * x⁻¹ * x = x := fun x => by
    by_cases hx : x = 0
    · rw [hx, zero_mul, zero_mul]
    · rw [mul_inv_cancel₀ hx, one_mul]
  have hw' : ∀ x : K, x⁻¹ * x * x⁻¹ = x⁻¹ := fun x => by
    by_cases hx : x = 0
    · rw [hx, inv_zero, zero_mul, zero_mul]
    · rw [inv_mul_cancel₀ hx, one_mul]
  rw [hS, h.matrix]
  refine ⟨?_, ?_, ?_, ?_⟩
  · rw [sandwich h.orth, sandwich h.orth]; simp only [hw]
  · rw [sandwich h.orth, sandwich h.orth]; simp only [hw']
  · rw [sandwich h.orth]
    simp only [Matrix.transpose_mul, Matrix.transpose_transpose, Matrix.diagonal_transpose,
      Matrix.mul_assoc]
  · rw [sandwich h.orth]
    simp only [Matrix.transpose_mul, Matrix.transpose_transpose, Matrix.diagonal_transpose,
      Matrix.mul_assoc]

/-- **C111 (solver 7).** When the eigenvalues that the cutoff drops are exactly zero, solver 7,
which takes a Moore-Penrose inverse and knows no cutoff, gives the same `Y`. -/
theorem C111_pinv (r : ColmatRoutines K) (reducible : Bool) (method : Int) (cutoff : K) (size : Nat)
    (M : Nat → Nat → K) (hr : IsPinv (corner size size M) (corner size size (r.pinv size M)))
    (w : Nat → K) (V : Nat → Nat → K) (hV : IsEigensystem size M w V)
    (hc : ∀ k < size, w k = 0 ∨ cutoff < (if method = 0 then |w k| else w k))
    (X : Nat → Fin 3 → K) :
    ∃ Y, solveColmat r reducible 7 7 method cutoff size M X = some Y ∧
      ∀ p a, rowOf reducible p a < size →
        Y p a = if reducible then spectral size w V (cutInverse method cutoff) (fun q => X q a) p
          else spectral size w V (cutInverse method cutoff) (ravel X) (p * 3 + (a : Nat)) := by
  have hf : ∀ k < size, cutInverse method cutoff (w k) = (w k)⁻¹ := by
    intro k hk
    unfold cutInverse
    rcases hc k hk with h | h
    · rw [h, inv_zero]; split_ifs <;> rfl
    · rw [if_pos h]
  have hP := pinv_unique hr (spectral_pinv hV _ hf)
  have key : ∀ (x : Nat → K) (i : Nat), i < size → dotVector size (r.pinv size M) x i =
      spectral size w V (cutInverse method cutoff) x i := by
    intro x i hi
    unfold dotVector
    rw [sumLoop_eq, spectral_eq]
    refine Finset.sum_congr rfl fun j hj => ?_
    have := congrFun (congrFun hP ⟨i, hi⟩) ⟨j, Finset.mem_range.1 hj⟩
    simp only [corner_apply] at this
    rw [this]
  unfold solveColmat diagonalizeColmat lbteY
  cases reducible
  · exact ⟨_, rfl, fun p a hp => key _ _ hp⟩
  · exact ⟨_, rfl, fun p a hp => key _ _ hp⟩

/-- **C111 (solution).** When no eigenvalue is dropped, `Y` solves `Ω Y = X`. -/
theorem C111_solves (size : Nat) (M : Nat → Nat → K) (w : Nat → K) (V : Nat → Nat → K)
    (hV : IsEigensystem size M w V) (method : Int) (cutoff : K) (h0 : 0 ≤ cutoff)
    (hc : ∀ k < size, cutoff < (if method = 0 then |w k| else w k)) (x : Nat → K) (i : Nat)
    (hi : i < size) :
    ∑ j ∈ range size, M i j * spectral size w V (cutInverse method cutoff) x j = x i := by
  have hV' : corner size size V * (corner size size V).transpose = 1 := mul_eq_one_comm.1 hV.orth
  have hwk : ∀ k < size, w k * cutInverse method cutoff (w k) = 1 := by
    intro k hk
    have := hc k hk
    unfold cutInverse
    rw [if_pos this]
    refine mul_inv_cancel₀ fun h => ?_
    rw [h] at this
    simp only [abs_zero, ite_self] at this
    exact absurd this (not_lt.2 h0)
  have hM : corner size size M *
      corner size size (spectralMatrix size w V (cutInverse method cutoff)) = 1 := by
    have hS : corner size size (spectralMatrix size w V (cutInverse method cutoff)) =
        corner size size V * Matrix.diagonal (fun k : Fin size => cutInverse method cutoff (w k)) *
          (corner size size V).transpose := by
      ext i j
      rw [sandwich_apply, corner_apply]
      unfold spectralMatrix
      rw [Finset.sum_range]
    rw [hS, hV.matrix, sandwich hV.orth, funext fun k : Fin size => hwk k k.2, Matrix.diagonal_one,
      Matrix.mul_one, hV']
  simp only [spectral_eq, Finset.mul_sum]
  rw [Finset.sum_comm]
  have e : ∀ j ∈ range size, (∑ k ∈ range size, M i k *
      (spectralMatrix size w V (cutInverse method cutoff) k j * x j)) =
      (if i = j then 1 else 0) * x j := by
    intro j hj
    have := congrFun (congrFun hM ⟨i, hi⟩) ⟨j, Finset.mem_range.1 hj⟩
    rw [Matrix.mul_apply, Matrix.one_apply] at this
    simp only [corner_apply, Fin.mk.injEq] at this
    rw [← this, Finset.sum_mul, Finset.sum_range]
    exact Finset.sum_congr rfl fun k _ => by ring
  rw [Finset.sum_congr rfl e]
  simp [hi]

/-! ## Sums of mode conductivities -/

variable {G : Type _} [Group G] [Fintype G] {nq : Nat} [MulAction G (Fin nq)]

theorem outer_group (k : LBTEInput K) (op : Fin k.numOps ≃ G) (R : G →* Matrix (Fin 3) (Fin 3) K)
    (hR : ∀ (j : Fin k.numOps) (a b : Fin 3), k.rotations j a b = R (op j) a b)
    (v f : Fin 3 → K) (a b : Fin 3) :
    starOuter k v f a b = ∑ g : G, (R g).mulVec v a * (R g).mulVec f b := by
  unfold starOuter
  rw [sumLoop_eq, Finset.sum_range, ← Equiv.sum_comp op]
  refine Finset.sum_congr rfl fun j _ => ?_
  rw [show k.rotations (j : Nat) = fun a b => R (op j) a b from
    funext fun a => funext fun b => hR j a b, rotate_mulVec, rotate_mulVec]

theorem voigt_symm (F : Fin 3 → Fin 3 → K) (a b : Fin 3) :
    F (voigt (voigtIndex a b)).1 (voigt (voigtIndex a b)).2 +
      F (voigt (voigtIndex a b)).2 (voigt (voigtIndex a b)).1 = F a b + F b a := by
  fin_cases a <;> fin_cases b <;> first | rfl | exact add_comm _ _

/-- The acoustic modes at the Γ point, which the program skips, lie at or below the cutoff and
their entries were zero before. -/
structure SkippedVanish (k : LBTEInput K) (old : Nat → Nat → Fin 6 → K) : Prop where
  low : ∀ i < k.numGp, ∀ l < k.numBand, k.gammaAddress i = true → l < 3 →
    k.frequencies i l ≤ k.cutoff
  old : ∀ i < k.numGp, ∀ l < k.numBand, k.gammaAddress i = true → l < 3 → ∀ c, old i l c = 0

theorem index2 {nb i l : Nat} (hl : l < nb) : (i * nb + l) / nb = i ∧ (i * nb + l) % nb = l := by
  have := unravel2_at (i := i) hl
  unfold unravel2 at this
  exact ⟨congrArg Prod.fst this, congrArg Prod.snd this⟩

theorem lbteX_low (k : LBTEInput K) (p : Nat) (a : Fin 3)
    (h : k.frequencies (p / k.numBand) (p % k.numBand) ≤ k.cutoff) : lbteX k p a = 0 := by
  have h0 : freqsSinh k (k.frequencies (p / k.numBand) (p % k.numBand)) = 0 := by
    unfold freqsSinh
    dsimp only
    rw [if_neg (not_lt.2 h), if_neg (by norm_num)]
    simp
  unfold lbteX
  rw [h0, mul_zero, ite_self]

theorem lbte_tensor (reducible : Bool) (k : LBTEInput K) (old : Nat → Nat → Fin 6 → K)
    (hs : SkippedVanish k old) (Y : Nat → Fin 3 → K) (a b : Fin 3) :
    tensorOf (lbteKappa reducible k (lbteX k) Y old).2 a b =
      k.factor * k.kb * k.t ^ 2 / (k.n * if reducible then (k.numOps : K) else 1) *
        ∑ i ∈ range k.numGp, ∑ l ∈ range k.numBand,
          (starOuter k (lbteX k (i * k.numBand + l)) (Y (i * k.numBand + l)) a b +
            starOuter k (lbteX k (i * k.numBand + l)) (Y (i * k.numBand + l)) b a) := by
  have hm : ∀ i ∈ range k.numGp, ∀ l ∈ range k.numBand,
      lbteModeKappa k (lbteX k) Y old i l (voigtIndex a b) =
        (starOuter k (lbteX k (i * k.numBand + l)) (Y (i * k.numBand + l)) a b +
          starOuter k (lbteX k (i * k.numBand + l)) (Y (i * k.numBand + l)) b a) *
        (k.factor * k.kb * k.t ^ 2) := by
    intro i hi l hl
    have hi := Finset.mem_range.1 hi
    have hl := Finset.mem_range.1 hl
    unfold lbteModeKappa
    dsimp only
    by_cases hg : k.gammaAddress i = true ∧ l < 3
    · rw [if_pos hg, hs.old i hi l hl hg.1 hg.2]
      have hX : lbteX k (i * k.numBand + l) = fun _ => 0 := by
        funext c
        refine lbteX_low k _ c ?_
        rw [(index2 hl).1, (index2 hl).2]
        exact hs.low i hi l hl hg.1 hg.2
      have hz : ∀ (f : Fin 3 → K) (a b : Fin 3), starOuter k (fun _ => 0) f a b = 0 := by
        intro f a b
        unfold starOuter rotateVector
        rw [sumLoop_eq]
        exact Finset.sum_eq_zero fun j _ => by ring
      rw [hX, hz, hz]
      ring
    · rw [if_neg hg, voigt_symm (fun a b => starOuter k (lbteX k (i * k.numBand + l))
        (Y (i * k.numBand + l)) a b)]
  unfold tensorOf lbteKappa lbteSum
  simp only [sumLoop_eq]
  rw [Finset.sum_comm]
  cases reducible
  · simp only [Bool.false_eq_true, if_false]
    rw [Finset.sum_congr rfl fun i hi => Finset.sum_congr rfl fun l hl => hm i hi l hl]
    simp only [← Finset.sum_mul]
    ring
  · simp only [if_true]
    rw [Finset.sum_congr rfl fun i hi => Finset.sum_congr rfl fun l hl => by rw [hm i hi l hl]]
    simp only [← Finset.sum_mul, ← Finset.sum_div]
    rw [div_div, mul_comm (k.numOps : K)]
    ring

/-! ## C110 -/

theorem rotate_sum (g : G) (R : G →* Matrix (Fin 3) (Fin 3) K) (v f : Fin 3 → K) (a b : Fin 3) :
    rotateTensor (R g) (fun a b => ∑ h : G, (R h).mulVec v a * (R h).mulVec f b) a b =
      ∑ h : G, (R h).mulVec v a * (R h).mulVec f b := by
  unfold rotateTensor
  rw [← Equiv.sum_comp (Equiv.mulLeft g) fun h : G => (R h).mulVec v a * (R h).mulVec f b]
  simp only [Finset.mul_sum, Finset.sum_mul]
  calc _ = ∑ c, ∑ h : G, ∑ d, R g a c * ((R h).mulVec v c * (R h).mulVec f d) * R g b d :=
        Finset.sum_congr rfl fun c _ => Finset.sum_comm
    _ = ∑ h : G, ∑ c, ∑ d, R g a c * ((R h).mulVec v c * (R h).mulVec f d) * R g b d :=
        Finset.sum_comm
    _ = _ := by
        refine Finset.sum_congr rfl fun h _ => ?_
        rw [Equiv.coe_mulLeft, map_mul, ← Matrix.mulVec_mulVec, ← Matrix.mulVec_mulVec]
        simp only [Matrix.mulVec, dotProduct]
        rw [Finset.sum_mul_sum]
        refine Finset.sum_congr rfl fun c _ => Finset.sum_congr rfl fun d _ => ?_
        ring

theorem rotate_add (M : Matrix (Fin 3) (Fin 3) K) (S T : Fin 3 → Fin 3 → K) (a b : Fin 3) :
    rotateTensor M (fun a b => S a b + T a b) a b = rotateTensor M S a b + rotateTensor M T a b := by
  unfold rotateTensor
  simp only [mul_add, add_mul, Finset.sum_add_distrib]

theorem rotate_scale (M : Matrix (Fin 3) (Fin 3) K) (c : K) (S : Fin 3 → Fin 3 → K) (a b : Fin 3) :
    rotateTensor M (fun a b => c * S a b) a b = c * rotateTensor M S a b := by
  unfold rotateTensor
  simp only [Finset.mul_sum]
  exact Finset.sum_congr rfl fun i _ => Finset.sum_congr rfl fun j _ => by ring

theorem rotate_finsum {ι : Type _} (s : Finset ι) (M : Matrix (Fin 3) (Fin 3) K)
    (S : ι → Fin 3 → Fin 3 → K) (a b : Fin 3) :
    rotateTensor M (fun a b => ∑ i ∈ s, S i a b) a b = ∑ i ∈ s, rotateTensor M (S i) a b := by
  unfold rotateTensor
  simp only [Finset.mul_sum, Finset.sum_mul]
  calc _ = ∑ c, ∑ i ∈ s, ∑ d, M a c * S i c d * M b d :=
        Finset.sum_congr rfl fun c _ => Finset.sum_comm
    _ = _ := Finset.sum_comm

/-- **C110 (crystal symmetry).** Whatever the collision matrix and its solution, the conductivity of
the direct solution is invariant under the operations of the crystal, in both layouts. -/
theorem C110_symmetric (reducible : Bool) (k : LBTEInput K) (op : Fin k.numOps ≃ G)
    (R : G →* Matrix (Fin 3) (Fin 3) K)
    (hR : ∀ (j : Fin k.numOps) (a b : Fin 3), k.rotations j a b = R (op j) a b)
    (old : Nat → Nat → Fin 6 → K) (hs : SkippedVanish k old) (Y : Nat → Fin 3 → K) (g : G)
    (a b : Fin 3) :
    rotateTensor (R g) (tensorOf (lbteKappa reducible k (lbteX k) Y old).2) a b =
      tensorOf (lbteKappa reducible k (lbteX k) Y old).2 a b := by
  have e : tensorOf (lbteKappa reducible k (lbteX k) Y old).2 = fun a b =>
      k.factor * k.kb * k.t ^ 2 / (k.n * if reducible then (k.numOps : K) else 1) *
        ∑ i ∈ range k.numGp, ∑ l ∈ range k.numBand,
          ((∑ h : G, (R h).mulVec (lbteX k (i * k.numBand + l)) a *
              (R h).mulVec (Y (i * k.numBand + l)) b) +
            ∑ h : G, (R h).mulVec (Y (i * k.numBand + l)) a *
              (R h).mulVec (lbteX k (i * k.numBand + l)) b) := by
    funext a b
    rw [lbte_tensor reducible k old hs]
    congr 1
    refine Finset.sum_congr rfl fun i _ => Finset.sum_congr rfl fun l _ => ?_
    rw [outer_group k op R hR, outer_group k op R hR]
    congr 1
    exact Finset.sum_congr rfl fun h _ => mul_comm _ _
  rw [e, rotate_scale, rotate_finsum]
  congr 1
  refine Finset.sum_congr rfl fun i _ => ?_
  rw [rotate_finsum]
  refine Finset.sum_congr rfl fun l _ => ?_
  rw [rotate_add, rotate_sum, rotate_sum]

/-! ## C108 -/

/-- **C108 (weights).** The square of the weight of an irreducible point is the number of arms of
its star over the number of operations. -/
theorem C108_weights (sqrt : K → K) (hsq : IsSqrt sqrt) {nI numOps : Nat} (op : Fin numOps ≃ G)
    (ir : Fin nI → Fin nq) (rotGp : Nat → Nat → Int)
    (hrot : ∀ (k : Fin nI) (j : Fin numOps), rotGp k j = ((op j • ir k : Fin nq) : Nat))
    (i : Fin nI) :
    lbteWeights sqrt numOps rotGp i * lbteWeights sqrt numOps rotGp i =
      ((star G (ir i)).card : K) / (Fintype.card G : K) := by
  have hc : numOps = Fintype.card G := by
    rw [← Fintype.card_congr op, Fintype.card_fin]
  have hs : ((List.range numOps).map (rotGp i)).dedup.length = (star G (ir i)).card := by
    rw [← List.card_toFinset]
    have : ((List.range numOps).map (rotGp i)).toFinset =
        (star G (ir i)).map ⟨fun q : Fin nq => ((q : Nat) : Int), fun q q' h => by
          exact Fin.ext (Int.ofNat_inj.1 h)⟩ := by
      ext z
      simp only [List.mem_toFinset, List.mem_map, List.mem_range, Finset.mem_map,
        Function.Embedding.coeFn_mk, star, Finset.mem_image, Finset.mem_univ, true_and]
      constructor
      · rintro ⟨j, hj, rfl⟩
        exact ⟨_, ⟨op ⟨j, hj⟩, rfl⟩, (hrot i ⟨j, hj⟩).symm⟩
      · rintro ⟨q, ⟨g, rfl⟩, rfl⟩
        refine ⟨op.symm g, (op.symm g).2, ?_⟩
        rw [hrot i (op.symm g), Equiv.apply_symm_apply]
        rfl
    rw [this, Finset.card_map]
  unfold lbteWeights
  rw [div_mul_div_comm, hsq.sq _ (Nat.cast_nonneg _), hsq.sq _ (Nat.cast_nonneg _), hs,
    hc]

/-- Heat capacity of a mode of energy `e = x kb t`: `kb (x/2)² / sinh² (x/2)`, nothing at and below
the cutoff. -/
def sinhHeatCapacity (k : LBTEInput K) (f : K) : K :=
  if f ≤ k.cutoff then 0
  else k.kb * (f * k.toEv / (2 * k.kb * k.t) / k.sinh (f * k.toEv / (2 * k.kb * k.t))) ^ 2

theorem freqsSinh_sq (k : LBTEInput K) (hk : 0 < k.kb) (ht : 0 < k.t) (f : K)
    (hsinh : k.cutoff < f → 0 < k.sinh (f * k.toEv / (2 * k.kb * k.t))) :
    freqsSinh k f * freqsSinh k f * (4 * k.kb * k.t ^ 2) = sinhHeatCapacity k f := by
  have hk' := ne_of_gt hk
  have ht' := ne_of_gt ht
  unfold freqsSinh sinhHeatCapacity
  dsimp only
  by_cases h : k.cutoff < f
  · have hp := hsinh h
    have hp' := ne_of_gt hp
    rw [if_pos h, if_pos hp, if_neg (not_le.2 h)]
    field_simp
    ring
  · rw [if_neg h, if_neg (by norm_num), if_pos (not_lt.1 h)]
    simp

/-- **C108 (relaxation time approximation).** The conductivity that the direct solution reports for
the relaxation time approximation, in the irreducible layout, is that of a calculation in the
relaxation time approximation: from the same phonons, velocities, linewidths and heat capacities,
with the weights of the direct solution against the multiplicities of the other. -/
theorem C108_rta (e : CondEnv K) (kr : KappaInput K) (k : LBTEInput K)
    (old : Nat → Nat → Fin 6 → K) (hs : SkippedVanish k old)
    (hT : TensorsOf e kr k.gv) (hkb : 0 < k.kb) (ht : 0 < k.t)
    (hsinh : ∀ f, k.cutoff < f → 0 < k.sinh (f * k.toEv / (2 * k.kb * k.t)))
    (hgp : kr.numGp = k.numGp) (hnb : kr.numBand = k.numBand)
    (hfr : kr.frequencies = k.frequencies) (hcut : kr.cutoff = k.cutoff)
    (hcv : ∀ i l, kr.cv i l = sinhHeatCapacity k (k.frequencies i l))
    (hfac : kr.factor = k.factor) (hn : kr.n = k.n) (hops : e.numOps = k.numOps)
    (hrot : e.rotations = k.rotations)
    (hw : ∀ i < k.numGp, k.weights i * k.weights i = 1 / (e.multi i : K)) (c : Fin 6) :
    (lbteKappa false k (lbteX k) (lbteRTAIr k kr.gSum) old).2 c = kappaRTA kr c := by
  have hc : ∃ a b, c = voigtIndex a b := by
    fin_cases c
    · exact ⟨0, 0, rfl⟩
    · exact ⟨1, 1, rfl⟩
    · exact ⟨2, 2, rfl⟩
    · exact ⟨1, 2, rfl⟩
    · exact ⟨0, 2, rfl⟩
    · exact ⟨0, 1, rfl⟩
  obtain ⟨a, b, rfl⟩ := hc
  change tensorOf _ a b = tensorOf (kappaRTA kr) a b
  rw [lbte_tensor false k old hs, kappa_tensor e kr k.gv hT, hgp, hnb, hn]
  simp only [Bool.false_eq_true, if_false, mul_one]
  rw [div_mul_eq_mul_div, Finset.mul_sum]
  congr 1
  refine Finset.sum_congr rfl fun i hi => ?_
  rw [Finset.mul_sum]
  refine Finset.sum_congr rfl fun l hl => ?_
  have hi := Finset.mem_range.1 hi
  have hl := Finset.mem_range.1 hl
  have hX : lbteX k (i * k.numBand + l) =
      fun a => k.weights i * freqsSinh k (k.frequencies i l) * k.gv i l a := by
    funext a
    unfold lbteX
    rw [if_pos ht, (index2 hl).1, (index2 hl).2]
    ring
  have hY : lbteRTAIr k kr.gSum (i * k.numBand + l) = fun a =>
      (if k.frequencies i l ≤ k.cutoff ∨ kr.gSum i l = 0 then 0 else
        k.weights i * freqsSinh k (k.frequencies i l) / kr.gSum i l) * k.gv i l a := by
    funext a
    unfold lbteRTAIr
    rw [hX, (index2 hl).1, (index2 hl).2]
    by_cases h1 : k.cutoff < k.frequencies i l
    · rw [if_pos h1]
      by_cases h2 : kr.gSum i l = 0
      · rw [if_pos h2, if_pos (Or.inr h2), zero_mul]
      · rw [if_neg h2, if_neg (by
          rintro (h | h)
          · exact absurd h1 (not_lt.2 h)
          · exact h2 h)]
        ring
    · rw [if_neg h1, if_pos (Or.inl (not_lt.1 h1)), zero_mul]
  have hso : ∀ (x y : K) (a b : Fin 3), starOuter k (fun a => x * k.gv i l a)
      (fun a => y * k.gv i l a) a b = x * y * ∑ j ∈ range e.numOps,
        rotateVector (e.rotations j) (k.gv i l) a * rotateVector (e.rotations j) (k.gv i l) b := by
    intro x y a b
    unfold starOuter
    rw [hops, hrot, sumLoop_eq, Finset.mul_sum]
    refine Finset.sum_congr rfl fun j _ => ?_
    unfold rotateVector
    ring
  have hgv : gvByGv e i (k.gv i l) a b = k.weights i * k.weights i * ∑ j ∈ range e.numOps,
      rotateVector (e.rotations j) (k.gv i l) a * rotateVector (e.rotations j) (k.gv i l) b := by
    unfold gvByGv
    rw [hw i hi, sumLoop_eq]
    ring
  have hsym : (∑ j ∈ range e.numOps, rotateVector (e.rotations j) (k.gv i l) b *
      rotateVector (e.rotations j) (k.gv i l) a) = ∑ j ∈ range e.numOps,
      rotateVector (e.rotations j) (k.gv i l) a * rotateVector (e.rotations j) (k.gv i l) b :=
    Finset.sum_congr rfl fun j _ => mul_comm _ _
  rw [hX, hY, hso, hso, hgv, hsym]
  unfold modeWeight
  rw [hfr, hcut, hcv, hfac]
  by_cases h2 : kr.gSum i l = 0
  · rw [if_pos (Or.inr h2), if_pos (Or.inr h2)]
    ring
  · by_cases h1 : k.frequencies i l ≤ k.cutoff
    · rw [if_pos (Or.inl h1)]
      have : sinhHeatCapacity k (k.frequencies i l) = 0 := by
        unfold sinhHeatCapacity
        rw [if_pos h1]
      rw [this]
      split_ifs <;> ring
    · rw [if_neg (by rintro (h | h); exacts [h1 h, h2 h]),
        if_neg (by rintro (h | h); exacts [h1 h.le, h2 h]),
        ← freqsSinh_sq k hkb ht _ (hsinh _)]
      field_simp
      ring

end

/-! ### Cases that meet the hypotheses -/

/-- An eigensolver for diagonal matrices. -/
def diagonalRoutines : ColmatRoutines ℚ where
  eigh _ M := (fun i => M i i, fun i j => if i = j then 1 else 0)
  pinv _ M i j := if i = j then (M i i)⁻¹ else 0

theorem diagonal_eigensystem (n : Nat) (d : Nat → ℚ) :
    IsEigensystem n (fun i j => if i = j then d i else 0) d fun i j => if i = j then 1 else 0 := by
  refine ⟨fun i hi j hj => ?_, fun i hi j hj => ?_⟩
  · simp only [ite_mul, one_mul, zero_mul, Finset.sum_ite_eq', Finset.mem_range, if_pos hi]
  · by_cases h : i = j
    · subst h; simp [hi]
    · simp [h]

/-- The hypotheses of C111 are met by a matrix with the eigenvalues 0, 1 and 4, of which the first
is dropped. -/
example :
    EighOn diagonalRoutines 3 (fun i j => if i = j then (i * i : ℚ) else 0) ∧
    SymmetricMatrix 3 (fun i j => if i = j then (i * i : ℚ) else 0) ∧
    EigenSolver 6 3 ∧ EigenSolver 0 1 ∧
    cutInverse 0 (1 / 2) (0 : ℚ) = 0 ∧ cutInverse 0 (1 / 2) (4 : ℚ) = 1 / 4 := by
  refine ⟨⟨?_, ?_⟩, ?_, Or.inl ⟨rfl, rfl⟩, Or.inr ⟨by decide, Or.inl rfl⟩, by decide +kernel, by decide +kernel⟩
  · have := diagonal_eigensystem 3 fun i => (i * i : ℚ)
    simpa [diagonalRoutines] using this
  · have := diagonal_eigensystem 3 fun i => (i * i : ℚ)
    have e : (fun i j : Nat => if j = i then (j * j : ℚ) else 0) =
        fun i j : Nat => if i = j then (i * i : ℚ) else 0 := by
      funext i j
      by_cases h : i = j
      · subst h; rfl
      · rw [if_neg h, if_neg (Ne.symm h)]
    rw [e]
    simpa [diagonalRoutines] using this
  · intro i _ j _
    beta_reduce
    by_cases h : i = j
    · subst h; rfl
    · rw [if_neg h, if_neg (Ne.symm h)]

/-- A calculation with two points and four bands; the point 0 is Γ. -/
def lbteExample : LBTEInput ℚ where
  numGp := 2
  numBand := 4
  numOps := 2
  rotations j := if j = 0 then ![![1, 0, 0], ![0, 1, 0], ![0, 0, 1]]
    else ![![-1, 0, 0], ![0, 1, 0], ![0, 0, 1]]
  frequencies i l := if i = 0 ∧ l < 3 then 0 else l + 1
  cutoff := 1 / 2
  weights i := if i = 0 then 1 / 2 else 1
  gv i l := ![i + 1, l, 2]
  gammaAddress i := i = 0
  t := 1
  kb := 1 / 2
  toEv := 1
  sinh x := x
  factor := 1
  n := 2

/-- The relaxation time approximation beside it. -/
def lbteExampleRTA : KappaInput ℚ where
  numGp := 2
  numBand := 4
  frequencies := lbteExample.frequencies
  cutoff := 1 / 2
  gSum i l := i + l + 1
  cv i l := sinhHeatCapacity lbteExample (lbteExample.frequencies i l)
  gvSum2 i l c := gvByGv { condExample with
    rotations := lbteExample.rotations, numOps := 2, multi := fun i => if i = 0 then 4 else 1 } i
      (lbteExample.gv i l) (voigt c).1 (voigt c).2
  factor := 1
  n := 2

/-- The hypotheses of C108 are met and the conductivity does not vanish. -/
example : SkippedVanish lbteExample (fun _ _ _ => 0) ∧
    (∀ i < 2, lbteExample.weights i * lbteExample.weights i =
      1 / (((if i = 0 then 4 else 1 : Nat)) : ℚ)) ∧
    (∀ f, lbteExample.cutoff < f →
      0 < lbteExample.sinh (f * lbteExample.toEv / (2 * lbteExample.kb * lbteExample.t))) ∧
    TensorsOf { condExample with
      rotations := lbteExample.rotations, numOps := 2, multi := fun i => if i = 0 then 4 else 1 }
      lbteExampleRTA lbteExample.gv ∧
    kappaRTA lbteExampleRTA 0 ≠ 0 := by
  refine ⟨⟨?_, fun _ _ _ _ _ _ _ => rfl⟩, by decide +kernel, ?_, fun _ _ _ _ _ => rfl,
    by decide +kernel⟩
  · intro i hi l hl
    have : ∀ i < 2, ∀ l < 4, lbteExample.gammaAddress i = true → l < 3 →
      lbteExample.frequencies i l ≤ lbteExample.cutoff := by decide +kernel
    exact this i hi l hl
  · intro f hf
    simp only [lbteExample] at hf ⊢
    linarith

/-- **C108 (heat capacity).** The heat capacity that enters the direct solution through `X` is
`kb x² eˣ / (eˣ - 1)²` with `x = f / (kb t)`, the heat capacity of a mode. -/
theorem C108_heat_capacity (k : LBTEInput ℝ) (hs : k.sinh = Real.sinh) (hk : 0 < k.kb)
    (ht : 0 < k.t) (he : 0 < k.toEv) (hc : 0 ≤ k.cutoff) (f : ℝ) (hf : k.cutoff < f) :
    sinhHeatCapacity k f = k.kb * (f * k.toEv / (k.kb * k.t)) ^ 2 *
      Real.exp (f * k.toEv / (k.kb * k.t)) / (Real.exp (f * k.toEv / (k.kb * k.t)) - 1) ^ 2 := by
  have hf0 : 0 < f := lt_of_le_of_lt hc hf
  have hx : 0 < f * k.toEv / (k.kb * k.t) := by positivity
  unfold sinhHeatCapacity
  rw [if_neg (not_le.2 hf), hs]
  have e1 : f * k.toEv / (2 * k.kb * k.t) = f * k.toEv / (k.kb * k.t) / 2 := by
    field_simp
  rw [e1]
  generalize f * k.toEv / (k.kb * k.t) = x at hx
  have hE : Real.exp x - 1 ≠ 0 := by
    have := Real.add_one_lt_exp (ne_of_gt hx)
    linarith
  have hS : 0 < Real.sinh (x / 2) := Real.sinh_pos_iff.2 (by linarith)
  have e2 : (2 * Real.sinh (x / 2)) ^ 2 * Real.exp x = (Real.exp x - 1) ^ 2 := by
    have h1 : Real.exp (x / 2) * Real.exp (x / 2) = Real.exp x := by
      rw [← Real.exp_add]; congr 1; ring
    have h2 : Real.exp (x / 2) * Real.exp (-(x / 2)) = 1 := by
      rw [← Real.exp_add]; simp
    rw [Real.sinh_eq]
    generalize Real.exp (x / 2) = u at *
    generalize Real.exp (-(x / 2)) = v at *
    rw [← h1]
    linear_combination (-(2 * u * u - u * v - 1)) * h2
  rw [div_pow, div_pow, eq_div_iff (pow_ne_zero 2 hE), ← e2]
  field_simp

end Phono3py.Props
