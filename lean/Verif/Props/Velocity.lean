/- C105: velocity operators of the Wigner transport equation. -/
import Verif.Spec.Velocity
import Verif.Props.KappaWigner
import Mathlib.LinearAlgebra.Matrix.NonsingularInverse
import Mathlib.Tactic.LinearCombination
import Mathlib.Tactic.NoncommRing
import Mathlib.Algebra.Order.Field.Rat

namespace Phono3py.Props
open Phono3py.Spec Matrix

section
variable {K : Type _} [Field K] {n : Nat}

theorem star_re (z : Cplx K) : (Star.star z).re = z.re := rfl
theorem star_im (z : Cplx K) : (Star.star z).im = -z.im := rfl

theorem cscale_eq (z : Cplx K) (r : K) : z.scale r = z * ⟨r, 0⟩ := by
  ext <;> simp [Cplx.scale]

theorem star_real (r : K) : Star.star (⟨r, 0⟩ : Cplx K) = ⟨r, 0⟩ := by
  ext <;> simp [star_re, star_im]

theorem map_scale (A : BandMatrix n K) (r : K) : (A.map fun z => z.scale r) = (⟨r, 0⟩ : Cplx K) • A := by
  ext1 i j
  rw [Matrix.map_apply, Matrix.smul_apply, smul_eq_mul, cscale_eq, mul_comm]

theorem _root_.Phono3py.Spec.Diagonalises.right {D E : BandMatrix n K} {lam : Fin n → K} (h : Diagonalises D E lam) :
    E * Eᴴ = 1 := mul_eq_one_comm.1 h.orthonormal

theorem _root_.Phono3py.Spec.Diagonalises.spectral {D E : BandMatrix n K} {lam : Fin n → K} (h : Diagonalises D E lam) :
    Eᴴ * (D * E) = Matrix.diagonal fun s => (⟨lam s, 0⟩ : Cplx K) := by
  rw [h.eigen, ← Matrix.mul_assoc, h.orthonormal, Matrix.one_mul]

theorem _root_.Phono3py.Spec.Diagonalises.rebuild {D E : BandMatrix n K} {lam : Fin n → K} (h : Diagonalises D E lam) :
    D = E * ((Matrix.diagonal fun s => (⟨lam s, 0⟩ : Cplx K)) * Eᴴ) := by
  rw [← Matrix.mul_assoc, ← h.eigen, Matrix.mul_assoc, h.right, Matrix.mul_one]

/-- A function of a Hermitian matrix. -/
theorem sqrt_eq (csqrt : Cplx K → Cplx K) {eigh : BandMatrix n K → BandMatrix n K}
    {D : BandMatrix n K} {lam : Fin n → K} (h : Diagonalises D (eigh D) lam) :
    sqrtDynMat csqrt eigh false D =
      eigh D * ((Matrix.diagonal fun s => csqrt ⟨lam s, 0⟩) * (eigh D)ᴴ) := by
  simp only [sqrtDynMat, clearedVecs, Bool.false_eq_true, ↓reduceIte]
  rw [h.spectral]
  congr 2
  ext1 i j
  by_cases hij : i = j
  · subst hij
    simp
  · simp [hij]

/-- Two sets of eigenvectors of the same matrix give the same function of it. -/
theorem function_unique (f : K → Cplx K) {D E E' : BandMatrix n K} {lam lam' : Fin n → K}
    (h : Diagonalises D E lam) (h' : Diagonalises D E' lam') :
    E * ((Matrix.diagonal fun s => f (lam s)) * Eᴴ) =
      E' * ((Matrix.diagonal fun s => f (lam' s)) * E'ᴴ) := by
  have hU : ∀ s t, (⟨lam s - lam' t, 0⟩ : Cplx K) * (Eᴴ * E') s t = 0 := by
    intro s t
    have h1 : (Matrix.diagonal fun s => (⟨lam s, 0⟩ : Cplx K)) * (Eᴴ * E') =
        (Eᴴ * E') * Matrix.diagonal fun s => (⟨lam' s, 0⟩ : Cplx K) := by
      rw [Matrix.mul_assoc, ← h'.eigen, ← h.spectral, Matrix.mul_assoc, Matrix.mul_assoc,
        ← Matrix.mul_assoc E, h.right, Matrix.one_mul]
    have h2 := congrFun (congrFun h1 s) t
    rw [Matrix.diagonal_mul, Matrix.mul_diagonal] at h2
    have : (⟨lam s - lam' t, 0⟩ : Cplx K) = ⟨lam s, 0⟩ - ⟨lam' t, 0⟩ := by
      ext <;> simp
    rw [this]
    linear_combination h2
  have hf : (Matrix.diagonal fun s => f (lam s)) * (Eᴴ * E') =
      (Eᴴ * E') * Matrix.diagonal fun s => f (lam' s) := by
    ext1 s t
    rw [Matrix.diagonal_mul, Matrix.mul_diagonal]
    by_cases hst : lam s = lam' t
    · rw [hst, mul_comm]
    · have hz : (Eᴴ * E') s t = 0 := by
        have h1 := hU s t
        have hne : lam s - lam' t ≠ 0 := sub_ne_zero.2 hst
        have h2 : (⟨(lam s - lam' t)⁻¹, 0⟩ : Cplx K) * ⟨lam s - lam' t, 0⟩ = 1 := by
          ext <;> simp [hne]
        linear_combination (⟨(lam s - lam' t)⁻¹, 0⟩ : Cplx K) * h1 - (Eᴴ * E') s t * h2
      rw [hz]
      ring
  calc E * ((Matrix.diagonal fun s => f (lam s)) * Eᴴ)
      = E * (((Matrix.diagonal fun s => f (lam s)) * (Eᴴ * E')) * E'ᴴ) := by
        rw [← Matrix.mul_assoc (Matrix.diagonal _) Eᴴ E', Matrix.mul_assoc _ E' E'ᴴ, h'.right,
          Matrix.mul_one]
    _ = _ := by
        rw [hf, Matrix.mul_assoc, Matrix.mul_assoc, ← Matrix.mul_assoc E, h.right, Matrix.one_mul]

/-- **C105 (root).** The matrix differentiated is a square root of the dynamical matrix. -/
theorem C105_root {csqrt : Cplx K → Cplx K} {eigh : BandMatrix n K → BandMatrix n K}
    {D : BandMatrix n K} {lam : Fin n → K} (h : Diagonalises D (eigh D) lam)
    (hroot : ∀ s, csqrt ⟨lam s, 0⟩ * csqrt ⟨lam s, 0⟩ = ⟨lam s, 0⟩) :
    sqrtDynMat csqrt eigh false D * sqrtDynMat csqrt eigh false D = D := by
  rw [sqrt_eq csqrt h]
  conv_rhs => rw [h.rebuild]
  rw [Matrix.mul_assoc, Matrix.mul_assoc, ← Matrix.mul_assoc (eigh D)ᴴ, h.orthonormal,
    Matrix.one_mul, ← Matrix.mul_assoc (Matrix.diagonal _), Matrix.diagonal_mul_diagonal]
  simp only [hroot]

/-- **C105 (zone centre).** At the zone centre the three lowest modes are removed; nothing is lost if
their eigenvalues vanish, as those of acoustic modes do. -/
theorem C105_root_gamma {csqrt : Cplx K → Cplx K} {eigh : BandMatrix n K → BandMatrix n K}
    {D : BandMatrix n K} {lam : Fin n → K} (h : Diagonalises D (eigh D) lam)
    (hroot : ∀ s, csqrt ⟨lam s, 0⟩ * csqrt ⟨lam s, 0⟩ = ⟨lam s, 0⟩) :
    sqrtDynMat csqrt eigh true D * sqrtDynMat csqrt eigh true D =
      eigh D * ((Matrix.diagonal fun s => if s.val < 3 then 0 else (⟨lam s, 0⟩ : Cplx K)) *
        (eigh D)ᴴ) := by
  set E := eigh D with hE
  set P : BandMatrix n K := Matrix.diagonal fun s => if s.val < 3 then 0 else 1 with hP
  have hc : clearedVecs true E = E * P := by
    ext1 r s
    rw [hP, Matrix.mul_diagonal]
    simp only [clearedVecs, ↓reduceIte]
    split_ifs <;> simp
  have hPs : Pᴴ = P := by
    rw [hP, Matrix.diagonal_conjTranspose]
    congr 1
    funext s
    simp only [Pi.star_apply]
    split_ifs <;> simp
  have hd : (((E * P)ᴴ * (D * (E * P))).map csqrt).diag = fun s =>
      csqrt (if s.val < 3 then 0 else ⟨lam s, 0⟩) := by
    funext s
    rw [Matrix.conjTranspose_mul, hPs, ← Matrix.mul_assoc D, Matrix.mul_assoc P,
      ← Matrix.mul_assoc Eᴴ, h.spectral, hP, Matrix.diagonal_mul_diagonal,
      Matrix.diagonal_mul_diagonal]
    simp only [Matrix.diag_apply, Matrix.map_apply, Matrix.diagonal_apply_eq]
    congr 1
    split_ifs <;> simp
  have hs : sqrtDynMat csqrt eigh true D = E * (P * (Matrix.diagonal fun s =>
      csqrt (if s.val < 3 then 0 else (⟨lam s, 0⟩ : Cplx K))) * P * Eᴴ) := by
    unfold sqrtDynMat
    rw [← hE, hc]
    dsimp only
    rw [hd, Matrix.conjTranspose_mul, hPs]
    simp only [Matrix.mul_assoc]
  rw [hs]
  have hE1 : ∀ A B : BandMatrix n K, E * (A * Eᴴ) * (E * (B * Eᴴ)) = E * (A * B * Eᴴ) := by
    intro A B
    rw [Matrix.mul_assoc, Matrix.mul_assoc A, ← Matrix.mul_assoc Eᴴ, h.orthonormal, Matrix.one_mul,
      Matrix.mul_assoc A]
  rw [hE1]
  congr 2
  rw [hP]
  simp only [Matrix.diagonal_mul_diagonal]
  congr 1
  funext s
  split_ifs with h3
  · simp
  · simp [hroot]

/-- **C105 (root, Hermitian).** It is Hermitian if the crystal is stable. -/
theorem C105_root_hermitian {csqrt : Cplx K → Cplx K} {eigh : BandMatrix n K → BandMatrix n K}
    {D : BandMatrix n K} {lam : Fin n → K} (h : Diagonalises D (eigh D) lam)
    (hreal : ∀ s, (csqrt ⟨lam s, 0⟩).im = 0) :
    (sqrtDynMat csqrt eigh false D)ᴴ = sqrtDynMat csqrt eigh false D := by
  rw [sqrt_eq csqrt h, Matrix.conjTranspose_mul, Matrix.conjTranspose_mul,
    Matrix.conjTranspose_conjTranspose, Matrix.diagonal_conjTranspose, Matrix.mul_assoc]
  congr 3
  funext s
  ext
  · rfl
  · simp [star_im, hreal]

/-- **C105 (eigensolver).** It does not depend on the eigenvectors the eigensolver returns. -/
theorem C105_root_unique {csqrt : Cplx K → Cplx K} {eigh eigh' : BandMatrix n K → BandMatrix n K}
    {D : BandMatrix n K} {lam lam' : Fin n → K} (h : Diagonalises D (eigh D) lam)
    (h' : Diagonalises D (eigh' D) lam') :
    sqrtDynMat csqrt eigh false D = sqrtDynMat csqrt eigh' false D := by
  rw [sqrt_eq csqrt h, sqrt_eq csqrt h']
  exact function_unique (fun x => csqrt ⟨x, 0⟩) h h'

/-- **C105 (Hermitian).** Every component of the velocity operator is a Hermitian matrix. -/
theorem C105_hermitian (csqrt : Cplx K → Cplx K) (eigh : BandMatrix n K → BandMatrix n K)
    (factor qLength : K) (flagGamma : Bool) (dm dm1 dm2 : BandMatrix n K) :
    (velocityOperator csqrt eigh factor qLength flagGamma dm dm1 dm2)ᴴ =
      velocityOperator csqrt eigh factor qLength flagGamma dm dm1 dm2 := by
  simp only [velocityOperator]
  generalize ((eigh dm)ᴴ * (((deltaSqrt csqrt eigh flagGamma dm1 dm2).map fun z =>
    (z.scale (1 / qLength)).scale (1 / 2)) * eigh dm)).map (fun z => z.scale factor) = gv
  rw [map_scale, Matrix.conjTranspose_smul, Matrix.conjTranspose_add,
    Matrix.conjTranspose_conjTranspose, star_real, add_comm]

theorem map_scale2 (A : BandMatrix n K) (r s : K) :
    (A.map fun z => (z.scale r).scale s) = (⟨r * s, 0⟩ : Cplx K) • A := by
  ext1 i j
  rw [Matrix.map_apply, Matrix.smul_apply, smul_eq_mul]
  ext <;> simp [Cplx.scale] <;> ring

/-- **C105 (no change).** Where the dynamical matrix does not change along the direction, at the zone
centre or elsewhere, the velocity operator vanishes. -/
theorem C105_constant (csqrt : Cplx K → Cplx K) (eigh : BandMatrix n K → BandMatrix n K)
    (factor qLength : K) (flagGamma : Bool) (dm D : BandMatrix n K) :
    velocityOperator csqrt eigh factor qLength flagGamma dm D D = 0 := by
  have h : deltaSqrt csqrt eigh flagGamma D D = 0 := by
    unfold deltaSqrt
    exact sub_self _
  simp only [velocityOperator, h, map_scale, map_scale2, smul_zero, Matrix.zero_mul, Matrix.mul_zero,
    Matrix.conjTranspose_zero, add_zero]

/-- The velocity operator as a product of matrices. -/
theorem velocityOperator_eq (csqrt : Cplx K → Cplx K) (eigh : BandMatrix n K → BandMatrix n K)
    (factor qLength : K) (flagGamma : Bool) (dm dm1 dm2 : BandMatrix n K) :
    velocityOperator csqrt eigh factor qLength flagGamma dm dm1 dm2 =
      (eigh dm)ᴴ * ((⟨factor * (1 / qLength * (1 / 2)) * (1 / 2), 0⟩ : Cplx K) •
        ((deltaSqrt csqrt eigh flagGamma dm1 dm2)ᴴ + deltaSqrt csqrt eigh flagGamma dm1 dm2) *
          eigh dm) := by
  simp only [velocityOperator]
  rw [map_scale2, map_scale, map_scale]
  generalize deltaSqrt csqrt eigh flagGamma dm1 dm2 = A
  rw [Matrix.conjTranspose_smul, Matrix.conjTranspose_mul, Matrix.conjTranspose_mul,
    Matrix.conjTranspose_conjTranspose, Matrix.conjTranspose_smul, star_real, star_real]
  simp only [Matrix.smul_mul, Matrix.mul_smul, smul_smul, ← smul_add, Matrix.mul_assoc]
  rw [← Matrix.mul_add, ← Matrix.add_mul]
  congr 1
  ext <;> simp <;> ring

theorem delta_hermitian {csqrt : Cplx K → Cplx K} {eigh : BandMatrix n K → BandMatrix n K}
    {D1 D2 : BandMatrix n K} {lam1 lam2 : Fin n → K} (h1 : Diagonalises D1 (eigh D1) lam1)
    (h2 : Diagonalises D2 (eigh D2) lam2) (hr1 : ∀ s, (csqrt ⟨lam1 s, 0⟩).im = 0)
    (hr2 : ∀ s, (csqrt ⟨lam2 s, 0⟩).im = 0) :
    (deltaSqrt csqrt eigh false D1 D2)ᴴ = deltaSqrt csqrt eigh false D1 D2 := by
  unfold deltaSqrt
  rw [Matrix.conjTranspose_sub, C105_root_hermitian h1 hr1, C105_root_hermitian h2 hr2]

variable [CharZero K]

/-- **C105 (formula).** Away from the zone centre of a stable crystal the elements of the velocity
operator are those of the symmetric difference quotient of the square root of the dynamical matrix
between the eigenvectors at `q`. -/
theorem C105_formula {csqrt : Cplx K → Cplx K} {eigh : BandMatrix n K → BandMatrix n K}
    (factor qLength : K) (dm : BandMatrix n K)
    {D1 D2 : BandMatrix n K} {lam1 lam2 : Fin n → K} (h1 : Diagonalises D1 (eigh D1) lam1)
    (h2 : Diagonalises D2 (eigh D2) lam2) (hr1 : ∀ s, (csqrt ⟨lam1 s, 0⟩).im = 0)
    (hr2 : ∀ s, (csqrt ⟨lam2 s, 0⟩).im = 0) (s t : Fin n) :
    velocityOperator csqrt eigh factor qLength false dm D1 D2 s t =
      (braket (eigh dm) (sqrtDynMat csqrt eigh false D2 - sqrtDynMat csqrt eigh false D1) s t).scale
        (factor / (2 * qLength)) := by
  rw [velocityOperator_eq, delta_hermitian h1 h2 hr1 hr2]
  generalize hA : deltaSqrt csqrt eigh false D1 D2 = A
  unfold deltaSqrt at hA
  rw [hA]
  have : (⟨factor * (1 / qLength * (1 / 2)) * (1 / 2), 0⟩ : Cplx K) • (A + A) =
      (⟨factor / (2 * qLength), 0⟩ : Cplx K) • A := by
    ext1 i j
    simp only [Matrix.smul_apply, Matrix.add_apply, smul_eq_mul]
    have h2 : (2 : K) ≠ 0 := two_ne_zero
    ext <;> simp <;> field_simp <;> ring
  rw [this, Matrix.smul_mul, Matrix.mul_smul, Matrix.smul_apply, smul_eq_mul, cscale_eq, mul_comm]
  congr 1
  unfold braket
  simp only [Matrix.mul_apply, Matrix.conjTranspose_apply, Finset.mul_sum, mul_assoc]

/-- **C105 (difference of dynamical matrices).** Together with the mean root it reproduces the
difference of the dynamical matrices exactly: the discrete form of
`(ω_s + ω_t) v_st = ⟨e_s| dD/dq |e_t⟩`. -/
theorem C105_difference {csqrt : Cplx K → Cplx K} {eigh : BandMatrix n K → BandMatrix n K}
    {D1 D2 : BandMatrix n K} {lam1 lam2 : Fin n → K} (h1 : Diagonalises D1 (eigh D1) lam1)
    (h2 : Diagonalises D2 (eigh D2) lam2)
    (hr1 : ∀ s, csqrt ⟨lam1 s, 0⟩ * csqrt ⟨lam1 s, 0⟩ = ⟨lam1 s, 0⟩)
    (hr2 : ∀ s, csqrt ⟨lam2 s, 0⟩ * csqrt ⟨lam2 s, 0⟩ = ⟨lam2 s, 0⟩) :
    let S1 := sqrtDynMat csqrt eigh false D1
    let S2 := sqrtDynMat csqrt eigh false D2
    deltaSqrt csqrt eigh false D1 D2 * (S1 + S2) + (S1 + S2) * deltaSqrt csqrt eigh false D1 D2 =
      (D2 - D1) + (D2 - D1) := by
  dsimp only
  have e1 := C105_root h1 hr1
  have e2 := C105_root h2 hr2
  unfold deltaSqrt
  generalize sqrtDynMat csqrt eigh false D1 = S1 at *
  generalize sqrtDynMat csqrt eigh false D2 = S2 at *
  rw [← e1, ← e2]
  noncomm_ring

/-- **C105 (group velocity).** If a polarisation vector is an eigenvector at `q`, `q - dq` and
`q + dq`, the diagonal element is the symmetric difference quotient of its frequency. -/
theorem C105_group_velocity {csqrt : Cplx K → Cplx K} {eigh : BandMatrix n K → BandMatrix n K}
    (factor qLength : K) {D : BandMatrix n K} {lam : Fin n → K} (h : Diagonalises D (eigh D) lam)
    {D1 D2 : BandMatrix n K} {lam1 lam2 : Fin n → K} (h1 : Diagonalises D1 (eigh D1) lam1)
    (h2 : Diagonalises D2 (eigh D2) lam2) (hr1 : ∀ s, (csqrt ⟨lam1 s, 0⟩).im = 0)
    (hr2 : ∀ s, (csqrt ⟨lam2 s, 0⟩).im = 0) (s a b : Fin n)
    (ha : ∀ r, eigh D r s = eigh D1 r a) (hb : ∀ r, eigh D r s = eigh D2 r b) :
    velocityOperator csqrt eigh factor qLength false D D1 D2 s s =
      ⟨((csqrt ⟨lam2 b, 0⟩).re - (csqrt ⟨lam1 a, 0⟩).re) * (factor / (2 * qLength)), 0⟩ := by
  rw [C105_formula factor qLength D h1 h2 hr1 hr2]
  have key : ∀ {D' : BandMatrix n K} {lam' : Fin n → K} (h' : Diagonalises D' (eigh D') lam')
      (a : Fin n) (_ : ∀ r, eigh D r s = eigh D' r a),
      braket (eigh D) (sqrtDynMat csqrt eigh false D') s s = csqrt ⟨lam' a, 0⟩ := by
    intro D' lam' h' a ha
    have e1 : braket (eigh D) (sqrtDynMat csqrt eigh false D') s s =
        ((eigh D')ᴴ * (sqrtDynMat csqrt eigh false D' * eigh D')) a a := by
      unfold braket
      simp only [Matrix.mul_apply, Matrix.conjTranspose_apply, Finset.mul_sum, mul_assoc, ha]
    rw [e1, sqrt_eq csqrt h']
    have e2 : (eigh D')ᴴ * (eigh D' * ((Matrix.diagonal fun s => csqrt ⟨lam' s, 0⟩) * (eigh D')ᴴ) *
        eigh D') = Matrix.diagonal fun s => csqrt ⟨lam' s, 0⟩ := by
      rw [Matrix.mul_assoc, Matrix.mul_assoc, h'.orthonormal, Matrix.mul_one, ← Matrix.mul_assoc,
        h'.orthonormal, Matrix.one_mul]
    rw [e2, Matrix.diagonal_apply_eq]
  have hsub : braket (eigh D) (sqrtDynMat csqrt eigh false D2 - sqrtDynMat csqrt eigh false D1) s s =
      braket (eigh D) (sqrtDynMat csqrt eigh false D2) s s -
        braket (eigh D) (sqrtDynMat csqrt eigh false D1) s s := by
    unfold braket
    simp only [Matrix.sub_apply, ← Finset.sum_sub_distrib]
    refine Finset.sum_congr rfl fun a _ => Finset.sum_congr rfl fun b _ => ?_
    ring
  rw [hsub, key h1 a ha, key h2 b hb]
  ext
  · simp [Cplx.scale]
  · simp [Cplx.scale, hr1, hr2]

omit [CharZero K] in
/-- Two sets of eigenvectors of one matrix differ by a unitary matrix that does not mix different
eigenvalues. -/
theorem mixing {D E E' : BandMatrix n K} {lam : Fin n → K} (h : Diagonalises D E lam)
    (h' : Diagonalises D E' lam) : ∃ U : BandMatrix n K, E' = E * U ∧ U * Uᴴ = 1 ∧ Uᴴ * U = 1 ∧
      ∀ s t, lam s ≠ lam t → U s t = 0 := by
  refine ⟨Eᴴ * E', ?_, ?_, ?_, ?_⟩
  · rw [← Matrix.mul_assoc, h.right, Matrix.one_mul]
  · rw [Matrix.conjTranspose_mul, Matrix.conjTranspose_conjTranspose, Matrix.mul_assoc,
      ← Matrix.mul_assoc E', h'.right, Matrix.one_mul, h.orthonormal]
  · rw [Matrix.conjTranspose_mul, Matrix.conjTranspose_conjTranspose, Matrix.mul_assoc,
      ← Matrix.mul_assoc E, h.right, Matrix.one_mul, h'.orthonormal]
  · intro s t hst
    have h1 : (Matrix.diagonal fun s => (⟨lam s, 0⟩ : Cplx K)) * (Eᴴ * E') =
        (Eᴴ * E') * Matrix.diagonal fun s => (⟨lam s, 0⟩ : Cplx K) := by
      rw [Matrix.mul_assoc, ← h'.eigen, ← h.spectral, Matrix.mul_assoc, Matrix.mul_assoc,
        ← Matrix.mul_assoc E, h.right, Matrix.one_mul]
    have h2 := congrFun (congrFun h1 s) t
    rw [Matrix.diagonal_mul, Matrix.mul_diagonal] at h2
    have hne : lam s - lam t ≠ 0 := sub_ne_zero.2 hst
    have h3 : (⟨(lam s - lam t)⁻¹, 0⟩ : Cplx K) * (⟨lam s, 0⟩ - ⟨lam t, 0⟩) = 1 := by
      ext <;> simp [hne]
    linear_combination (⟨(lam s - lam t)⁻¹, 0⟩ : Cplx K) * h2 - (Eᴴ * E') s t * h3

omit [CharZero K] in
/-- Sums over blocks are invariant under mixing within the blocks. -/
theorem block_invariant (U A B : BandMatrix n K) (hU : U * Uᴴ = 1) (S T : Finset (Fin n))
    (hS : ∀ s t, (s ∈ S ↔ ¬t ∈ S) → U s t = 0) (hT : ∀ s t, (s ∈ T ↔ ¬t ∈ T) → U s t = 0) :
    ∑ s ∈ S, ∑ t ∈ T, (Uᴴ * (A * U)) s t * Star.star ((Uᴴ * (B * U)) s t) =
      ∑ s ∈ S, ∑ t ∈ T, A s t * Star.star (B s t) := by
  classical
  -- projections on the blocks
  set P : BandMatrix n K := Matrix.diagonal fun s => if s ∈ S then 1 else 0 with hP
  set Q : BandMatrix n K := Matrix.diagonal fun s => if s ∈ T then 1 else 0 with hQ
  have comm : ∀ (R : Finset (Fin n)), (∀ s t, (s ∈ R ↔ ¬t ∈ R) → U s t = 0) →
      U * (Matrix.diagonal fun s => if s ∈ R then (1 : Cplx K) else 0) =
        (Matrix.diagonal fun s => if s ∈ R then (1 : Cplx K) else 0) * U := by
    intro R hR
    ext1 s t
    rw [Matrix.mul_diagonal, Matrix.diagonal_mul]
    by_cases h1 : s ∈ R <;> by_cases h2 : t ∈ R
    · simp [h1, h2]
    · simp [h1, h2, hR s t (by simp [h1, h2])]
    · simp [h1, h2, hR s t (by simp [h1, h2])]
    · simp [h1, h2]
  have hform : ∀ A B : BandMatrix n K, ∑ s ∈ S, ∑ t ∈ T, A s t * Star.star (B s t) =
      (P * (A * (Q * Bᴴ))).trace := by
    intro A B
    have e : ∀ s, (P * (A * (Q * Bᴴ))) s s = (if s ∈ S then 1 else 0) *
        ∑ t, A s t * ((if t ∈ T then 1 else 0) * Star.star (B s t)) := by
      intro s
      rw [hP, Matrix.diagonal_mul, Matrix.mul_apply]
      congr 1
      refine Finset.sum_congr rfl fun t _ => ?_
      rw [hQ, Matrix.diagonal_mul, Matrix.conjTranspose_apply]
    rw [Matrix.trace]
    simp only [Matrix.diag_apply, e]
    rw [← Finset.sum_subset (Finset.subset_univ S)]
    · refine Finset.sum_congr rfl fun s hs => ?_
      rw [if_pos hs, one_mul, ← Finset.sum_subset (Finset.subset_univ T)]
      · refine Finset.sum_congr rfl fun t ht => ?_
        rw [if_pos ht, one_mul]
      · intro t _ ht
        rw [if_neg ht]
        ring
    · intro s _ hs
      rw [if_neg hs, zero_mul]
  rw [hform, hform]
  have cP := comm S hS
  have cQ := comm T hT
  rw [← hP] at cP
  rw [← hQ] at cQ
  rw [Matrix.conjTranspose_mul, Matrix.conjTranspose_mul, Matrix.conjTranspose_conjTranspose]
  calc (P * (Uᴴ * (A * U) * (Q * ((Uᴴ * Bᴴ) * U)))).trace
      = (U * (P * (Uᴴ * (A * (U * (Q * (Uᴴ * Bᴴ))))))).trace := by
        rw [Matrix.trace_mul_comm U]
        simp only [Matrix.mul_assoc]
    _ = (P * (A * (Q * Bᴴ))).trace := by
        rw [← Matrix.mul_assoc U P, cP, Matrix.mul_assoc P U, ← Matrix.mul_assoc U Uᴴ, hU,
          Matrix.one_mul, ← Matrix.mul_assoc U Q, cQ, Matrix.mul_assoc Q U, ← Matrix.mul_assoc U Uᴴ,
          hU, Matrix.one_mul]

omit [CharZero K] in
/-- **C105 (choice of eigenvectors).** Whatever eigenvectors the eigensolver returns, the products of
velocity operators summed over the modes of one frequency and the modes of another one are the same:
the conductivity depends on these sums only, as long as modes of equal frequency have equal
linewidths. -/
theorem C105_choice {csqrt : Cplx K → Cplx K} {eigh eigh' : BandMatrix n K → BandMatrix n K}
    (factor qLength : K) {D Da1 Da2 Db1 Db2 : BandMatrix n K} {lam la1 la2 lb1 lb2 : Fin n → K}
    (h : Diagonalises D (eigh D) lam) (h' : Diagonalises D (eigh' D) lam)
    (ha1 : Diagonalises Da1 (eigh Da1) la1) (ha1' : Diagonalises Da1 (eigh' Da1) la1)
    (ha2 : Diagonalises Da2 (eigh Da2) la2) (ha2' : Diagonalises Da2 (eigh' Da2) la2)
    (hb1 : Diagonalises Db1 (eigh Db1) lb1) (hb1' : Diagonalises Db1 (eigh' Db1) lb1)
    (hb2 : Diagonalises Db2 (eigh Db2) lb2) (hb2' : Diagonalises Db2 (eigh' Db2) lb2)
    [DecidableEq K] (x y : K) :
    let Va := velocityOperator csqrt eigh factor qLength false D Da1 Da2
    let Vb := velocityOperator csqrt eigh factor qLength false D Db1 Db2
    let Va' := velocityOperator csqrt eigh' factor qLength false D Da1 Da2
    let Vb' := velocityOperator csqrt eigh' factor qLength false D Db1 Db2
    ∑ s ∈ Finset.univ.filter (fun s => lam s = x), ∑ t ∈ Finset.univ.filter (fun t => lam t = y),
        Va' s t * Star.star (Vb' s t) =
      ∑ s ∈ Finset.univ.filter (fun s => lam s = x), ∑ t ∈ Finset.univ.filter (fun t => lam t = y),
        Va s t * Star.star (Vb s t) := by
  dsimp only
  obtain ⟨U, hU, hU1, _, hU0⟩ := mixing h h'
  have hd : ∀ {D1 D2 : BandMatrix n K} {l1 l2 : Fin n → K}, Diagonalises D1 (eigh D1) l1 →
      Diagonalises D1 (eigh' D1) l1 → Diagonalises D2 (eigh D2) l2 → Diagonalises D2 (eigh' D2) l2 →
      velocityOperator csqrt eigh' factor qLength false D D1 D2 =
        Uᴴ * (velocityOperator csqrt eigh factor qLength false D D1 D2 * U) := by
    intro D1 D2 l1 l2 h1 h1' h2 h2'
    rw [velocityOperator_eq, velocityOperator_eq]
    have : deltaSqrt csqrt eigh' false D1 D2 = deltaSqrt csqrt eigh false D1 D2 := by
      unfold deltaSqrt
      rw [C105_root_unique h1 h1', C105_root_unique h2 h2']
    rw [this, hU, Matrix.conjTranspose_mul]
    simp only [Matrix.mul_assoc]
  rw [hd ha1 ha1' ha2 ha2', hd hb1 hb1' hb2 hb2']
  refine block_invariant U _ _ hU1 _ _ ?_ ?_ <;>
    · intro s t hst
      refine hU0 s t fun heq => ?_
      simp [heq] at hst

omit [CharZero K] in
/-- **C105 (opposite wave vector).** Let the crystal be stable. If the dynamical matrices at `-q` are the complex conjugates of
those at `q`, and so are the eigenvectors, the operator at `-q` is minus the complex conjugate. -/
theorem C105_reversal {csqrt : Cplx K → Cplx K} {eigh : BandMatrix n K → BandMatrix n K} (factor qLength : K) {D D1 D2 : BandMatrix n K}
    {lam1 lam2 lam1' lam2' : Fin n → K} (h1 : Diagonalises D1 (eigh D1) lam1)
    (h2 : Diagonalises D2 (eigh D2) lam2) (hr1 : ∀ s, (csqrt ⟨lam1 s, 0⟩).im = 0)
    (hr2 : ∀ s, (csqrt ⟨lam2 s, 0⟩).im = 0)
    (h1' : Diagonalises (D1.map Star.star) (eigh (D1.map Star.star)) lam1')
    (h2' : Diagonalises (D2.map Star.star) (eigh (D2.map Star.star)) lam2')
    (hvec : eigh (D.map Star.star) = (eigh D).map Star.star) :
    velocityOperator csqrt eigh factor qLength false (D.map Star.star) (D2.map Star.star) (D1.map Star.star) =
      -(velocityOperator csqrt eigh factor qLength false D D1 D2).map Star.star := by
  have hmul : ∀ A B : BandMatrix n K, (A * B).map Star.star = A.map Star.star * B.map Star.star := by
    intro A B
    ext1 i j
    simp [Matrix.mul_apply, star_sum]
  have hct : ∀ A : BandMatrix n K, (A.map Star.star)ᴴ = (Aᴴ).map Star.star := by
    intro A; ext1 i j; simp
  have hroot : ∀ {D1 : BandMatrix n K} {l l' : Fin n → K}, Diagonalises D1 (eigh D1) l →
      (∀ s, (csqrt ⟨l s, 0⟩).im = 0) →
      Diagonalises (D1.map Star.star) (eigh (D1.map Star.star)) l' →
      sqrtDynMat csqrt eigh false (D1.map Star.star) = (sqrtDynMat csqrt eigh false D1).map Star.star := by
    intro D1 l l' h hr h'
    have hc : Diagonalises (D1.map Star.star) ((eigh D1).map Star.star) l := by
      refine ⟨?_, ?_⟩
      · rw [hct, ← hmul, h.orthonormal]
        ext1 i j
        by_cases hij : i = j
        · subst hij; simp
        · simp [hij]
      · rw [← hmul, h.eigen, hmul]
        congr 1
        ext1 i j
        by_cases hij : i = j
        · subst hij; simp [star_real]
        · simp [hij]
    rw [sqrt_eq csqrt h', ← function_unique (fun x => csqrt ⟨x, 0⟩) hc h', sqrt_eq csqrt h, hmul,
      hmul, hct]
    congr 2
    ext1 i j
    by_cases hij : i = j
    · subst hij
      simp only [Matrix.diagonal_apply_eq, Matrix.map_apply]
      ext
      · rfl
      · simp [star_im, hr]
    · simp [hij]
  rw [velocityOperator_eq, velocityOperator_eq]
  have hdelta : deltaSqrt csqrt eigh false (D2.map Star.star) (D1.map Star.star) =
      -(deltaSqrt csqrt eigh false D1 D2).map Star.star := by
    unfold deltaSqrt
    rw [hroot h1 hr1 h1', hroot h2 hr2 h2']
    ext1 i j
    simp
  rw [hdelta, hvec, hmul, hmul, hct]
  generalize deltaSqrt csqrt eigh false D1 D2 = A
  have : ((⟨factor * (1 / qLength * (1 / 2)) * (1 / 2), 0⟩ : Cplx K) •
      ((-A.map Star.star)ᴴ + -A.map Star.star)) = -(((⟨factor * (1 / qLength * (1 / 2)) * (1 / 2), 0⟩ :
        Cplx K) • (Aᴴ + A)).map Star.star) := by
    ext1 i j
    simp only [Matrix.smul_apply, Matrix.add_apply, Matrix.neg_apply, Matrix.map_apply,
      Matrix.conjTranspose_apply, smul_eq_mul, star_mul, star_add, star_real, star_neg]
    ring
  rw [this, Matrix.neg_mul, Matrix.mul_neg]

end
end Phono3py.Props
