/- Concrete matrices that meet the hypotheses of the theorems on velocities. -/
import Verif.Props.VelocityProducts

namespace Phono3py.Props
open Phono3py.Spec Matrix

/-- Eigenvectors at `q` and `q + dq`. -/
def turnedVecs : BandMatrix 2 ℚ := !![⟨3 / 5, 0⟩, ⟨0, -4 / 5⟩; ⟨0, -4 / 5⟩, ⟨3 / 5, 0⟩]

/-- Dynamical matrix at `q - dq`. -/
def dmMinus : BandMatrix 2 ℚ := !![⟨1, 0⟩, 0; 0, ⟨4, 0⟩]
/-- Dynamical matrix at `q`. -/
def dmAt : BandMatrix 2 ℚ := turnedVecs * (Matrix.diagonal ![⟨1, 0⟩, ⟨9, 0⟩] * turnedVecsᴴ)
/-- Dynamical matrix at `q + dq`. -/
def dmPlus : BandMatrix 2 ℚ := turnedVecs * (Matrix.diagonal ![⟨4, 0⟩, ⟨9, 0⟩] * turnedVecsᴴ)

/-- Square root of the numbers used. -/
def smallRoot (z : Cplx ℚ) : Cplx ℚ :=
  ⟨if z.re = 1 then 1 else if z.re = 4 then 2 else if z.re = 9 then 3 else 0, 0⟩

/-- An eigensolver for these matrices. -/
def smallEigh (D : BandMatrix 2 ℚ) : BandMatrix 2 ℚ := if D 0 1 = 0 then 1 else turnedVecs

theorem dmMinus_diag : Diagonalises dmMinus (smallEigh dmMinus) ![1, 4] := by
  constructor <;> ext1 i j <;> fin_cases i <;> fin_cases j <;> decide +kernel
theorem dmAt_diag : Diagonalises dmAt (smallEigh dmAt) ![1, 9] := by
  constructor <;> ext1 i j <;> fin_cases i <;> fin_cases j <;> decide +kernel
theorem dmPlus_diag : Diagonalises dmPlus (smallEigh dmPlus) ![4, 9] := by
  constructor <;> ext1 i j <;> fin_cases i <;> fin_cases j <;> decide +kernel

theorem smallRoot_good (s : Fin 2) : (smallRoot ⟨(![1, 4] : Fin 2 → ℚ) s, 0⟩ *
      smallRoot ⟨(![1, 4] : Fin 2 → ℚ) s, 0⟩ = ⟨(![1, 4] : Fin 2 → ℚ) s, 0⟩) ∧
    (smallRoot ⟨(![4, 9] : Fin 2 → ℚ) s, 0⟩ * smallRoot ⟨(![4, 9] : Fin 2 → ℚ) s, 0⟩ =
      ⟨(![4, 9] : Fin 2 → ℚ) s, 0⟩) := by
  fin_cases s <;> decide +kernel

/-- Hypotheses of `C105_root`, `C105_root_gamma`, `C105_root_hermitian`. -/
example : sqrtDynMat smallRoot smallEigh false dmPlus * sqrtDynMat smallRoot smallEigh false dmPlus =
    dmPlus := C105_root dmPlus_diag fun s => (smallRoot_good s).2

/-- Hypotheses of `C105_formula`, and a velocity operator with a complex element between bands. -/
example : (∀ s t, velocityOperator smallRoot smallEigh 1 (1 / 2) false dmAt dmMinus dmPlus s t =
    (braket (smallEigh dmAt) (sqrtDynMat smallRoot smallEigh false dmPlus -
      sqrtDynMat smallRoot smallEigh false dmMinus) s t).scale (1 / (2 * (1 / 2)))) ∧
    velocityOperator smallRoot smallEigh 1 (1 / 2) false dmAt dmMinus dmPlus 0 1 = ⟨0, -12 / 25⟩ := by
  refine ⟨fun s t => C105_formula 1 (1 / 2) dmAt dmMinus_diag dmPlus_diag (fun _ => rfl)
    (fun _ => rfl) s t, by decide +kernel⟩

/-- Hypotheses of `C105_difference`. -/
example := C105_difference dmMinus_diag dmPlus_diag (fun s => (smallRoot_good s).1)
  (fun s => (smallRoot_good s).2)

/-- Hypotheses of `C105_group_velocity`: both wave vectors share the polarisation. -/
example : velocityOperator smallRoot smallEigh 1 (1 / 2) false dmAt dmAt dmPlus 0 0 = ⟨1, 0⟩ := by
  rw [C105_group_velocity 1 (1 / 2) dmAt_diag dmAt_diag dmPlus_diag (fun _ => rfl) (fun _ => rfl)
    0 0 0 (fun _ => rfl) (by decide +kernel)]
  decide +kernel

/-- The same eigenproblems solved with other phases. -/
def phasedEigh (D : BandMatrix 2 ℚ) : BandMatrix 2 ℚ := smallEigh D * Matrix.diagonal ![⟨0, 1⟩, -1]

theorem phased_diag {D : BandMatrix 2 ℚ} {lam : Fin 2 → ℚ} (h : Diagonalises D (smallEigh D) lam) :
    Diagonalises D (phasedEigh D) lam := by
  have hd : (Matrix.diagonal ![(⟨0, 1⟩ : Cplx ℚ), -1])ᴴ * Matrix.diagonal ![⟨0, 1⟩, -1] = 1 := by
    ext1 i j; fin_cases i <;> fin_cases j <;> decide +kernel
  constructor
  · unfold phasedEigh
    rw [Matrix.conjTranspose_mul, Matrix.mul_assoc, ← Matrix.mul_assoc (smallEigh D)ᴴ,
      h.orthonormal, Matrix.one_mul, hd]
  · unfold phasedEigh
    rw [← Matrix.mul_assoc, h.eigen, Matrix.mul_assoc, Matrix.mul_assoc]
    congr 1
    rw [Matrix.diagonal_mul_diagonal, Matrix.diagonal_mul_diagonal]
    congr 1
    funext s
    rw [mul_comm]

/-- Hypotheses of `C105_choice`. -/
example := C105_choice (csqrt := smallRoot) 1 (1 / 2) dmAt_diag (phased_diag dmAt_diag) dmMinus_diag
  (phased_diag dmMinus_diag) dmPlus_diag (phased_diag dmPlus_diag) dmMinus_diag
  (phased_diag dmMinus_diag) dmAt_diag (phased_diag dmAt_diag) 1 9

/-- An eigensolver that respects complex conjugation. -/
def conjEigh (D : BandMatrix 2 ℚ) : BandMatrix 2 ℚ :=
  if D 0 1 = 0 then 1 else if D 0 1 = dmAt 0 1 ∨ D 0 1 = dmPlus 0 1 then turnedVecs
  else turnedVecs.map Star.star

/-- Hypotheses of `C105_reversal`. -/
example : velocityOperator smallRoot conjEigh 1 (1 / 2) false (dmAt.map Star.star)
      (dmPlus.map Star.star) (dmMinus.map Star.star) =
    -(velocityOperator smallRoot conjEigh 1 (1 / 2) false dmAt dmMinus dmPlus).map Star.star := by
  refine C105_reversal (lam1 := ![1, 4]) (lam2 := ![4, 9]) (lam1' := ![1, 4]) (lam2' := ![4, 9]) 1
    (1 / 2) ?_ ?_ (fun _ => rfl) (fun _ => rfl) ?_ ?_ ?_
  · constructor <;> ext1 i j <;> fin_cases i <;> fin_cases j <;> decide +kernel
  · constructor <;> ext1 i j <;> fin_cases i <;> fin_cases j <;> decide +kernel
  · constructor <;> ext1 i j <;> fin_cases i <;> fin_cases j <;> decide +kernel
  · constructor <;> ext1 i j <;> fin_cases i <;> fin_cases j <;> decide +kernel
  · ext1 i j; fin_cases i <;> fin_cases j <;> decide +kernel

/-- Rotations of a mirror plane normal to `x`, and inversion. -/
def mirrorRots : List (Fin 3 → Fin 3 → ℚ) :=
  [fun i j => if i = j then 1 else 0, fun i j => if i = j then (if i = 0 then -1 else 1) else 0]

/-- Identity and inversion. -/
def inversionRots : List (Fin 3 → Fin 3 → ℚ) :=
  [fun i j => if i = j then 1 else 0, fun i j => if i = j then -1 else 0]

/-- Hypotheses of `C105_tensor_symmetry` and `C106_invariant`. -/
example : ∀ R ∈ mirrorRots, (mirrorRots.map (rotMul R)).Perm mirrorRots := by
  decide +kernel

/-- Hypotheses of `C105_pair_order`. -/
example : ∀ k, ((fun k => if k = 0 then velocityOperator smallRoot smallEigh 1 (1 / 2) false dmAt
    dmMinus dmPlus else 1 : Fin 3 → BandMatrix 2 ℚ) k)ᴴ = (fun k => if k = 0 then velocityOperator
      smallRoot smallEigh 1 (1 / 2) false dmAt dmMinus dmPlus else 1 : Fin 3 → BandMatrix 2 ℚ) k := by
  intro k
  dsimp only
  split_ifs
  · exact C105_hermitian _ _ _ _ _ _ _ _
  · exact Matrix.conjTranspose_one

/-- A velocity along `y` between two bands, and along `z` within each, kept by the mirror plane. -/
def bandVelocities (i : Fin 3) : BandMatrix 2 ℚ :=
  if i = 1 then !![0, ⟨0, 1⟩; ⟨0, -1⟩, 0] else if i = 2 then !![⟨2, 0⟩, 0; 0, ⟨3, 0⟩] else 0

/-- Hypotheses of `C106_symmetrized_partial`. -/
example (i : Fin 3) : symmetrizeGvm mirrorRots bandVelocities i = bandVelocities i := by
  refine C106_symmetrized_partial mirrorRots (by decide +kernel) bandVelocities ?_ ?_ i
  · intro i
    ext1 s t
    fin_cases i <;> fin_cases s <;> fin_cases t <;> decide +kernel
  · decide +kernel

/-- Hypotheses of `C106_interband_erased`: a velocity between two bands is lost. -/
example : bandVelocities 1 0 1 ≠ 0 ∧ symmetrizeGvm inversionRots bandVelocities 1 0 1 = 0 := by
  refine ⟨by decide +kernel, ?_⟩
  rw [C106_interband_erased inversionRots (by decide +kernel)]
  rfl

/-- Hypotheses of `C106_all_at_gamma` and of `C106_phase`. -/
example : rotationsAtQ (fun x : ℚ => (round x : ℚ)) (1 / 100) inversionRots (fun _ => 0) =
      inversionRots ∧ Star.star (⟨0, 1⟩ : Cplx ℚ) * ⟨0, 1⟩ = 1 :=
  ⟨C106_all_at_gamma _ (by simp) (by norm_num) _, by decide +kernel⟩

/-- C106 fails: at a zone boundary inversion is equivalent to the identity, but is not found, since
the image differs by a reciprocal lattice vector (`np.rint` rounds one half to zero). -/
theorem C106_zone_boundary (rint : ℚ → ℚ) (h0 : rint 0 = 0) (h1 : rint (1 / 2) = 0) :
    rotationsAtQ rint (1 / 100) inversionRots (fun d => if d = 0 then 1 / 2 else 0) =
      [fun i j => if i = j then 1 else 0] := by
  have h : ∀ d : Fin 3, rint (if d = 0 then 1 / 2 else 0) = 0 := fun d => by split_ifs <;> assumption
  have : rotationsAtQ (fun _ : ℚ => 0) (1 / 100) inversionRots
      (fun d => if d = 0 then 1 / 2 else 0) = [fun i j => if i = j then 1 else 0] := by
    decide +kernel
  rw [← this]
  unfold rotationsAtQ
  simp only [h]

end Phono3py.Props
