/-
Velocity operators, group velocity matrices and heat capacity matrices:
phono3py/phonon/velocity_operator.py, phono3py/phonon/group_velocity_matrix.py,
phono3py/phonon/heat_capacity_matrix.py, phono3py/conductivity/wigner.py and
phono3py/conductivity/kubo.py. Arrays of shape (bands, bands) are matrices; `np.matmul` and `np.dot`
are the product and `.T.conj()` the conjugate transpose. `double` is a field `K`.
-/
import Verif.Model.Complex
import Verif.Model.Writes
import Mathlib.LinearAlgebra.Matrix.ConjTranspose
import Mathlib.Data.Matrix.Mul
import Mathlib.Algebra.Order.Field.Basic

namespace Phono3py
open Matrix

/-- `np.conj`. -/
instance {K : Type _} [CommRing K] : StarRing (Cplx K) where
  star z := ⟨z.re, -z.im⟩
  star_involutive z := by ext <;> simp
  star_mul a b := by ext <;> simp <;> ring
  star_add a b := by ext <;> simp <;> ring

section
variable {K : Type _} [Field K] {n : Nat}

/-- An array of shape (bands, bands) (phono3py/phonon/velocity_operator.py:132-159). -/
abbrev BandMatrix (n : Nat) (K : Type _) := Matrix (Fin n) (Fin n) (Cplx K)

/-- `eigvecs` of `_sqrt_dynamical_matrix` after phono3py/phonon/velocity_operator.py:183-192: at the
zone centre the three lowest modes are cleared. -/
def clearedVecs (flagGamma : Bool) (E : BandMatrix n K) : BandMatrix n K :=
  if flagGamma then fun r s => if s.val < 3 then 0 else E r s else E

/-- `_sqrt_dynamical_matrix`, phono3py/phonon/velocity_operator.py:176-202; `eigh dm` are the
eigenvectors found by `np.linalg.eigh` and `csqrt` is `np.sqrt` of a complex number. The eigenvalues
are used for a message only. -/
def sqrtDynMat (csqrt : Cplx K → Cplx K) (eigh : BandMatrix n K → BandMatrix n K)
    (flagGamma : Bool) (dm : BandMatrix n K) : BandMatrix n K :=
  let E := clearedVecs flagGamma (eigh dm)
  let omega : BandMatrix n K := (Eᴴ * (dm * E)).map csqrt
  E * (Matrix.diagonal omega.diag * Eᴴ)

/-- `_delta_sqrt_dynamical_matrix`, phono3py/phonon/velocity_operator.py:204-234, with the dynamical
matrices `dm1` at `q - dq` and `dm2` at `q + dq`. Which polar correction they include at the zone
centre is left to them. -/
def deltaSqrt (csqrt : Cplx K → Cplx K) (eigh : BandMatrix n K → BandMatrix n K)
    (flagGamma : Bool) (dm1 dm2 : BandMatrix n K) : BandMatrix n K :=
  sqrtDynMat csqrt eigh flagGamma dm2 - sqrtDynMat csqrt eigh flagGamma dm1

/-- One Cartesian component of `_calculate_velocity_operator_at_q`,
phono3py/phonon/velocity_operator.py:132-159, with the finite difference of lines 161-174; `dm` is
the dynamical matrix at `q`. -/
def velocityOperator (csqrt : Cplx K → Cplx K) (eigh : BandMatrix n K → BandMatrix n K)
    (factor qLength : K) (flagGamma : Bool) (dm dm1 dm2 : BandMatrix n K) : BandMatrix n K :=
  let E := eigh dm
  let ddm := (deltaSqrt csqrt eigh flagGamma dm1 dm2).map fun z => (z.scale (1 / qLength)).scale (1 / 2)
  let gv := (Eᴴ * (ddm * E)).map fun z => z.scale factor
  (gvᴴ + gv).map fun z => z.scale (1 / 2)

/-- `gvs_rot_operator[s, s_p, i]`, phono3py/conductivity/wigner.py:173-180. -/
def rotatedOperator (r : Fin 3 → Fin 3 → K) (v : Fin 3 → BandMatrix n K) (s t : Fin n) (i : Fin 3) :
    Cplx K :=
  ∑ j, (v j s t).scale (r i j)

/-- `_get_gv_by_gv_operator`, phono3py/conductivity/wigner.py:153-212: element `[s, s_p, i, j]` from the
Cartesian rotations `rots` and `multi = len(rotation_map) // len(np.unique(rotation_map))`, all bands
selected. -/
def gvByGvOperator (rots : List (Fin 3 → Fin 3 → K)) (multi : Nat) (v : Fin 3 → BandMatrix n K)
    (s t : Fin n) (i j : Fin 3) : Cplx K :=
  ((rots.map fun r => rotatedOperator r v s t i * star (rotatedOperator r v s t j)).sum).scale
    (1 / multi)

/-- `rot_eigvecs` of `_calculate_group_velocity_matrix_at_q`,
phono3py/phonon/group_velocity_matrix.py:144-146, from the eigenvectors `E` after the rotation within
degenerate sets. -/
def scaledVecs [LinearOrder K] (sqrt : K → K) (cutoff : K) (freqs : Fin n → K) (E : BandMatrix n K) :
    BandMatrix n K :=
  fun r s => (E r s).scale (if freqs s > cutoff then
    1 / sqrt (2 * (if freqs s > cutoff then freqs s else 1)) else 0)

/-- `gvm[i]`, phono3py/phonon/group_velocity_matrix.py:148-151; `ddm` is the derivative of the
dynamical matrix along one Cartesian axis. -/
def groupVelocityMatrix [LinearOrder K] (sqrt : K → K) (factor cutoff : K) (freqs : Fin n → K)
    (E : BandMatrix n K) (ddm : BandMatrix n K) : BandMatrix n K :=
  let W := scaledVecs sqrt cutoff freqs E
  Wᴴ * ((ddm.map fun z => z.scale (factor ^ 2)) * W)

/-- `_symmetrize_group_velocity_matrix`, phono3py/phonon/group_velocity_matrix.py:161-186; `rots` are
the Cartesian rotations that leave `q` unchanged. -/
def symmetrizeGvm (rots : List (Fin 3 → Fin 3 → K)) (gvm : Fin 3 → BandMatrix n K) (i : Fin 3) :
    BandMatrix n K :=
  let avg : Fin 3 → BandMatrix n K := fun i => fun s t =>
    ((rots.map fun r => ∑ j, (gvm j s t).scale (r i j)).sum).scale (1 / (rots.length : K))
  (avg i + (avg i)ᴴ).map fun z => z.scale (1 / 2)

/-- The rotations of `_symmetrize_group_velocity_matrix` that leave `q` unchanged,
phono3py/phonon/group_velocity_matrix.py:169-175. `rint` rounds to the nearest integer. -/
def rotationsAtQ [LinearOrder K] (rint : K → K) (tol : K) (ops : List (Fin 3 → Fin 3 → K))
    (q : Fin 3 → K) : List (Fin 3 → Fin 3 → K) :=
  ops.filter fun r => decide (∀ d, |(q d - rint (q d)) - ∑ e, r d e * (q e - rint (q e))| < tol)

/-- `gvm_sum2` of `_get_gvm_by_gvm`, phono3py/conductivity/kubo.py:144-153: element for the axes `a`
and `b`, from the group velocity matrices at the images of `q`, all bands selected. -/
def gvmByGvm (images : List (Fin 3 → BandMatrix n K)) (multi : Nat) (a b : Fin 3) (s t : Fin n) :
    Cplx K :=
  ((images.map fun (gvm : Fin 3 → BandMatrix n K) => gvm a s t * gvm b t s).sum).scale (1 / multi)

/-- `mode_cv_matrix`, phono3py/phonon/heat_capacity_matrix.py:41-81; `exp` is `np.exp` and `modeCv` is
phonopy's `mode_cv`. -/
def modeCvMatrix [LinearOrder K] (exp : K → K) (modeCv : K → K → K) (kb cutoff temp : K)
    (freqs : Nat → K) (i j : Nat) : K :=
  let x := fun k => freqs k / kb / temp
  if |freqs i - freqs j| < cutoff then modeCv temp (freqs i)
  else
    let sub := x i - x j
    let add := x i + x j
    kb * (exp sub - 1) / sub * (add / 2) ^ 2 / (exp (x i) - 1) * (1 / (exp (x j) - 1) + 1)

end
end Phono3py
