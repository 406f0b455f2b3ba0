/-
Specification vocabulary for generalized regular grids: rational matrices.
-/
import Verif.Model.Transform
import Mathlib.LinearAlgebra.Matrix.NonsingularInverse

namespace Phono3py.Spec

/-- The integer matrix as a rational Mathlib matrix. -/
def toMat (a : M3) : Matrix (Fin 3) (Fin 3) ℚ := fun i j => (a.e i j : ℚ)

/-- `D Q⁻¹ R Q D⁻¹`: the rotation `R` (acting on reduced coordinates of reciprocal space)
expressed in the coordinates `D Q⁻¹ q` of the grid. -/
noncomputable def gridRotation (D : V3) (Q R : M3) : Matrix (Fin 3) (Fin 3) ℚ :=
  Matrix.diagonal (fun i => (D.e i : ℚ)) * (toMat Q)⁻¹ * toMat R * toMat Q *
    (Matrix.diagonal (fun i => (D.e i : ℚ)))⁻¹

end Phono3py.Spec
