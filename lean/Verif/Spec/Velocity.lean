/-
Eigenproblems of Hermitian matrices and rotations, independent of the functions of the model.
-/
import Verif.Model.Velocity

namespace Phono3py.Spec
open Matrix

section
variable {K : Type _} [Field K] {n : Nat}

/-- The columns of `E` are orthonormal eigenvectors of `D` with real eigenvalues `lam`. -/
structure Diagonalises (D : BandMatrix n K) (E : BandMatrix n K) (lam : Fin n → K) : Prop where
  orthonormal : Eᴴ * E = 1
  eigen : D * E = E * Matrix.diagonal fun s => ⟨lam s, 0⟩

/-- `⟨e_s| A |e_t⟩` for the columns of `E`. -/
def braket (E A : BandMatrix n K) (s t : Fin n) : Cplx K :=
  ∑ a, ∑ b, star (E a s) * A a b * E b t

/-- Product of two rotations. -/
def rotMul (r s : Fin 3 → Fin 3 → K) : Fin 3 → Fin 3 → K := fun i k => ∑ j, r i j * s j k

/-- A real combination of complex vector components. -/
def rotateC (r : Fin 3 → Fin 3 → K) (v : Fin 3 → Cplx K) (i : Fin 3) : Cplx K :=
  ∑ j, v j * ⟨r i j, 0⟩

end
end Phono3py.Spec
