/-
Specification vocabulary for symmetry left by displacements.
-/
import Verif.Model.BondSymmetry

namespace Phono3py.Spec

section
variable {K : Type _} [Field K]

/-- A list of rotations is a group. -/
structure RotationGroup (G : List IntRotation) : Prop where
  one : 1 ∈ G
  mul : ∀ R ∈ G, ∀ S ∈ G, R * S ∈ G
  inv : ∀ R ∈ G, ∃ S ∈ G, S * R = 1

/-- Turning the crystal by `R` about the atom at `c` brings the atom at `p` to itself, up to a
lattice translation. -/
def KeepsAtom (R : IntRotation) (c p : Fin 3 → K) : Prop :=
  ∃ z : Fin 3 → Int, ∀ i, R.turn (fun j => p j - c j) i = p i - c i + z i

/-- The rotation leaves the integer direction unchanged. -/
def KeepsDirection (R : IntRotation) (d : Fin 3 → Int) : Prop := R.mulVec d = d

end

end Phono3py.Spec
