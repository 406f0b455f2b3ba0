/-
Blocks of the collision matrix in memory.
-/
import Verif.Model.ExpandPy
import Verif.Spec.Collision
import Verif.Spec.Array

namespace Phono3py.Spec
open Phono3py

/-- The block of sigma `i` and temperature `j` of an array of shape (sigma, temperature, grid point, band, grid point,
band). -/
def blockOf {K : Type} (T numGp nb : Nat) (a : Int → K) (i j : Nat) : CollisionBlock K :=
  fun r m n p => a (at6 T numGp nb numGp nb i j r m n p : Nat)

/-- The table of rotated grid points in memory, all of whose entries are grid points. -/
def TableIn (numGp numRot : Nat) (rot : Int → Int) (table : Nat → Nat → Nat) : Prop :=
  ∀ l < numRot, ∀ n < numGp, table l n < numGp ∧
    rot ((l * numGp + n : Nat) : Int) = ((table l n : Nat) : Int)

/-- Blocks agree on all grid points and bands. -/
def SameBlock {K : Type} (numGp nb : Nat) (A B : CollisionBlock K) : Prop :=
  ∀ r < numGp, ∀ m < nb, ∀ n < numGp, ∀ p < nb, A r m n p = B r m n p

end Phono3py.Spec
