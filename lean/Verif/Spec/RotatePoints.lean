/-
Specification vocabulary for rotated BZ grid points.
-/
import Verif.Spec.BZGrid

namespace Phono3py.Spec

/-- Some point of the grid has this address. -/
def Stored (bz : BZGridOut) (a : V3) : Prop := ∃ k, (0 ≤ k ∧ k < bz.size) ∧ bz.addresses k = a

/-- Of the points of the grid equivalent to one another, `r` is the one listed first. -/
def FirstOfEquals (D : V3) (bz : BZGridOut) (r : Int) : Prop :=
  (0 ≤ r ∧ r < bz.size) ∧
    ∀ k, (0 ≤ k ∧ k < bz.size) → SamePoint D (bz.addresses k) (bz.addresses r) → r ≤ k

/-- `a` is the address that `R` carries the q-point of address `a₀` to: `2 a + PS = R (2 a₀ + PS)`. -/
def TrueRotation (PS : V3) (R : M3) (a₀ a : V3) : Prop :=
  V3.smul 2 a + PS = R.mulVec (V3.smul 2 a₀ + PS)

end Phono3py.Spec
