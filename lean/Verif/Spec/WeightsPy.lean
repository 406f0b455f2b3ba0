/-
Specification vocabulary for integration weights computed in two ways.
-/
import Verif.Spec.RotatePoints

namespace Phono3py.Spec

/-- Grid points that differ by a reciprocal lattice vector have the same frequencies. -/
def PeriodicFrequencies {K : Type _} (D : V3) (bz : BZGridOut) (numBand : Nat) (frequencies : Int → K) : Prop :=
  ∀ k l, (0 ≤ k ∧ k < bz.size) → (0 ≤ l ∧ l < bz.size) → SamePoint D (bz.addresses k) (bz.addresses l) →
    ∀ b < numBand, frequencies (k * numBand + b) = frequencies (l * numBand + b)

/-- No frequency is imaginary (stored as a negative number). -/
def RealFrequencies {K : Type _} [Zero K] [LE K] (bz : BZGridOut) (numBand : Nat) (frequencies : Int → K) : Prop :=
  ∀ k, (0 ≤ k ∧ k < bz.size) → ∀ b < numBand, 0 ≤ frequencies (k * numBand + (b : Nat))

end Phono3py.Spec
