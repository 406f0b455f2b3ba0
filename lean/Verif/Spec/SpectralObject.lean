/-
What the arrays of a `SpectralFunction` object should hold.
-/
import Verif.Model.SpectralObject
import Verif.Spec.IseObject

namespace Phono3py.Spec
open Phono3py

section
variable {P K S G Z A : Type} [Field K] [LinearOrder K]

/-- Half linewidths of band `k` at the frequency points, for one grid point, smearing width and temperature alone. -/
def linewidthsOf (env : IseEnv P K S G Z A (List (Nat → K))) (o : SpfSettings P K) (p : P)
    (sigma : Option K) (t : K) (k : Nat) : List K :=
  (o.batches.flatMap fun f => selfEnergyAt env p none (some f) sigma none t).map fun v => v k

/-- Shifts (Kramers-Kronig) from these linewidths. -/
def shiftsOf (env : IseEnv P K S G Z A (List (Nat → K))) (o : SpfSettings P K) (p : P)
    (sigma : Option K) (t : K) (k : Nat) : Option (List K) :=
  runDelta o.pi (linewidthsOf env o p sigma t k) o.batches.flatten

/-- The spectral function with these linewidths and shifts. -/
def spectralOf (env : IseEnv P K S G Z A (List (Nat → K))) (o : SpfSettings P K) (p : P)
    (sigma : Option K) (t : K) (k : Nat) : Option (List K) :=
  spectralAtBand o.pi (o.frequency p k) (linewidthsOf env o p sigma t k) o.batches.flatten

/-- The arrays hold the values of each of the first `n` grid points, smearing widths, temperatures and bands, and
zeros for later grid points. -/
structure HoldsFirst (env : IseEnv P K S G Z A (List (Nat → K))) (o : SpfSettings P K) (n : Nat)
    (a : SpfArrays K) : Prop where
  first : ∀ i p j sigma ti t k, i < n → o.gridPoints[i]? = some p → o.sigmas[j]? = some sigma →
    o.temperatures[ti]? = some t → k < o.numBands →
    a.gammas j ti i k = linewidthsOf env o p sigma t k ∧
    some (a.deltas j ti i k) = shiftsOf env o p sigma t k ∧
    some (a.spectral j ti i k) = spectralOf env o p sigma t k
  later : ∀ i j ti k, n ≤ i → a.gammas j ti i k = List.replicate o.batches.flatten.length 0 ∧
    a.deltas j ti i k = List.replicate o.batches.flatten.length 0 ∧
    a.spectral j ti i k = List.replicate o.batches.flatten.length 0

/-- The frequency points are accepted for all settings (C97). -/
def ShiftsExist (env : IseEnv P K S G Z A (List (Nat → K))) (o : SpfSettings P K) : Prop :=
  ∀ p ∈ o.gridPoints, ∀ sigma ∈ o.sigmas, ∀ t ∈ o.temperatures, ∀ k < o.numBands,
    (shiftsOf env o p sigma t k).isSome

end
end Phono3py.Spec
