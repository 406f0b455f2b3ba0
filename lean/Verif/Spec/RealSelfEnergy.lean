/- Frequency shifts, the Kramers-Kronig relation and the spectral function as plain formulas. -/
import Mathlib.Algebra.Order.Field.Basic
import Mathlib.Algebra.BigOperators.Group.Finset.Basic
import Verif.Spec.Array
import Verif.Model.Complex

namespace Phono3py.Spec

section
variable {K : Type _} [Field K] [LinearOrder K] [IsStrictOrderedRing K]

/-- The smeared principal value of `1/x`. -/
def principal (ε x : K) : K := x / (x ^ 2 + ε ^ 2)

/-- Shift of a phonon of frequency `ω` by one pair of phonons of frequencies `ω1`, `ω2` with
occupations `n1`, `n2`, per unit of interaction strength; `P` stands for the principal value of
`1/x`. -/
def pairShift (P : K → K) (T n1 n2 ω ω1 ω2 : K) : K :=
  if 0 < T then (n1 + n2 + 1) * (P (ω - ω1 - ω2) - P (ω + ω1 + ω2)) +
    (n1 - n2) * (P (ω + ω1 - ω2) - P (ω - ω1 + ω2))
  else P (ω - ω1 - ω2) - P (ω + ω1 + ω2)

/-- Shift of a phonon of frequency `ω` by all pairs above the cutoff frequency of all triplets:
`f i m b` is the frequency of band `b` at member `m` of triplet `i`, `v i k l` the interaction
strength, `w i` the weight. -/
def bubbleShift (P : K → K) (bose : K → K → K) (unit cutoff T ω : K) (numTriplets numBand : Nat)
    (f : Nat → Fin 3 → Nat → K) (v : Nat → Nat → Nat → K) (w : Nat → Int) : K :=
  unit * ∑ i ∈ Finset.range numTriplets, (w i : K) *
    ∑ k ∈ Finset.range numBand, ∑ l ∈ Finset.range numBand,
      if cutoff < f i 1 k ∧ cutoff < f i 2 l then
        pairShift P T (bose (f i 1 k) T) (bose (f i 2 l) T) ω (f i 1 k) (f i 2 l) * v i k l else 0

/-- Kramers-Kronig transform of a function `Γ`, odd in frequency, sampled at
`0 = f 0 < f 1 < … < f (n-1)` with interval `df`, at the point `f i`:
`(2/π) P ∫ ω' Γ(ω') / (ω'^2 - ω^2) dω'` as a sum that leaves out the point itself; what remains
of that point is its mirror image at `-f i`. -/
def kramersKronig (pi df : K) (n : Nat) (Γ f : Nat → K) (i : Nat) : K :=
  df / pi * ((∑ m ∈ (Finset.range n).erase i, 2 * f m * Γ m / (f m ^ 2 - f i ^ 2)) +
    Γ i / (2 * f i))

/-- `A = -(1/π) Im G` for the propagator `G = G0 / (1 - G0 Π)` with `G0 = 2 ω0 / (ω² - ω0²)` and
`Π = Δ - iΓ`: the value `A` belongs to a solution `G` of the Dyson equation
`G (1 - G0 Π) = G0`. -/
def IsSpectral (pi ω0 ω Δ Γ A : K) : Prop :=
  ∃ G : Cplx K,
    let G0 : Cplx K := ⟨2 * ω0 / (ω ^ 2 - ω0 ^ 2), 0⟩
    let selfEnergy : Cplx K := ⟨Δ, -Γ⟩
    G * (1 - G0 * selfEnergy) = G0 ∧ A = -(1 / pi) * G.im

end
end Phono3py.Spec
