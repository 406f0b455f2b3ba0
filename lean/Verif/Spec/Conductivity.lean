/-
Specification of the lattice thermal conductivity.
-/
import Mathlib.Algebra.BigOperators.Group.Finset.Defs
import Mathlib.Algebra.Order.Field.Basic
import Mathlib.Data.Fintype.Card

namespace Phono3py.Spec
open Finset

variable {K : Type _} [Field K] [LinearOrder K] [IsStrictOrderedRing K]

/-- Place of the component `(a, b)` of a symmetric tensor in the order xx, yy, zz, yz, xz, xy. -/
def voigtIndex : Fin 3 → Fin 3 → Fin 6
  | 0, 0 => 0
  | 1, 1 => 1
  | 2, 2 => 2
  | 1, 2 => 3
  | 2, 1 => 3
  | 0, 2 => 4
  | 2, 0 => 4
  | 0, 1 => 5
  | 1, 0 => 5

/-- The symmetric tensor stored as six numbers. -/
def tensorOf (k : Fin 6 → K) (a b : Fin 3) : K := k (voigtIndex a b)

/-- `uᵀ T u`. -/
def quadratic (T : Fin 3 → Fin 3 → K) (u : Fin 3 → K) : K :=
  ∑ a, ∑ b, u a * T a b * u b

/-- Conductivity in the relaxation time approximation on a mesh `Q`:
`factor / |Q| ∑ cv / (2 Γ) v ⊗ v` over the modes that are not below the cutoff and have a
linewidth. -/
def meshConductivity {Q : Type _} [Fintype Q] (factor cutoff : K) (nb : Nat) (f : Q → Nat → K)
    (cv : Q → Nat → K) (Γ : Q → Nat → K) (v : Q → Nat → Fin 3 → K) (a b : Fin 3) : K :=
  factor / (Fintype.card Q : K) * ∑ q, ∑ l ∈ range nb,
    if f q l < cutoff ∨ Γ q l = 0 then 0 else cv q l / (2 * Γ q l) * (v q l a * v q l b)

/-- Contribution of a pair of bands to the conductivity of the Wigner transport equation, with
energies `w`, full linewidths `h`, heat capacities `c` and squared velocity `v2` between the bands:
`(w₁ + w₂)/4 (c₁/w₁ + c₂/w₂) v2` times a Lorentzian of half width `(h₁ + h₂)/2`. -/
def wignerPair (w1 w2 h1 h2 c1 c2 v2 : K) : K :=
  (w1 + w2) / 4 * (c1 / w1 + c2 / w2) * v2 *
    (((h1 + h2) / 2) / ((w1 - w2) ^ 2 + ((h1 + h2) / 2) ^ 2))

end Phono3py.Spec
