/- Linewidths as plain sums. -/
import Mathlib.Algebra.Order.Field.Basic
import Mathlib.Algebra.BigOperators.Group.Finset.Basic
import Verif.Model.Vec

namespace Phono3py.Spec

section
variable {K : Type _} [Field K] [LinearOrder K] [IsStrictOrderedRing K]

/-- Contribution of one pair of modes of one triplet: occupations `n1`, `n2`, weights
`δ1 = δ(ω-ω1-ω2)` and `δ23 = δ(ω+ω1-ω2) - δ(ω-ω1+ω2)`, interaction strength `v`. -/
def modePair (T n1 n2 δ1 δ23 v : K) : K :=
  (if 0 < T then (n1 + n2 + 1) * δ1 + (n1 - n2) * δ23 else δ1) * v

/-- The full double sum over band pairs of one triplet; modes not above the cutoff frequency do
not contribute. `f m b` is the frequency of band `b` at member `m` of the triplet. -/
def pairSum (bose : K → K → K) (cutoff T : K) (numBand : Nat) (f1 f2 : Nat → K)
    (δ1 δ23 v : Nat → Nat → K) : K :=
  ∑ k ∈ Finset.range numBand, ∑ l ∈ Finset.range numBand,
    if cutoff < f1 k ∧ cutoff < f2 l then
      modePair T (bose (f1 k) T) (bose (f2 l) T) (δ1 k l) (δ23 k l) (v k l) else 0

/-- The three addresses of a triplet sum to zero. -/
def SumsToZero (a b c : V3) : Prop := a + b + c = 0

instance (a b c : V3) : Decidable (SumsToZero a b c) := inferInstanceAs (Decidable (_ = _))

end
end Phono3py.Spec
