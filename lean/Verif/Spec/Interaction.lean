/- Interaction strength of three phonon modes. -/
import Mathlib.Algebra.Order.Field.Basic
import Mathlib.Algebra.BigOperators.Group.Finset.Basic
import Mathlib.Algebra.BigOperators.Fin
import Verif.Model.Complex
import Verif.Model.Transform
import Verif.Spec.Array

namespace Phono3py.Spec

section
variable {K : Type _} [Field K] [LinearOrder K] [IsStrictOrderedRing K]

/-- Reduced coordinates `Q D⁻¹ a` of the q-point with grid address `a`: component `i` is
`sum_j Q_ij a_j / D_j`. -/
def gridQ (a D : V3) (Q : M3) : Fin 3 → K :=
  fun i => ∑ j : Fin 3, (Q.e i j : K) * ((a.e j : K) / (D.e j : K))

/-- `|sum_abc Phi(a,b,c) e0(a) e1(b) e2(c) / sqrt(m_a m_b m_c)|^2 / (f0 f1 f2)`, or zero when one
of the frequencies is not above the cutoff. `e m a` is component `a` of the eigenvector of
member `m`, `s a` the square root of the mass of the atom of component `a`. -/
def modeStrength (cutoff : K) (n : Nat) (s : Nat → K) (Phi : Nat → Nat → Nat → Cplx K)
    (f : Fin 3 → K) (e : Fin 3 → Nat → Cplx K) : K :=
  if ∀ m, cutoff < f m then
    (∑ a ∈ Finset.range n, ∑ b ∈ Finset.range n, ∑ c ∈ Finset.range n,
      (Phi a b c * (e 0 a * e 1 b * e 2 c)).scale (1 / (s a * s b * s c))).normSq /
      (f 0 * f 1 * f 2)
  else 0

end
end Phono3py.Spec
