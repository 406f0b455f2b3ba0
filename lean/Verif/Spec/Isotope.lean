/-
Specification of the isotope linewidth.
-/
import Mathlib.Algebra.BigOperators.Group.Finset.Defs
import Mathlib.Algebra.Order.Field.Basic
import Verif.Spec.Reciprocal

namespace Phono3py.Spec
open Finset

variable {K : Type _} [Field K] [LinearOrder K] [IsStrictOrderedRing K]

/-- `|∑_α conj(w_α) v_α|²` over the three Cartesian components of atom `l` in the vectors `w`
and `v`. -/
def overlapSq (w v : Nat → Cplx K) (l : Nat) : K :=
  (∑ m ∈ range 3, conj (w (l * 3 + m)) * v (l * 3 + m)).normSq

/-- Linewidth of the mode `(f0, e0)` from isotope scattering (Tamura's formula): the modes
`(f q k, e q k)` of `nq` wave vectors and `nb` bands take part unless their frequency is below
`cutoff`; `delta q k` is the weight replacing the delta function, `g` the mass variances of the
atoms. -/
def isotopeLinewidth (pi cutoff : K) (g : Nat → K) (nq nb : Nat) (f0 : K) (e0 : Nat → Cplx K)
    (f : Nat → Nat → K) (e : Nat → Nat → Nat → Cplx K) (delta : Nat → Nat → K) : K :=
  if f0 < cutoff then 0
  else pi / 4 * f0 ^ 2 * ∑ q ∈ range nq, ∑ k ∈ range nb,
    if f q k < cutoff then 0
    else delta q k * ∑ l ∈ range (nb / 3), g l * overlapSq e0 (e q k) l

end Phono3py.Spec
