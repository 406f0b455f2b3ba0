/-
Specification vocabulary for q-point triplets.
-/
import Verif.Spec.BZGrid
import Verif.Model.Triplet

namespace Phono3py.Spec

/-- `R` belongs to the little group of the q-point with address `a0`. -/
def Little (G : List M3) (D a0 : V3) (R : M3) : Prop := R ∈ G ∧ SamePoint D (R.mulVec a0) a0

/-- The point group, with the inverted operations when time reversal is imposed. -/
def withTimeReversal (G : List M3) (timeReversal : Bool) : List M3 :=
  if timeReversal then G ++ G.map (fun R => M3.negOne.mul R) else G

/-- The triplets `(q0, q1, q2)` with first members `a`, `b` for `q1` (and `q2 = -q0-q1`) are
equivalent: a rotation of the little group of `q0` carries `q1` of the first to `q1` of the
second or, when exchange is allowed, `q2` of the first to `q1` of the second. -/
def TripletEquiv (G : List M3) (D a0 : V3) (swappable : Bool) (a b : V3) : Prop :=
  ∃ R, Little G D a0 R ∧
    (SamePoint D (R.mulVec a) b ∨ (swappable = true ∧ SamePoint D (R.mulVec (-a0 - a)) b))

/-- Squared length of `B Q D⁻¹ G`. -/
def gNorm {K : Type _} [Field K] (b : BZInput K) (G : V3) : K :=
  let q : Fin 3 → K := fun i => (G.e i : K) / (b.D.e i : K)
  let Qq : Fin 3 → K := fun i =>
    (b.Q.e i 0 : K) * q 0 + (b.Q.e i 1 : K) * q 1 + (b.Q.e i 2 : K) * q 2
  let v : Fin 3 → K := fun i => b.reclat i 0 * Qq 0 + b.reclat i 1 * Qq 1 + b.reclat i 2 * Qq 2
  v 0 * v 0 + v 1 * v 1 + v 2 * v 2

/-- Sum of the three addresses of a triplet of BZ indices. -/
def tripletSum (bz : BZGridOut) (t : Int × Int × Int) : V3 :=
  bz.addresses t.1 + bz.addresses t.2.1 + bz.addresses t.2.2

end Phono3py.Spec
