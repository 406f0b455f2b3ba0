import Verif.Spec.Reciprocal
import Verif.Model.DynMat
import Mathlib.Algebra.BigOperators.Group.Finset.Basic

/-!
# Dynamical matrices

Independent of the functions of the model: matrices of blocks, eigenvectors and the lattice Fourier
transform of force constants.  Of the model only the structures holding the input are used.
-/

namespace Phono3py.Spec

open Finset

section
variable {K : Type} [Field K] [LinearOrder K] [IsStrictOrderedRing K]

/-- Element `(i, k), (j, l)` of a row-major matrix with `3 n` rows: atoms `i, j`, directions
`k, l`. -/
def dynBlock (n : Nat) (a : Int → Cplx K) (i k j l : Nat) : Cplx K :=
  a (((i * 3 + k) * (n * 3) + (j * 3 + l) : Nat))

/-- The matrix is Hermitian. -/
def HermitianMatrix (n : Nat) (a : Int → Cplx K) : Prop :=
  ∀ i < n, ∀ k < 3, ∀ j < n, ∀ l < 3, dynBlock n a i k j l = conj (dynBlock n a j l i k)

/-- `e` is a solution of `D e = lam e`. -/
def EigenPair (n : Nat) (a : Int → Cplx K) (lam : K) (e : Nat → Nat → Cplx K) : Prop :=
  ∀ i < n, ∀ k < 3,
    ∑ j ∈ range n, ∑ l ∈ range 3, dynBlock n a i k j l * e j l = (e i k).scale lam

/-- `q . r`. -/
def dotN (q r : Nat → K) : K := ∑ d ∈ range 3, q d * r d

/-- `q . eps . q`. -/
def quadForm (q : Nat → K) (eps : Nat → Nat → K) : K :=
  ∑ i ∈ range 3, ∑ j ∈ range 3, q i * eps i j * q j

/-- The mean of `e(q . r)` over `count` equivalent vectors starting at `start`. -/
def meanPhaseN (e : K → Cplx K) (q : Nat → K) (vecs : Int → Nat → K) (count : Nat) (start : Int) :
    Cplx K :=
  (∑ x ∈ range count, e (dotN q (vecs (start + x)))).scale (1 / count)

/-- Place of element `(row, s, a, b)` in a row-major array of shape `(*, n, 3, 3)`. -/
def fc2At (n : Nat) (row : Int) (s a b : Nat) : Int := ((row * n + s) * 3 + a) * 3 + b

/-- The mass-weighted lattice Fourier transform of the force constants, with `extra` added to the
force constants: element `(i, k), (j, l)`.  The sum runs over the supercell atoms `s` that are
translations of atom `j`. -/
def fourierBlock (sqrt : K → K) (e : K → Cplx K) (c : Fc2Cell K)
    (extra : Nat → Nat → Nat → Nat → K) (q : Nat → K) (i k j l : Nat) : Cplx K :=
  (∑ s ∈ range c.numSatom, if c.s2p s = c.p2s j then
    (meanPhaseN e q c.svecs (c.multi (s * c.numPatom + i)).1 (c.multi (s * c.numPatom + i)).2).scale
      (c.fc2 (fc2At c.numSatom (c.p2s i) s k l) + extra i k j l)
    else 0).scale (1 / sqrt (c.mass i * c.mass j))

/-- The non-analytical term of Wang and others: `factor (q Z_i)_k (q Z_j)_l / (q eps q) / N` with the
number `N` of primitive cells in the supercell, `q` Cartesian. -/
def wangTerm (c : Fc2Cell K) (p : NacParams K) (q : Nat → K) (i k j l : Nat) : K :=
  p.factor * (∑ m ∈ range 3, q m * p.born i m k) * (∑ m ∈ range 3, q m * p.born j m l) /
    quadForm q p.dielectric / ((c.numSatom : K) / c.numPatom)

/-- What is needed of `x ↦ cos(2 pi x) + i sin(2 pi x)`. -/
structure IsPhase (e : K → Cplx K) : Prop where
  zero : e 0 = 1
  add : ∀ x y, e (x + y) = e x * e y
  neg : ∀ x, e (-x) = conj (e x)
  int : ∀ z : Int, e z = 1

/-- What is needed of the square root. -/
structure IsSqrt (sqrt : K → K) : Prop where
  nonneg : ∀ x, 0 ≤ sqrt x
  sq : ∀ x, 0 ≤ x → sqrt x * sqrt x = x

end
end Phono3py.Spec
