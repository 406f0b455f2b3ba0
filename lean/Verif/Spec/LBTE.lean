/-
Specification of the direct solution of the linearised Boltzmann equation.
-/
import Mathlib.Algebra.BigOperators.Group.Finset.Defs
import Mathlib.Algebra.Order.Field.Basic
import Mathlib.Data.Fintype.Card

namespace Phono3py.Spec
open Finset

variable {K : Type _} [Field K] [LinearOrder K] [IsStrictOrderedRing K]

/-- The `n x n` matrix `A` is symmetric. -/
def SymmetricMatrix (n : Nat) (A : Nat → Nat → K) : Prop := ∀ i < n, ∀ j < n, A i j = A j i

/-- The columns of `V` are an orthonormal basis of eigenvectors of the `n x n` matrix `A`, with
eigenvalues `w`. -/
structure IsEigensystem (n : Nat) (A : Nat → Nat → K) (w : Nat → K) (V : Nat → Nat → K) : Prop where
  orthonormal : ∀ i < n, ∀ j < n, ∑ k ∈ range n, V k i * V k j = if i = j then 1 else 0
  eigen : ∀ i < n, ∀ j < n, A i j = ∑ k ∈ range n, V i k * (w k * V j k)

/-- `f(A) x` for a matrix with the given eigensystem. -/
def spectral (n : Nat) (w : Nat → K) (V : Nat → Nat → K) (f : K → K) (x : Nat → K) (i : Nat) : K :=
  ∑ k ∈ range n, V i k * (f (w k) * ∑ j ∈ range n, V j k * x j)

/-- Eigenvalues are inverted when they lie above the cutoff (their absolute value, with method 0)
and dropped otherwise. -/
def cutInverse (method : Int) (cutoff x : K) : K :=
  if cutoff < (if method = 0 then |x| else x) then x⁻¹ else 0

/-- Conductivity of the fields `x` and `y` on a mesh: `factor kb t² / n ∑ (x_a y_b + x_b y_a)`. -/
def fieldConductivity {Q : Type _} [Fintype Q] (scale n : K) (nb : Nat)
    (x y : Q → Nat → Fin 3 → K) (a b : Fin 3) : K :=
  scale / n * ∑ q, ∑ l ∈ range nb, (x q l a * y q l b + x q l b * y q l a)

/-- The collision matrix of the full mesh: elements `Om` between modes, the linewidths on the
diagonal, symmetrised. -/
def fullCollision {Q : Type _} [DecidableEq Q] (Om : Q → Nat → Q → Nat → K) (lw : Q → Nat → K)
    (q : Q) (l : Nat) (q' : Q) (l' : Nat) : K :=
  ((Om q l q' l' + if q = q' ∧ l = l' then lw q l else 0) +
    (Om q' l' q l + if q = q' ∧ l = l' then lw q l else 0)) / 2

end Phono3py.Spec
