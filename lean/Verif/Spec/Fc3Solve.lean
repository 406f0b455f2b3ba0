/- Third-order force constants under crystal symmetry, and with a cutoff distance. -/
import Verif.Spec.Fc3

namespace Phono3py.Spec

variable {K : Type _} [Field K]

/-- Atoms moved by a symmetry operation, directions kept. -/
def moveAtoms (p : Nat → Nat) (x : Legs) : Legs := fun s => (p (x s).1, (x s).2)

/-- All three Cartesian directions rotated: `∑ R_la R_mb R_nc f_abc` for the atoms of `x`. -/
def rotateLegs (R : Nat → Nat → K) (f : Legs → K) (x : Legs) : K :=
  ∑ a ∈ Finset.range 3, ∑ b ∈ Finset.range 3, ∑ c ∈ Finset.range 3,
    R (x 0).2 a * R (x 1).2 b * R (x 2).2 c * f ![((x 0).1, a), ((x 1).1, b), ((x 2).1, c)]

/-- Force constants invariant under a symmetry operation of the crystal: the operation moves atom
`i` to `p i` and rotates vectors by `R`. -/
def InvariantUnder (n : Nat) (p : Nat → Nat) (R : Nat → Nat → K) (f : Legs → K) : Prop :=
  ∀ x, Legs.Valid n x → f (moveAtoms p x) = rotateLegs R f x

/-- Columns of a rotation are orthonormal. -/
def Orthogonal (R : Nat → Nat → K) : Prop :=
  ∀ a < 3, ∀ b < 3, ∑ k ∈ Finset.range 3, R k a * R k b = if a = b then 1 else 0

/-- Row `row` of an fc3 array holds the elements of `f` with first atom `i`. -/
def HoldsRow (n : Nat) (A : Int → K) (row i : Nat) (f : Legs → K) : Prop :=
  ∀ x, Legs.Valid n x → (x 0).1 = i → A (fc3Pos n (setAtom x 0 row) : Nat) = f x

/-- Change of fc2 when the first atom is displaced by `u`: `∑ u_k f_klm(first, i, j)`. -/
def inducedFc2 (f : Legs → K) (first : Nat) (u : Nat → K) (i j l m : Nat) : K :=
  ∑ k ∈ Finset.range 3, u k * f ![(first, k), (i, l), (j, m)]

/-- Average of the permuted elements for which the weight is one; zero if there are none. -/
def weightedMean (w : Legs → Nat) (f : Legs → K) (x : Legs) : K :=
  if 0 < ∑ σ : Equiv.Perm (Fin 3), w (x ∘ σ) then
    (∑ σ : Equiv.Perm (Fin 3), (w (x ∘ σ) : K) * f (x ∘ σ)) /
      ((∑ σ : Equiv.Perm (Fin 3), w (x ∘ σ) : Nat) : K)
  else 0

end Phono3py.Spec
