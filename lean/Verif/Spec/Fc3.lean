/- Third-order force constants as functions of three (atom, direction) pairs. -/
import Mathlib.Algebra.Order.Field.Basic
import Mathlib.Algebra.BigOperators.Group.Finset.Basic
import Mathlib.Data.Fintype.Basic
import Mathlib.Data.Fintype.Perm
import Mathlib.Data.Fin.VecNotation

namespace Phono3py.Spec

/-- The three legs of an element of fc3: an atom and a Cartesian direction each. -/
abbrev Legs := Fin 3 → Nat × Nat

/-- Atoms below `n`, directions below 3. -/
def Legs.Valid (n : Nat) (x : Legs) : Prop := ∀ s, (x s).1 < n ∧ (x s).2 < 3

/-- Position of an element in a row-major array of shape `(*, n, n, 3, 3, 3)`. -/
def fc3Pos (n : Nat) (x : Legs) : Nat :=
  (((((x 0).1 * n + (x 1).1) * n + (x 2).1) * 3 + (x 0).2) * 3 + (x 1).2) * 3 + (x 2).2

/-- Average over the six permutations of the legs. -/
def permutationMean {K : Type _} [Field K] (f : Legs → K) (x : Legs) : K :=
  (∑ σ : Equiv.Perm (Fin 3), f (x ∘ σ)) / 6

/-- Invariance under permutations of the legs of the elements with atoms below `n`. -/
def PermutationSymmetric {K : Type _} (n : Nat) (f : Legs → K) : Prop :=
  ∀ x, Legs.Valid n x → ∀ σ : Equiv.Perm (Fin 3), f (x ∘ σ) = f x

/-- Lattice translations of a supercell with `n` atoms: `move j` is the translation that brings
atom `j` to its representative `rep (cls j)`, the atom of the primitive cell of its class. -/
structure Translations (n np : Nat) (rep cls : Nat → Nat) (move : Nat → Nat → Nat) : Prop where
  rep_lt : ∀ p < np, rep p < n
  cls_lt : ∀ j < n, cls j < np
  move_lt : ∀ j < n, ∀ i < n, move j i < n
  cls_rep : ∀ p < np, cls (rep p) = p
  cls_move : ∀ j < n, ∀ i < n, cls (move j i) = cls i
  move_self : ∀ j < n, move j j = rep (cls j)
  move_rep : ∀ p < np, ∀ i < n, move (rep p) i = i
  move_move : ∀ j < n, ∀ i < n, ∀ k < n, move (move j i) (move j k) = move i k

/-- The element of the full fc3 described by a compact fc3 of shape `(np, n, n, 3, 3, 3)`: all
legs are translated so that the first atom is in the primitive cell. -/
def compactLegs (cls : Nat → Nat) (move : Nat → Nat → Nat) (x : Legs) : Legs :=
  ![(cls (x 0).1, (x 0).2), (move (x 0).1 (x 1).1, (x 1).2), (move (x 0).1 (x 2).1, (x 2).2)]

/-- The element with the atom of leg `s` replaced. -/
def setAtom (x : Legs) (s : Fin 3) (a : Nat) : Legs := Function.update x s (a, (x s).2)

/-- Sum over the atoms of leg `s`: it vanishes when moving all atoms together costs nothing. -/
def drift {K : Type _} [AddCommMonoid K] (n : Nat) (s : Fin 3) (f : Legs → K) (x : Legs) : K :=
  ∑ a ∈ Finset.range n, f (setAtom x s a)

/-- No lattice translation of the supercell of order two: it never exchanges two atoms. -/
def NoHalfTranslation (n : Nat) (cls : Nat → Nat) (move : Nat → Nat → Nat) : Prop :=
  ∀ i < n, ∀ j < n, i ≠ j → cls i = cls j → move i j ≠ move j i

end Phono3py.Spec
