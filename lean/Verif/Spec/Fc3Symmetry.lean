import Verif.Spec.PhononRotation
import Verif.Spec.Interaction
import Verif.Model.Interaction

/-!
# Symmetry operations of third-order force constants

What it means that an operation of the space group maps a crystal with third-order force constants to
itself, and that shortest vectors join atoms at given positions.  Of the model only the structures
holding the input are used.
-/

namespace Phono3py.Spec

open Finset

section
variable {K : Type} [Field K] [LinearOrder K] [IsStrictOrderedRing K]

/-- Row of the array of force constants that belongs to atom `i` of the primitive cell. -/
def fc3Row (c : Crystal K) (i : Nat) : Int := if c.isCompact then i else c.atoms.p2s i

/-- The shortest vector numbered `x` from atom `i` of the primitive cell to atom `s` of the
supercell, in components with respect to the basis of the primitive cell. -/
def shortest (c : Crystal K) (i : Nat) (s : Int) (x : Nat) : Fin 3 → K :=
  c.atoms.svecs ((c.atoms.multiplicity (s * c.atoms.numPatom + i)).2 + x)

/-- How many of them there are. -/
def shortestCount (c : Crystal K) (i : Nat) (s : Int) : Nat :=
  (c.atoms.multiplicity (s * c.atoms.numPatom + i)).1

/-- The operation with matrix `W` in crystal coordinates and orthogonal matrix `R` in Cartesian
coordinates, which takes atom `i` of the primitive cell to a translation of atom `g i`, is a symmetry
of masses and third-order force constants: for each atom `i` there is a one-to-one map `σ` of the
supercell, the operation followed by a translation, such that the force constants of `g i`, `σ s`,
`σ t` are those of `i`, `s`, `t` turned by `R`, and the shortest vectors from `g i` to `σ s` are those
from `i` to `s`, turned by `W`, in some order.  `origin`: up to a common shift and vectors of the
lattice, the atoms of the primitive cell are at the turned positions. -/
structure IsFc3Symmetry (c : Crystal K) (W R : Nat → Nat → K) (g : Nat → Nat) : Prop where
  orthogonal : ∀ a < 3, ∀ b < 3, ∑ k ∈ range 3, R k a * R k b = if a = b then 1 else 0
  atoms : PermutesBelow c.atoms.numPatom g
  mass : ∀ i < c.atoms.numPatom, c.masses (g i) = c.masses i
  supercell : ∀ i < c.atoms.numPatom, ∃ σ : Nat → Nat, PermutesBelow c.atoms.numSatom σ ∧
    (∀ s < c.atoms.numSatom, ∀ j < c.atoms.numPatom,
      c.atoms.s2p (σ s) = c.atoms.p2s (g j) ↔ c.atoms.s2p s = c.atoms.p2s j) ∧
    (∀ s < c.atoms.numSatom, ∀ t < c.atoms.numSatom, ∀ x < 3, ∀ y < 3, ∀ z < 3,
      c.fc3 (fc3At c.atoms.numSatom (fc3Row c (g i)) (σ s) (σ t) x y z) =
        ∑ l ∈ range 3, ∑ m ∈ range 3, ∑ n ∈ range 3, R x l * R y m * R z n *
          c.fc3 (fc3At c.atoms.numSatom (fc3Row c i) s t l m n)) ∧
    (∀ s < c.atoms.numSatom, shortestCount c (g i) (σ s) = shortestCount c i s ∧
      ∃ π : Nat → Nat, PermutesBelow (shortestCount c i s) π ∧
        ∀ x < shortestCount c i s, ∀ d : Fin 3,
          shortest c (g i) (σ s) (π x) d = ∑ e : Fin 3, W d e * shortest c i s x e) ∧
    (∀ s < c.atoms.numSatom, ∀ t < c.atoms.numSatom,
      c.atoms.allShortest (at3 c.atoms.numSatom c.atoms.numSatom (g i) (σ s) (σ t) : Nat) =
        c.atoms.allShortest (at3 c.atoms.numSatom c.atoms.numSatom i s t : Nat))
  origin : ∃ shift : Fin 3 → K, ∀ i < c.atoms.numPatom, ∃ z : Fin 3 → Int, ∀ d : Fin 3,
    shortest c 0 (c.atoms.p2s (g i)) 0 d =
      ∑ e : Fin 3, W d e * shortest c 0 (c.atoms.p2s i) 0 e + shift d + z d

/-- The shortest vectors join atoms at the positions `τ`, up to vectors of the lattice. -/
structure HasPositions (c : Crystal K) (τ : Nat → Fin 3 → K) : Prop where
  vectors : ∀ i < c.atoms.numPatom, ∀ s < c.atoms.numSatom, ∀ j < c.atoms.numPatom,
    c.atoms.s2p s = c.atoms.p2s j → ∀ x < shortestCount c i s,
      ∃ z : Fin 3 → Int, ∀ d, shortest c i s x d = τ j d - τ i d + z d
  origin : ∀ j < c.atoms.numPatom,
    ∃ z : Fin 3 → Int, ∀ d, shortest c 0 (c.atoms.p2s j) 0 d = τ j d - τ 0 d + z d

/-- `Wᵀ q`: the wave vector, in components with respect to the reciprocal basis, after the inverse
of the operation with matrix `W` on positions. -/
def turned (W : Nat → Nat → K) (q : Fin 3 → K) : Fin 3 → K := fun d => ∑ e : Fin 3, W e d * q e

/-- An eigenvector with atoms permuted by `g` and Cartesian components turned: component `3 i + k`
is `∑_a R_ak e(3 g(i) + a)`. -/
def turnedVector (R : Nat → Nat → K) (g : Nat → Nat) (e : Nat → Cplx K) : Nat → Cplx K :=
  fun p => ∑ a ∈ range 3, (e (3 * g (p / 3) + a)).scale (R a (p % 3))

end
end Phono3py.Spec
