import Verif.Spec.Fc3Symmetry
import Verif.Spec.DynMat
import Mathlib.Algebra.Group.Subgroup.Defs
import Mathlib.Algebra.BigOperators.Fin

/-!
# Supercells and shortest vectors

Positions of the atoms of a supercell, the vectors that join periodic images of two atoms, and what
it means that a list of vectors holds the shortest of them.  Of the model only the structures
holding the input are used.
-/

namespace Phono3py.Spec

section
variable {K : Type} [Field K] [LinearOrder K] [IsStrictOrderedRing K]

/-- Positions of the atoms of the supercell in components with respect to the basis of the primitive
cell, the translations of the supercell lattice, and a length of vectors. -/
structure Geometry (K : Type) [Field K] where
  pos : Nat → Fin 3 → K
  lattice : AddSubgroup (Fin 3 → K)
  length : (Fin 3 → K) → K

/-- Length of the vector with components `v`, where `basis c` is the `c`-th basis vector of the primitive
cell in Cartesian components. -/
def cartesianLength (sqrt : K → K) (basis : Fin 3 → Fin 3 → K) (v : Fin 3 → K) : K :=
  sqrt (∑ x, (∑ c, v c * basis c x) ^ 2)

/-- `v` joins atom `a` to a periodic image of atom `b`. -/
def Geometry.Joins (g : Geometry K) (a b : Nat) (v : Fin 3 → K) : Prop :=
  v - (g.pos b - g.pos a) ∈ g.lattice

/-- `v` joins `a` to the nearest image of `b`; all other images are farther by `tol` or more. -/
def Geometry.Nearest (g : Geometry K) (tol : K) (a b : Nat) (v : Fin 3 → K) : Prop :=
  g.Joins a b v ∧ ∀ u, g.Joins a b u → u ≠ v → g.length v + tol ≤ g.length u

/-- There are images of `b` and `c` such that the three of `a`, `b`, `c` are nearest to each
other. -/
def Geometry.AllNearest (g : Geometry K) (tol : K) (a b c : Nat) : Prop :=
  ∃ v w, g.Nearest tol a b v ∧ g.Nearest tol a c w ∧ g.Nearest tol b c (w - v)

/-- The maps between primitive cell and supercell, and the permutations of the supercell by
translations, belong to the positions of `g`. -/
structure IsSupercell (at' : AtomTriplets K) (p2p : Int → Nat) (perms : List (Nat → Nat))
    (g : Geometry K) : Prop where
  /-- Translations of the supercell are translations of the primitive cell. -/
  integer : ∀ v ∈ g.lattice, ∃ z : Fin 3 → Int, ∀ d, v d = z d
  /-- The atoms of the primitive cell are atoms of the supercell that represent themselves. -/
  first : ∀ i < at'.numPatom, 0 ≤ at'.p2s i ∧ at'.p2s i < at'.numSatom ∧ p2p (at'.p2s i) = i ∧
    at'.s2p (at'.p2s i).toNat = at'.p2s i
  /-- Each atom is a translation of the one that represents it. -/
  others : ∀ s < at'.numSatom, p2p (at'.s2p s) < at'.numPatom ∧
    at'.p2s (p2p (at'.s2p s)) = at'.s2p s ∧
    ∃ z : Fin 3 → Int, ∀ d, g.pos s d - g.pos (at'.s2p s).toNat d = z d
  /-- Different atoms are at different positions. -/
  distinct : ∀ s < at'.numSatom, ∀ t < at'.numSatom, g.pos s - g.pos t ∈ g.lattice → s = t
  /-- Each permutation is a translation. -/
  translation : ∀ σ ∈ perms, (∀ s < at'.numSatom, σ s < at'.numSatom ∧ at'.s2p (σ s) = at'.s2p s) ∧
    ∃ t : Fin 3 → K, ∀ s < at'.numSatom, g.pos (σ s) - g.pos s - t ∈ g.lattice
  /-- Each atom is taken into the primitive cell by exactly one of them. -/
  unique : ∀ s < at'.numSatom, perms.countP (fun σ => decide ((σ s : Int) = at'.s2p s)) = 1

/-- The vectors stored for each pair are, without repetition, all vectors joining the two that are
longer than the shortest one by less than `tol`. -/
structure ListsShortest (at' : AtomTriplets K) (g : Geometry K) (tol : K) : Prop where
  all : ∀ i < at'.numPatom, ∀ s < at'.numSatom, ∃ w, g.Joins (at'.p2s i).toNat s w ∧
    (∀ u, g.Joins (at'.p2s i).toNat s u → g.length w ≤ g.length u) ∧
    ∀ v, (∃ x < (at'.multiplicity (s * at'.numPatom + i)).1,
        at'.svecs ((at'.multiplicity (s * at'.numPatom + i)).2 + (x : Nat)) = v) ↔
      g.Joins (at'.p2s i).toNat s v ∧ g.length v < g.length w + tol
  once : ∀ i < at'.numPatom, ∀ s < at'.numSatom,
    ∀ x < (at'.multiplicity (s * at'.numPatom + i)).1,
    ∀ y < (at'.multiplicity (s * at'.numPatom + i)).1,
      at'.svecs ((at'.multiplicity (s * at'.numPatom + i)).2 + (x : Nat)) =
        at'.svecs ((at'.multiplicity (s * at'.numPatom + i)).2 + (y : Nat)) → x = y

/-- The array of force constants of the crystal, full or compact, holds `Φ`, which does not change
when its three atoms and their directions are permuted or all three atoms translated. -/
structure HoldsSymmetricFc3 (c : Crystal K) (perms : List (Nat → Nat))
    (Φ : Nat → Nat → Nat → Nat → Nat → Nat → K) : Prop where
  holds : ∀ i < c.atoms.numPatom, ∀ s < c.atoms.numSatom, ∀ t < c.atoms.numSatom,
    ∀ x < 3, ∀ y < 3, ∀ z < 3,
    c.fc3 (fc3At c.atoms.numSatom (fc3Row c i) s t x y z) = Φ (c.atoms.p2s i).toNat s t x y z
  first : ∀ r < c.atoms.numSatom, ∀ s < c.atoms.numSatom, ∀ t < c.atoms.numSatom, ∀ x < 3, ∀ y < 3,
    ∀ z < 3, Φ s r t y x z = Φ r s t x y z
  last : ∀ r < c.atoms.numSatom, ∀ s < c.atoms.numSatom, ∀ t < c.atoms.numSatom, ∀ x < 3, ∀ y < 3,
    ∀ z < 3, Φ r t s x z y = Φ r s t x y z
  translation : ∀ σ ∈ perms, ∀ r < c.atoms.numSatom, ∀ s < c.atoms.numSatom,
    ∀ t < c.atoms.numSatom, ∀ x < 3, ∀ y < 3, ∀ z < 3,
    Φ (σ r) (σ s) (σ t) x y z = Φ r s t x y z

end
end Phono3py.Spec
