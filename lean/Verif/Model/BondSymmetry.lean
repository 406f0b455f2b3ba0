/-
Site symmetry that is left by displacements: phono3py/phonon3/displacement_fc3.py:241-269.
-/
import Mathlib.Algebra.Order.Field.Basic
import Mathlib.Algebra.Order.Group.Abs
import Mathlib.LinearAlgebra.Matrix.Notation

namespace Phono3py

section
variable {K : Type _} [Field K] [LinearOrder K]

/-- A rotation in the basis of the lattice vectors (phono3py/phonon3/displacement_fc3.py:241-269). -/
abbrev IntRotation := Matrix (Fin 3) (Fin 3) Int

/-- `np.dot(v, rot.T)`, phono3py/phonon3/displacement_fc3.py:245, 262. -/
def IntRotation.turn (R : IntRotation) (v : Fin 3 → K) : Fin 3 → K :=
  fun i => (R i 0 : K) * v 0 + (R i 1 : K) * v 1 + (R i 2 : K) * v 2

/-- `get_reduced_site_symmetry`, phono3py/phonon3/displacement_fc3.py:241-247. -/
def reducedSiteSymmetry (siteSym : List IntRotation) (direction : Fin 3 → K) (symprec : K) : List IntRotation :=
  siteSym.filter fun R => decide (∀ i, |direction i - R.turn direction i| < symprec)

/-- `diff` before the rounding, phono3py/phonon3/displacement_fc3.py:262-263. -/
def bondDiff (pos : Nat → Fin 3 → K) (center disp : Nat) (R : IntRotation) : Fin 3 → K :=
  fun i => pos disp i - (R.turn (fun j => pos disp j - pos center j) i + pos center i)

/-- Square of `np.linalg.norm(np.dot(lattice, diff))` after `diff -= np.rint(diff)`,
phono3py/phonon3/displacement_fc3.py:264-265. -/
def bondDistSq (rint : K → Int) (lattice : Fin 3 → Fin 3 → K) (diff : Fin 3 → K) : K :=
  let x : Fin 3 → K := fun i => diff i - (rint (diff i) : K)
  let y : Fin 3 → K := fun i => lattice i 0 * x 0 + lattice i 1 * x 1 + lattice i 2 * x 2
  y 0 * y 0 + y 1 * y 1 + y 2 * y 2

/-- `get_bond_symmetry`, phono3py/phonon3/displacement_fc3.py:250-269. `dist < symprec` is written with
squares, which is the same for positive `symprec`. -/
def bondSymmetry (rint : K → Int) (siteSym : List IntRotation) (lattice : Fin 3 → Fin 3 → K) (pos : Nat → Fin 3 → K)
    (center disp : Nat) (symprec : K) : List IntRotation :=
  siteSym.filter fun R => decide (bondDistSq rint lattice (bondDiff pos center disp R) < symprec * symprec)

/-- `reduced_site_sym` and `reduced_bond_sym` of `get_third_order_displacements`,
phono3py/phonon3/displacement_fc3.py:194, 218-220. -/
def pairSymmetry (rint : K → Int) (siteSym : List IntRotation) (lattice : Fin 3 → Fin 3 → K) (pos : Nat → Fin 3 → K)
    (atom1 atom2 : Nat) (disp1 : Fin 3 → Int) (symprec : K) : List IntRotation :=
  bondSymmetry rint (reducedSiteSymmetry siteSym (fun i => (disp1 i : K)) symprec) lattice pos atom1 atom2 symprec

end

end Phono3py
