import Verif.Model.Dataset
import Verif.Model.Orbits
import Verif.Model.Fc3Solve
import Mathlib.Data.Matrix.Mul
import Mathlib.Algebra.Order.Field.Basic

/-!
# Generated displacements and fc3 from their forces

Model of `get_third_order_displacements` and its helpers in `phono3py/phonon3/displacement_fc3.py`,
and of `_get_constrained_fc2`, `_get_delta_fc2`, `_solve_fc3` and `_get_fc3_least_atoms` in
`phono3py/phonon3/fc3.py`. Functions of phonopy and numpy are fields of `FcTools`. Vectors are
`Fin 3 → K`, rotations in crystal coordinates are integer matrices.
-/

namespace Phono3py

/-- A rotation of a symmetry operation in crystal coordinates, an element of `site_symmetry`
(displacement_fc3.py:244, 261). -/
abbrev Rot := Matrix (Fin 3) (Fin 3) Int

/-- Three coordinates (displacement_fc3.py:187, 245). -/
abbrev Vec (K : Type) := Fin 3 → K

/-- A block `fc2[i, j]` (fc3.py:412). -/
abbrev FcBlock (K : Type) := Matrix (Fin 3) (Fin 3) K

section
variable {K : Type} [Field K] [LinearOrder K]

/-- `np.dot(x, rot.T)` (displacement_fc3.py:245, 262, 311). -/
def turnVec (r : Rot) (x : Vec K) : Vec K := (r.map (Int.cast : Int → K)).mulVec x

/-- `get_reduced_site_symmetry` (displacement_fc3.py:241-247). -/
def reducedSiteSym (tol : K) (site : List Rot) (direction : Vec K) : List Rot :=
  site.filter fun r => decide (∀ i, |direction i - turnVec r direction i| < tol)

/-- The arrays `disps2` and `sets_of_forces` for one second atom (fc3.py:417-428); `none` is a
missing key `forces`. -/
def secondData (seconds : List (Disp2 (Vec K) K)) (forces1 : Nat → Vec K) (atom2 : Nat) :
    Option (List (Vec K × (Nat → Vec K))) :=
  (seconds.filter fun d => d.number == atom2).mapM fun d =>
    d.forces.map fun F => (d.displacement, fun k => F.getD k 0 - forces1 k)

/-- The crystal and the functions of numpy and phonopy called by displacement_fc3.py:171-297 and
fc3.py:383-760. -/
structure FcTools (K : Type) where
  /-- `supercell.cell.T` -/
  lattice : FcBlock K
  /-- `np.linalg.inv` of it -/
  latticeInv : FcBlock K
  /-- `supercell.scaled_positions` -/
  positions : List (Vec K)
  /-- `symmetry.tolerance` -/
  tol : K
  /-- `np.rint` -/
  rint : Vec K → Vec K
  /-- `np.linalg.norm` -/
  norm : Vec K → K
  /-- `symmetry.get_site_symmetry` -/
  siteSym : Nat → List Rot
  /-- `get_least_displacements(symmetry, ...)` -/
  leastDisps : List (Nat × Vec Int)
  /-- `get_displacement(bond_sym)` for the requested value of `is_diagonal` -/
  getDisplacement : List Rot → List (Vec Int)
  /-- `is_minus_displacement` -/
  isMinus : Vec Int → List Rot → Bool
  /-- The row written by `solve_force_constants(fc2, atom, disps, forces, supercell, syms)` -/
  solveRow : Nat → List (Vec K) → List (Nat → Vec K) → List Rot → Nat → FcBlock K
  /-- `distribute_force_constants` with the permutations of the rotations about the given atom -/
  distribute : Nat → (Nat → Nat → FcBlock K) → List Nat → List Rot → Option (Nat → Nat → FcBlock K)
  /-- `get_positions_sent_by_rot_inv` for the rotations about the given atom: the atom which the
  rotation takes to the given one -/
  sentByInv : Nat → Rot → Nat → Nat
  /-- `np.linalg.pinv` of the matrix with the given rows; entry `[k][p]` -/
  pinv : List (Vec K) → Nat → Nat → K
  /-- Distance of a pair of atoms (displacement_fc3.py:204-205) -/
  pairDistance : Nat → Nat → K

namespace FcTools

variable (T : FcTools K)

/-- `len(supercell)` (fc3.py:410). -/
def natom : Nat := T.positions.length

/-- `positions[i]` (displacement_fc3.py:262). -/
def pos (i : Nat) : Vec K := T.positions.getD i 0

/-- Positions that agree up to lattice vectors and the tolerance (displacement_fc3.py:263-266,
314-317). -/
def near (q p : Vec K) : Bool :=
  decide (T.norm (T.lattice.mulVec ((q - p) - T.rint (q - p))) < T.tol)

/-- `np.dot(pos - center, rot.T) + center` (displacement_fc3.py:262, 311). -/
def turnAbout (center : Nat) (r : Rot) (p : Vec K) : Vec K :=
  turnVec r (p - T.pos center) + T.pos center

/-- `get_bond_symmetry` (displacement_fc3.py:250-269). -/
def bondSym (site : List Rot) (center atom : Nat) : List Rot :=
  site.filter fun r => T.near (T.pos atom) (T.turnAbout center r (T.pos atom))

/-- `_get_next_displacements` (displacement_fc3.py:213-238): the directions of one second atom. -/
def nextDirections (reduced : List Rot) (atom1 atom2 : Nat) : List (Vec Int) :=
  let bond := T.bondSym reduced atom1 atom2
  (T.getDisplacement bond).flatMap fun d => if T.isMinus d bond then [d, -d] else [d]

/-- The reduced site symmetry for a direction in integers (displacement_fc3.py:194). -/
def reducedOfDirection (atom1 : Nat) (d : Vec Int) : List Rot :=
  reducedSiteSym T.tol (T.siteSym atom1) fun i => (d i : K)

/-- Body of the loop over `disps_first` in `get_third_order_displacements`
(displacement_fc3.py:185-208). -/
def displaceFirst (d : Nat × Vec Int) : Option (DirFirst (Vec Int) K) :=
  (leastOrbits T.near (T.turnAbout d.1) T.positions (T.reducedOfDirection d.1 d.2)).map
    fun seconds => ⟨d.1, d.2, seconds.map fun a =>
      ⟨a, T.pairDistance d.1 a, T.nextDirections (T.reducedOfDirection d.1 d.2) d.1 a⟩⟩

/-- `get_third_order_displacements` (displacement_fc3.py:133-210). -/
def thirdOrderDisplacements : Option (List (DirFirst (Vec Int) K)) :=
  T.leastDisps.mapM T.displaceFirst

/-- A direction in Cartesian coordinates with the requested length (displacement_fc3.py:97-98,
105-107). -/
def toDisplacement (distance : K) (d : Vec Int) : Vec K :=
  let v := T.lattice.mulVec fun i => (d i : K)
  (distance / T.norm v) • v

/-- `similarity_transformation(lattice, sym)` (fc3.py:483). -/
def cart (r : Rot) : FcBlock K := T.lattice * r.map (Int.cast : Int → K) * T.latticeInv

/-- Body of the loop over `atom_list` (fc3.py:416-432): the row of `atom2` is solved with the bond
symmetry. -/
def solveSecond (seconds : List (Disp2 (Vec K) K)) (atom1 : Nat) (forces1 : Nat → Vec K)
    (reduced : List Rot) (fc2 : Nat → Nat → FcBlock K) (atom2 : Nat) :
    Option (Nat → Nat → FcBlock K) :=
  (secondData seconds forces1 atom2).map fun data =>
    Function.update fc2 atom2 (T.solveRow atom2 (data.map fun p => p.1) (data.map fun p => p.2)
      (T.bondSym reduced atom1 atom2))

/-- `np.unique` of the numbers of the second atoms (fc3.py:415). -/
def secondAtoms (seconds : List (Disp2 (Vec K) K)) : List Nat :=
  (List.range T.natom).filter fun a => seconds.any fun d => d.number == a

/-- `_get_constrained_fc2` (fc3.py:395-443). -/
def constrainedFc2 (seconds : List (Disp2 (Vec K) K)) (atom1 : Nat) (forces1 : Nat → Vec K)
    (reduced : List Rot) : Option (Nat → Nat → FcBlock K) :=
  ((T.secondAtoms seconds).foldlM (T.solveSecond seconds atom1 forces1 reduced)
    fun _ _ => 0).bind fun fc2 => T.distribute atom1 fc2 (T.secondAtoms seconds) reduced

/-- `_get_delta_fc2` (fc3.py:383-392). -/
def deltaFc2 (seconds : List (Disp2 (Vec K) K)) (atom1 : Nat) (forces1 : Nat → Vec K)
    (fc2 : Nat → Nat → FcBlock K) (reduced : List Rot) : Option (Nat → Nat → FcBlock K) :=
  (T.constrainedFc2 seconds atom1 forces1 reduced).map fun c => fun i j => c i j - fc2 i j

/-- One round of the loop over `first_atoms` for a fixed first atom (fc3.py:717-742); a key
`delta_fc2` in the dataset is not modelled. -/
def firstDelta (fc2 : Nat → Nat → FcBlock K) (d : Disp1 (Vec K) K) :
    Option (Vec K × (Nat → Nat → FcBlock K)) :=
  d.forces.bind fun F =>
    (T.deltaFc2 d.second d.number (fun k => F.getD k 0) fc2
      (reducedSiteSym T.tol (T.siteSym d.number) (T.latticeInv.mulVec d.displacement))).map
    fun delta => (d.displacement, delta)

/-- The rows of `get_rotated_displacement(displacements_first, site_sym_cart)` (fc3.py:498). -/
def rotatedDisps (disps : List (Vec K)) (site : List Rot) : List (Vec K) :=
  disps.flatMap fun u => site.map fun r => (T.cart r).mulVec u

/-- The arguments of `rotate_delta_fc2s` prepared by `_solve_fc3` (fc3.py:482-521). -/
def siteData (first : Nat) (data : List (Vec K × (Nat → Nat → FcBlock K))) : SiteData K :=
  let site := T.siteSym first
  let U := T.rotatedDisps (data.map fun p => p.1) site
  { numAtom := T.natom
    numSym := site.length
    numDisp := data.length
    deltaFc2s := fun p l m =>
      (data.map fun q => q.2).getD (p / (T.natom * T.natom)) (fun _ _ => 0)
        (p % (T.natom * T.natom) / T.natom) (p % T.natom) (Fin.ofNat 3 l) (Fin.ofNat 3 m)
    invU := fun p => T.pinv U (p / (site.length * data.length)) (p % (site.length * data.length))
    siteSymCart := fun s i j => T.cart (site.getD s 1) (Fin.ofNat 3 i) (Fin.ofNat 3 j)
    rotMapSyms := fun p => T.sentByInv first (site.getD (p / T.natom) 1) (p % T.natom) }

/-- Body of the loop over `first_atom_nums` in `_get_fc3_least_atoms` (fc3.py:713-754): `fc3_first`
for one first atom. -/
def solveFirst (mem : Int → K) (fc2 : Nat → Nat → FcBlock K) (first : List (Disp1 (Vec K) K))
    (atom1 : Nat) : Option (Int → K) :=
  ((first.filter fun d => d.number == atom1).mapM (T.firstDelta fc2)).map fun data =>
    rotateDeltaFc2 (T.siteData atom1 data) mem fun _ => 0

/-- `np.unique` of the numbers of the first atoms (fc3.py:105, 689-691). -/
def firstAtoms (first : List (Disp1 (Vec K) K)) : List Nat :=
  (List.range T.natom).filter fun a => first.any fun d => d.number == a

/-- The loop over `first_atom_nums` (fc3.py:713-758). -/
def leastAtomsLoop (row : Nat → Nat) (mem : Int → K) (fc2 : Nat → Nat → FcBlock K)
    (first : List (Disp1 (Vec K) K)) : List Nat → (Int → K) → Option (Int → K)
  | [], fc3 => some fc3
  | a :: rest, fc3 => (T.solveFirst mem fc2 first a).bind fun x =>
      leastAtomsLoop row mem fc2 first rest (setRow T.natom (row a) x fc3)

/-- `get_fc3` for the full array without a cutoff (fc3.py:63-170); `fc2` is the value of phonopy's
`get_fc2`. -/
def fc3FromForces (mem : Int → K) (fc2 : Nat → Nat → FcBlock K) (ops : List (SymOp K))
    (p2s : List Nat) (first : List (Disp1 (Vec K) K)) : Option (Int → K) :=
  (T.leastAtomsLoop id mem fc2 first (T.firstAtoms first) fun _ => 0).bind
    (expandFc3Full T.natom ops (T.firstAtoms first) p2s)

end FcTools
end

end Phono3py
