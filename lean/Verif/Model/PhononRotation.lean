/-
Phonons of a grid from those at irreducible grid points:
`Interaction.run_phonon_solver_with_eigvec_rotation`, phono3py/phonon3/interaction.py:754-897.
-/
import Verif.Model.PhononSolver
import Verif.Model.GridObject
import Verif.Model.Complex

namespace Phono3py

section
variable {K : Type} [Field K]

/-- `rotations_cartesian`, phono3py/phonon/grid.py:492-499; phonopy's
`similarity_transformation(B, r)` is `B r B⁻¹`. -/
def rotationsCartesian (recLattice : RM K) (ops : List M3) : List (RM K) :=
  ops.map fun r => mulRM recLattice (mulRM (fun i j => (r.e i j : K)) (cofactorRM recLattice))

/-- `_get_reciprocal_rotations_in_space_group_operations`,
phono3py/phonon3/interaction.py:812-833; `none` is the failed assertion. -/
def matchOperations (recOps symRots : List M3) : Option (List Nat) :=
  let m := symRots.filterMap fun r => recOps.findIdx? fun o => o.transpose == r
  if m.length = symRots.length then some m else none

/-- `Rq` of `_rotate_eigvecs`, phono3py/phonon3/interaction.py:841, with `QDinv` of
phono3py/phonon/grid.py:461-463; the q-point of `c/phonon.c:203-207` is computed in the same way.
The half-grid shift is not added. Components beyond the third are not used. -/
def qPoint (gm : GridMatrixOut) (a : V3) : Nat → K := fun d =>
  let r (j : Fin 3) : K := (gm.Q.e (Fin.ofNat 3 d) j : K) * (1 / (gm.D.e j : K)) * (a.e j : K)
  r 0 + r 1 + r 2

/-- The new eigenvectors of `_rotate_eigvecs`, phono3py/phonon3/interaction.py:846-850, in an array of
`3 n` times `3 n` numbers. -/
def rotateEigvecs (n : Nat) (rCart : RM K) (perm : Nat → Nat) (phase : Cplx K) (v : Int → Cplx K) :
    Int → Cplx K := fun x =>
  let row := x.toNat / (3 * n)
  let band := x.toNat % (3 * n)
  let w (b : Nat) : Cplx K := v (((perm (row / 3) * 3 + b) * (3 * n) + band : Nat)) * phase
  let r := rCart (Fin.ofNat 3 (row % 3))
  (w 0).scale (r 0) + (w 1).scale (r 1) + (w 2).scale (r 2)

variable [LinearOrder K] [IsStrictOrderedRing K]

/-- What the procedure reads (phono3py/phonon3/interaction.py:754-897): the solver, the grid object,
the layout of its map, the reciprocal lattice in columns, and of the symmetry dataset the rotations,
the translations and the permutations of `compute_all_sg_permutations`. `irPoints` are the BZ indices
of the irreducible points. `expi x` is `exp(2 pi i x)`. -/
structure RotationEnv (K : Type) where
  nac : NacEnv (Nat → K) (Nat → K) (Int → Cplx K)
  grid : GridObject K
  dense : Bool
  recLattice : RM K
  symRots : List M3
  translations : Nat → Nat → K
  perms : Nat → Nat → Nat
  numPatom : Nat
  irPoints : List Nat
  expi : K → Cplx K

/-- `get_grid_points_by_rotations(gp, bz_grid, [t], with_surface=True)[0]`,
phono3py/phonon/grid.py:938-1006. -/
def rotatedPoint (e : RotationEnv K) (gp : Nat) (t : M3) : Nat :=
  (bzRotateGridIndex e.grid.bz e.grid.gm.D e.grid.PS e.dense gp t).toNat

/-- Number of the phonons `f` and `v` stored for `gp` (phono3py/phonon3/interaction.py:844-850,
891-893). -/
def storePhonon {V F E : Type _} (s : NacState V F E) (gp : Nat) (f : F) (v : E) : NacState V F E :=
  { s with arrays :=
    { done := fun k => if k = gp then true else s.arrays.done k
      freq := fun k => if k = gp then f else s.arrays.freq k
      eig := fun k => if k = gp then v else s.arrays.eig k } }

/-- `_rotate_eigvecs`, phono3py/phonon3/interaction.py:835-850. -/
def rotateStored (e : RotationEnv K) (d : Nat) (rCart : RM K) (orig gp : Nat)
    (s : NacState (Nat → K) (Nat → K) (Int → Cplx K)) :
    NacState (Nat → K) (Nat → K) (Int → Cplx K) :=
  let rq := qPoint e.grid.gm (e.grid.bz.addresses gp)
  let tau := e.translations d
  let phase := e.expi (-(rq 0 * tau 0 + rq 1 * tau 1 + rq 2 * tau 2))
  storePhonon s gp (s.arrays.freq orig)
    (rotateEigvecs e.numPatom rCart (e.perms d) phase (s.arrays.eig orig))

/-- Body of the double loop, phono3py/phonon3/interaction.py:784-797, for operation number `d`, its
number `ri` among the reciprocal operations and one irreducible point. -/
def rotationStep (e : RotationEnv K) (d ri : Nat)
    (s : NacState (Nat → K) (Nat → K) (Int → Cplx K)) (irgp : Nat) :
    NacState (Nat → K) (Nat → K) (Int → Cplx K) :=
  let t := e.grid.rotations.getD ri M3.one
  let rCart := (rotationsCartesian e.recLattice e.grid.recOps).getD ri fun _ _ => 0
  let gp := rotatedPoint e irgp t
  if s.arrays.done gp then s else rotateStored e d rCart irgp gp s

/-- The double loop, phono3py/phonon3/interaction.py:784-797. -/
def rotationLoop (e : RotationEnv K) (d2r : List Nat)
    (s : NacState (Nat → K) (Nat → K) (Int → Cplx K)) :
    NacState (Nat → K) (Nat → K) (Int → Cplx K) :=
  d2r.zipIdx.foldl (fun s p => e.irPoints.foldl (rotationStep e p.2 p.1) s) s

/-- Body of the loop of `_get_phonons_at_minus_q`, phono3py/phonon3/interaction.py:866-893, with the
list of points that were solved. -/
def minusStep (e : RotationEnv K)
    (s : NacState (Nat → K) (Nat → K) (Int → Cplx K) × List Nat) (gp : Nat) :
    NacState (Nat → K) (Nat → K) (Int → Cplx K) × List Nat :=
  if s.1.arrays.done gp then s
  else
    let mq := rotatedPoint e gp M3.negOne
    let s := if s.1.arrays.done mq then s else (runPhononSolver e.nac [mq] s.1, s.2 ++ [mq])
    (storePhonon s.1 gp (s.1.arrays.freq mq)
      (fun x => ⟨(s.1.arrays.eig mq x).re, -(s.1.arrays.eig mq x).im⟩), s.2)

/-- `run_phonon_solver_with_eigvec_rotation`, phono3py/phonon3/interaction.py:754-810, with the points
that were solved in addition. `none` is a failed assertion. -/
def runWithRotation (e : RotationEnv K) (s : NacState (Nat → K) (Nat → K) (Int → Cplx K)) :
    Option (NacState (Nat → K) (Nat → K) (Int → Cplx K) × List Nat) :=
  let s := { s with arrays := { s.arrays with done := fun _ => false } }
  let s := runPhononSolver e.nac e.irPoints s
  match matchOperations e.grid.recOps e.symRots with
  | none => none
  | some d2r =>
    let s := rotationLoop e d2r s
    let s := (List.range e.nac.solver.numPhonons).foldl (minusStep e) (s, [])
    if (List.range e.nac.solver.numPhonons).all s.1.arrays.done then some s else none

end
end Phono3py
