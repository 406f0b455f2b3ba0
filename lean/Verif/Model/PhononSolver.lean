/-
Model of the phonon solver on the grid and of the treatment of the non-analytical term at Γ:
c/phonon.c, phono3py/phonon/solver.py, phono3py/phonon3/interaction.py.

Grid points are natural numbers below the number of BZ grid points. The arrays `frequencies` and
`eigenvectors` are functions from grid points to their blocks, `F` and `E`. Building and
diagonalising one dynamical matrix are the parameters `dyn` and `solve` of `SolverEnv`: their
arithmetic is not modelled here.
-/
import Verif.Model.Writes

namespace Phono3py

/-- What the solver needs: `numPhonons` BZ grid points, whether their address is `(0, 0, 0)`
(`isGamma`), their q-point (`q`), presence of Born charges (`born`), the choice of the method for the
non-analytical term (`gonze`), the dynamical matrix `dyn gp v` for the direction `v` of the
non-analytical term (`none`: no such term), and `solve`, the eigenvalue problem of one block
(phonopy_zheev or numpy.linalg.eigh, with the square roots) (phono3py/phonon/solver.py:42-183). -/
structure SolverEnv (V F E : Type _) where
  numPhonons : Nat
  isGamma : Nat → Bool
  q : Nat → V
  born : Bool
  gonze : Bool
  dyn : Nat → Option V → E
  solve : E → F × E

/-- The arrays `phonon_done`, `frequencies` and `eigenvectors`
(phono3py/phonon3/interaction.py:1028-1047). -/
structure PhononArrays (F E : Type _) where
  done : Nat → Bool
  freq : Nat → F
  eig : Nat → E

section
variable {V F E : Type _}

/-- `collect_undone_grid_points`, c/phonon.c:162-178: list of collected points and the flags. -/
def collectUndone (done : Nat → Bool) : List Nat → List Nat × (Nat → Bool)
  | [] => ([], done)
  | gp :: rest =>
    if done gp then collectUndone done rest
    else
      let r := collectUndone (fun k => if k = gp then true else done k) rest
      (gp :: r.1, r.2)

/-- `needs_nac`, c/phonon.c:445-462. -/
def needsNac (e : SolverEnv V F E) (dir : Option V) (gp : Nat) : Bool :=
  if e.born then
    if e.isGamma gp && dir.isNone then false else true
  else false

/-- The direction used in `get_charge_sum`, c/phonon.c:404-428 (method of Wang): the given direction,
whatever the grid point, and the q-point without one. -/
def chargeSumVector (dir : Option V) (q : V) : V :=
  match dir with
  | some d => d
  | none => q

/-- Vector of the non-analytical term at a grid point. Method of Wang: `get_dynamical_matrix`,
c/phonon.c:376-402. Method of Gonze: `get_dd` of c/dynmat.c uses the given direction only where the
wave vector vanishes; simplified to the condition that the address is zero. -/
def nacVector (e : SolverEnv V F E) (dir : Option V) (gp : Nat) : Option V :=
  if e.gonze then
    if e.born then (if e.isGamma gp then dir else some (e.q gp)) else none
  else if needsNac e dir gp then some (chargeSumVector dir (e.q gp)) else none

/-- First loop of `get_undone_phonons` and `get_gonze_undone_phonons`, c/phonon.c:198-214,
c/phonon.c:261-276: the dynamical matrices, in the order `order` in which the threads run. -/
def dynLoop (e : SolverEnv V F E) (dir : Option V) (order : List Nat) (eig : Nat → E) : Nat → E :=
  order.foldl (fun a gp => fun k => if k = gp then e.dyn gp (nacVector e dir gp) else a k) eig

/-- Second loop, c/phonon.c:222-237, c/phonon.c:285-300: diagonalisation in place. -/
def diagLoop (e : SolverEnv V F E) (order : List Nat) (s : (Nat → F) × (Nat → E)) :
    (Nat → F) × (Nat → E) :=
  order.foldl (fun a gp =>
    let r := e.solve (a.2 gp)
    (fun k => if k = gp then r.1 else a.1 k, fun k => if k = gp then r.2 else a.2 k)) s

/-- `phn_get_phonons_at_gridpoints` with LAPACKE, c/phonon.c:101-128. `o1` and `o2` are the orders of
the two parallel loops as functions of the list of collected points. -/
def phononsC (e : SolverEnv V F E) (dir : Option V) (o1 o2 : List Nat → List Nat) (gps : List Nat)
    (a : PhononArrays F E) : PhononArrays F E :=
  let c := collectUndone a.done gps
  let r := diagLoop e (o2 c.1) (a.freq, dynLoop e dir (o1 c.1) a.eig)
  { done := c.2, freq := r.1, eig := r.2 }

/-- `run_phonon_solver_c` without LAPACKE, phono3py/phonon/solver.py:137-183: the dynamical matrices
are built in C, and all points that were undone before the call, requested or not, are diagonalised
in python. -/
def phononsNoLapack (e : SolverEnv V F E) (dir : Option V) (o1 : List Nat → List Nat)
    (gps : List Nat) (a : PhononArrays F E) : PhononArrays F E :=
  let undone := (List.range e.numPhonons).filter fun gp => !a.done gp
  let c := collectUndone a.done gps
  let r := diagLoop e undone (a.freq, dynLoop e dir (o1 c.1) a.eig)
  { done := c.2, freq := r.1, eig := r.2 }

/-- `run_phonon_solver_c`, phono3py/phonon/solver.py:42-183. -/
def runPhononSolverC (e : SolverEnv V F E) (lapacke : Bool) (dir : Option V)
    (o1 o2 : List Nat → List Nat) (gps : List Nat) (a : PhononArrays F E) : PhononArrays F E :=
  if lapacke then phononsC e dir o1 o2 gps a else phononsNoLapack e dir o1 gps a

/-! ### `Interaction` -/

/-- State of `Interaction` that concerns phonons: the arrays, `_frequencies_at_gamma` with
`_eigenvectors_at_gamma`, `_done_nac_at_gamma` and `_nac_q_direction`
(phono3py/phonon3/interaction.py:667-752). -/
structure NacState (V F E : Type _) where
  arrays : PhononArrays F E
  atGamma : Option (F × E)
  doneNac : Bool
  dir : Option V

/-- Fixed data of an `Interaction` object: the solver, the index `gamma` (`gp_Gamma`), symmetry of the
mesh. The sequential order of the loops is used (phono3py/phonon3/interaction.py:667-752). -/
structure NacEnv (V F E : Type _) where
  solver : SolverEnv V F E
  lapacke : Bool
  gamma : Nat
  meshSymmetry : Bool
  zeroF : F
  zeroE : E

/-- `run_phonon_solver(grid_points)`, phono3py/phonon3/interaction.py:711-721, 978-990. -/
def runPhononSolver (e : NacEnv V F E) (gps : List Nat) (s : NacState V F E) : NacState V F E :=
  { s with arrays := runPhononSolverC e.solver e.lapacke s.dir id id gps s.arrays }

/-- `run_phonon_solver_at_gamma`, phono3py/phonon3/interaction.py:723-752. -/
def runAtGamma (e : NacEnv V F E) (isNac : Bool) (s : NacState V F E) : NacState V F E :=
  match isNac, s.atGamma with
  | false, some (f, v) =>
    { s with arrays := { s.arrays with
        freq := fun k => if k = e.gamma then f else s.arrays.freq k
        eig := fun k => if k = e.gamma then v else s.arrays.eig k } }
  | _, _ =>
    let s1 := { s with arrays := { s.arrays with
      done := fun k => if k = e.gamma then false else s.arrays.done k } }
    if isNac then runPhononSolver e [e.gamma] { s1 with doneNac := true }
    else
      let s2 := runPhononSolver e [e.gamma] { s1 with doneNac := false, dir := none }
      { s2 with dir := s.dir }

/-- `init_dynamical_matrix` and `_allocate_phonon`, phono3py/phonon3/interaction.py:667-690,
1028-1047. The stored phonons at Γ of an earlier call are not cleared before Γ is solved. -/
def allocatePhonon (e : NacEnv V F E) (s : NacState V F E) : NacState V F E :=
  let s1 := runAtGamma e false { s with arrays :=
    { done := fun _ => false, freq := fun _ => e.zeroF, eig := fun _ => e.zeroE } }
  { s1 with
    atGamma := some (s1.arrays.freq e.gamma, s1.arrays.eig e.gamma)
    arrays := { s1.arrays with
      done := fun k => if k = e.gamma then false else s1.arrays.done k } }

/-- The object after `__init__`, phono3py/phonon3/interaction.py:159-167, before
`init_dynamical_matrix`. -/
def newNacState (e : NacEnv V F E) : NacState V F E where
  arrays := { done := fun _ => false, freq := fun _ => e.zeroF, eig := fun _ => e.zeroE }
  atGamma := none
  doneNac := false
  dir := none

/-- `set_grid_point`, phono3py/phonon3/interaction.py:580-634; `none` is the `RuntimeError`. The
triplets, and the normalisation in place of the direction, are not part of this state. -/
def setGridPoint (e : NacEnv V F E) (gp : Nat) (s : NacState V F E) : Option (NacState V F E) :=
  if !e.meshSymmetry then some s
  else if e.solver.isGamma gp then some (runAtGamma e true s)
  else if s.doneNac then
    match s.dir with
    | none => some (runAtGamma e false s)
    | some _ => none
  else some s

/-- Phonon part of `run`, phono3py/phonon3/interaction.py:185-186. -/
def runInteraction (e : NacEnv V F E) (s : NacState V F E) : NacState V F E :=
  if (List.range e.solver.numPhonons).any fun gp => !s.arrays.done gp then
    runPhononSolver e (List.range e.solver.numPhonons) s
  else s

/-- `set_phonon_data`, phono3py/phonon3/interaction.py:692-709; `none` is the `RuntimeError`.
`own` and `given` are the addresses as flat lists of the components. -/
def setPhononData (e : NacEnv V F E) (own given : List Int) (freq : Nat → F) (eig : Nat → E)
    (s : NacState V F E) : Option (NacState V F E) :=
  if given.length ≠ own.length then none
  else if (List.zipWith (fun a b => a - b) own given).all (fun d => d != 0) then none
  else some { s with
    arrays := { done := fun _ => true, freq := freq, eig := eig }
    atGamma := some (freq e.gamma, eig e.gamma) }

/-- Calls of a user (phono3py/phonon3/interaction.py:667-752). -/
inductive NacOp (V : Type _) where
  | setDirection (d : Option V)
  | setGridPoint (gp : Nat)
  | runSolver (gps : List Nat)
  | run

/-- One call; `none` is an exception, after which the state is unchanged
(phono3py/phonon3/interaction.py:667-752). -/
def nacStep (e : NacEnv V F E) (s : NacState V F E) : NacOp V → Option (NacState V F E)
  | .setDirection d => some { s with dir := d }
  | .setGridPoint gp => setGridPoint e gp s
  | .runSolver gps => some (runPhononSolver e gps s)
  | .run => some (runInteraction e s)

/-- A history of calls; a call that raises leaves the state as it was
(phono3py/phonon3/interaction.py:667-752). -/
def nacRun (e : NacEnv V F E) (s : NacState V F E) : List (NacOp V) → NacState V F E
  | [] => s
  | op :: rest => nacRun e ((nacStep e s op).getD s) rest

end
end Phono3py
