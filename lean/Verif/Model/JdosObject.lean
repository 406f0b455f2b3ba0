/-
Objects for the joint density of states and their histories: phono3py/phonon3/joint_dos.py,
phono3py/api_jointdos.py.

The index of Γ is the same in `JointDos.set_grid_point` (`get_grid_point_from_address` of `(0, 0, 0)`)
and in `run_phonon_solver_at_gamma` (`gp_Gamma`): 0 for the grids of this class.
-/
import Verif.Model.PhononSolver
import Verif.Model.Bands

namespace Phono3py

/-- Routines and data of a grid: the phonon solver (`nac`, whose `meshSymmetry` is not used here),
`spectrum gp f sigma t points`, the rows of `run_integration_weights` and `run_jdos` from the
frequencies `f` of all grid points (phono3py/phonon3/joint_dos.py:328-378, modelled by `jointDos`), and
`points`, the frequency points from the largest of all frequencies
(phono3py/api_jointdos.py:207-217). -/
structure JdosEnv (V K F E J : Type) where
  nac : NacEnv V F E
  spectrum : Nat → (Nat → F) → Option K → Option K → List K → List J
  points : (Nat → F) → List K

/-- State of a `JointDos` object, phono3py/phonon3/joint_dos.py:79-119. -/
structure JdosObject (V K F E J : Type) where
  arrays : PhononArrays F E
  doneNac : Bool
  dir : Option V
  gridPoint : Option Nat
  sigma : Option K
  temperature : Option K
  points : Option (List K)
  value : Option (List J)

section
variable {V K F E J : Type}

/-- `JointDos.__init__` as called by `Phono3pyJointDos.initialize`,
phono3py/phonon3/joint_dos.py:58-119 and phono3py/api_jointdos.py:163-176: no direction is given. -/
def jdosNew (e : JdosEnv V K F E J) : JdosObject V K F E J where
  arrays := { done := fun _ => false, freq := fun _ => e.nac.zeroF, eig := fun _ => e.nac.zeroE }
  doneNac := false
  dir := none
  gridPoint := none
  sigma := none
  temperature := none
  points := none
  value := none

/-- `run_phonon_solver`, phono3py/phonon3/joint_dos.py:268-291. -/
def jdosSolve (e : JdosEnv V K F E J) (gps : List Nat) (s : JdosObject V K F E J) :
    JdosObject V K F E J :=
  { s with arrays := runPhononSolverC e.nac.solver e.nac.lapacke s.dir id id gps s.arrays }

/-- `self._phonon_done[gamma_gp] = 0` (phono3py/phonon3/joint_dos.py:251, 255, 307). -/
def jdosForgetGamma (e : JdosEnv V K F E J) (s : JdosObject V K F E J) : JdosObject V K F E J :=
  { s with arrays := { s.arrays with
    done := fun k => if k = e.nac.gamma then false else s.arrays.done k } }

/-- `run_phonon_solver_at_gamma`, phono3py/phonon3/joint_dos.py:293-314. -/
def jdosAtGamma (e : JdosEnv V K F E J) (isNac : Bool) (s : JdosObject V K F E J) :
    JdosObject V K F E J :=
  if isNac then jdosSolve e [e.nac.gamma] (jdosForgetGamma e s)
  else { jdosSolve e [e.nac.gamma] { jdosForgetGamma e s with dir := none } with dir := s.dir }

/-- `set_grid_point`, phono3py/phonon3/joint_dos.py:241-266; `none` is the `RuntimeError`. The triplets
belong to the grid point. -/
def jdosSetGridPoint (e : JdosEnv V K F E J) (gp : Nat) (s : JdosObject V K F E J) :
    Option (JdosObject V K F E J) :=
  let s1 : JdosObject V K F E J := { s with gridPoint := some gp, value := none }
  let go := fun (s2 : JdosObject V K F E J) => some (jdosSolve e [e.nac.gamma, gp] s2)
  if e.nac.solver.isGamma gp then
    if s1.dir.isSome then go (jdosForgetGamma e { s1 with doneNac := true }) else go s1
  else if s1.doneNac then
    if s1.dir.isNone then go (jdosForgetGamma e { s1 with doneNac := false }) else none
  else go s1

/-- `run`, phono3py/phonon3/joint_dos.py:316-326; `none`: no grid point or no frequency points. -/
def jdosRun (e : JdosEnv V K F E J) (s : JdosObject V K F E J) : Option (JdosObject V K F E J) :=
  let s1 := jdosSolve e (List.range e.nac.solver.numPhonons) s
  match s1.gridPoint, s1.points with
  | some gp, some pts =>
    some { s1 with value := some (e.spectrum gp s1.arrays.freq s1.sigma s1.temperature pts) }
  | _, _ => none

/-- Settings of `Phono3pyJointDos`, phono3py/api_jointdos.py:78-109. -/
structure JdosSetup (V K : Type) where
  sigmas : List (Option K)
  temperatures : Option (List K)
  dir : Option V
  batchSize : Option Int

/-- `temperatures` in `run`, phono3py/api_jointdos.py:221-224. -/
def JdosSetup.temps (o : JdosSetup V K) : List (Option K) :=
  match o.temperatures with
  | none => [none]
  | some ts => ts.map some

/-- `self._joint_dos[i_s, i_t, freq_indices] = self._jdos.joint_dos`
(phono3py/api_jointdos.py:285). -/
def jdosStore (batch : List Int) (rows : List J) (a : Int → J) : Int → J :=
  (batch.zip rows).foldl (fun a kv => fun k => if k = kv.1 then kv.2 else a k) a

/-- Loop over batches, phono3py/api_jointdos.py:276-285. `pts` are all frequency points, `a` is the
part of the array for one width and temperature. -/
def jdosBatches [Inhabited K] (e : JdosEnv V K F E J) (pts : List K) :
    List (List Int) → JdosObject V K F E J → (Int → J) → Option (JdosObject V K F E J × (Int → J))
  | [], s, a => some (s, a)
  | batch :: rest, s, a => do
    let s1 ← jdosRun e { s with points := some (batch.map fun k => pts.getD k.toNat default) }
    let rows ← s1.value
    jdosBatches e pts rest s1 (jdosStore batch rows a)

/-- Loop over temperatures, phono3py/api_jointdos.py:273-285; `a` are the parts of the array for one
width. -/
def jdosTemps [Inhabited K] [Inhabited J] (e : JdosEnv V K F E J) (pts : List K) (batches : List (List Int)) :
    List (Option K) → JdosObject V K F E J → List (Int → J) →
      Option (JdosObject V K F E J × List (Int → J))
  | [], s, _ => some (s, [])
  | t :: rest, s, a => do
    let r ← jdosBatches e pts batches { s with temperature := t } (a.headD fun _ => default)
    let r' ← jdosTemps e pts batches rest r.1 a.tail
    some (r'.1, r.2 :: r'.2)

/-- Loop over smearing widths, phono3py/api_jointdos.py:262-285; `a` is the array. -/
def jdosSigmas [Inhabited K] [Inhabited J] (e : JdosEnv V K F E J) (pts : List K)
    (batches : List (List Int)) (temps : List (Option K)) :
    List (Option K) → JdosObject V K F E J → List (List (Int → J)) →
      Option (JdosObject V K F E J × List (List (Int → J)))
  | [], s, _ => some (s, [])
  | sigma :: rest, s, a => do
    let r ← jdosTemps e pts batches temps { s with sigma := sigma } (a.headD [])
    let r' ← jdosSigmas e pts batches temps rest r.1 a.tail
    some (r'.1, r.2 :: r'.2)

/-- Loop over grid points, phono3py/api_jointdos.py:235-285: the state of the object, with the content
of the array after every grid point or `none` for an exception. `isGamma` is the test with the grid
of the outer object (line 236). -/
def jdosGridPoints [Inhabited K] [Inhabited J] (e : JdosEnv V K F E J) (o : JdosSetup V K)
    (isGamma : Nat → Bool) (pts : List K) (batches : List (List Int)) :
    List Nat → JdosObject V K F E J → List (List (Int → J)) →
      JdosObject V K F E J × Option (List (List (List (Int → J))))
  | [], s, _ => (s, some [])
  | gp :: rest, s, a =>
    let s1 := { s with dir := if isGamma gp then o.dir else none }
    match jdosSetGridPoint e gp s1 with
    | none => (s1, none)
    | some s2 =>
      if o.sigmas.isEmpty then (s2, none)
      else match jdosSigmas e pts batches o.temps o.sigmas s2 a with
        | none => (s2, none)
        | some r =>
          let r' := jdosGridPoints e o isGamma pts batches rest r.1 r.2
          (r'.1, r'.2.map fun l => r.2 :: l)

/-- `Phono3pyJointDos.run`, phono3py/api_jointdos.py:196-285: frequency points and the arrays; the
attribute `joint_dos` is the last of them. -/
def apiJdosRun [Inhabited K] [Inhabited J] (e : JdosEnv V K F E J) (o : JdosSetup V K)
    (isGamma : Nat → Bool) (gps : List Nat) (s : JdosObject V K F E J) :
    JdosObject V K F E J × Option (List K × List (List (List (Int → J)))) :=
  let s1 := jdosAtGamma e false (jdosSolve e (List.range e.nac.solver.numPhonons) s)
  let pts := e.points s1.arrays.freq
  let s2 := jdosAtGamma e true s1
  match freqPointsBatches pts.length o.batchSize with
  | none => (s2, none)
  | some batches =>
    let zeros := o.sigmas.map fun _ => o.temps.map fun _ => fun _ => (default : J)
    let r := jdosGridPoints e o isGamma pts batches gps s2 zeros
    (r.1, r.2.map fun l => (pts, l))

/-! ### The grid of the outer object -/

/-- A `Phono3pyJointDos` object: `_bz_grid` by its mesh, and `_jdos` with the mesh of its grid
(phono3py/api_jointdos.py:78-118). -/
structure ApiJdos (M V K F E J : Type) where
  mesh : Option M
  jdos : Option (M × JdosObject V K F E J)

/-- The setter `mesh_numbers`, phono3py/api_jointdos.py:148-159. -/
def ApiJdos.setMesh {M : Type} (m : M) (x : ApiJdos M V K F E J) : ApiJdos M V K F E J :=
  { x with mesh := some m }

/-- `initialize`, phono3py/api_jointdos.py:161-181; `none` is the `AttributeError` of
`self._bz_grid.addresses` with `None`. -/
def ApiJdos.initialize {M : Type} (env : M → JdosEnv V K F E J) (m : M) (x : ApiJdos M V K F E J) :
    Option (ApiJdos M V K F E J) :=
  match x.mesh with
  | none => none
  | some old => some { mesh := some m, jdos := some (old, jdosNew (env old)) }

/-- `Phono3pyJointDos.__init__`, phono3py/api_jointdos.py:78-118. -/
def ApiJdos.new {M : Type} (env : M → JdosEnv V K F E J) (m : Option M) :
    Option (ApiJdos M V K F E J) :=
  match m with
  | none => some { mesh := none, jdos := none }
  | some m => (ApiJdos.setMesh m { mesh := none, jdos := none }).initialize env m

/-- `run`, phono3py/api_jointdos.py:196-285: an object without grid raises. -/
def ApiJdos.run {M : Type} [Inhabited K] [Inhabited J] (env : M → JdosEnv V K F E J)
    (o : JdosSetup V K) (gps : List Nat) (x : ApiJdos M V K F E J) :
    ApiJdos M V K F E J × Option (List K × List (List (List (Int → J)))) :=
  match x.mesh, x.jdos with
  | some m, some (m', s) =>
    let r := apiJdosRun (env m') o (env m).nac.solver.isGamma gps s
    ({ x with jdos := some (m', r.1) }, r.2)
  | _, _ => (x, none)

end
end Phono3py
