import Verif.Model.ApiData

/-!
# Histories of the `Phono3py` object: force constants, grid and interaction

The attributes of `Phono3py` from which a calculation takes its input (phono3py/api_phono3py.py) and
the copy of them that the `Interaction` object keeps (phono3py/phonon3/interaction.py). Arrays of
force constants live in a store and are referred to by index, because some calls change them in place
and the `Interaction` object may hold the same array.

Simplifications: force constants, band indices, grids, parameters of the non-analytical correction,
masses and smearing widths are opaque values; the direction of the correction at the zone centre is
in `Model/PhononSolver`. The class `DynamicalMatrix` of phonopy keeps the array of fc2 it is given and
reads the masses of the primitive cell when it is used (phono3py/phonon/solver.py:220).
-/

namespace Phono3py

/-- The data from which phonons at a grid point were solved (phono3py/phonon/solver.py:86-131). -/
structure PhononSource (F2 M N S : Type) where
  fc2 : F2
  masses : M
  nac : Option N
  scale : Option S

/-- Attributes of an `Interaction` object (phono3py/phonon3/interaction.py:111-180): the array of
fc3, band indices, grid, its own copy of the masses (line 172), the scale factor, the array of fc2 and
the parameters of its dynamical matrix, the phonons solved so far, and the phonons stored at the zone
centre. -/
structure InteractionState (M F2 B G N S : Type) where
  fc3 : Option Nat
  bands : B
  grid : G
  masses : M
  scale : Option S
  fc2 : Nat
  nac : Option N
  done : Nat → Option (PhononSource F2 M N S)
  gammaStored : Option (PhononSource F2 M N S)

/-- Attributes of the `Phono3py` object (phono3py/api_phono3py.py:215-301). -/
structure Api (V K M F2 F3 B G N S W : Type) where
  data : ApiData V K M
  store2 : List F2
  store3 : List F3
  fc2 : Option Nat
  fc3 : Option Nat
  bands : B
  nac : Option N
  sigmas : W
  grid : Option G
  inter : Option (InteractionState M F2 B G N S)

/-- Fixed data: the cells, the number of grid points, and fc3 multiplied by the square of a scale
factor (phono3py/phonon3/interaction.py:920-922). -/
structure ApiEnv (V F3 G S : Type) where
  cells : ApiCells V
  points : G → Nat
  scaleFc3 : S → F3 → F3

/-- The object after `__init__` (phono3py/api_phono3py.py:215-301). -/
def newApi {V K M F2 F3 B G N S W : Type} (masses : M) (bands : B) (sigmas : W) :
    Api V K M F2 F3 B G N S W :=
  ⟨newApiData masses, [], [], none, none, bands, none, sigmas, none, none⟩

section
variable {V K M F2 F3 B G N S W : Type}

/-- The value of `fc2` (phono3py/api_phono3py.py:348-358). -/
def Api.fc2Value (s : Api V K M F2 F3 B G N S W) : Option F2 := s.fc2.bind fun p => s.store2[p]?

/-- The value of `fc3` (phono3py/api_phono3py.py:330-341). -/
def Api.fc3Value (s : Api V K M F2 F3 B G N S W) : Option F3 := s.fc3.bind fun p => s.store3[p]?

/-- `fc2` setter with a new array or `None` (phono3py/api_phono3py.py:360-362). -/
def Api.putFc2 (s : Api V K M F2 F3 B G N S W) (v : Option F2) : Api V K M F2 F3 B G N S W :=
  match v with
  | none => { s with fc2 := none }
  | some x => { s with store2 := s.store2 ++ [x], fc2 := some s.store2.length }

/-- `fc3` setter with a new array or `None` (phono3py/api_phono3py.py:343-345). -/
def Api.putFc3 (s : Api V K M F2 F3 B G N S W) (v : Option F3) : Api V K M F2 F3 B G N S W :=
  match v with
  | none => { s with fc3 := none }
  | some x => { s with store3 := s.store3 ++ [x], fc3 := some s.store3.length }

/-- `_init_dynamical_matrix` (phono3py/api_phono3py.py:2532-2545) with
`Interaction.init_dynamical_matrix` and `_allocate_phonon` (phono3py/phonon3/interaction.py:667-690,
1028-1047): the phonons solved so far are dropped, those stored at the zone centre are kept if there
are any. The flag is the exception when there is no fc2. -/
def Api.initDynmat (s : Api V K M F2 F3 B G N S W) (i : InteractionState M F2 B G N S) :
    Api V K M F2 F3 B G N S W × Bool :=
  match s.fc2, s.fc2Value with
  | some p, some v =>
    ({ s with inter := some { i with
        fc2 := p
        nac := s.nac
        done := fun _ => none
        gammaStored := match i.gammaStored with
          | some g => some g
          | none => some ⟨v, s.data.masses, s.nac, i.scale⟩ } }, false)
  | _, _ => ({ s with inter := some i }, true)

/-- `nac_params` setter (phono3py/api_phono3py.py:438-442). -/
def Api.putNac (s : Api V K M F2 F3 B G N S W) (n : Option N) : Api V K M F2 F3 B G N S W × Bool :=
  let s' := { s with nac := n }
  match s'.inter with
  | none => (s', false)
  | some i => s'.initDynmat i

/-- `mesh_numbers` setter (phono3py/api_phono3py.py:820-822, 2513-2530); `none` means that `BZGrid`
raised. -/
def Api.putMesh (s : Api V K M F2 F3 B G N S W) (g : Option G) : Api V K M F2 F3 B G N S W × Bool :=
  match g with
  | none => ({ s with inter := none }, true)
  | some g => ({ s with inter := none, grid := some g }, false)

/-- `_set_fc3` of `Interaction` (phono3py/phonon3/interaction.py:907-922): the array itself when it is
a plain array and no scale factor is given, otherwise a new one. -/
def Api.shareFc3 (e : ApiEnv V F3 G S) (s : Api V K M F2 F3 B G N S W) (scale : Option S)
    (plain : Bool) : Api V K M F2 F3 B G N S W × Option Nat :=
  match s.fc3, s.fc3Value with
  | some p, some v =>
    match scale, plain with
    | none, true => (s, some p)
    | none, false => ({ s with store3 := s.store3 ++ [v] }, some s.store3.length)
    | some x, _ => ({ s with store3 := s.store3 ++ [e.scaleFc3 x v] }, some s.store3.length)
  | _, _ => (s, none)

/-- `init_phph_interaction` (phono3py/api_phono3py.py:1102-1129). -/
def Api.init (e : ApiEnv V F3 G S) (s : Api V K M F2 F3 B G N S W) (scale : Option S)
    (plain : Bool) : Api V K M F2 F3 B G N S W × Bool :=
  match s.grid, s.fc2 with
  | some g, some p =>
    let r := s.shareFc3 e scale plain
    r.1.initDynmat
      { fc3 := r.2
        bands := s.bands
        grid := g
        masses := s.data.masses
        scale := scale
        fc2 := p
        nac := none
        done := fun _ => none
        gammaStored := none }
  | _, _ => (s, true)

/-- `cutoff_fc3_by_zero` of the object (phono3py/api_phono3py.py:1588-1603): the array is changed in
place. -/
def Api.changeFc3 (s : Api V K M F2 F3 B G N S W) (f : F3 → F3) : Api V K M F2 F3 B G N S W × Bool :=
  match s.fc3 with
  | none => (s, true)
  | some p => ({ s with store3 := s.store3.modify p f }, false)

/-- `set_permutation_symmetry` and `set_translational_invariance`
(phono3py/api_phono3py.py:1605-1622): both arrays are changed in place, if they exist. -/
def Api.changeBoth (s : Api V K M F2 F3 B G N S W) (f : F2 → F2) (g : F3 → F3) :
    Api V K M F2 F3 B G N S W :=
  let s' := match s.fc2 with
    | none => s
    | some p => { s with store2 := s.store2.modify p f }
  match s'.fc3 with
  | none => s'
  | some p => { s' with store3 := s'.store3.modify p g }

/-- `forces_in_dataset` (phono3py/phonon3/dataset.py:118-124). The `IndexError` for an empty list of
first atoms is counted as no forces, since the caller raises in both cases. -/
def forcesInDataset : AnyDataset V K → Bool
  | .type1 d => match d.first with
    | [] => false
    | d1 :: _ => d1.forces.isSome
  | .type2 d => d.forces.isSome

/-- `produce_fc3` (phono3py/api_phono3py.py:1483-1527). `solver` is the solver with its
symmetrisation, `none` when it raises; `split` tells whether `"|"` occurs in the choice of the
calculator or its options. -/
def Api.produceFc3 (e : ApiEnv V F3 G S) (s : Api V K M F2 F3 B G N S W)
    (solver : AnyDataset V K → Option (F2 × F3)) (split : Bool) :
    Api V K M F2 F3 B G N S W × Bool :=
  match s.data.dataset.bind solver with
  | none => (s, true)
  | some (fc2, fc3) =>
    let s' := s.putFc3 (some fc3)
    if split || e.cells.hasPhononMatrix then (s', false)
    else match s'.fc2 with
      | some _ => (s', false)
      | none => (s'.putFc2 (some fc2), false)

/-- `produce_fc2` (phono3py/api_phono3py.py:1552-1586). `solver` is given the number of atoms of the
supercell for fc2. -/
def Api.produceFc2 (e : ApiEnv V F3 G S) (s : Api V K M F2 F3 B G N S W)
    (solver : Nat → AnyDataset V K → Option F2) : Api V K M F2 F3 B G N S W × Bool :=
  match (match s.data.pdataset with | none => s.data.dataset | some d => some d) with
  | none => (s, true)
  | some d =>
    if forcesInDataset d then
      match solver e.cells.pnatom d with
      | none => (s, true)
      | some v => (s.putFc2 (some v), false)
    else (s, true)

/-- What phonons solved now are made of: the array of fc2 in the dynamical matrix as it is now and the
masses as they are now (phono3py/phonon/solver.py:86-131, 220). -/
def Api.sourceNow (s : Api V K M F2 F3 B G N S W) (i : InteractionState M F2 B G N S) :
    Option (PhononSource F2 M N S) :=
  (s.store2[i.fc2]?).map fun v => ⟨v, s.data.masses, i.nac, i.scale⟩

/-- `run_phonon_solver` at the points of a list: those already solved are kept
(phono3py/api_phono3py.py:1205-1222, phono3py/phonon3/interaction.py:711-721). -/
def Api.solve (s : Api V K M F2 F3 B G N S W) (gps : List Nat) : Api V K M F2 F3 B G N S W × Bool :=
  match s.inter with
  | none => (s, true)
  | some i =>
    ({ s with inter := some { i with
        done := fun gp => match i.done gp with
          | some x => some x
          | none => if gps.contains gp then s.sourceNow i else none } }, false)

/-- What a calculation uses: force constants, bands, masses in the interaction strengths, the data of
the phonons at each grid point, the grid and smearing widths; and the band indices with which output
files are labelled (phono3py/api_phono3py.py:1703-1750, 2117-2180). -/
structure Used (M F2 F3 B G N S W : Type) where
  fc3 : Option F3
  bands : B
  grid : G
  masses : M
  scale : Option S
  phonons : Nat → Option (PhononSource F2 M N S)
  sigmas : W
  labels : B

/-- A calculation such as `run_thermal_conductivity` or `run_imag_self_energy`
(phono3py/api_phono3py.py:1696-1750, 2105-2180): all phonons that are missing are solved, then the
interaction is used with the current smearing widths. `none` is the exception without interaction. -/
def Api.run (e : ApiEnv V F3 G S) (s : Api V K M F2 F3 B G N S W) :
    Api V K M F2 F3 B G N S W × Option (Used M F2 F3 B G N S W) :=
  match s.inter with
  | none => (s, none)
  | some i =>
    let s' := (s.solve (List.range (e.points i.grid))).1
    match s'.inter with
    | none => (s', none)
    | some i' => (s', some
        { fc3 := i'.fc3.bind fun p => s'.store3[p]?
          bands := i'.bands
          grid := i'.grid
          masses := i'.masses
          scale := i'.scale
          phonons := i'.done
          sigmas := s'.sigmas
          labels := s'.bands })

variable (V K M F2 F3 B G N S W) in
/-- Calls of a user (phono3py/api_phono3py.py:330-442, 582-1222, 1225-1622, 1696-1750, 2105-2180). -/
inductive ApiOp where
  | data (op : DataOp V K M)
  | setFc2 (v : Option F2)
  | setFc3 (v : Option F3)
  | setBands (b : B)
  | setNac (n : Option N)
  | setSigmas (w : W)
  | setMesh (g : Option G)
  | init (scale : Option S) (plain : Bool)
  | changeFc3 (f : F3 → F3)
  | changeBoth (f : F2 → F2) (g : F3 → F3)
  | produceFc3 (solver : AnyDataset V K → Option (F2 × F3)) (split : Bool)
  | produceFc2 (solver : Nat → AnyDataset V K → Option F2)
  | solve (gps : List Nat)
  | run

/-- One call and whether it raised (phono3py/api_phono3py.py:330-442, 582-1222, 1225-1622). -/
def apiStep [AddMonoid V] (e : ApiEnv V F3 G S) (s : Api V K M F2 F3 B G N S W) :
    ApiOp V K M F2 F3 B G N S W → Api V K M F2 F3 B G N S W × Bool
  | .data op => ({ s with data := (dataStep e.cells s.data op).1 }, (dataStep e.cells s.data op).2)
  | .setFc2 v => (s.putFc2 v, false)
  | .setFc3 v => (s.putFc3 v, false)
  | .setBands b => ({ s with bands := b }, false)
  | .setNac n => s.putNac n
  | .setSigmas w => ({ s with sigmas := w }, false)
  | .setMesh g => s.putMesh g
  | .init scale plain => s.init e scale plain
  | .changeFc3 f => s.changeFc3 f
  | .changeBoth f g => (s.changeBoth f g, false)
  | .produceFc3 solver split => s.produceFc3 e solver split
  | .produceFc2 solver => s.produceFc2 e solver
  | .solve gps => s.solve gps
  | .run => ((s.run e).1, (s.run e).2.isNone)

/-- A history of calls; exceptions are caught (phono3py/api_phono3py.py:330-442, 582-1222). -/
def apiRun [AddMonoid V] (e : ApiEnv V F3 G S) (s : Api V K M F2 F3 B G N S W) :
    List (ApiOp V K M F2 F3 B G N S W) → Api V K M F2 F3 B G N S W
  | [] => s
  | op :: rest => apiRun e (apiStep e s op).1 rest

end
end Phono3py
