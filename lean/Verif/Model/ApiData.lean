import Verif.Model.Dataset
import Mathlib.Algebra.Group.Defs

/-!
# Histories of the `Phono3py` object: displacement datasets and displaced supercells

The attributes of `Phono3py` that hold displacements, forces and the cached supercells, and the calls
that change them (phono3py/api_phono3py.py). A call that raises keeps the changes made before the
exception, so a step returns the new state together with whether an exception was raised.

Simplifications: numpy conversion never fails and arrays have three components per atom; the masses
of all cells are one value, since the setter spreads the masses of the primitive cell over them;
dictionaries handed out by getters are not changed by the user.
-/

namespace Phono3py

/-- A dataset held by the object (phono3py/api_phono3py.py:639-651): with the key `first_atoms`
(type 1) or without (type 2, where each key may be missing; `{}` has none). -/
inductive AnyDataset (V K : Type) where
  | type1 (d : DispDataset V K)
  | type2 (d : DispDataset2 V K)

/-- What a user may assign to `dataset` or `phonon_dataset` (phono3py/api_phono3py.py:637-651). -/
inductive GivenDataset (V K : Type) where
  | nothing
  | type1 (d : DispDataset V K)
  | type2 (displacements : List (List V)) (forces : Option (List (List V)))
      (energies : Option (List K))
  | other

/-- A displaced supercell, a `PhonopyAtoms` object (phono3py/api_phono3py.py:2447-2456). -/
structure MovedCell (V M : Type) where
  positions : Nat → V
  masses : M

/-- Fixed data of the object: the perfect supercells for fc3 and fc2 and whether
`phonon_supercell_matrix` was given (phono3py/api_phono3py.py:226-246). -/
structure ApiCells (V : Type) where
  natom : Nat
  pos : Nat → V
  pnatom : Nat
  ppos : Nat → V
  hasPhononMatrix : Bool

/-- Attributes `_dataset`, `_supercells_with_displacements`, `_phonon_dataset` and
`_phonon_supercells_with_displacements`, and the masses (phono3py/api_phono3py.py:261-265,
752-770). -/
structure ApiData (V K M : Type) where
  masses : M
  dataset : Option (AnyDataset V K)
  cells : Option (List (Option (MovedCell V M)))
  pdataset : Option (AnyDataset V K)
  pcells : Option (List (MovedCell V M))

/-- The object after `__init__` (phono3py/api_phono3py.py:261-265). -/
def newApiData {V K M : Type} (masses : M) : ApiData V K M := ⟨masses, none, none, none, none⟩

/-! ### Assigning forces and energies -/

/-- The loop over first atoms in `_set_forces_energies` (phono3py/api_phono3py.py:2604-2610), with
the entries written before `values[count]` fails; the second component is what is left of the
values, `none` after the exception. -/
def assignFirst {V K X : Type} (put : X → Disp1 V K → Disp1 V K) :
    List (Disp1 V K) → List X → List (Disp1 V K) × Option (List X)
  | [], vs => ([], some vs)
  | d :: ds, [] => (d :: ds, none)
  | d :: ds, v :: vs => (put v d :: (assignFirst put ds vs).1, (assignFirst put ds vs).2)

/-- The inner loop over second atoms (phono3py/api_phono3py.py:2612-2619). -/
def assignSecond {V K X : Type} (put : X → Disp2 V K → Disp2 V K) :
    List (Disp2 V K) → List X → List (Disp2 V K) × Option (List X)
  | [], vs => ([], some vs)
  | d :: ds, [] => (d :: ds, none)
  | d :: ds, v :: vs => (put v d :: (assignSecond put ds vs).1, (assignSecond put ds vs).2)

/-- The outer loop over pairs (phono3py/api_phono3py.py:2611). -/
def assignPairs {V K X : Type} (put : X → Disp2 V K → Disp2 V K) :
    List (Disp1 V K) → List X → List (Disp1 V K) × Option (List X)
  | [], vs => ([], some vs)
  | d :: ds, vs =>
    let r := assignSecond put d.second vs
    match r.2 with
    | none => ({ d with second := r.1 } :: ds, none)
    | some ws => ({ d with second := r.1 } :: (assignPairs put ds ws).1, (assignPairs put ds ws).2)

/-- `_set_forces_energies` on a type-1 dataset (phono3py/api_phono3py.py:2603-2619); the second
component tells whether an exception was raised. -/
def assignValues {V K X : Type} (put1 : X → Disp1 V K → Disp1 V K)
    (put2 : X → Disp2 V K → Disp2 V K) (ds : DispDataset V K) (vs : List X) :
    DispDataset V K × Bool :=
  let r := assignFirst put1 ds.first vs
  match r.2 with
  | none => ({ ds with first := r.1 }, true)
  | some ws =>
    let t := assignPairs put2 r.1 ws
    ({ ds with first := t.1 }, t.2.isNone)

/-- `forces` setter (phono3py/api_phono3py.py:913-915, 2600-2625). -/
def setForcesApi {V K M : Type} (s : ApiData V K M) (vs : List (List V)) : ApiData V K M × Bool :=
  match s.dataset with
  | none => (s, true)
  | some (.type1 d) =>
    let r := assignValues (fun v d1 => { d1 with forces := some v })
      (fun v d2 => { d2 with forces := some v }) d vs
    ({ s with dataset := some (.type1 r.1) }, r.2)
  | some (.type2 d) =>
    match setForces2 d vs with
    | none => (s, true)
    | some d' => ({ s with dataset := some (.type2 d') }, false)

/-- `supercell_energies` setter (phono3py/api_phono3py.py:933-935, 2600-2625). -/
def setEnergiesApi {V K M : Type} (s : ApiData V K M) (es : List K) : ApiData V K M × Bool :=
  match s.dataset with
  | none => (s, true)
  | some (.type1 d) =>
    let r := assignValues (fun v d1 => { d1 with energy := some v })
      (fun v d2 => { d2 with energy := some v }) d es
    ({ s with dataset := some (.type1 r.1) }, r.2)
  | some (.type2 d) =>
    match setEnergies2 d es with
    | none => (s, true)
    | some d' => ({ s with dataset := some (.type2 d') }, false)

/-- `displacements` setter (phono3py/api_phono3py.py:880-892). -/
def setDisplacementsApi {V K M : Type} (e : ApiCells V) (s : ApiData V K M) (vs : List (List V)) :
    ApiData V K M × Bool :=
  match s.dataset with
  | some (.type1 _) => (s, true)
  | some (.type2 d) =>
    match setDisplacements2 e.natom d vs with
    | none => (s, true)
    | some d' => ({ s with dataset := some (.type2 d'), cells := none }, false)
  | none =>
    match setDisplacements2 e.natom ⟨none, none, none⟩ vs with
    | none => (s, true)
    | some d' => ({ s with dataset := some (.type2 d'), cells := none }, false)

/-- Run the second step unless the first one raised (control flow of phono3py/api_phono3py.py:637-654). -/
def thenStep {S : Type} (r : S × Bool) (f : S → S × Bool) : S × Bool :=
  if r.2 then r else f r.1

/-- `dataset` setter (phono3py/api_phono3py.py:637-654). -/
def setDatasetApi {V K M : Type} (e : ApiCells V) (s : ApiData V K M) (g : GivenDataset V K) :
    ApiData V K M × Bool :=
  let r : ApiData V K M × Bool :=
    match g with
    | .nothing => ({ s with dataset := none }, false)
    | .type1 d => ({ s with dataset := some (.type1 d) }, false)
    | .type2 disps forces energies =>
      thenStep (thenStep
        (setDisplacementsApi e { s with dataset := some (.type2 ⟨none, none, none⟩) } disps)
        (fun s => match forces with | none => (s, false) | some f => setForcesApi s f))
        (fun s => match energies with | none => (s, false) | some v => setEnergiesApi s v)
    | .other => (s, true)
  thenStep r (fun s => ({ s with cells := none, pcells := none }, false))

/-! ### Displaced supercells -/

/-- Positions of the displaced supercells of a dataset, phono3py/api_phono3py.py:2424-2460 and
2474-2496; `none` is the `KeyError` for a dictionary without displacements. -/
def buildCells {V K : Type} [AddMonoid V] (pos : Nat → V) :
    AnyDataset V K → Option (List (Option (Nat → V)))
  | .type1 d => some (buildSupercells pos d)
  | .type2 d => d.displacements.map fun disps =>
      disps.map fun (disp : List V) => some (fun (k : Nat) => pos k + disp.getD k 0)

/-- `_build_phonon_supercells_with_displacements`, phono3py/api_phono3py.py:2424-2460. -/
def buildPhononCells {V K : Type} [AddMonoid V] (pos : Nat → V) :
    AnyDataset V K → Option (List (Nat → V))
  | .type1 d => some (buildFirst pos d)
  | .type2 d => d.displacements.map fun disps =>
      disps.map fun (disp : List V) => (fun (k : Nat) => pos k + disp.getD k 0)

/-- `supercells_with_displacements` getter (phono3py/api_phono3py.py:782-784): the state after it and
the value, `none` for an exception (no dataset, or a dataset without displacements). -/
def readCells {V K M : Type} [AddMonoid V] (e : ApiCells V) (s : ApiData V K M) :
    ApiData V K M × Option (List (Option (MovedCell V M))) :=
  match s.cells with
  | some c => (s, some c)
  | none =>
    match s.dataset.bind (buildCells e.pos) with
    | none => (s, none)
    | some c =>
      let built := c.map fun p => p.map fun (x : Nat → V) => (⟨x, s.masses⟩ : MovedCell V M)
      ({ s with cells := some built }, some built)

/-- `phonon_supercells_with_displacements` getter (phono3py/api_phono3py.py:795-803). The inner
`none` is the value `None`, the outer one an exception. -/
def readPhononCells {V K M : Type} [AddMonoid V] (e : ApiCells V) (s : ApiData V K M) :
    ApiData V K M × Option (Option (List (MovedCell V M))) :=
  match s.pcells with
  | some c => (s, some (some c))
  | none =>
    match s.pdataset with
    | none => (s, some none)
    | some d =>
      match buildPhononCells e.ppos d with
      | none => (s, none)
      | some c =>
        let built := c.map fun (x : Nat → V) => (⟨x, s.masses⟩ : MovedCell V M)
        ({ s with pcells := some built }, some (some built))

/-! ### The dataset of the fc2 supercell -/

/-- `phonon_displacements` setter (phono3py/api_phono3py.py:985-1000). -/
def setPhononDisplacementsApi {V K M : Type} (e : ApiCells V) (s : ApiData V K M)
    (vs : List (List V)) : ApiData V K M × Bool :=
  if e.hasPhononMatrix then
    match s.pdataset with
    | some (.type1 _) => (s, true)
    | some (.type2 d) =>
      match setDisplacements2 e.pnatom d vs with
      | none => (s, true)
      | some d' => ({ s with pdataset := some (.type2 d'), pcells := none }, false)
    | none =>
      match setDisplacements2 e.pnatom ⟨none, none, none⟩ vs with
      | none => (s, true)
      | some d' => ({ s with pdataset := some (.type2 d'), pcells := none }, false)
  else (s, true)

/-- `phonon_forces` setter (phono3py/api_phono3py.py:1022-1024, 2651-2678). -/
def setPhononForcesApi {V K M : Type} (e : ApiCells V) (s : ApiData V K M) (vs : List (List V)) :
    ApiData V K M × Bool :=
  match s.pdataset with
  | none => (s, true)
  | some (.type1 d) => ({ s with pdataset := some (.type1 (setPhononForces d vs)) }, false)
  | some (.type2 d) =>
    match setPhononForces2 e.pnatom d vs with
    | none => (s, true)
    | some d' => ({ s with pdataset := some (.type2 d') }, false)

/-- `phonon_supercell_energies` setter (phono3py/api_phono3py.py:1042-1044, 2651-2678). -/
def setPhononEnergiesApi {V K M : Type} (s : ApiData V K M) (es : List K) : ApiData V K M × Bool :=
  match s.pdataset with
  | none => (s, true)
  | some (.type1 d) =>
    ({ s with pdataset := some (.type1 { d with
        first := (d.first.zip es).map (fun p => { p.1 with energy := some p.2 }) ++
          d.first.drop es.length }) }, false)
  | some (.type2 d) =>
    match d.displacements with
    | none => (s, true)
    | some disps =>
      if es.length = disps.length then
        ({ s with pdataset := some (.type2 { d with energies := some es }) }, false)
      else (s, true)

/-- `phonon_dataset` setter (phono3py/api_phono3py.py:684-700). -/
def setPhononDatasetApi {V K M : Type} (e : ApiCells V) (s : ApiData V K M)
    (g : GivenDataset V K) : ApiData V K M × Bool :=
  let r : ApiData V K M × Bool :=
    match g with
    | .nothing => ({ s with pdataset := none }, false)
    | .type1 d => ({ s with pdataset := some (.type1 d) }, false)
    | .type2 disps forces energies =>
      thenStep (thenStep
        (setPhononDisplacementsApi e
          { s with pdataset := some (.type2 ⟨none, none, none⟩) } disps)
        (fun s => match forces with | none => (s, false) | some f => setPhononForcesApi e s f))
        (fun s => match energies with | none => (s, false) | some v => setPhononEnergiesApi s v)
    | .other => (s, true)
  thenStep r (fun s => ({ s with pcells := none }, false))

/-- `generate_fc2_displacements` (phono3py/api_phono3py.py:1412-1451). The generated dataset is
given; `none` means that the generator raised. -/
def generatePhonon {V K M : Type} (s : ApiData V K M) (pds : Option (AnyDataset V K)) :
    ApiData V K M × Bool :=
  match pds with
  | none => (s, true)
  | some d => ({ s with pdataset := some d, pcells := none }, false)

/-- `generate_displacements` (phono3py/api_phono3py.py:1306-1359). -/
def generateApi {V K M : Type} (e : ApiCells V) (s : ApiData V K M) (ds : Option (AnyDataset V K))
    (pds : Option (AnyDataset V K)) : ApiData V K M × Bool :=
  match ds with
  | none => (s, true)
  | some d =>
    let s' := { s with dataset := some d, cells := none }
    if e.hasPhononMatrix && s'.pdataset.isNone then generatePhonon s' pds else (s', false)

/-- `evaluate_mlp` (phono3py/api_phono3py.py:2265-2273): a potential gives energies and forces for a
list of cells. -/
def evaluateMlp {V K M : Type} [AddMonoid V] (e : ApiCells V) (s : ApiData V K M)
    (mlp : List (Option (MovedCell V M)) → List K × List (List V)) : ApiData V K M × Bool :=
  let r := readCells e s
  match r.2 with
  | none => (r.1, true)
  | some c => thenStep (setEnergiesApi r.1 (mlp c).1) (fun s => setForcesApi s (mlp c).2)

/-- Calls of a user that concern datasets (phono3py/api_phono3py.py:582-1044, 1225-1454,
2252-2273). -/
inductive DataOp (V K M : Type) where
  | setDataset (g : GivenDataset V K)
  | setDisplacements (vs : List (List V))
  | setForces (vs : List (List V))
  | setEnergies (es : List K)
  | setPhononDataset (g : GivenDataset V K)
  | setPhononDisplacements (vs : List (List V))
  | setPhononForces (vs : List (List V))
  | setPhononEnergies (es : List K)
  | generate (ds pds : Option (AnyDataset V K))
  | generatePhonon (pds : Option (AnyDataset V K))
  | setMasses (m : M)
  | readCells
  | readPhononCells
  | evaluateMlp (mlp : List (Option (MovedCell V M)) → List K × List (List V))

/-- One call and whether it raised (phono3py/api_phono3py.py:582-1044). The masses setter changes
the perfect cells only (752-770). -/
def dataStep {V K M : Type} [AddMonoid V] (e : ApiCells V) (s : ApiData V K M) :
    DataOp V K M → ApiData V K M × Bool
  | .setDataset g => setDatasetApi e s g
  | .setDisplacements vs => setDisplacementsApi e s vs
  | .setForces vs => setForcesApi s vs
  | .setEnergies es => setEnergiesApi s es
  | .setPhononDataset g => setPhononDatasetApi e s g
  | .setPhononDisplacements vs => setPhononDisplacementsApi e s vs
  | .setPhononForces vs => setPhononForcesApi e s vs
  | .setPhononEnergies es => setPhononEnergiesApi s es
  | .generate ds pds => generateApi e s ds pds
  | .generatePhonon pds => Phono3py.generatePhonon s pds
  | .setMasses m => ({ s with masses := m }, false)
  | .readCells => ((Phono3py.readCells e s).1, (Phono3py.readCells e s).2.isNone)
  | .readPhononCells => ((Phono3py.readPhononCells e s).1, (Phono3py.readPhononCells e s).2.isNone)
  | .evaluateMlp mlp => Phono3py.evaluateMlp e s mlp

/-- A history of calls; the user catches exceptions and goes on (phono3py/api_phono3py.py:582-1044).
-/
def dataRun {V K M : Type} [AddMonoid V] (e : ApiCells V) (s : ApiData V K M) :
    List (DataOp V K M) → ApiData V K M
  | [] => s
  | op :: rest => dataRun e (dataStep e s op).1 rest

end Phono3py
