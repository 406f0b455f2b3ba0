import Verif.Model.LoadForces
import Verif.Model.CreateSupercells
import Verif.Model.ApiData

/-!
# Model of runs with a machine-learning potential

`run_pypolymlp_to_compute_forces` (`phono3py/cui/create_force_constants.py`), the part of the
`phono3py-load` command around it (`phono3py/cui/phono3py_script.py`) and `phono3py.load`. The
potential is what phonopy and pypolymlp make of training data; it is opaque, as are datasets, and
writing and reading a file gives back the potential. The file of a potential is opened under the very
name that is given. Messages are not modelled. `none` is an exception.
-/

namespace Phono3py

/-- The files of the working directory that may hold potentials, in the order in which the directory
lists them (`phono3py/cui/create_force_constants.py:538`); a file may not be readable. -/
abbrev PotFiles (Pot : Type) := List (List Char × Option Pot)

/-- `polymlp.yaml` (`phono3py/cui/create_force_constants.py:537`, 561). -/
def polymlpName : List Char := ['p', 'o', 'l', 'y', 'm', 'l', 'p', '.', 'y', 'a', 'm', 'l']

/-- `phono3py.pmlp` (`phono3py/cui/create_force_constants.py:537`). -/
def pmlpName : List Char := ['p', 'h', 'o', 'n', 'o', '3', 'p', 'y', '.', 'p', 'm', 'l', 'p']

/-- The suffixes accepted (`phono3py/cui/create_force_constants.py:542-549`); the last one has no
dot. -/
def mlpSuffixes : List (List Char) :=
  [['.', 'y', 'a', 'm', 'l'], ['.', 'p', 'm', 'l', 'p'], ['.', 'x', 'z'], ['.', 'g', 'z'],
    ['.', 'b', 'z', '2'], ['l', 'z', 'm', 'a']]

/-- `pathlib.Path.suffix` (used at `phono3py/cui/create_force_constants.py:542`): from the last dot
on, empty if that dot is the first or the last character or there is none. -/
def pathSuffix (n : List Char) : List Char :=
  let tail := (n.reverse.takeWhile (· != '.')).reverse
  if tail = [] ∨ n.length ≤ tail.length + 1 then [] else '.' :: tail

/-- Reading the file of a name (`phono3py/api_phono3py.py:2247-2250`). -/
def readPot {Pot : Type} (fs : PotFiles Pot) (n : List Char) : Option Pot :=
  (fs.find? (fun f => f.1 == n)).bind (fun f => f.2)

/-- Writing the file of a name (`phono3py/api_phono3py.py:2240-2245`). -/
def writePot {Pot : Type} (fs : PotFiles Pot) (n : List Char) (p : Pot) : PotFiles Pot :=
  (n, some p) :: fs.filter (fun f => f.1 != n)

/-- One round of the search (`phono3py/cui/create_force_constants.py:538-556`): `none` raises,
`some none` goes on to the next name. -/
def tryPot {Pot : Type} (fs : PotFiles Pot) (n : List Char) : Option (Option Pot) :=
  match fs.find? (fun f => n.isPrefixOf f.1) with
  | none => some none
  | some f => if pathSuffix f.1 ∈ mlpSuffixes then (readPot fs n).map some else some none

/-- The loop over the two names (`phono3py/cui/create_force_constants.py:536-559`). -/
def findPot {Pot : Type} (fs : PotFiles Pot) : Option (Option Pot) :=
  (tryPot fs polymlpName).bind fun r =>
    match r with
    | some p => some (some p)
    | none => tryPot fs pmlpName

/-- What is known of datasets and potentials: the keys required of training data
(`phono3py/api_phono3py.py:2704-2719`), `forces_in_dataset`, training, and `evaluate_mlp`
(`phono3py/api_phono3py.py:2252-2273`). -/
structure MlpEnv (Pot D : Type) where
  complete : D → Bool
  hasForces : D → Bool
  train : D → Pot
  evaluate : Pot → D → Option D

section
variable {Pot D : Type}

/-- The first part of `run_pypolymlp_to_compute_forces`
(`phono3py/cui/create_force_constants.py:536-579`): the potential and the files. -/
def getPot (e : MlpEnv Pot D) (fs : PotFiles Pot) (training : Option D) :
    Option (Pot × PotFiles Pot) :=
  (findPot fs).bind fun r =>
    match r, training with
    | some p, _ => some (p, fs)
    | none, some d =>
      if e.hasForces d then some (e.train d, writePot fs polymlpName (e.train d)) else none
    | none, none => none

/-- Options of such a run (`phono3py/cui/phono3py_script.py:1179-1192`). -/
structure MlpOptions where
  create : Bool
  rd : Option Snapshots
  distance : Option ℚ
  cutoff : Option ℚ
  seed : Option Int

/-- `prepare_dataset` (`phono3py/cui/phono3py_script.py:1179-1181`). -/
def MlpOptions.prepares (o : MlpOptions) : Bool := o.create || o.rd.isSome

/-- How the part ends (`phono3py/cui/phono3py_script.py:1194-1212`): the run stops, or it goes on with
a dataset that was also written to a file, and a dataset for fc2. -/
inductive MlpEnd (D : Type) where
  | stopped
  | dataset (d : D) (phonon : Option D)

/-- `mlp_dataset` takes the dataset of the object if there is one, and refuses it unless it is
complete (`phono3py/cui/phono3py_script.py:1176-1178`, `phono3py/api_phono3py.py:699-702`); the inner
`none` is no training data. -/
def takeTraining (e : MlpEnv Pot D) : Option D → Option (Option D)
  | none => some none
  | some d => if e.complete d then some (some d) else none

variable {M C X : Type}

/-- The displacements made for the potential (`phono3py/cui/create_force_constants.py:584-612`, in
`generate_displacements` `phono3py/api_phono3py.py:1309-1358`). -/
def mlpDataset (g : DispMakers M C D X) (o : MlpOptions) : D :=
  makeFc3 g (o.distance.getD (1 / 100)) o.cutoff .yes true o.rd o.seed

/-- The dataset for fc2 afterwards (`phono3py/api_phono3py.py:1355-1358`). -/
def mlpPhononDataset (g : DispMakers M C D X) (matrix : Option M) (o : MlpOptions)
    (phonon : Option D) : Option D :=
  match phonon with
  | some d => some d
  | none =>
    if matrix.isSome then
      some (makeFc2 g matrix (o.distance.getD (1 / 100)) .yes false none none)
    else none

/-- The block of the `phono3py-load` command (`phono3py/cui/phono3py_script.py:1174-1212`) with
`run_pypolymlp_to_compute_forces` (`phono3py/cui/create_force_constants.py:520-622`). -/
def mlpBlock (e : MlpEnv Pot D) (g : DispMakers M C D X) (matrix : Option M) (o : MlpOptions)
    (fs : PotFiles Pot) (ds pds : Option D) : Option (MlpEnd D × PotFiles Pot) :=
  (takeTraining e ds).bind fun training =>
  (getPot e fs training).bind fun p =>
    if o.prepares then
      (e.evaluate p.1 (mlpDataset g o)).map fun d =>
        (.dataset d (mlpPhononDataset g matrix o pds), p.2)
    else some (.stopped, p.2)

variable {F2 F3 : Type}

/-- The force constants of the run (`phono3py/cui/phono3py_script.py:1174-1220`): the block and
`_store_force_constants`. `some none` is a run that stops without force constants. -/
def mlpCommand (e : MlpEnv Pot D) (l : LoadEnv F2 F3 D) (g : DispMakers M C D X)
    (matrix : Option M) (o : MlpOptions) (fs : PotFiles Pot) (dir : Directory F2 F3 D)
    (ds pds : Option D) : Option (Option (F3 × F2) × PotFiles Pot) :=
  (mlpBlock e g matrix o fs ds pds).bind fun r =>
    match r.1 with
    | .stopped => some (none, r.2)
    | .dataset d p =>
      (storeForceConstants l dir (some d) p none).map fun v => (some (v.1, v.2.1), r.2)

/-- `phono3py.load(use_pypolymlp=True)` after files were read (`phono3py/cui/load.py:358-376`): no
displacements are made. -/
def loadWithMlp (e : MlpEnv Pot D) (l : LoadEnv F2 F3 D) (fs : PotFiles Pot)
    (s : Loaded F2 F3 D) : Option (Loaded F2 F3 D × PotFiles Pot) :=
  match s.fc3 with
  | some _ => (computeForceConstants l s).map fun t => (t, fs)
  | none =>
    let moves := l.usable s.dataset
    let training := if moves then takeTraining e s.dataset else some none
    let rest := if moves then { s with dataset := none } else s
    training.bind fun t =>
    (getPot e fs t).bind fun p =>
    (computeForceConstants l rest).map fun u => (u, p.2)

end

/-- `evaluate_mlp` of an object that holds just this dataset, whose displaced cells were not made yet
(`phono3py/api_phono3py.py:2252-2273`); the potential gives energy and forces of each cell. -/
def evaluateCells {V K M : Type} [AddMonoid V] (c : ApiCells V) (m : M)
    (energy : Option (MovedCell V M) → K) (forces : Option (MovedCell V M) → List V)
    (d : AnyDataset V K) : Option (AnyDataset V K) :=
  let r := evaluateMlp c ⟨m, some d, none, none, none⟩ (fun cs => (cs.map energy, cs.map forces))
  if r.2 then none else r.1.dataset

end Phono3py
