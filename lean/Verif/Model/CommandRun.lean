/-
The commands `phono3py` and `phono3py-load` after their settings are known
(phono3py/cui/phono3py_script.py): which calculation is performed, with which values, and what
happens to the phonons and their files. How the settings come about is in `Model/Settings`. The
calculations themselves, reading structures and making force constants are modelled elsewhere and
are here only steps that may be reached.
-/
import Mathlib.Algebra.Order.Field.Basic
import Mathlib.Algebra.Order.Floor.Semiring

namespace Phono3py

section
variable {M A K : Type}

/-- The value of `SIGMA`, phono3py/cui/settings.py: absent, one number, or several. -/
inductive SigmaOption (K : Type)
  | absent
  | one (s : K)
  | many (ss : List K)

/-- The attributes of `Phono3pySettings` and the two attributes of the parsed arguments which
`main` looks at, phono3py/cui/phono3py_script.py:186-211, 363-434, 519-535, 692-1375. `M` is the
type of mesh numbers, `A` that of grid addresses. Options merely handed on to a calculation
(e.g. the pseudo-inverse solver) are left out. -/
structure RunSettings (M A K : Type) where
  isGruneisen : Bool := false
  isJointDos : Bool := false
  isIsotope : Bool := false
  isImagSelfEnergy : Bool := false
  isRealSelfEnergy : Bool := false
  isSpectralFunction : Bool := false
  isBterta : Bool := false
  isLbte : Bool := false
  createDisplacements : Bool := false
  randomDisplacements : Option Nat := none
  randomDisplacementsFc2 : Option Nat := none
  usePypolymlp : Bool := false
  writePhonon : Bool := false
  readPhonon : Bool := false
  writeGridPoints : Bool := false
  showNumTriplets : Bool := false
  createForces : Bool := false
  writeCollision : Bool := false
  mesh : Option M := none
  bandPaths : Bool := false
  qpoints : Bool := false
  gridPoints : Option (List Nat) := none
  gridAddresses : Option (List A) := none
  sigma : SigmaOption K := .absent
  isTetrahedron : Bool := false
  temperatures : Option (List K) := none
  minTemperature : K
  maxTemperature : K
  temperatureStep : K
  conversionFactor : Option K := none
  numFrequencyPoints : Option Nat := none
  frequencyPitch : Option K := none
  numPointsInBatch : Option Nat := none
  scaleFactor : Option K := none
  cutoffFrequency : Option K := none
  nacDirection : Option (K × K × K) := none
  massVariances : Option (List K) := none

/-- The strings naming the run modes, phono3py/cui/phono3py_script.py:186-211, 948-953. -/
inductive RunMode
  | gruneisen | jdos | isotope | imagSelfEnergy | realSelfEnergy | spectralFunction
  | conductivityRTA | conductivityLBTE | displacements | phonon | writeGridInfo | showTripletsInfo
  deriving DecidableEq

/-- `get_run_mode`, phono3py/cui/phono3py_script.py:186-211. -/
def getRunMode (s : RunSettings M A K) : Option RunMode :=
  if s.isGruneisen then some .gruneisen
  else if s.isJointDos then some .jdos
  else if s.isIsotope && !(s.isBterta || s.isLbte) then some .isotope
  else if s.isImagSelfEnergy then some .imagSelfEnergy
  else if s.isRealSelfEnergy then some .realSelfEnergy
  else if s.isSpectralFunction then some .spectralFunction
  else if s.isBterta then some .conductivityRTA
  else if s.isLbte then some .conductivityLBTE
  else if (s.createDisplacements || s.randomDisplacements.isSome) && !s.usePypolymlp then
    some .displacements
  else if s.writePhonon then some .phonon
  else none

/-- The run mode of `main`, phono3py/cui/phono3py_script.py:948-953, 983-984: the two options that
only inform about the grid come first. -/
def mainRunMode (s : RunSettings M A K) : Option RunMode :=
  if s.writeGridPoints then some .writeGridInfo
  else if s.showNumTriplets then some .showTripletsInfo
  else getRunMode s

/-- The dictionary returned by `get_default_values`, phono3py/cui/phono3py_script.py:423-434. -/
structure RunParams (K : Type) where
  sigmas : List (Option K)
  temperaturePoints : Option (List K)
  temperatures : Option (List K)
  frequencyFactor : K
  numFrequencyPoints : Option Nat
  frequencyStep : Option K
  numPointsInBatch : Nat
  scaleFactor : Option K
  cutoffFrequency : K

variable [Field K] [LinearOrder K] [FloorSemiring K]

/-- `np.arange(start, stop, step)` for doubles and a positive step (numpy's rule for the length);
phono3py/cui/phono3py_script.py:387 is the only call modelled. -/
def npArangeFrom (start stop step : K) : List K :=
  (List.range ⌈(stop - start) / step⌉₊).map fun (i : Nat) => start + (i : K) * step

/-- The smearing widths of `get_default_values`, phono3py/cui/phono3py_script.py:366-376; `none`
stands for the tetrahedron method. -/
def runSigmas (s : RunSettings M A K) : List (Option K) :=
  let sigmas := match s.sigma with
    | .absent => []
    | .one v => [some v]
    | .many vs => vs.map some
  let sigmas := if s.isTetrahedron then none :: sigmas else sigmas
  if sigmas.length = 0 then [none] else sigmas

/-- `temperatures` of `get_default_values`, phono3py/cui/phono3py_script.py:378-391. -/
def runTemperatures (s : RunSettings M A K) : Option (List K) :=
  match s.temperatures with
  | some ts => some ts
  | none =>
    if s.isJointDos then none
    else some (npArangeFrom s.minTemperature (s.maxTemperature + s.temperatureStep / 10)
      s.temperatureStep)

/-- `temperature_points` of `get_default_values`, phono3py/cui/phono3py_script.py:378-391. -/
def runTemperaturePoints (s : RunSettings M A K) : Option (List K) :=
  match s.temperatures with
  | some ts => some ts
  | none => if s.isJointDos then none else some [0, 300]

/-- `get_default_values`, phono3py/cui/phono3py_script.py:363-434. `vaspToTHz` is the constant of
phonopy. -/
def getDefaultValues (vaspToTHz : K) (s : RunSettings M A K) : RunParams K where
  sigmas := runSigmas s
  temperaturePoints := runTemperaturePoints s
  temperatures := runTemperatures s
  frequencyFactor := s.conversionFactor.getD vaspToTHz
  numFrequencyPoints := match s.numFrequencyPoints with
    | some n => some n
    | none => match s.frequencyPitch with
      | none => some 201
      | some _ => none
  frequencyStep := match s.numFrequencyPoints with
    | some _ => none
    | none => s.frequencyPitch
  numPointsInBatch := s.numPointsInBatch.getD 10
  scaleFactor := s.scaleFactor
  cutoffFrequency := s.cutoffFrequency.getD (1 / 100)

/-- `settings_to_grid_points`, phono3py/cui/phono3py_script.py:519-535: `index` takes an address to
its grid point in the BZ grid of the mesh. -/
def settingsToGridPoints (index : M → A → Nat) (mesh : M) (s : RunSettings M A K) :
    Option (List Nat) :=
  match s.gridAddresses with
  | some as => some (as.map (index mesh))
  | none => s.gridPoints

/-- A calculation with what it is given: the arguments of the calls in
phono3py/cui/phono3py_script.py:692-820, 1102-1370 the properties speak of. `P` is the type of
phonons on the grid. -/
inductive Calculation (M P K : Type)
  /-- FORCES_FC3 and the like, lines 962-971. -/
  | forces
  /-- Supercells with displacements, lines 986-999. -/
  | displacements
  /-- Lines 1102-1118. -/
  | gridInfo (mesh : M) (lbte : Bool)
  /-- Lines 1124-1138. -/
  | tripletsInfo (mesh : M) (gridPoints : Option (List Nat))
  /-- Lines 692-742. -/
  | gruneisen (mesh : Option M) (factor : K) (direction : Option (K × K × K))
  /-- Lines 745-783. -/
  | jdos (mesh : M) (params : RunParams K) (gridPoints : List Nat)
      (direction : Option (K × K × K))
  /-- Lines 786-820. -/
  | isotope (mesh : M) (params : RunParams K) (cutoff : Option K) (gridPoints : List Nat)
      (direction : Option (K × K × K))
  /-- Lines 1290-1302. -/
  | imagSelfEnergy (mesh : M) (params : RunParams K) (gridPoints : List Nat) (phonons : P)
  /-- Lines 1307-1317. -/
  | realSelfEnergy (mesh : M) (params : RunParams K) (gridPoints : List Nat) (phonons : P)
  /-- Lines 1322-1333. -/
  | spectralFunction (mesh : M) (params : RunParams K) (gridPoints : List Nat) (phonons : P)
  /-- Lines 1338-1370. -/
  | conductivity (mesh : M) (direct isotope : Bool) (params : RunParams K)
      (gridPoints : Option (List Nat)) (phonons : P)
  /-- Only force constants, and phonons when the mode is "phonon", lines 1371-1378. -/
  | nothing (phonons : Option P)

/-- How a run of the command ends: with the calculation and exit status 0, with a message and an
exit status, or with an exception. -/
inductive Ending (C : Type)
  | done (c : C)
  | message (status : Nat)
  | raised
  deriving DecidableEq

/-- What the command finds: `solve` completes phonons on the grid of a mesh (entries already
solved are kept), `blank` are the arrays before any solution (only Gamma solved), `index` looks up
grid addresses, `accepts` is the comparison of grid addresses in `set_phonon_data`, `sameCells`
whether fc2 and fc3 have the same supercell, `known` whether all elements are in phonopy's table of
isotopes, `vaspToTHz` the conversion factor of phonopy; phono3py/cui/phono3py_script.py:822-910,
703-707, 1256-1270. -/
structure RunWorld (M A P K : Type) where
  solve : M → P → P
  blank : M → P
  index : M → A → Nat
  accepts : M → P → Bool
  sameCells : Bool
  known : Bool
  vaspToTHz : K

variable {P : Type} [DecidableEq M]

/-- The phonon files of a directory: `phonon-m{mesh}{.string}.hdf5` under the mesh and the string
of `-i`, `-o` or `--io`, phono3py/file_IO.py:1444-1507. -/
abbrev PhononFiles (M P : Type) := M → Option String → Option P

/-- `init_phph_interaction`, phono3py/cui/phono3py_script.py:822-910, with
`write_phonon_to_hdf5` and `read_phonon_from_hdf5`, phono3py/file_IO.py:1444-1507: the phonons the
interaction holds afterwards and the files. The harmonic solver is run unless phonons are to be
read; phonons are written before they are read. -/
def initPhph (w : RunWorld M A P K) (s : RunSettings M A K) (inName outName : Option String)
    (files : PhononFiles M P) : Ending (M × P) × PhononFiles M P :=
  match s.mesh with
  | none => (.raised, files)
  | some mesh =>
    let held := if s.readPhonon then w.blank mesh else w.solve mesh (w.blank mesh)
    let files := if s.writePhonon then
        fun m n => if m = mesh ∧ n = outName then some held else files m n
      else files
    if s.readPhonon then
      match files mesh inName with
      | none => (.message 1, files)
      | some ph => if w.accepts mesh ph then (.done (mesh, ph), files) else (.message 1, files)
    else (.done (mesh, held), files)

/-- The tuple `run_modes_with_mesh`, phono3py/cui/phono3py_script.py:1073-1082. -/
def runModesWithMesh : List RunMode :=
  [.conductivityRTA, .conductivityLBTE, .imagSelfEnergy, .realSelfEnergy, .jdos, .isotope,
    .writeGridInfo, .showTripletsInfo]

/-- The tuple `run_modes_with_gp`, phono3py/cui/phono3py_script.py:1083. -/
def runModesWithGp : List RunMode := [.imagSelfEnergy, .realSelfEnergy, .jdos, .isotope]

/-- Is the run mode in the tuple? `run_mode in (...)`,
phono3py/cui/phono3py_script.py:1084, 1092-1093. -/
def modeIn (mode : Option RunMode) (l : List RunMode) : Bool :=
  match mode with
  | none => false
  | some m => l.contains m

/-- The calculations needing the interaction, phono3py/cui/phono3py_script.py:1285-1378. A loop
over missing grid points raises. -/
def runWithInteraction (w : RunWorld M A P K) (s : RunSettings M A K) (mode : RunMode)
    (mesh : M) (ph : P) : Ending (Calculation M P K) :=
  let params := getDefaultValues w.vaspToTHz s
  let gps := settingsToGridPoints w.index mesh s
  match mode with
  | .imagSelfEnergy => match gps with
    | some g => .done (.imagSelfEnergy mesh params g ph)
    | none => .raised
  | .realSelfEnergy => match gps with
    | some g => .done (.realSelfEnergy mesh params g ph)
    | none => .raised
  | .spectralFunction => match gps with
    | some g => .done (.spectralFunction mesh params g ph)
    | none => .raised
  | .conductivityRTA | .conductivityLBTE =>
    .done (.conductivity mesh s.isLbte s.isIsotope params gps ph)
  | _ => .done (.nothing (some ph))

/-- The joint density of states, phono3py/cui/phono3py_script.py:745-783. -/
def runJdosThenExit (w : RunWorld M A P K) (s : RunSettings M A K) :
    Ending (Calculation M P K) :=
  match s.mesh with
  | none => .raised
  | some mesh => match settingsToGridPoints w.index mesh s with
    | some g => .done (.jdos mesh (getDefaultValues w.vaspToTHz s) g s.nacDirection)
    | none => .raised

/-- Isotope scattering, phono3py/cui/phono3py_script.py:786-820: the cutoff frequency is that of
the settings, not the completed one, and the direction is not handed on. -/
def runIsotopeThenExit (w : RunWorld M A P K) (s : RunSettings M A K) :
    Ending (Calculation M P K) :=
  match s.mesh with
  | none => .raised
  | some mesh => match settingsToGridPoints w.index mesh s with
    | some g => .done (.isotope mesh (getDefaultValues w.vaspToTHz s) s.cutoffFrequency g none)
    | none => .raised

/-- Grueneisen parameters, phono3py/cui/phono3py_script.py:692-742. -/
def runGruneisenThenExit (w : RunWorld M A P K) (s : RunSettings M A K) :
    Ending (Calculation M P K) :=
  if s.mesh.isNone && !s.bandPaths && !s.qpoints then .message 1
  else if !w.sameCells then .message 1
  else .done (.gruneisen s.mesh w.vaspToTHz s.nacDirection)

/-- The two outputs about the grid, phono3py/cui/phono3py_script.py:1105-1138. -/
def runGridOutputs (w : RunWorld M A P K) (s : RunSettings M A K) (mode : RunMode) :
    Ending (Calculation M P K) :=
  match s.mesh with
  | none => .raised
  | some mesh =>
    if mode = .writeGridInfo then .done (.gridInfo mesh (s.writeCollision || s.isLbte))
    else .done (.tripletsInfo mesh (settingsToGridPoints w.index mesh s))

/-- The part of `main` that needs the interaction or nothing,
phono3py/cui/phono3py_script.py:1275-1378. -/
def runInteractionPart (w : RunWorld M A P K) (s : RunSettings M A K) (mode : Option RunMode)
    (inName outName : Option String) (files : PhononFiles M P) :
    Ending (Calculation M P K) × PhononFiles M P :=
  match mode with
  | none => (.done (.nothing none), files)
  | some m =>
    match initPhph w s inName outName files with
    | (.done (mesh, ph), files) => (runWithInteraction w s m mesh ph, files)
    | (.message c, files) => (.message c, files)
    | (.raised, files) => (.raised, files)

/-- `main` once settings and structure are read, phono3py/cui/phono3py_script.py:959-1378, for runs
without machine-learning potentials and without `--symfc-memory`: reading the non-analytical
parameters and the force constants is assumed to succeed. -/
def commandMain (w : RunWorld M A P K) (s : RunSettings M A K) (inName outName : Option String)
    (files : PhononFiles M P) : Ending (Calculation M P K) × PhononFiles M P :=
  let mode := mainRunMode s
  if s.createForces then (.done .forces, files)
  else if s.createDisplacements || s.randomDisplacements.isSome
      || s.randomDisplacementsFc2.isSome then (.done .displacements, files)
  else if s.mesh.isNone && modeIn mode runModesWithMesh then (.message 1, files)
  else if modeIn mode runModesWithGp && s.gridPoints.isNone && s.gridAddresses.isNone then
    (.message 1, files)
  else if mode = some .writeGridInfo then (runGridOutputs w s .writeGridInfo, files)
  else if mode = some .showTripletsInfo then (runGridOutputs w s .showTripletsInfo, files)
  else if s.isGruneisen then (runGruneisenThenExit w s, files)
  else if mode = some .jdos then (runJdosThenExit w s, files)
  else if s.isIsotope && s.massVariances.isNone && !w.known then (.message 0, files)
  else if mode = some .isotope then (runIsotopeThenExit w s, files)
  else runInteractionPart w s mode inName outName files

end
end Phono3py
