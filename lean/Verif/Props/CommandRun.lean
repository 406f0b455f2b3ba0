/-
C153: a run of the command performs the calculation its options select, with the values given or
the defaults, on the phonons solved or read, or it stops with a message.
-/
import Mathlib.Algebra.Order.Ring.Rat
import Mathlib.Algebra.Order.Field.Rat
import Mathlib.Data.Rat.Floor
import Mathlib.Tactic.Linarith
import Mathlib.Tactic.FieldSimp
import Verif.Model.CommandRun

namespace Phono3py.Props
open Phono3py

section
variable {M A P K : Type} [Field K] [LinearOrder K] [FloorSemiring K]

/-! ### Specification -/

/-- The options each of which asks for one calculation: `--gruneisen`, `--jdos`, `--isotope`,
`--ise`, `--rse`, `--spf`, `--br`, `--lbte`. -/
inductive Choice
  | gruneisen | jdos | isotope | ise | rse | spf | br | lbte
  deriving DecidableEq

/-- Is the option given? -/
def optionGiven (s : RunSettings M A K) : Choice → Bool
  | .gruneisen => s.isGruneisen
  | .jdos => s.isJointDos
  | .isotope => s.isIsotope
  | .ise => s.isImagSelfEnergy
  | .rse => s.isRealSelfEnergy
  | .spf => s.isSpectralFunction
  | .br => s.isBterta
  | .lbte => s.isLbte

/-- None of the options that prepare or look at something else is given. -/
structure PlainRun (s : RunSettings M A K) : Prop where
  forces : s.createForces = false
  displacements : s.createDisplacements = false
  random : s.randomDisplacements = none
  randomFc2 : s.randomDisplacementsFc2 = none
  gridInfo : s.writeGridPoints = false
  triplets : s.showNumTriplets = false

/-- `c` is the only calculation asked for. -/
def OnlyChoice (s : RunSettings M A K) (c : Choice) : Prop :=
  PlainRun s ∧ ∀ c', optionGiven s c' = true ↔ c' = c

/-- The values a run goes by, field by field, from the options given. -/
structure ValuesOf (vaspToTHz : K) (s : RunSettings M A K) (p : RunParams K) : Prop where
  temperatures : ∀ ts, s.temperatures = some ts →
    p.temperatures = some ts ∧ p.temperaturePoints = some ts
  /-- Without `--ts`: from the minimum in steps as far as the maximum, with a tenth of a step to
  spare. -/
  range : s.temperatures = none → s.isJointDos = false → 0 < s.temperatureStep →
    ∃ ts, p.temperatures = some ts ∧ ∀ T, T ∈ ts ↔
      ∃ i : Nat, T = s.minTemperature + i * s.temperatureStep ∧
        T < s.maxTemperature + s.temperatureStep / 10
  spectra : s.temperatures = none → s.isJointDos = false → p.temperaturePoints = some [0, 300]
  jdosNone : s.temperatures = none → s.isJointDos = true →
    p.temperatures = none ∧ p.temperaturePoints = none
  /-- The smearing widths given, each. -/
  sigmas : ∀ v, some v ∈ p.sigmas ↔ s.sigma = .one v ∨ ∃ vs, s.sigma = .many vs ∧ v ∈ vs
  /-- The tetrahedron method when asked for or when no width is given. -/
  tetrahedron : none ∈ p.sigmas ↔ s.isTetrahedron = true ∨ s.sigma = .absent ∨ s.sigma = .many []
  factor : p.frequencyFactor = s.conversionFactor.getD vaspToTHz
  points : ∀ n, s.numFrequencyPoints = some n →
    p.numFrequencyPoints = some n ∧ p.frequencyStep = none
  pitch : ∀ v, s.numFrequencyPoints = none → s.frequencyPitch = some v →
    p.numFrequencyPoints = none ∧ p.frequencyStep = some v
  neither : s.numFrequencyPoints = none → s.frequencyPitch = none →
    p.numFrequencyPoints = some 201 ∧ p.frequencyStep = none
  batch : p.numPointsInBatch = s.numPointsInBatch.getD 10
  scale : p.scaleFactor = s.scaleFactor
  cutoff : p.cutoffFrequency = s.cutoffFrequency.getD (1 / 100)

/-- The calculation an option asks for, on the mesh, with the values, at the grid points and with
the phonons given. -/
def askedFor (c : Choice) (mesh : M) (p : RunParams K) (gps : List Nat)
    (direction : Option (K × K × K)) (ph : P) : Calculation M P K :=
  match c with
  | .gruneisen => .gruneisen (some mesh) p.frequencyFactor direction
  | .jdos => .jdos mesh p gps direction
  | .isotope => .isotope mesh p (some p.cutoffFrequency) gps direction
  | .ise => .imagSelfEnergy mesh p gps ph
  | .rse => .realSelfEnergy mesh p gps ph
  | .spf => .spectralFunction mesh p gps ph
  | .br => .conductivity mesh false false p (some gps) ph
  | .lbte => .conductivity mesh true false p (some gps) ph

/-- The grid points asked for: those of the addresses when addresses are given. -/
def GridPointsAre (w : RunWorld M A P K) (s : RunSettings M A K) (mesh : M) (gps : List Nat) :
    Prop :=
  (∃ as, s.gridAddresses = some as ∧ gps = as.map (w.index mesh)) ∨
    (s.gridAddresses = none ∧ s.gridPoints = some gps)

/-- The phonons to be used: those in the file when phonons are read, else the solved ones. -/
def PhononsAre (w : RunWorld M A P K) (s : RunSettings M A K) (inName : Option String)
    (files : PhononFiles M P) (mesh : M) (ph : P) : Prop :=
  (s.readPhonon = true ∧ files mesh inName = some ph ∧ w.accepts mesh ph = true) ∨
    (s.readPhonon = false ∧ ph = w.solve mesh (w.blank mesh))

/-! ### Values -/

variable [IsStrictOrderedRing K]

theorem mem_npArangeFrom {start stop step : K} (h : 0 < step) (T : K) :
    T ∈ npArangeFrom start stop step ↔ ∃ i : Nat, T = start + i * step ∧ T < stop := by
  have key : ∀ i : Nat, i < ⌈(stop - start) / step⌉₊ ↔ start + (i : K) * step < stop := by
    intro i
    rw [Nat.lt_ceil, lt_div_iff₀ h]
    constructor <;> intro h' <;> linarith
  simp only [npArangeFrom, List.mem_map, List.mem_range]
  constructor
  · rintro ⟨i, hi, rfl⟩
    exact ⟨i, rfl, (key i).1 hi⟩
  · rintro ⟨i, rfl, hi⟩
    exact ⟨i, (key i).2 hi, rfl⟩

omit [IsStrictOrderedRing K] [FloorSemiring K] [LinearOrder K] in
theorem mem_runSigmas_some (s : RunSettings M A K) (v : K) :
    some v ∈ runSigmas s ↔ s.sigma = .one v ∨ ∃ vs, s.sigma = .many vs ∧ v ∈ vs := by
  rcases hs : s.sigma with _ | x | xs <;> cases ht : s.isTetrahedron
  · simp [runSigmas, hs, ht]
  · simp [runSigmas, hs, ht]
  · simp [runSigmas, hs, ht, eq_comm]
  · simp [runSigmas, hs, ht, eq_comm]
  · cases xs <;> simp [runSigmas, hs, ht]
  · cases xs <;> simp [runSigmas, hs, ht]

omit [IsStrictOrderedRing K] [FloorSemiring K] [LinearOrder K] in
theorem mem_runSigmas_none (s : RunSettings M A K) :
    none ∈ runSigmas s ↔
      s.isTetrahedron = true ∨ s.sigma = .absent ∨ s.sigma = .many [] := by
  rcases hs : s.sigma with _ | x | xs <;> cases ht : s.isTetrahedron
  · simp [runSigmas, hs, ht]
  · simp [runSigmas, hs, ht]
  · simp [runSigmas, hs, ht]
  · simp [runSigmas, hs, ht]
  · cases xs <;> simp [runSigmas, hs, ht]
  · cases xs <;> simp [runSigmas, hs, ht]

/-- C153: the values of a run are the ones given or the defaults. -/
theorem C153_values (v : K) (s : RunSettings M A K) : ValuesOf v s (getDefaultValues v s) where
  temperatures ts h := by simp [getDefaultValues, runTemperatures, runTemperaturePoints, h]
  range h1 h2 h3 := by
    refine ⟨_, ?_, fun T => mem_npArangeFrom h3 T⟩
    simp [getDefaultValues, runTemperatures, h1, h2]
  spectra h1 h2 := by simp [getDefaultValues, runTemperaturePoints, h1, h2]
  jdosNone h1 h2 := by simp [getDefaultValues, runTemperatures, runTemperaturePoints, h1, h2]
  sigmas v := mem_runSigmas_some s v
  tetrahedron := mem_runSigmas_none s
  factor := rfl
  points n h := by simp [getDefaultValues, h]
  pitch v h1 h2 := by simp [getDefaultValues, h1, h2]
  neither h1 h2 := by simp [getDefaultValues, h1, h2]
  batch := rfl
  scale := rfl
  cutoff := rfl

/-- C153: when the maximum is a whole number of steps above the minimum, the temperatures are
exactly the minimum, the maximum and the steps between, in this order. -/
theorem C153_temperatures (v : K) (s : RunSettings M A K) (m : Nat)
    (h1 : s.temperatures = none) (h2 : s.isJointDos = false) (h3 : 0 < s.temperatureStep)
    (hm : s.maxTemperature = s.minTemperature + m * s.temperatureStep) :
    (getDefaultValues v s).temperatures =
      some ((List.range (m + 1)).map fun (i : Nat) => s.minTemperature + i * s.temperatureStep) := by
  have hc : ⌈(s.maxTemperature + s.temperatureStep / 10 - s.minTemperature) /
      s.temperatureStep⌉₊ = m + 1 := by
    have he : (s.maxTemperature + s.temperatureStep / 10 - s.minTemperature) /
        s.temperatureStep = (m : K) + 1 / 10 := by
      rw [hm]
      field_simp
      ring
    rw [he, Nat.ceil_eq_iff (by omega)]
    push_cast
    constructor
    · have : (m + 1 - 1 : Nat) = m := by omega
      first
        | (rw [this]; linarith)
        | (simp)
    · linarith
  simp only [getDefaultValues, runTemperatures, h1, h2, npArangeFrom, hc]
  rfl

/-! ### The calculation selected -/

omit [IsStrictOrderedRing K] [FloorSemiring K] [LinearOrder K] in
theorem settingsToGridPoints_of {w : RunWorld M A P K} {s : RunSettings M A K} {mesh : M}
    {gps : List Nat} (h : GridPointsAre w s mesh gps) :
    settingsToGridPoints w.index mesh s = some gps := by
  rcases h with ⟨as, h1, rfl⟩ | ⟨h1, h2⟩
  · simp [settingsToGridPoints, h1]
  · simp [settingsToGridPoints, h1, h2]

variable [DecidableEq M]

omit [IsStrictOrderedRing K] [FloorSemiring K] [LinearOrder K] [Field K] in
theorem initPhph_of {w : RunWorld M A P K} {s : RunSettings M A K} {inName outName : Option String}
    {files : PhononFiles M P} {mesh : M} {ph : P} (hmesh : s.mesh = some mesh)
    (hrw : ¬(s.readPhonon = true ∧ s.writePhonon = true))
    (hph : PhononsAre w s inName files mesh ph) :
    initPhph w s inName outName files = (.done (mesh, ph),
      if s.writePhonon then fun m n => if m = mesh ∧ n = outName then some ph else files m n
      else files) := by
  rcases hph with ⟨h1, h2, h3⟩ | ⟨h1, h2⟩
  · have h4 : s.writePhonon = false := by
      cases h : s.writePhonon
      · rfl
      · exact absurd ⟨h1, h⟩ hrw
    simp [initPhph, hmesh, h1, h2, h3, h4]
  · subst h2
    simp [initPhph, hmesh, h1]

/-- C153: with one calculation asked for, the mesh and grid points given, and phonons solved or
read, the run performs that calculation on that mesh, at those grid points, with the values given
or the defaults and those phonons; phonons are written when asked, to the one file, and they are
the ones used.

Partial: for isotope scattering the cutoff frequency must be given and there must be no
non-analytical direction; for Grueneisen parameters there must be no conversion factor of one's
own; and phonons are not both read and written. See `C153_isotope_values`,
`C153_gruneisen_factor`, `C153_read_and_write`. -/
theorem C153_selected_partial (w : RunWorld M A P K) (s : RunSettings M A K) (c : Choice)
    (inName outName : Option String) (files : PhononFiles M P) (mesh : M) (gps : List Nat) (ph : P)
    (hc : OnlyChoice s c) (hmesh : s.mesh = some mesh) (hg : GridPointsAre w s mesh gps)
    (hph : PhononsAre w s inName files mesh ph) (hcells : c = .gruneisen → w.sameCells = true)
    (hknown : c = .isotope → w.known = true ∨ s.massVariances.isSome)
    (hiso : c = .isotope → s.cutoffFrequency.isSome ∧ s.nacDirection = none)
    (hgru : c = .gruneisen → s.conversionFactor = none)
    (hrw : ¬(s.readPhonon = true ∧ s.writePhonon = true)) :
    ∃ p, ValuesOf w.vaspToTHz s p ∧
      (commandMain w s inName outName files).1 = .done (askedFor c mesh p gps s.nacDirection ph) ∧
      ∀ m n, (commandMain w s inName outName files).2 m n =
        if s.writePhonon = true ∧ c ∈ [Choice.ise, .rse, .spf, .br, .lbte] ∧ m = mesh ∧ n = outName
        then some ph else files m n := by
  refine ⟨getDefaultValues w.vaspToTHz s, C153_values _ s, ?_⟩
  obtain ⟨hp, hc⟩ := hc
  have e1 := hc .gruneisen
  have e2 := hc .jdos
  have e3 := hc .isotope
  have e4 := hc .ise
  have e5 := hc .rse
  have e6 := hc .spf
  have e7 := hc .br
  have e8 := hc .lbte
  simp only [optionGiven] at e1 e2 e3 e4 e5 e6 e7 e8
  have hi := initPhph_of (outName := outName) hmesh hrw hph
  have hgs := settingsToGridPoints_of hg
  have hgn : (s.gridPoints.isNone && s.gridAddresses.isNone) = false := by
    rcases hg with ⟨as, h1, _⟩ | ⟨_, h1⟩ <;> simp [h1]
  have q1 := hp.forces
  have q2 := hp.displacements
  have q3 := hp.random
  have q4 := hp.randomFc2
  have q5 := hp.gridInfo
  have q6 := hp.triplets
  have hgn' : ¬(s.gridPoints = none ∧ s.gridAddresses = none) := by
    rintro ⟨h, h'⟩
    simp [h, h'] at hgn
  cases c <;> simp at e1 e2 e3 e4 e5 e6 e7 e8
  case gruneisen =>
    have hf := hgru rfl
    simp [commandMain, mainRunMode, getRunMode, *, modeIn, runModesWithMesh, runModesWithGp,
      runGruneisenThenExit, hcells rfl, askedFor, getDefaultValues]
  case jdos =>
    simp [commandMain, mainRunMode, getRunMode, *, modeIn, runModesWithMesh, runModesWithGp,
      runJdosThenExit, askedFor]
  case isotope =>
    obtain ⟨hcut, hdir⟩ := hiso rfl
    obtain ⟨cut, hcut⟩ := Option.isSome_iff_exists.1 hcut
    have hk : (s.massVariances.isNone && !w.known) = false := by
      rcases hknown rfl with h | h
      · simp [h]
      · cases hm : s.massVariances <;> simp_all
    simp [commandMain, mainRunMode, getRunMode, *, modeIn, runModesWithMesh, runModesWithGp,
      runIsotopeThenExit, askedFor, getDefaultValues]
  all_goals
    cases hwp : s.writePhonon <;>
    simp [commandMain, mainRunMode, getRunMode, *, modeIn, runModesWithMesh, runModesWithGp,
      runInteractionPart, runWithInteraction, askedFor]

/-! ### Phonons read and written -/

omit [IsStrictOrderedRing K] in
/-- C153: without `--write-phonon` no phonon file changes, however the run ends. -/
theorem C153_files_kept (w : RunWorld M A P K) (s : RunSettings M A K)
    (inName outName : Option String) (files : PhononFiles M P) (h : s.writePhonon = false) :
    (commandMain w s inName outName files).2 = files := by
  have hi : (initPhph w s inName outName files).2 = files := by
    unfold initPhph
    cases hm : s.mesh with
    | none => rfl
    | some mesh =>
      simp only [h]
      split
      · split
        · rfl
        · split <;> rfl
      · rfl
  have hr : ∀ mode, (runInteractionPart w s mode inName outName files).2 = files := by
    intro mode
    unfold runInteractionPart
    cases mode with
    | none => rfl
    | some m =>
      simp only
      split <;> rename_i heq <;> (rw [heq] at hi; exact hi)
  unfold commandMain
  simp only
  repeat' split
  all_goals first | rfl | exact hr _

/-- C153: a run that reads the phonons an earlier run wrote, with the same mesh and the string of
the earlier run's output, goes by the phonons of the earlier run: whatever the earlier run
calculated, the later run performs the calculation asked for with the phonons the harmonic solver
gives. -/
theorem C153_written_then_read (w : RunWorld M A P K) (s s' : RunSettings M A K) (c c' : Choice)
    (inName outName outName' : Option String) (files : PhononFiles M P) (mesh : M)
    (gps gps' : List Nat) (hc : OnlyChoice s c) (hc' : OnlyChoice s' c')
    (hcc : c ∈ [Choice.ise, .rse, .spf, .br, .lbte])
    (hcc' : c' ∈ [Choice.ise, .rse, .spf, .br, .lbte])
    (hmesh : s.mesh = some mesh) (hmesh' : s'.mesh = some mesh)
    (hg : GridPointsAre w s mesh gps) (hg' : GridPointsAre w s' mesh gps')
    (hw : s.writePhonon = true) (hr : s.readPhonon = false)
    (hw' : s'.writePhonon = false) (hr' : s'.readPhonon = true)
    (hacc : w.accepts mesh (w.solve mesh (w.blank mesh)) = true) :
    ∃ p, ValuesOf w.vaspToTHz s' p ∧
      (commandMain w s' outName outName' (commandMain w s inName outName files).2).1 =
        .done (askedFor c' mesh p gps' s'.nacDirection (w.solve mesh (w.blank mesh))) := by
  have hph : PhononsAre w s inName files mesh (w.solve mesh (w.blank mesh)) := Or.inr ⟨hr, rfl⟩
  obtain ⟨_, _, _, h3⟩ := C153_selected_partial w s c inName outName files mesh gps _ hc hmesh hg
    hph (by rintro rfl; simp at hcc) (by rintro rfl; simp at hcc) (by rintro rfl; simp at hcc)
    (by rintro rfl; simp at hcc) (by simp [hr])
  have hph' : PhononsAre w s' outName (commandMain w s inName outName files).2 mesh
      (w.solve mesh (w.blank mesh)) := by
    refine Or.inl ⟨hr', ?_, hacc⟩
    rw [h3, if_pos ⟨hw, hcc, rfl, rfl⟩]
  obtain ⟨p, h1, h2, _⟩ := C153_selected_partial w s' c' outName outName'
    (commandMain w s inName outName files).2 mesh gps' _ hc' hmesh' hg' hph'
    (by rintro rfl; simp at hcc') (by rintro rfl; simp at hcc') (by rintro rfl; simp at hcc')
    (by rintro rfl; simp at hcc') (by simp [hw'])
  exact ⟨p, h1, h2⟩

omit [IsStrictOrderedRing K] in
/-- The claim fails when `--read-phonon` and `--write-phonon` are given together: nothing is
solved, the arrays written are the unsolved ones, and when the names are the same the phonons that
were to be read are replaced by them before they are read, so that the calculation runs with
unsolved phonons. -/
theorem C153_read_and_write (w : RunWorld M A P K) (s : RunSettings M A K) (mesh : M)
    (name : Option String) (files : PhononFiles M P) (hmesh : s.mesh = some mesh)
    (hr : s.readPhonon = true) (hw : s.writePhonon = true)
    (hacc : w.accepts mesh (w.blank mesh) = true) :
    (initPhph w s name name files).1 = .done (mesh, w.blank mesh) ∧
      (initPhph w s name name files).2 mesh name = some (w.blank mesh) ∧
      ∀ out, (initPhph w s name out files).2 mesh out = some (w.blank mesh) := by
  refine ⟨?_, ?_, ?_⟩
  · simp [initPhph, hmesh, hr, hw, hacc]
  · simp [initPhph, hmesh, hr, hw, hacc]
  · intro out
    simp only [initPhph, hmesh, hr, hw, if_true]
    split
    · simp
    · split <;> simp

/-! ### Runs that stop -/

omit [IsStrictOrderedRing K] [FloorSemiring K] [LinearOrder K] [Field K] [DecidableEq M] in
theorem settingsToGridPoints_none {w : RunWorld M A P K} {s : RunSettings M A K} {mesh : M}
    (hn : settingsToGridPoints w.index mesh s = none) :
    s.gridPoints = none ∧ s.gridAddresses = none := by
  cases ha : s.gridAddresses with
  | none => exact ⟨by simpa [settingsToGridPoints, ha] using hn, rfl⟩
  | some as => simp [settingsToGridPoints, ha] at hn

omit [IsStrictOrderedRing K] [FloorSemiring K] [LinearOrder K] [Field K] in
theorem initPhph_raised {w : RunWorld M A P K} {s : RunSettings M A K}
    {inName outName : Option String} {files : PhononFiles M P}
    (hr : (initPhph w s inName outName files).1 = .raised) : s.mesh = none := by
  cases hm : s.mesh with
  | none => rfl
  | some mesh =>
    unfold initPhph at hr
    simp only [hm] at hr
    repeat' split at hr
    all_goals simp at hr

omit [IsStrictOrderedRing K] in
theorem runInteractionPart_raised {w : RunWorld M A P K} {s : RunSettings M A K}
    {mode : Option RunMode} {inName outName : Option String} {files : PhononFiles M P}
    (h : (runInteractionPart w s mode inName outName files).1 = .raised) :
    mode ≠ none ∧ (s.mesh = none ∨
      ((mode = some .imagSelfEnergy ∨ mode = some .realSelfEnergy ∨
        mode = some .spectralFunction) ∧ s.gridPoints = none ∧ s.gridAddresses = none)) := by
  cases mode with
  | none => simp [runInteractionPart] at h
  | some m =>
    refine ⟨by simp, ?_⟩
    simp only [runInteractionPart] at h
    rcases hi : initPhph w s inName outName files with ⟨e, f⟩
    rw [hi] at h
    rcases e with ⟨mesh, ph⟩ | c | _
    · right
      simp only [runWithInteraction] at h
      cases hs : settingsToGridPoints w.index mesh s with
      | none =>
        refine ⟨?_, settingsToGridPoints_none hs⟩
        cases m <;> simp [hs] at h <;> simp
      | some g => cases m <;> simp [hs] at h
    · simp at h
    · left
      exact initPhph_raised (by rw [hi])

omit [IsStrictOrderedRing K] [FloorSemiring K] [LinearOrder K] [Field K] [DecidableEq M] in
theorem getRunMode_reach {s : RunSettings M A K} (h1 : s.createDisplacements = false)
    (h2 : s.randomDisplacements = none) :
    (s.isGruneisen = true ↔ getRunMode s = some .gruneisen) ∧
      getRunMode s ≠ some .displacements ∧ getRunMode s ≠ some .writeGridInfo ∧
      getRunMode s ≠ some .showTripletsInfo := by
  unfold getRunMode
  simp only [h1, h2]
  cases s.isGruneisen
  · simp only [Bool.false_eq_true, if_false]
    repeat' split
    all_goals simp_all
  · simp

omit [IsStrictOrderedRing K] in
/-- C153: a run without forces, displacements and grid output ends with an exception rather than a
message only for a spectral function without mesh or without grid points, or for phonons asked for
without a mesh. -/
theorem C153_raised_only (w : RunWorld M A P K) (s : RunSettings M A K) (hp : PlainRun s)
    (inName outName : Option String) (files : PhononFiles M P)
    (h : (commandMain w s inName outName files).1 = .raised) :
    (getRunMode s = some .spectralFunction ∧
        (s.mesh = none ∨ (s.gridPoints = none ∧ s.gridAddresses = none))) ∨
      (getRunMode s = some .phonon ∧ s.mesh = none) := by
  obtain ⟨hgr, hd, hw, ht⟩ := getRunMode_reach hp.displacements hp.random
  have hmode : mainRunMode s = getRunMode s := by
    simp [mainRunMode, hp.gridInfo, hp.triplets]
  simp only [commandMain, hmode, hp.forces, hp.displacements, hp.random, hp.randomFc2,
    if_neg hw, if_neg ht, Option.isSome_none, Bool.or_self, Bool.false_eq_true, if_false] at h
  generalize getRunMode s = mode at *
  split at h
  · simp at h
  · rename_i n1
    split at h
    · simp at h
    · rename_i n2
      split at h
      · simp only [runGruneisenThenExit] at h
        repeat' split at h
        all_goals simp at h
      · rename_i n3
        split at h
        · rename_i hj
          subst hj
          simp only [modeIn, runModesWithMesh, runModesWithGp] at n1 n2
          simp only [runJdosThenExit] at h
          cases hm : s.mesh with
          | none => simp [hm] at n1
          | some mesh =>
            cases hs : settingsToGridPoints w.index mesh s with
            | none =>
              obtain ⟨a, b⟩ := settingsToGridPoints_none hs
              simp [a, b] at n2
            | some g => simp [hm, hs] at h
        · split at h
          · simp at h
          · split at h
            · rename_i hj
              subst hj
              simp only [modeIn, runModesWithMesh, runModesWithGp] at n1 n2
              simp only [runIsotopeThenExit] at h
              cases hm : s.mesh with
              | none => simp [hm] at n1
              | some mesh =>
                cases hs : settingsToGridPoints w.index mesh s with
                | none =>
                  obtain ⟨a, b⟩ := settingsToGridPoints_none hs
                  simp [a, b] at n2
                | some g => simp [hm, hs] at h
            · obtain ⟨h1, h2⟩ := runInteractionPart_raised h
              cases mode with
              | none => exact absurd rfl h1
              | some m =>
                rcases h2 with h2 | ⟨h2, h3, h4⟩
                · cases m <;> simp_all [modeIn, runModesWithMesh]
                · cases m <;> simp_all [modeIn, runModesWithGp]

omit [IsStrictOrderedRing K] in
/-- C153: a mode that needs a mesh or grid points stops with a message and exit status 1 when they
are not given, except for the spectral function (`C153_spectral_raises`). -/
theorem C153_message (w : RunWorld M A P K) (s : RunSettings M A K) (c : Choice)
    (hc : OnlyChoice s c) (inName outName : Option String) (files : PhononFiles M P)
    (h : (c ≠ .spf ∧ c ≠ .gruneisen ∧ s.mesh = none) ∨
      (c ∈ [Choice.jdos, .isotope, .ise, .rse] ∧ s.gridPoints = none ∧ s.gridAddresses = none) ∨
      (c = .gruneisen ∧ s.mesh = none ∧ s.bandPaths = false ∧ s.qpoints = false)) :
    commandMain w s inName outName files = (.message 1, files) := by
  obtain ⟨hp, hc⟩ := hc
  have e1 := hc .gruneisen
  have e2 := hc .jdos
  have e3 := hc .isotope
  have e4 := hc .ise
  have e5 := hc .rse
  have e6 := hc .spf
  have e7 := hc .br
  have e8 := hc .lbte
  simp only [optionGiven] at e1 e2 e3 e4 e5 e6 e7 e8
  have q1 := hp.forces
  have q2 := hp.displacements
  have q3 := hp.random
  have q4 := hp.randomFc2
  have q5 := hp.gridInfo
  have q6 := hp.triplets
  cases c <;> simp at e1 e2 e3 e4 e5 e6 e7 e8 h
  all_goals
    simp [commandMain, mainRunMode, getRunMode, *, modeIn, runModesWithMesh, runModesWithGp,
      runGruneisenThenExit]
  all_goals rcases h with h | h <;> simp [h]

omit [IsStrictOrderedRing K] in
/-- The claim fails for the spectral function: without a mesh, or without grid points, the run ends
with an exception, in the second case after all phonons are solved. -/
theorem C153_spectral_raises (w : RunWorld M A P K) (s : RunSettings M A K)
    (hc : OnlyChoice s .spf) (inName outName : Option String) (files : PhononFiles M P)
    (hr : s.readPhonon = false)
    (h : s.mesh = none ∨ (s.gridPoints = none ∧ s.gridAddresses = none)) :
    (commandMain w s inName outName files).1 = .raised := by
  obtain ⟨hp, hc⟩ := hc
  have e1 := hc .gruneisen
  have e2 := hc .jdos
  have e3 := hc .isotope
  have e4 := hc .ise
  have e5 := hc .rse
  have e6 := hc .spf
  have e7 := hc .br
  have e8 := hc .lbte
  simp only [optionGiven] at e1 e2 e3 e4 e5 e6 e7 e8
  have q1 := hp.forces
  have q2 := hp.displacements
  have q3 := hp.random
  have q4 := hp.randomFc2
  have q5 := hp.gridInfo
  have q6 := hp.triplets
  simp at e1 e2 e3 e4 e5 e6 e7 e8
  cases hm : s.mesh with
  | none =>
    simp [commandMain, mainRunMode, getRunMode, *, modeIn, runModesWithMesh, runModesWithGp,
      runInteractionPart, initPhph]
  | some mesh =>
    have hg : s.gridPoints = none ∧ s.gridAddresses = none := by
      rcases h with h | h
      · simp [hm] at h
      · exact h
    have hs : settingsToGridPoints w.index mesh s = none := by
      simp [settingsToGridPoints, hg.1, hg.2]
    simp [commandMain, mainRunMode, getRunMode, *, modeIn, runModesWithMesh, runModesWithGp,
      runInteractionPart, initPhph, runWithInteraction]

omit [IsStrictOrderedRing K] in
/-- C153: `--isotope` beside `--br` or `--lbte` adds isotope scattering to the conductivity rather
than selecting its own calculation. The claim that one calculation is selected fails when both
`--br` and `--lbte` are given: the run mode is that of the relaxation time approximation, the
calculation the direct solution. -/
theorem C153_conductivity (w : RunWorld M A P K) (s : RunSettings M A K)
    (inName outName : Option String) (files : PhononFiles M P) (mesh : M) (ph : P)
    (hp : PlainRun s) (hc : s.isBterta = true ∨ s.isLbte = true)
    (hn : ∀ c, optionGiven s c = true → c = .isotope ∨ c = .br ∨ c = .lbte)
    (hmesh : s.mesh = some mesh) (hph : PhononsAre w s inName files mesh ph)
    (hk : s.isIsotope = true → w.known = true ∨ s.massVariances.isSome)
    (hrw : ¬(s.readPhonon = true ∧ s.writePhonon = true)) :
    (commandMain w s inName outName files).1 =
      .done (.conductivity mesh s.isLbte s.isIsotope (getDefaultValues w.vaspToTHz s)
        (settingsToGridPoints w.index mesh s) ph) ∧
      (getRunMode s = some .conductivityRTA ↔ s.isBterta = true) := by
  have n : ∀ c, c ≠ .isotope → c ≠ .br → c ≠ .lbte → optionGiven s c = false := by
    intro c h1 h2 h3
    cases h : optionGiven s c
    · rfl
    · rcases hn c h with h | h | h <;> contradiction
  have e1 := n .gruneisen (by decide) (by decide) (by decide)
  have e2 := n .jdos (by decide) (by decide) (by decide)
  have e4 := n .ise (by decide) (by decide) (by decide)
  have e5 := n .rse (by decide) (by decide) (by decide)
  have e6 := n .spf (by decide) (by decide) (by decide)
  simp only [optionGiven] at e1 e2 e4 e5 e6
  have q1 := hp.forces
  have q2 := hp.displacements
  have q3 := hp.random
  have q4 := hp.randomFc2
  have q5 := hp.gridInfo
  have q6 := hp.triplets
  have hi := initPhph_of (outName := outName) hmesh hrw hph
  have hk' : (s.isIsotope && s.massVariances.isNone && !w.known) = false := by
    cases h : s.isIsotope
    · rfl
    · rcases hk h with h' | h'
      · simp [h']
      · cases hm : s.massVariances <;> simp_all
  have hcond : (s.isIsotope && !(s.isBterta || s.isLbte)) = false := by
    rcases hc with h | h <;> simp [h]
  have hmode : getRunMode s =
      if s.isBterta = true then some .conductivityRTA else some .conductivityLBTE := by
    simp only [getRunMode, e1, e2, hcond, e4, e5, e6]
    rcases hc with h | h <;> simp [h]
  refine ⟨?_, ?_⟩
  · simp only [commandMain, mainRunMode, hmode, q1, q2, q3, q4, q5, q6, hk', e1, hmesh]
    cases s.isBterta <;>
      simp [modeIn, runModesWithGp, runInteractionPart, hi, runWithInteraction]
  · rw [hmode]
    cases s.isBterta <;> simp

omit [IsStrictOrderedRing K] in
/-- The exit status does not tell: when an element is not in the table of isotopes and no mass
variances are given, nothing is calculated and the exit status is 0. -/
theorem C153_isotope_status (w : RunWorld M A P K) (s : RunSettings M A K)
    (hc : OnlyChoice s .isotope) (inName outName : Option String) (files : PhononFiles M P)
    (mesh : M) (gps : List Nat) (hmesh : s.mesh = some mesh) (hg : GridPointsAre w s mesh gps)
    (hk : w.known = false) (hv : s.massVariances = none) :
    commandMain w s inName outName files = (.message 0, files) := by
  obtain ⟨hp, hc⟩ := hc
  have e1 := hc .gruneisen
  have e2 := hc .jdos
  have e3 := hc .isotope
  have e7 := hc .br
  have e8 := hc .lbte
  simp only [optionGiven] at e1 e2 e3 e7 e8
  have q1 := hp.forces
  have q2 := hp.displacements
  have q3 := hp.random
  have q4 := hp.randomFc2
  have q5 := hp.gridInfo
  have q6 := hp.triplets
  have hgn' : s.gridPoints = none → ¬ s.gridAddresses = none := by
    rcases hg with ⟨as, h1, _⟩ | ⟨_, h1⟩ <;> simp [h1]
  simp at e1 e2 e3 e7 e8
  simp [commandMain, mainRunMode, getRunMode, *, modeIn, runModesWithMesh, runModesWithGp]
  exact hgn'

omit [IsStrictOrderedRing K] in
/-- The values fail for isotope scattering: the cutoff frequency handed on is the option as given,
absent when it is not, and the non-analytical direction given is not handed on. -/
theorem C153_isotope_values (w : RunWorld M A P K) (s : RunSettings M A K)
    (hc : OnlyChoice s .isotope) (inName outName : Option String) (files : PhononFiles M P)
    (mesh : M) (gps : List Nat) (hmesh : s.mesh = some mesh) (hg : GridPointsAre w s mesh gps)
    (hk : w.known = true) :
    commandMain w s inName outName files =
      (.done (.isotope mesh (getDefaultValues w.vaspToTHz s) s.cutoffFrequency gps none),
        files) := by
  obtain ⟨hp, hc⟩ := hc
  have e1 := hc .gruneisen
  have e2 := hc .jdos
  have e3 := hc .isotope
  have e7 := hc .br
  have e8 := hc .lbte
  simp only [optionGiven] at e1 e2 e3 e7 e8
  have q1 := hp.forces
  have q2 := hp.displacements
  have q3 := hp.random
  have q4 := hp.randomFc2
  have q5 := hp.gridInfo
  have q6 := hp.triplets
  have hgs := settingsToGridPoints_of hg
  have hgn' : s.gridPoints = none → ¬ s.gridAddresses = none := by
    rcases hg with ⟨as, h1, _⟩ | ⟨_, h1⟩ <;> simp [h1]
  simp at e1 e2 e3 e7 e8
  simp [commandMain, mainRunMode, getRunMode, *, modeIn, runModesWithMesh, runModesWithGp,
    runIsotopeThenExit]
  exact hgn'

omit [IsStrictOrderedRing K] in
/-- The values fail for Grueneisen parameters: the conversion factor given is not used. -/
theorem C153_gruneisen_factor (w : RunWorld M A P K) (s : RunSettings M A K)
    (hc : OnlyChoice s .gruneisen) (inName outName : Option String) (files : PhononFiles M P)
    (mesh : M) (hmesh : s.mesh = some mesh) (hcells : w.sameCells = true) :
    commandMain w s inName outName files =
      (.done (.gruneisen (some mesh) w.vaspToTHz s.nacDirection), files) := by
  obtain ⟨hp, hc⟩ := hc
  have e1 := hc .gruneisen
  simp only [optionGiven] at e1
  have q1 := hp.forces
  have q2 := hp.displacements
  have q3 := hp.random
  have q4 := hp.randomFc2
  have q5 := hp.gridInfo
  have q6 := hp.triplets
  simp at e1
  simp [commandMain, mainRunMode, getRunMode, *, modeIn, runModesWithMesh, runModesWithGp,
    runGruneisenThenExit]

omit [IsStrictOrderedRing K] in
/-- C153: an option for displacements, also the one for random displacements of the fc2 supercells
alone, makes supercells and nothing else, whatever calculation is asked for beside it. -/
theorem C153_displacements (w : RunWorld M A P K) (s : RunSettings M A K)
    (inName outName : Option String) (files : PhononFiles M P) (hf : s.createForces = false)
    (h : s.createDisplacements = true ∨ s.randomDisplacements.isSome ∨
      s.randomDisplacementsFc2.isSome) :
    commandMain w s inName outName files = (.done .displacements, files) := by
  have : (s.createDisplacements || s.randomDisplacements.isSome
      || s.randomDisplacementsFc2.isSome) = true := by
    rcases h with h | h | h <;> simp [h]
  simp [commandMain, hf, this]

end

/-! ### A world and settings meeting the hypotheses -/

/-- Meshes are numbers, addresses numbers, phonons lists of entries solved or not; solving fills
all entries. -/
def runWorldEx : RunWorld Nat Nat (List (Option Nat)) ℚ where
  solve m ph := (List.range m).map fun (i : Nat) => match ph[i]? with
    | some (some v) => some v
    | _ => some (10 * i)
  blank m := (List.range m).map fun (i : Nat) => if i = 0 then some 0 else none
  index _ a := a + 1
  accepts m ph := ph.length == m
  sameCells := true
  known := true
  vaspToTHz := 15

/-- `--br --mesh 3 --ga 1 --tmin 0 --tmax 30 --tstep 10 --sigma 0.1 --thm`, writing phonons. -/
def brSettingsEx : RunSettings Nat Nat ℚ where
  isBterta := true
  mesh := some 3
  gridAddresses := some [1]
  sigma := .one (1 / 10)
  isTetrahedron := true
  minTemperature := 0
  maxTemperature := 30
  temperatureStep := 10
  writePhonon := true

/-- `--spf --mesh 3 --gp 2 --ts 300`, reading phonons. -/
def spfSettingsEx : RunSettings Nat Nat ℚ where
  isSpectralFunction := true
  mesh := some 3
  gridPoints := some [2]
  temperatures := some [300]
  minTemperature := 0
  maxTemperature := 1000
  temperatureStep := 10
  readPhonon := true

theorem brSettingsEx_only : OnlyChoice brSettingsEx .br :=
  ⟨⟨rfl, rfl, rfl, rfl, rfl, rfl⟩, by intro c'; cases c' <;> decide⟩

theorem spfSettingsEx_only : OnlyChoice spfSettingsEx .spf :=
  ⟨⟨rfl, rfl, rfl, rfl, rfl, rfl⟩, by intro c'; cases c' <;> decide⟩

/-- The hypotheses of `C153_selected_partial` and `C153_written_then_read` hold of a conductivity
run that writes phonons and a spectral function run that reads them. -/
example : ∃ p, ValuesOf 15 spfSettingsEx p ∧
    (commandMain runWorldEx spfSettingsEx (some "a") none
      (commandMain runWorldEx brSettingsEx none (some "a") fun _ _ => none).2).1 =
      .done (.spectralFunction 3 p [2] [some 0, some 10, some 20]) :=
  C153_written_then_read runWorldEx brSettingsEx spfSettingsEx .br .spf none (some "a") none
    (fun _ _ => none) 3 [2] [2] brSettingsEx_only spfSettingsEx_only (by decide) (by decide) rfl rfl
    (Or.inl ⟨[1], rfl, rfl⟩) (Or.inr ⟨rfl, rfl⟩) rfl rfl rfl rfl (by decide)

/-- The temperatures of the conductivity run. -/
example : (getDefaultValues 15 brSettingsEx).temperatures = some [0, 10, 20, 30] := by
  rw [C153_temperatures 15 brSettingsEx 3 rfl rfl (by norm_num [brSettingsEx])
    (by norm_num [brSettingsEx])]
  norm_num [brSettingsEx, List.range, List.range.loop]

/-- Its smearing widths: the tetrahedron method and the width given. -/
example : (getDefaultValues 15 brSettingsEx).sigmas = [none, some (1 / 10)] := rfl

/-- With both options the unsolved arrays replace a file of solved phonons and are used: of three
grid points only the first is solved. -/
example : (initPhph runWorldEx { spfSettingsEx with writePhonon := true } none none
      fun _ _ => some [some 0, some 11, some 22]).1 = .done (3, [some 0, none, none]) := by
  have h := (C153_read_and_write runWorldEx { spfSettingsEx with writePhonon := true } 3 none
    (fun _ _ => some [some 0, some 11, some 22]) rfl rfl rfl (by decide)).1
  exact h

/-- Without grid points the spectral function raises. -/
example : (commandMain runWorldEx
    ({ spfSettingsEx with gridPoints := none, readPhonon := false } : RunSettings Nat Nat ℚ)
    none none fun _ _ => none).1 = .raised :=
  C153_spectral_raises runWorldEx _
    ⟨⟨rfl, rfl, rfl, rfl, rfl, rfl⟩, by intro c'; cases c' <;> decide⟩ none none _ rfl
    (Or.inr ⟨rfl, rfl⟩)

/-- With `--br` and `--lbte` the direct solution is calculated although the mode is that of the
relaxation time approximation. -/
example : getRunMode ({ brSettingsEx with isLbte := true } : RunSettings Nat Nat ℚ) =
      some .conductivityRTA ∧
    ∃ p g ph, (commandMain runWorldEx
      ({ brSettingsEx with isLbte := true } : RunSettings Nat Nat ℚ) none none
      fun _ _ => none).1 = .done (.conductivity 3 true false p g ph) :=
  ⟨rfl, _, _, _, (C153_conductivity runWorldEx
    ({ brSettingsEx with isLbte := true } : RunSettings Nat Nat ℚ) none none (fun _ _ => none) 3 _
    ⟨rfl, rfl, rfl, rfl, rfl, rfl⟩ (Or.inl rfl) (by intro c'; cases c' <;> decide) rfl
    (Or.inr ⟨rfl, rfl⟩) (by decide) (by decide)).1⟩

end Phono3py.Props
