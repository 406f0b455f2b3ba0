/-
Histories of calls of one `ImagSelfEnergy` object (phono3py/phonon3/imag_self_energy.py), and the
loops over smearing widths of the conductivity classes that use it
(phono3py/conductivity/rta.py, phono3py/conductivity/direct_solution.py). The numerical routines
are the fields of `IseEnv`; what they compute is modelled elsewhere and put in for them in
`Verif/Model/IseRoutines.lean`.
-/
namespace Phono3py

/-- The numerical routines called by the object. `P` are grid points, `K` numbers, `S` arrays of
interaction strengths, `G` and `Z` arrays of integration weights and of zero flags, `A` averaged
interaction strengths and `V` results.
`strengths p z` is the array made by `Interaction.run(g_zero=z)` for the triplets of `p`
(phono3py/phonon3/interaction.py:181-204); `weights p q f sigma cutoff` is
`get_triplets_integration_weights` (phono3py/phonon3/triplets.py:148-231) for the triplets of `p` at
the frequency points `f` or at the band frequencies of `q`; `eventClass` is the assignment of
phono3py/phonon3/imag_self_energy.py:153-154; `fromAverages` is
phono3py/phonon3/imag_self_energy.py:308-317; `averages` is `averaged_interaction`
(phono3py/phonon3/interaction.py:516-527); `result` stands for `_run_with_band_indices` and
`_run_with_frequency_points` (phono3py/phonon3/imag_self_energy.py:332-374) and `degenerate` for
`_average_by_degeneracy` (562-565). -/
structure IseEnv (P K S G Z A V : Type) where
  strengths : P → Option Z → S
  weights : P → P → Option (List K) → Option K → Option K → G × Z
  eventClass : Nat → G → G
  fromAverages : P → A → S
  averages : P → S → A
  result : P → S → G → Option Z → Option (List K) → K → V
  degenerate : P → V → V

/-- Attributes of the object, phono3py/phonon3/imag_self_energy.py:78-98, where arrays of triplets
are named by their grid point. `ppTriplets` belongs to the `Interaction` object, which may be shared.
`sigmaCutoff = none` means that the attribute does not exist. -/
structure IseObject (P K S G Z V : Type) where
  ppTriplets : Option P
  gridPoint : Option P
  triplets : Option P
  sigma : Option K
  sigmaCutoff : Option (Option K)
  points : Option (List K)
  temperature : Option K
  strength : Option S
  g : Option G
  gZero : Option Z
  value : Option V

/-- `__init__`, phono3py/phonon3/imag_self_energy.py:78-98; `pp` tells which triplets the
`Interaction` object holds. -/
def iseNew {P K S G Z V : Type} (pp : Option P) : IseObject P K S G Z V :=
  ⟨pp, none, none, none, none, none, none, none, none, none, none⟩

/-- Calls of the public methods and assignments to the public attributes,
phono3py/phonon3/imag_self_energy.py:105-330. `otherObject p` is a call of `set_grid_point` of
another object that holds the same `Interaction` object. -/
inductive IseCall (P K S Z A : Type)
  | setGridPoint (p : Option P)
  | setSigma (sigma cutoff : Option K)
  | setFrequencyPoints (f : Option (List K))
  | setTemperature (t : Option K)
  | runInteraction (full : Bool)
  | runIntegrationWeights (eventClass : Option Nat)
  | setAveraged (a : A)
  | setStrength (s : S) (z : Option Z)
  | deleteWeights
  | run
  | otherObject (p : P)

section
variable {P K S G Z A V : Type}

/-- `run_interaction`, phono3py/phonon3/imag_self_energy.py:131-137. Failure: the `Interaction`
object has no triplets. -/
def iseRunInteraction (env : IseEnv P K S G Z A V) (full : Bool) (s : IseObject P K S G Z V) :
    Option (IseObject P K S G Z V) := do
  let p ← s.ppTriplets
  some { s with
    strength := some (env.strengths p (if full || s.points.isSome then none else s.gZero)) }

/-- The assignment `self._g[scattering_event_class - 1] = 0` if there is a class,
phono3py/phonon3/imag_self_energy.py:153-154. -/
def iseEventClass (env : IseEnv P K S G Z A V) (eventClass : Option Nat) (g : G) : G :=
  if eventClass = some 1 then env.eventClass 0 g
  else if eventClass = some 2 then env.eventClass 1 g else g

/-- The grid point whose band frequencies are read, phono3py/phonon3/imag_self_energy.py:141-145; with
frequency points given none is read and the answer does not matter. -/
def iseBandsOf (s : IseObject P K S G Z V) (pp : P) : Option P :=
  if s.points.isSome then some pp else s.gridPoint

/-- `run_integration_weights`, phono3py/phonon3/imag_self_energy.py:139-154. Failures: no triplets,
no attribute `_sigma_cutoff`, or no grid point when the frequencies are those of its bands. -/
def iseRunWeights (env : IseEnv P K S G Z A V) (eventClass : Option Nat)
    (s : IseObject P K S G Z V) : Option (IseObject P K S G Z V) := do
  let pp ← s.ppTriplets
  let cutoff ← s.sigmaCutoff
  let q ← iseBandsOf s pp
  let w := env.weights pp q s.points s.sigma cutoff
  some { s with g := some (iseEventClass env eventClass w.1), gZero := some w.2 }

/-- `run`, phono3py/phonon3/imag_self_energy.py:105-129. Failures: `sys.exit(1)` without integration
weights (348-353, 368-373), or the routine in C is given `None`. -/
def iseRun (env : IseEnv P K S G Z A V) (s : IseObject P K S G Z V) :
    Option (IseObject P K S G Z V) := do
  let s ← if s.strength.isSome then some s else iseRunInteraction env true s
  let v ← s.strength
  let g ← s.g
  let p ← s.triplets
  let t ← s.temperature
  some { s with value := some (env.result p v g s.gZero s.points t) }

/-- One call: `set_grid_point` (phono3py/phonon3/imag_self_energy.py:230-239), `set_sigma`
(241-253), the setters of `frequency_points` (260-265) and `temperature` (282-287),
`set_averaged_pp_interaction` (300-317), `set_interaction_strength` (319-324) and
`delete_integration_weights` (326-330). `none` means that an exception is raised. -/
def iseCall (env : IseEnv P K S G Z A V) (s : IseObject P K S G Z V) :
    IseCall P K S Z A → Option (IseObject P K S G Z V)
  | .setGridPoint none => some { s with gridPoint := none }
  | .setGridPoint (some p) =>
    some { s with ppTriplets := some p, strength := none, triplets := some p, gridPoint := some p }
  | .setSigma sigma cutoff =>
    some { s with sigma := sigma, sigmaCutoff := some cutoff, g := none, gZero := none,
                  strength := none }
  | .setFrequencyPoints f => some { s with points := f }
  | .setTemperature t => some { s with temperature := t }
  | .runInteraction full => iseRunInteraction env full s
  | .runIntegrationWeights c => iseRunWeights env c s
  | .setAveraged a => s.triplets.map fun p => { s with strength := some (env.fromAverages p a) }
  | .setStrength v z =>
    some { s with strength := some v, gZero := if z.isSome then z else s.gZero }
  | .deleteWeights => some { s with g := none, gZero := none, strength := none }
  | .run => iseRun env s
  | .otherObject p => some { s with ppTriplets := some p }

/-- A sequence of calls, ended by the first exception
(phono3py/phonon3/imag_self_energy.py:105-330). -/
def iseCalls (env : IseEnv P K S G Z A V) (s : IseObject P K S G Z V)
    (calls : List (IseCall P K S Z A)) : Option (IseObject P K S G Z V) :=
  calls.foldlM (iseCall env) s

/-- The attribute `imag_self_energy`, phono3py/phonon3/imag_self_energy.py:156-162; the cutoff
frequency of an `Interaction` object is a number (phono3py/phonon3/interaction.py:140-143). -/
def iseValue (env : IseEnv P K S G Z A V) (s : IseObject P K S G Z V) : Option V := do
  let p ← s.gridPoint
  let v ← s.value
  some (env.degenerate p v)

/-! ### Loops of the conductivity classes -/

/-- Options of the conductivity classes (phono3py/conductivity/rta.py:70-124) that decide where
interaction strengths come from. `file p sigma cutoff` is what `read_pp_from_hdf5` returns.
`constant` is `_use_const_ave_pp`; a number `0` counts as absent. -/
structure GammaOptions (P K S Z A : Type) where
  temperatures : List K
  sigmas : List (Option K)
  sigmaCutoff : Option K
  isFullPP : Bool
  readPP : Bool
  file : P → Option K → Option K → Option (S × Option Z)
  useAverages : Bool
  averages : A
  constant : Bool

/-- Lines that get the interaction strengths for smearing width number `j`,
phono3py/conductivity/rta.py:250-285, with the new value of `_averaged_pp_interaction[i]`. Failures:
`ValueError` for flags unlike those in the file, no such file. -/
def rtaStrengths [DecidableEq Z] (env : IseEnv P K S G Z A V) (o : GammaOptions P K S Z A) (p : P)
    (j : Nat) (sigma : Option K) (s : IseObject P K S G Z V) (ave : A) :
    Option (IseObject P K S G Z V × A) :=
  if o.readPP then do
    let f ← o.file p sigma o.sigmaCutoff
    if f.2.isSome && decide (f.2 ≠ s.gZero) then none
    else
      let s ← iseCall env s (.setStrength f.1 none)
      some (s, ave)
  else if o.useAverages then do
    let s ← iseCall env s (.setAveraged ave)
    some (s, ave)
  else if o.constant then do
    let s ← iseCall env s (.runInteraction true)
    let v ← s.strength
    some (s, env.averages p v)
  else if decide (j ≠ 0) && (o.isFullPP || o.sigmaCutoff.isNone) then some (s, ave)
  else do
    let s ← iseCall env s (.runInteraction o.isFullPP)
    let v ← s.strength
    some (s, if o.isFullPP then env.averages p v else ave)

/-- The loop over temperatures, phono3py/conductivity/rta.py:299-303; the list is
`_gamma[j, :, i]`. -/
def gammaTemperatures (env : IseEnv P K S G Z A V) :
    List K → IseObject P K S G Z V → Option (IseObject P K S G Z V × List V)
  | [], s => some (s, [])
  | t :: ts, s => do
    let s ← iseCall env s (.setTemperature (some t))
    let s ← iseCall env s .run
    let v ← iseValue env s
    let r ← gammaTemperatures env ts s
    some (r.1, v :: r.2)

/-- The loop over smearing widths of `_set_gamma_at_sigmas`, phono3py/conductivity/rta.py:233-314;
the lists are `_gamma[:, :, i]`. -/
def rtaSigmas [DecidableEq Z] (env : IseEnv P K S G Z A V) (o : GammaOptions P K S Z A) (p : P) :
    Nat → List (Option K) → IseObject P K S G Z V → A →
      Option (IseObject P K S G Z V × A × List (List V))
  | _, [], s, ave => some (s, ave, [])
  | j, sigma :: sigmas, s, ave => do
    let s ← iseCall env s (.setSigma sigma o.sigmaCutoff)
    let s ← iseCall env s (.runIntegrationWeights none)
    let q ← rtaStrengths env o p j sigma s ave
    let v ← gammaTemperatures env o.temperatures q.1
    let r ← rtaSigmas env o p (j + 1) sigmas v.1 q.2
    some (r.1, r.2.1, v.2 :: r.2.2)

/-- The part of `_run_at_grid_point` that fills `_gamma[:, :, i]`,
phono3py/conductivity/rta.py:203-223, with interaction strengths kept in memory. -/
def rtaGridPoint [DecidableEq Z] (env : IseEnv P K S G Z A V) (o : GammaOptions P K S Z A) (p : P)
    (s : IseObject P K S G Z V) (ave : A) :
    Option (IseObject P K S G Z V × A × List (List V)) := do
  let s ← iseCall env s (.setGridPoint (some p))
  rtaSigmas env o p 0 o.sigmas s ave

/-- `_run_at_grid_point` for one grid point after the other with one object
(phono3py/conductivity/base.py:396-408); every grid point comes with its row of
`_averaged_pp_interaction`. -/
def rtaGridPoints [DecidableEq Z] (env : IseEnv P K S G Z A V) (o : GammaOptions P K S Z A) :
    List (P × A) → IseObject P K S G Z V →
      Option (IseObject P K S G Z V × List (A × List (List V)))
  | [], s => some (s, [])
  | p :: ps, s => do
    let r ← rtaGridPoint env o p.1 s p.2
    let q ← rtaGridPoints env o ps r.1
    some (q.1, (r.2.1, r.2.2) :: q.2)

/-- Lines that get the interaction strengths in the direct solution,
phono3py/conductivity/direct_solution.py:470-522. Flags unlike those in the file only give a
warning and replace the flags of the object. -/
def lbteStrengths [DecidableEq Z] (env : IseEnv P K S G Z A V) (o : GammaOptions P K S Z A) (p : P)
    (j : Nat) (sigma : Option K) (s : IseObject P K S G Z V) : Option (IseObject P K S G Z V) :=
  if o.readPP then do
    let f ← o.file p sigma o.sigmaCutoff
    if f.2.isSome && decide (f.2 ≠ s.gZero) then iseCall env s (.setStrength f.1 f.2)
    else iseCall env s (.setStrength f.1 none)
  else if decide (j ≠ 0) && (o.isFullPP || o.sigmaCutoff.isNone) then some s
  else iseCall env s (.runInteraction o.isFullPP)

/-- `_set_collision_matrix_at_sigmas`, phono3py/conductivity/direct_solution.py:448-537; `V` holds
linewidths and collision matrix. -/
def lbteSigmas [DecidableEq Z] (env : IseEnv P K S G Z A V) (o : GammaOptions P K S Z A) (p : P) :
    Nat → List (Option K) → IseObject P K S G Z V →
      Option (IseObject P K S G Z V × List (List V))
  | _, [], s => some (s, [])
  | j, sigma :: sigmas, s => do
    let s ← iseCall env s (.setSigma sigma o.sigmaCutoff)
    let s ← iseCall env s (.runIntegrationWeights none)
    let s ← lbteStrengths env o p j sigma s
    let v ← gammaTemperatures env o.temperatures s
    let r ← lbteSigmas env o p (j + 1) sigmas v.1
    some (r.1, v.2 :: r.2)

/-- The part of `_run_at_grid_point` that fills `_gamma` and `_collision_matrix`,
phono3py/conductivity/direct_solution.py:363-369. -/
def lbteGridPoint [DecidableEq Z] (env : IseEnv P K S G Z A V) (o : GammaOptions P K S Z A) (p : P)
    (s : IseObject P K S G Z V) : Option (IseObject P K S G Z V × List (List V)) := do
  let s ← iseCall env s (.setGridPoint (some p))
  lbteSigmas env o p 0 o.sigmas s

end
end Phono3py
