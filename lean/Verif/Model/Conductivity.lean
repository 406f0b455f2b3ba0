/-
Thermal conductivity in the relaxation time approximation:
phono3py/conductivity/base.py, rta.py, kubo.py and wigner.py. `double` is an ordered field `K`.
Phonons, group velocities, heat capacities and linewidths of single grid points are taken as
given by the functions in `CondEnv`. Arrays are functions of their indices.
-/
import Mathlib.Algebra.Order.Field.Basic
import Verif.Model.Writes
import Verif.Model.Complex

namespace Phono3py

section
variable {K : Type _} [Field K] [LinearOrder K] [IsStrictOrderedRing K]

/-- What a conductivity object is made of, `ConductivityBase.__init__`,
phono3py/conductivity/base.py:262-391, and the results of the calculations it calls for.
`rotations j` are the Cartesian operations, `multi i` the multiplicity of the `i`-th grid point
(`_get_multiplicity_at_q`, 805-819). -/
structure CondEnv (K : Type _) where
  numGp : Nat
  numOps : Nat
  numBand : Nat
  numSigma : Nat
  numTemp : Nat
  rotations : Nat → Fin 3 → Fin 3 → K
  multi : Nat → Nat
  velocity : Nat → Nat → Fin 3 → K
  heatCapacity : Nat → Nat → Nat → K
  linewidth : Nat → Nat → Nat → Nat → K
  isotopeLinewidth : Nat → Nat → Nat → K
  isIsotope : Bool
  readGamma : Bool
  readGammaIso : Bool

/-- The arrays and counters a conductivity object changes
(phono3py/conductivity/base.py:262-391). -/
structure CondState (K : Type _) where
  count : Nat
  numSampling : Nat
  cv : Nat → Nat → Nat → K
  gv : Nat → Nat → Fin 3 → K
  gvSum2 : Nat → Nat → Fin 6 → K
  gamma : Nat → Nat → Nat → Nat → K
  gammaIso : Nat → Nat → Nat → K

/-- Index pairs of the six stored tensor components,
phono3py/conductivity/base.py:237. -/
def voigt (c : Fin 6) : Fin 3 × Fin 3 :=
  ([(0, 0), (1, 1), (2, 2), (1, 2), (0, 2), (0, 1)] : List (Fin 3 × Fin 3)).getD c (0, 0)

/-- `np.dot(gv, r.T)`, phono3py/conductivity/base.py:245. -/
def rotateVector (r : Fin 3 → Fin 3 → K) (v : Fin 3 → K) (a : Fin 3) : K :=
  v 0 * r a 0 + v 1 * r a 1 + v 2 * r a 2

/-- `_get_gv_by_gv`, phono3py/conductivity/base.py:240-248: the tensor of one band. -/
def gvByGv (e : CondEnv K) (i : Nat) (v : Fin 3 → K) (a b : Fin 3) : K :=
  (sumLoop e.numOps fun j =>
    rotateVector (e.rotations j) v a * rotateVector (e.rotations j) v b) / (e.multi i : K)

/-- `_get_kstar_order`, phono3py/conductivity/base.py:821-846; the warning is not modelled. -/
def kstarOrder (e : CondEnv K) (i : Nat) : Nat := e.numOps / e.multi i

/-- The entry `i` of an array replaced (phono3py/conductivity/base.py:98-115). -/
def setAt {β : Type _} (a : Nat → β) (i : Nat) (x : β) : Nat → β := fun k => if k = i then x else a k

/-- Steps of `_run_at_grid_point` (phono3py/conductivity/rta.py:196-231). -/
inductive CondPhase
  | cv
  | velocities
  | gamma
  | isotope
deriving DecidableEq, Repr

/-- One step at the grid point `i`: `_set_cv` (phono3py/conductivity/base.py:88-115),
`_set_velocities` (198-200, 227-238), `_set_gamma_at_sigmas` (phono3py/conductivity/rta.py:232-314)
and the isotope part (rta.py:225-227). With linewidths read from a file the step `gamma` does
nothing; the option to combine them with averaged interaction strengths (rta.py:204-207) is left
out. -/
def condPhase (e : CondEnv K) (s : CondState K) (i : Nat) : CondPhase → CondState K
  | .cv => { s with cv := fun k => setAt (s.cv k) i (e.heatCapacity k i) }
  | .velocities =>
    let gv := setAt s.gv i (e.velocity i)
    { s with
      gv := gv
      numSampling := s.numSampling + kstarOrder e i
      gvSum2 := setAt s.gvSum2 i fun l c => gvByGv e i (gv i l) (voigt c).1 (voigt c).2 }
  | .gamma =>
    if e.readGamma then s
    else { s with gamma := fun j k => setAt (s.gamma j k) i (e.linewidth j k i) }
  | .isotope =>
    if e.isIsotope && !e.readGammaIso then
      { s with gammaIso := fun j => setAt (s.gammaIso j) i (e.isotopeLinewidth j i) }
    else s

/-- The steps of `_run_at_grid_point` in their order, phono3py/conductivity/rta.py:196-231. -/
def condPhases : List CondPhase := [.cv, .velocities, .gamma, .isotope]

/-- Outcome of one call of `next` (phono3py/conductivity/base.py:396-408). -/
inductive CondEvent
  | point (i : Nat)
  | stop
  | failed
deriving DecidableEq, Repr

/-- `__next__`, phono3py/conductivity/base.py:396-408. `crash = some n` means that an exception
leaves `_run_at_grid_point` after its first `n` steps. -/
def condNext (e : CondEnv K) (crash : Option Nat) (s : CondState K) : CondState K × CondEvent :=
  if s.count = e.numGp then (s, .stop)
  else
    match crash with
    | some n => ((condPhases.take n).foldl (fun s p => condPhase e s s.count p) s, .failed)
    | none =>
      let s' := condPhases.foldl (fun s p => condPhase e s s.count p) s
      ({ s' with count := s'.count + 1 }, .point s'.count)

/-- A sequence of calls of `next` on one object (phono3py/conductivity/base.py:396-408). -/
def condRun (e : CondEnv K) (s : CondState K) : List (Option Nat) → CondState K × List CondEvent
  | [] => (s, [])
  | c :: cs =>
    let r := condNext e c s
    let t := condRun e r.1 cs
    (t.1, r.2 :: t.2)

/-- State after `__init__` and `_allocate_values`, phono3py/conductivity/rta.py:167-194; linewidths
given by the user are kept when `readGamma`. -/
def condInit (gamma : Nat → Nat → Nat → Nat → K) (e : CondEnv K) : CondState K where
  count := 0
  numSampling := 0
  cv := fun _ _ _ => 0
  gv := fun _ _ _ => 0
  gvSum2 := fun _ _ _ => 0
  gamma := if e.readGamma then gamma else fun _ _ _ _ => 0
  gammaIso := fun _ _ _ => 0

/-- `HeatCapacityMixIn._set_cv`, phono3py/conductivity/base.py:98-115, for one temperature and
one frequency, both in the units of `kb`; `modeCv` is `mode_cv` of phonopy. -/
def heatCapacityOf (modeCv : K → K → K) (kb cutoff t f : K) : K :=
  if f > cutoff then
    if f < 100 * t * kb then modeCv (if f < 100 * t * kb then t else 10000) f else 0
  else 0

/-- `_get_multiplicity_at_q`, phono3py/conductivity/base.py:805-819. `q` is the q-point, `ops` the
point operations, `dist2 d` the squared length of `np.dot(reclat, d)`, `rint` is `np.rint`. The
comparison of the length with the tolerance is made on the squares. -/
def multiplicityAtQ (isKappaStar : Bool) (rint : K → Int) (dist2 : (Fin 3 → K) → K) (tol : K)
    (q : Fin 3 → K) (ops : List (Fin 3 → Fin 3 → Int)) : Nat :=
  if isKappaStar then
    ops.foldl (fun multi r =>
      let qRot : Fin 3 → K := fun a => (r a 0 : K) * q 0 + (r a 1 : K) * q 1 + (r a 2 : K) * q 2
      let diff : Fin 3 → K := fun a => q a - qRot a - (rint (q a - qRot a) : K)
      if dist2 diff < tol ^ 2 then multi + 1 else multi) 0
  else 1

/-! ### Linewidths -/

/-- Settings of the scattering channels. `norm` is `np.linalg.norm`, `unit` is `Angstrom * 1e6`
(phono3py/conductivity/base.py:886-910). -/
structure Channels (K : Type _) where
  isIsotope : Bool
  boundaryMfp : Option K
  norm : (Fin 3 → K) → K
  unit : K
  pi : K

/-- `_get_boundary_scattering`, phono3py/conductivity/base.py:894-910, with `numBand` entries;
`gv` holds `numBand0` bands, `none` is the `IndexError` of reading beyond them. -/
def boundaryScattering (c : Channels K) (mfp : K) (numBand numBand0 : Nat) (gv : Nat → Fin 3 → K) :
    Option (List K) :=
  (List.range numBand).mapM fun l =>
    if l < numBand0 then some (c.norm (gv l) * c.unit / (4 * c.pi * mfp)) else none

/-- `a += b` for arrays of rank one, `none` when the lengths do not fit
(phono3py/conductivity/base.py:886-892). -/
def addArrays (a b : List K) : Option (List K) :=
  if a.length = b.length then some (List.zipWith (· + ·) a b) else none

/-- `_get_main_diagonal`, phono3py/conductivity/base.py:886-892. `gamma` and `gammaIso` are the
entries of the grid point, with one number per band the object was set up for. -/
def condMainDiagonal (c : Channels K) (numBand : Nat) (gamma gammaIso : List K)
    (gv : Nat → Fin 3 → K) : Option (List K) :=
  (if c.isIsotope then addArrays gamma gammaIso else some gamma).bind fun d =>
    match c.boundaryMfp with
    | none => some d
    | some mfp => (boundaryScattering c mfp numBand gamma.length gv).bind fun b => addArrays d b

/-! ### Conductivity -/

/-- Inputs of `set_kappa_at_sigmas` at one sigma and one temperature. `gSum i l` is the linewidth
of `_get_main_diagonal`, `n` the number of sampling grid points
(phono3py/conductivity/rta.py:583-622). -/
structure KappaInput (K : Type _) where
  numGp : Nat
  numBand : Nat
  frequencies : Nat → Nat → K
  cutoff : K
  gSum : Nat → Nat → K
  cv : Nat → Nat → K
  gvSum2 : Nat → Nat → Fin 6 → K
  factor : K
  n : K

/-- One entry of `_mode_kappa` in `ConductivityRTA.set_kappa_at_sigmas`,
phono3py/conductivity/rta.py:583-622; `old` is the entry before the call. A vanishing linewidth
raises `FloatingPointError`, which leaves the entry as it is; over- and underflow are not
modelled. -/
def modeKappaRTA (k : KappaInput K) (old : Nat → Nat → Fin 6 → K) (i l : Nat) (c : Fin 6) : K :=
  if i < k.numGp ∧ l < k.numBand then
    if k.frequencies i l < k.cutoff then old i l c
    else if k.gSum i l * 2 = 0 then old i l c
    else k.gvSum2 i l c * k.cv i l / (k.gSum i l * 2) * k.factor
  else old i l c

/-- Number of ignored modes after the call, phono3py/conductivity/rta.py:595-597. -/
def ignoredModesRTA (k : KappaInput K) (old : Nat) : Nat :=
  (List.range k.numGp).foldl (fun s i => (List.range k.numBand).foldl (fun s l =>
    if k.frequencies i l < k.cutoff then s + 1 else s) s) old

/-- `_mode_kappa.sum(axis=2).sum(axis=2) / N`, phono3py/conductivity/rta.py:624-625. -/
def kappaOf (k : KappaInput K) (modeKappa : Nat → Nat → Fin 6 → K) (c : Fin 6) : K :=
  (sumLoop k.numBand fun l => sumLoop k.numGp fun i => modeKappa i l c) / k.n

/-- `kappa` after `ConductivityRTA.set_kappa_at_sigmas` on freshly allocated arrays
(phono3py/conductivity/rta.py:583-625). -/
def kappaRTA (k : KappaInput K) : Fin 6 → K := kappaOf k (modeKappaRTA k fun _ _ _ => 0)

/-- What `set_kappa_at_sigmas` reads from the object after the iteration, for one temperature,
phono3py/conductivity/rta.py:583-592. The linewidths `gSum` come from `condMainDiagonal`. -/
def kappaInput (e : CondEnv K) (s : CondState K) (temp : Nat) (frequencies : Nat → Nat → K)
    (cutoff : K) (gSum : Nat → Nat → K) (factor : K) : KappaInput K where
  numGp := e.numGp
  numBand := e.numBand
  frequencies := frequencies
  cutoff := cutoff
  gSum := gSum
  cv := s.cv temp
  gvSum2 := s.gvSum2
  factor := factor
  n := (s.numSampling : K)

/-- Inputs of `ConductivityKuboRTA.set_kappa_at_sigmas`: as for `KappaInput` with matrices of heat
capacities and of squared velocities (phono3py/conductivity/rta.py:910-952). -/
structure KuboInput (K : Type _) where
  numGp : Nat
  numBand : Nat
  frequencies : Nat → Nat → K
  cutoff : K
  gSum : Nat → Nat → K
  cvm : Nat → Nat → Nat → K
  gvmSum2 : Nat → Nat → Nat → Fin 6 → Cplx K
  factor : K
  n : K

/-- One entry of `_mode_kappa_mat` after `ConductivityKuboRTA.set_kappa_at_sigmas` on freshly
allocated arrays, phono3py/conductivity/rta.py:910-952: the loop over the second band ends at the
first band below the cutoff. -/
def modeKappaKubo (k : KuboInput K) (i l m : Nat) (c : Fin 6) : Cplx K :=
  if k.frequencies i l < k.cutoff then 0
  else if (List.range (m + 1)).any fun m' => decide (k.frequencies i m' < k.cutoff) then 0
  else
    let g := k.gSum i l + k.gSum i m
    let d := (k.frequencies i m - k.frequencies i l) ^ 2 + g ^ 2
    if d = 0 then 0
    else (k.gvmSum2 i l m c).scale (k.cvm i l m * g / d * k.factor)

/-- `kappa` of `ConductivityKuboRTA`, phono3py/conductivity/rta.py:924-925. -/
def kappaKubo (k : KuboInput K) (c : Fin 6) : K :=
  (sumLoop k.numBand fun m => sumLoop k.numBand fun l => sumLoop k.numGp fun i =>
    modeKappaKubo k i l m c).re / k.n

/-- Inputs of `ConductivityWignerRTA.set_kappa_at_sigmas`; `toEv` is `THzToEv`, `degenerate` the
tolerance `1e-4` (phono3py/conductivity/rta.py:721-804). -/
structure WignerInput (K : Type _) where
  numGp : Nat
  numBand : Nat
  frequencies : Nat → Nat → K
  cutoff : K
  degenerate : K
  toEv : K
  gSum : Nat → Nat → K
  cv : Nat → Nat → K
  gvoSum2 : Nat → Nat → Nat → Fin 6 → Cplx K
  factor : K
  n : K

/-- The contribution of a pair of bands, phono3py/conductivity/rta.py:743-776. Division by zero
gives `nan` or `inf` in the code and zero here. -/
def wignerContribution (k : WignerInput K) (i s1 s2 : Nat) (c : Fin 6) : K :=
  let w1 := k.frequencies i s1 * k.toEv
  let w2 := k.frequencies i s2 * k.toEv
  let h1 := 2 * k.gSum i s1 * k.toEv
  let h2 := 2 * k.gSum i s2 * k.toEv
  let lorentzian := (1 / 2 * (h1 + h2)) / ((w1 - w2) ^ 2 + 1 / 4 * (h1 + h2) ^ 2)
  let prefactor := 1 / 4 * (w1 + w2) * (k.cv i s1 / w1 + k.cv i s2 / w2)
  (k.gvoSum2 i s1 s2 c).re * prefactor * lorentzian * k.factor

/-- The state `(_mode_kappa_P_RTA, _mode_kappa_C)` of `ConductivityWignerRTA`
(phono3py/conductivity/rta.py:836-844). -/
structure WignerState (K : Type _) where
  modeP : Nat → Nat → Fin 6 → K
  modeC : Nat → Nat → Nat → Fin 6 → K

/-- One round of the loops of `ConductivityWignerRTA.set_kappa_at_sigmas`,
phono3py/conductivity/rta.py:728-797. -/
def wignerStep (k : WignerInput K) (s : WignerState K) (t : Nat × Nat × Nat) : WignerState K :=
  let i := t.1
  let s1 := t.2.1
  let s2 := t.2.2
  if k.frequencies i s1 > k.cutoff ∧ k.frequencies i s2 > k.cutoff then
    let x := wignerContribution k i s1 s2
    if |k.frequencies i s1 - k.frequencies i s2| < k.degenerate then
      let p1 : Nat → Nat → Fin 6 → K := fun i' l c =>
        if i' = i ∧ l = s1 then s.modeP i' l c + 1 / 2 * x c else s.modeP i' l c
      { s with modeP := fun i' l c => if i' = i ∧ l = s2 then p1 i' l c + 1 / 2 * x c else p1 i' l c }
    else
      { s with modeC := fun i' l m c =>
          if i' = i ∧ l = s1 ∧ m = s2 then s.modeC i' l m c + x c else s.modeC i' l m c }
  else s

/-- `ConductivityWignerRTA.set_kappa_at_sigmas`, phono3py/conductivity/rta.py:721-804. -/
def wignerKappa (k : WignerInput K) (s : WignerState K) : WignerState K :=
  (loop k.numGp fun i => loop k.numBand fun s1 => (List.range k.numBand).map fun s2 =>
    (i, s1, s2)).foldl (wignerStep k) s

/-- `_kappa_P_RTA`, phono3py/conductivity/rta.py:800. -/
def wignerKappaP (k : WignerInput K) (s : WignerState K) (c : Fin 6) : K :=
  (sumLoop k.numBand fun l => sumLoop k.numGp fun i => s.modeP i l c) / k.n

/-- `_kappa_C`, phono3py/conductivity/rta.py:802. -/
def wignerKappaC (k : WignerInput K) (s : WignerState K) (c : Fin 6) : K :=
  (sumLoop k.numBand fun m => sumLoop k.numBand fun l => sumLoop k.numGp fun i =>
    s.modeC i l m c) / k.n

end
end Phono3py
