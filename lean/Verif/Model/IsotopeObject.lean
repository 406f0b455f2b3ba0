import Mathlib.Data.List.Basic

/-!
# Model of the objects that calculate isotope linewidths

`phono3py/other/isotope.py` (class `Isotope`) and `phono3py/api_isotope.py`
(`Phono3pyIsotope.run`). The linewidths at a grid point as a function of the phonons on the grid are
the subject of `Model/Isotope` (C39, C155); here they are a parameter, as is the harmonic solver,
whose rule of solving points once is proved in C52. Points and bands are not bounded; printing is
not modelled.
-/

namespace Phono3py

/-- What the objects are made with (phono3py/other/isotope.py:94-151): the phonons that the harmonic
solver gives for a dynamical matrix and a direction at a grid point, the values in an array that
was just allocated, and the linewidths as a function of the phonons on the grid, the grid point and
the smearing width (`none` is the tetrahedron method; phono3py/other/isotope.py:242-276). -/
structure IsotopeEnv (D V P S G R : Type) where
  phonon : D → Option V → G → P
  blank : P
  strength : (G → P) → G → Option S → R

/-- State of `Isotope` (phono3py/other/isotope.py:128-142): dynamical matrix, direction, smearing
width, grid point, phonons with the flags of solved points once allocated, and linewidths. -/
structure IsotopeState (D V P S G R : Type) where
  dm : Option D := none
  direction : Option V := none
  sigma : Option S := none
  gridPoint : Option G := none
  phonons : Option ((G → P) × (G → Bool)) := none
  gamma : Option R := none

variable {D V P S G R : Type}

/-- `set_grid_point` (phono3py/other/isotope.py:153-159) with `_allocate_phonon` (lines
398-406). -/
def isoSetGridPoint (e : IsotopeEnv D V P S G R) (gp : G) (s : IsotopeState D V P S G R) :
    IsotopeState D V P S G R :=
  { s with
    gridPoint := some gp
    phonons := some (s.phonons.getD (fun _ => e.blank, fun _ => false)) }

/-- The setter `sigma` (phono3py/other/isotope.py:173-178). -/
def isoSetSigma (sigma : Option S) (s : IsotopeState D V P S G R) : IsotopeState D V P S G R :=
  { s with sigma := sigma }

/-- `init_dynamical_matrix` (phono3py/other/isotope.py:217-235). -/
def isoInitDm (d : D) (s : IsotopeState D V P S G R) : IsotopeState D V P S G R :=
  { s with dm := some d }

/-- `set_nac_q_direction` (phono3py/other/isotope.py:237-240). -/
def isoSetDirection (v : Option V) (s : IsotopeState D V P S G R) : IsotopeState D V P S G R :=
  match v with
  | some v => { s with direction := some v }
  | none => s

/-- `set_phonons` (phono3py/other/isotope.py:209-215). -/
def isoSetPhonons (p : G → P) (done : G → Bool) (dm : Option D) (s : IsotopeState D V P S G R) :
    IsotopeState D V P S G R :=
  { s with
    phonons := some (p, done)
    dm := match dm with
      | some d => some d
      | none => s.dm }

/-- The call of the harmonic solver for all grid points (phono3py/other/isotope.py:243 and
371-383): points with a flag are left as they are. -/
def isoSolve (e : IsotopeEnv D V P S G R) (d : D) (v : Option V) (a : (G → P) × (G → Bool)) :
    (G → P) × (G → Bool) :=
  (fun g => if a.2 g then a.1 g else e.phonon d v g, fun _ => true)

/-- `run` with the C routines (phono3py/other/isotope.py:161-166 and 242-276). Without a grid point
or a dynamical matrix it raises (`none`). -/
def isoRun (e : IsotopeEnv D V P S G R) (s : IsotopeState D V P S G R) :
    Option (IsotopeState D V P S G R) :=
  match s.gridPoint, s.phonons, s.dm with
  | some gp, some a, some d =>
    some { s with
      phonons := some (isoSolve e d s.direction a)
      gamma := some (e.strength (isoSolve e d s.direction a).1 gp s.sigma) }
  | _, _, _ => none

/-- Calls of the object by a user (phono3py/other/isotope.py:153-240). -/
inductive IsotopeCall (D V P S G : Type) where
  | gridPoint (gp : G)
  | sigma (s : Option S)
  | dynamicalMatrix (d : D)
  | direction (v : Option V)
  | phonons (p : G → P) (done : G → Bool) (dm : Option D)
  | run

/-- One call (phono3py/other/isotope.py:153-240). -/
def isoCall (e : IsotopeEnv D V P S G R) (c : IsotopeCall D V P S G)
    (s : IsotopeState D V P S G R) : Option (IsotopeState D V P S G R) :=
  match c with
  | .gridPoint gp => some (isoSetGridPoint e gp s)
  | .sigma x => some (isoSetSigma x s)
  | .dynamicalMatrix d => some (isoInitDm d s)
  | .direction v => some (isoSetDirection v s)
  | .phonons p done dm => some (isoSetPhonons p done dm s)
  | .run => isoRun e s

/-- A history of calls (phono3py/other/isotope.py:153-240). -/
def isoCalls (e : IsotopeEnv D V P S G R) : List (IsotopeCall D V P S G) →
    IsotopeState D V P S G R → Option (IsotopeState D V P S G R)
  | [], s => some s
  | c :: cs, s => (isoCall e c s).bind (isoCalls e cs)

/-- The loop over smearing widths at a grid point (phono3py/api_isotope.py:123-132): the linewidths
of each width and the object afterwards. -/
def isoSigmas (e : IsotopeEnv D V P S G R) : List (Option S) → IsotopeState D V P S G R →
    Option (List R × IsotopeState D V P S G R)
  | [], s => some ([], s)
  | x :: xs, s =>
    (isoRun e (isoSetSigma x s)).bind fun s1 =>
      s1.gamma.bind fun g =>
        (isoSigmas e xs s1).map fun (r : List R × IsotopeState D V P S G R) => (g :: r.1, r.2)

/-- `Phono3pyIsotope.run` (phono3py/api_isotope.py:104-139): for each grid point the linewidths of
each smearing width. The code stores the transposed table. -/
def apiIsotopeRun (e : IsotopeEnv D V P S G R) (sigmas : List (Option S)) :
    List G → IsotopeState D V P S G R → Option (List (List R) × IsotopeState D V P S G R)
  | [], s => some ([], s)
  | gp :: gps, s =>
    (isoSigmas e sigmas (isoSetGridPoint e gp s)).bind fun t =>
      (apiIsotopeRun e sigmas gps t.2).map
        fun (r : List (List R) × IsotopeState D V P S G R) => (t.1 :: r.1, r.2)

/-- `_get_gamma_isotope_at_sigmas` of the conductivity classes
(phono3py/conductivity/base.py:848-871): phonons and dynamical matrix are handed over for each
smearing width. -/
def conductivityIsotope (e : IsotopeEnv D V P S G R) (p : G → P) (done : G → Bool) (d : D) (gp : G) :
    List (Option S) → IsotopeState D V P S G R → Option (List R × IsotopeState D V P S G R)
  | [], s => some ([], s)
  | x :: xs, s =>
    (isoRun e (isoSetGridPoint e gp (isoSetPhonons p done (some d) (isoSetSigma x s)))).bind
      fun s1 => s1.gamma.bind fun g =>
        (conductivityIsotope e p done d gp xs s1).map
          fun (r : List R × IsotopeState D V P S G R) => (g :: r.1, r.2)

end Phono3py
