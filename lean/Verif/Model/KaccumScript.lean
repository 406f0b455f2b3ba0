/-
The command `phono3py-kaccum`: phono3py/cui/kaccum_script.py with the wrappers of
phono3py/other/kaccum.py. Exceptions and exits are `none`. Printing is modelled by the numbers
printed; rounding by the format is left out.
-/
import Verif.Model.Kaccum

namespace Phono3py

section
variable {K : Type _} [Field K] [LinearOrder K]

/-- The options of `_get_parser`, phono3py/cui/kaccum_script.py:156-224. -/
structure KaccumArgs (K : Type _) where
  gv : Bool := false
  pqj : Bool := false
  cv : Bool := false
  tau : Bool := false
  dos : Bool := false
  gamma : Bool := false
  gruneisen : Bool := false
  gvNorm : Bool := false
  mfp : Bool := false
  temperature : Option K := none
  nsp : Nat := 100
  average : Bool := false
  trace : Bool := false
  smearing : Bool := false
  noGridsym : Bool := false

/-- The datasets of `kappa-xxx.hdf5` or `phonon-xxx.hdf5` read by the command
(phono3py/cui/kaccum_script.py:129-153, 245-309, 370-388). Arrays with a temperature axis are
lists over temperatures; `frequency` is flat with `numGp` rows of `numBand` values. -/
structure KaccumFile (K : Type _) where
  numGp : Nat
  numBand : Nat
  frequency : List K
  temperatures : Option (List K) := none
  weight : Option (List Nat) := none
  gridPoint : Option (List Nat) := none
  irGridWeights : Option (List Nat) := none
  irGridPoints : List Nat := []
  gamma : Option (List (Nat → Nat → K)) := none
  heatCapacity : Option (List (Nat → Nat → K)) := none
  avePp : Option (Nat → Nat → K) := none
  gruneisen : Option (Nat → Nat → K) := none
  groupVelocity : Option (Nat → Nat → Nat → K) := none
  gvByGv : Option (Nat → Nat → Nat → K) := none
  modeKappa : Option (List (Nat → Nat → Nat → K)) := none
  meanFreePath : Option (List (Nat → Nat → Nat → K)) := none

/-- What the command makes of the mesh and the crystal structure
(phono3py/cui/kaccum_script.py:256-268, 93): the BZ grid, the result of `get_ir_grid_points` (grid
points, weights, map), whether the q-points of the file are those of the grid (lines 119-125), the
volume of the primitive cell, and the constants of the tetrahedron method. -/
structure KaccumGrid (K : Type _) where
  D : V3
  bz : BZGridOut
  dense : Bool
  rel : Fin 24 → Fin 4 → V3
  bzg2grg : List Nat
  grg2bzg : List Nat
  irPoints : List Nat
  irWeights : List Nat
  irMap : List Nat
  qpointsAgree : Bool
  volume : K
  eps : K
  margin : K

/-- `_set_T_target`, phono3py/cui/kaccum_script.py:52-62: the index of the first temperature within
`1e-8`; without one the function returns `None`, which cannot be unpacked. -/
def tTarget (temperatures : List K) (t : K) : Option Nat :=
  (List.range temperatures.length).find? fun i =>
    decide (|temperatures.getD i 0 - t| < 1 / 100000000)

/-- `l[i : i + 1]` (phono3py/cui/kaccum_script.py:56-59). -/
def pySliceOne {α : Type _} (i : Nat) (l : List α) : List α := (l.drop i).take 1

/-- `_assert_grid_in_hdf5`, phono3py/cui/kaccum_script.py:102-126. -/
def kaccumGridAgrees (g : KaccumGrid K) (weights : List Nat) (gridPoint : Option (List Nat)) :
    Bool :=
  (weights == g.irWeights) &&
    (match gridPoint with
      | none => true
      | some l => l == g.irPoints.map fun i => g.grg2bzg.getD i 0) && g.qpointsAgree

/-- The result of `_collect_data`, phono3py/cui/kaccum_script.py:245-309, with the number of rows
of `frequencies`. -/
structure KaccumData (K : Type _) where
  irPoints : Option (List Nat)
  irMap : Option (List Nat)
  weights : List Nat
  rows : Nat
  frequencies : List K
  temperatures : List K

/-- Rows of a flat array with `nb` columns (phono3py/cui/kaccum_script.py:290). -/
def takeRows (nb : Nat) (l : List K) (rows : List Nat) : List K :=
  rows.flatMap fun (i : Nat) => (List.range nb).map fun (b : Nat) => l.getD (i * nb + b) 0

/-- The frequencies set to zero when more than three are not positive,
phono3py/cui/kaccum_script.py:303-308. -/
def zeroImaginary (l : List K) : List K :=
  if (l.filter fun f => decide (¬ 0 < f)).length > 3 then l.map fun f => if 0 < f then f else 0
  else l

/-- `frequencies`, `ir_weights`, the grid points of the file and the number of rows,
phono3py/cui/kaccum_script.py:276-294. -/
def kaccumRead (a : KaccumArgs K) (f : KaccumFile K) :
    List K × List Nat × Option (List Nat) × Nat :=
  match f.weight with
  | some w => (f.frequency, w, f.gridPoint, f.numGp)
  | none =>
    match f.irGridWeights, a.noGridsym with
    | some w, false =>
      (takeRows f.numBand f.frequency f.irGridPoints, w, some f.irGridPoints,
        f.irGridPoints.length)
    | _, _ => (f.frequency, List.replicate f.numGp 1, none, f.numGp)

/-- `_collect_data`, phono3py/cui/kaccum_script.py:245-309. The map from irreducible points in the
BZ grid back to the regular grid gives the irreducible points of `get_ir_grid_points`. -/
def kaccumCollect (a : KaccumArgs K) (f : KaccumFile K) (g : KaccumGrid K) :
    Option (KaccumData K) :=
  let temperatures := match f.temperatures with
    | some t => t
    | none => [0]
  match kaccumRead a f with
  | (freqs, w, gp, rows) =>
    if a.noGridsym || w.all (· == 1) then
      some ⟨none, none, w, rows, zeroImaginary freqs, temperatures⟩
    else if kaccumGridAgrees g w gp then
      some ⟨some g.irPoints, some g.irMap, w, rows, zeroImaginary freqs, temperatures⟩
    else none

/-- The input of `KappaDOSTHM` for one temperature and one element as `run_prop_dos` and
`run_mfp_dos` call it, phono3py/other/kaccum.py:263-344 and 113-126: without irreducible points
all rows are taken for the points of the regular grid. `x` are the frequencies or mean free
paths. -/
def kaccumKdos (g : KaccumGrid K) (d : KaccumData K) (numBand nsp : Nat) (x : List K)
    (prop : Nat → Nat → K) : KdosInput K where
  numIr := d.rows
  numBand := numBand
  modeKappa := prop
  frequencies := x
  weights := none
  irGridPoints := d.irPoints.getD (List.range d.rows)
  irGridMap := d.irMap.getD (List.range d.rows)
  frequencyPoints := none
  numSampling := nsp
  bzg2grg := g.bzg2grg
  grg2bzg := fun i => ((g.grg2bzg.getD i 0 : Nat) : Int)
  bz := g.bz
  D := g.D
  dense := g.dense
  rel := g.rel
  eps := g.eps
  margin := g.margin

/-- Sampling points and, for every element, the accumulated values (`false`) and the derivative
(`true`). -/
structure KaccumSpectrum (K : Type _) where
  points : List K
  value : Bool → Nat → Nat → K

/-- `KappaDOSTHM` for one temperature, phono3py/other/kaccum.py:97-139: `none` when an index is
beyond `grg2bzg` (line 117) or the map is refused. Tensor element `e` at sampling point `j`. -/
def kaccumSpectrum (g : KaccumGrid K) (d : KaccumData K) (numBand nsp : Nat) (x : List K)
    (prop : Nat → Nat → Nat → K) : Option (KaccumSpectrum K) :=
  if (d.irPoints.getD (List.range d.rows)).all fun i => decide (i < g.grg2bzg.length) then
    (kappaDos (kaccumKdos g d numBand nsp x fun i b => prop i b 0) false).bind fun r =>
      some { points := r.1
             value := fun isI e j =>
              ((kappaDos (kaccumKdos g d numBand nsp x fun i b => prop i b e) isI).map
                fun r => r.2 j).getD 0 }
  else none

/-- `run_prop_dos`, phono3py/other/kaccum.py:263-301: one spectrum per temperature of the
property. -/
def runPropDos (g : KaccumGrid K) (d : KaccumData K) (numBand nsp : Nat)
    (prop : List (Nat → Nat → Nat → K)) : Option (List (KaccumSpectrum K)) :=
  prop.mapM fun p => kaccumSpectrum g d numBand nsp d.frequencies p

/-- `run_mfp_dos`, phono3py/other/kaccum.py:304-344: one spectrum per temperature of the mean free
path; the property of that index must exist. -/
def runMfpDos (g : KaccumGrid K) (d : KaccumData K) (numBand nsp : Nat) (mfp : List (List K))
    (prop : List (Nat → Nat → Nat → K)) : Option (List (KaccumSpectrum K)) :=
  (List.range mfp.length).mapM fun i =>
    (prop[i]?).bind fun p => kaccumSpectrum g d numBand nsp (mfp.getD i []) p

/-- What is printed for one temperature: the temperature in the comment, if any, and rows of the
abscissa, the accumulated columns and the derivative columns. -/
structure KaccumBlock (K : Type _) where
  label : Option K
  rows : List (K × List K × List K)

/-- The columns of a tensor, phono3py/cui/kaccum_script.py:27-32. -/
def tensorColumns (a : KaccumArgs K) (k : Nat → K) : List K :=
  if a.average then [(k 0 + k 1 + k 2) / 3]
  else if a.trace then [k 0 + k 1 + k 2]
  else (List.range 6).map k

/-- The rows printed for a spectrum, phono3py/cui/kaccum_script.py:26-32. -/
def tensorRows (a : KaccumArgs K) (s : KaccumSpectrum K) : List (K × List K × List K) :=
  (List.range s.points.length).map fun j =>
    (s.points.getD j 0, tensorColumns a fun e => s.value false e j,
      tensorColumns a fun e => s.value true e j)

/-- `_show_tensor`, phono3py/cui/kaccum_script.py:20-35. A missing temperature is an index error. -/
def showTensor (a : KaccumArgs K) (temperatures : List K) (kdos : List (KaccumSpectrum K)) :
    Option (List (KaccumBlock K)) :=
  (List.range kdos.length).mapM fun i =>
    (kdos[i]?).bind fun s =>
      if a.gv then some ⟨none, tensorRows a s⟩
      else (temperatures[i]?).bind fun t => some ⟨some t, tensorRows a s⟩

/-- The rows printed for a scalar, phono3py/cui/kaccum_script.py:46-47. -/
def scalarRows (s : KaccumSpectrum K) : List (K × List K × List K) :=
  (List.range s.points.length).map fun j =>
    (s.points.getD j 0, [s.value false 0 j], [s.value true 0 j])

/-- `_show_scalar`, phono3py/cui/kaccum_script.py:38-49. In the first branch the loop runs over the
rows of `sampling_points`, whose one row is the whole axis: formatting it as a number fails unless
it has one element. -/
def showScalar (a : KaccumArgs K) (temperatures : List K) (gdos : List (KaccumSpectrum K)) :
    Option (List (KaccumBlock K)) :=
  if a.pqj || a.gruneisen || a.gvNorm then
    (gdos[0]?).bind fun s =>
      if s.points.length ≤ 1 then some [⟨none, scalarRows s⟩] else none
  else
    (List.range gdos.length).mapM fun i =>
      (gdos[i]?).bind fun s => (temperatures[i]?).bind fun t => some ⟨some t, scalarRows s⟩

/-- `_get_mode_property`, phono3py/cui/kaccum_script.py:129-153; `none`: dataset missing or no
property. -/
def kaccumModeProperty (sqrt : K → K) (pi : K) (a : KaccumArgs K) (f : KaccumFile K) :
    Option (List (Nat → Nat → K)) :=
  if a.pqj then f.avePp.map fun p => [p]
  else if a.cv then f.heatCapacity
  else if a.tau then
    f.gamma.map fun l => l.map fun g i b => if 0 < g i b then 1 / (2 * 2 * pi * g i b) else 0
  else if a.gvNorm then
    f.groupVelocity.map fun v => [fun i b => sqrt (v i b 0 ^ 2 + v i b 1 ^ 2 + v i b 2 ^ 2)]
  else if a.gamma then f.gamma
  else if a.gruneisen then f.gruneisen.map fun p => [fun i b => p i b ^ 2]
  else if a.dos then some [fun _ _ => 1]
  else none

/-- `get_mfp`, phono3py/other/kaccum.py:347-352. -/
def getMfp (sqrt : K → K) (pi : K) (gamma : Nat → Nat → K) (v : Nat → Nat → Nat → K)
    (i b : Nat) : K :=
  if 0 < gamma i b then sqrt (v i b 0 ^ 2 + v i b 1 ^ 2 + v i b 2 ^ 2) / (2 * 2 * pi * gamma i b)
  else 0

/-- An array over points and bands as a flat list. -/
def flatModes (rows numBand : Nat) (x : Nat → Nat → K) : List K :=
  (List.range rows).flatMap fun (i : Nat) => (List.range numBand).map fun (b : Nat) => x i b

/-- The temperatures and the property at the temperature asked for,
phono3py/cui/kaccum_script.py:331-336, 403-406. -/
def kaccumSelect {α : Type _} (t : Option K) (temperatures : List K) (prop : List α) :
    Option (List K × List α) :=
  match t with
  | none => some (temperatures, prop)
  | some t => (tTarget temperatures t).bind fun i =>
      some (pySliceOne i temperatures, pySliceOne i prop)

/-- `_run_scalar` with the tetrahedron method, phono3py/cui/kaccum_script.py:318-357: the property
is multiplied by the weights of the irreducible points. The smearing method is not modelled here
(`gammaDos`). -/
def kaccumScalar (sqrt : K → K) (pi : K) (a : KaccumArgs K) (f : KaccumFile K)
    (g : KaccumGrid K) (d : KaccumData K) : Option (List (KaccumBlock K)) :=
  (kaccumModeProperty sqrt pi a f).bind fun prop =>
    (kaccumSelect (if a.gvNorm || a.pqj || a.gruneisen || a.dos then none else a.temperature)
        d.temperatures prop).bind fun tp =>
      (runPropDos g d f.numBand a.nsp
        (tp.2.map fun p i b _ => p i b * ((d.weights.getD i 0 : Nat) : K))).bind fun kdos =>
        showScalar a tp.1 kdos

/-- `mode_prop` of `_run_tensor`, phono3py/cui/kaccum_script.py:370-380; `none` without
`mode_kappa` is the exit with status 1. -/
def kaccumTensorProperty (a : KaccumArgs K) (f : KaccumFile K) (g : KaccumGrid K) :
    Option (List (Nat → Nat → Nat → K)) :=
  if a.gv then f.gvByGv.map fun v => [fun i b e => v i b e / g.volume]
  else f.modeKappa

/-- The mean free paths, phono3py/cui/kaccum_script.py:382-387. -/
def kaccumMfp (sqrt : K → K) (pi : K) (f : KaccumFile K) : Option (List (Nat → Nat → K)) :=
  match f.meanFreePath with
  | some l => some (l.map fun m i b => sqrt (m i b 0 ^ 2 + m i b 1 ^ 2 + m i b 2 ^ 2))
  | none => f.gamma.bind fun gs => f.groupVelocity.bind fun v =>
      some (gs.map fun g => getMfp sqrt pi g v)

/-- `_run_tensor`, phono3py/cui/kaccum_script.py:360-418. -/
def kaccumTensor (sqrt : K → K) (pi : K) (a : KaccumArgs K) (f : KaccumFile K)
    (g : KaccumGrid K) (d : KaccumData K) : Option (List (KaccumBlock K)) :=
  (kaccumTensorProperty a f g).bind fun prop =>
    if a.mfp then
      (kaccumMfp sqrt pi f).bind fun mfp =>
        (kaccumSelect a.temperature d.temperatures prop).bind fun tp =>
          (kaccumSelect a.temperature d.temperatures mfp).bind fun tm =>
            (runMfpDos g d f.numBand a.nsp (tm.2.map fun m => flatModes d.rows f.numBand m)
              tp.2).bind fun kdos => showTensor a tp.1 kdos
    else
      (kaccumSelect (if a.gv then none else a.temperature) d.temperatures prop).bind fun tp =>
        (runPropDos g d f.numBand a.nsp tp.2).bind fun kdos => showTensor a tp.1 kdos

/-- `main`, phono3py/cui/kaccum_script.py:421-482, with the file read and the grid made, for runs
without `--smearing`. -/
def kaccumMain (sqrt : K → K) (pi : K) (a : KaccumArgs K) (f : KaccumFile K)
    (g : KaccumGrid K) : Option (List (KaccumBlock K)) :=
  (kaccumCollect a f g).bind fun d =>
    if a.gamma || a.gruneisen || a.pqj || a.cv || a.tau || a.gvNorm || a.dos then
      kaccumScalar sqrt pi a f g d
    else kaccumTensor sqrt pi a f g d

end
end Phono3py
