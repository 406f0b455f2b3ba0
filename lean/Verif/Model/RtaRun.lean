import Verif.Model.StoredGamma
import Verif.Model.Conductivity

/-!
# The relaxation-time calculation as a run over a directory of files

`get_thermal_conductivity_RTA` reads stored linewidths, visits the grid points, stores linewidths
and the summary.  The routines that compute linewidths and conductivities are functions of their
arguments (`RtaWorld`); see C41, C78-C82 and C147 for these routines.
-/

namespace Phono3py

/-- The classes chosen by `conductivity_type`, `phono3py/conductivity/rta.py:1041-1046`. -/
inductive RtaKind where
  /-- `ConductivityRTA`. -/
  | standard
  /-- `ConductivityWignerRTA`. -/
  | wigner
  /-- `ConductivityKuboRTA`. -/
  | kubo
deriving DecidableEq

/-- The arguments of `get_thermal_conductivity_RTA`, `phono3py/conductivity/rta.py:1005-1030`, and
the band selection of the interaction.  Left out: averaged interaction strengths (`use_ave_pp`,
`is_full_pp`), `write_pp`, `read_pp`, `write_gamma_detail`, `log_level`. -/
structure RtaSettings where
  /-- Class of conductivity. -/
  kind : RtaKind := .standard
  /-- Mesh numbers. -/
  mesh : Nat × Nat × Nat
  /-- Cutoff of the smearing function. -/
  cutoff : Option ℚ := none
  /-- Smearing widths. -/
  sigmas : List (Option ℚ)
  /-- Temperatures. -/
  temps : List ℚ
  /-- Grid points asked for; `none`: the whole mesh. -/
  points : Option (List Nat) := none
  /-- `interaction.band_indices`. -/
  bands : List Nat
  /-- Number of bands of the crystal. -/
  numBand : Nat
  /-- Isotope scattering. -/
  isIsotope : Bool := false
  /-- Normal and Umklapp parts. -/
  isNU : Bool := false
  /-- `write_gamma`. -/
  writeGamma : Bool := false
  /-- `read_gamma`. -/
  readGamma : Bool := false
  /-- `write_kappa`. -/
  writeKappa : Bool := false
  /-- `compression` is not `None`. -/
  compress : Bool := true
  /-- `input_filename`. -/
  inName : Option (List Char) := none
  /-- `output_filename`. -/
  outName : Option (List Char) := none

/-- What the routines compute, by sigma, temperature, grid point and band
(`phono3py/conductivity/rta.py:196-231`, `phono3py/conductivity/base.py:848-870`), and the grid points
visited when none are asked for (`base.py:697-728`).  `kappa` is the conductivity at one sigma and
temperature as a function of the grid points, their linewidths and isotope linewidths
(`set_kappa_at_sigmas`, `rta.py:583-625`, whose inputs are the linewidths of `base.py:886-892` and
harmonic properties of the grid points). -/
structure RtaWorld (K : Type) where
  /-- Grid points of the whole mesh. -/
  meshPoints : List Nat
  /-- Linewidths. -/
  gamma : Option ℚ → ℚ → Nat → Nat → K
  /-- Their normal parts. -/
  gammaN : Option ℚ → ℚ → Nat → Nat → K
  /-- Their Umklapp parts. -/
  gammaU : Option ℚ → ℚ → Nat → Nat → K
  /-- Isotope linewidths. -/
  iso : Option ℚ → Nat → Nat → K
  /-- Conductivity. -/
  kappa : RtaKind → ℚ → List Nat → List (List K) → Option (List (List K)) → List K

/-- `_get_grid_info`, `phono3py/conductivity/base.py:697-728`. -/
def rtaPoints {K : Type} (s : RtaSettings) (w : RtaWorld K) : List Nat := s.points.getD w.meshPoints

/-- What file names and shapes depend on (`phono3py/conductivity/utils.py:735-746`). -/
def rtaStore {K : Type} (s : RtaSettings) (w : RtaWorld K) (name : Option (List Char)) : StoreArgs where
  mesh := s.mesh
  cutoff := s.cutoff
  sigmas := s.sigmas
  numT := s.temps.length
  gridPoints := rtaPoints s w
  numBand := s.numBand
  name := name

/-- `all_bands_exist`, `phono3py/phonon3/interaction.py:1087-1094`. -/
def allBands (s : RtaSettings) : Bool := decide (s.bands = List.range s.numBand)

/-- The arrays of the conductivity object (`phono3py/conductivity/rta.py:167-194`). -/
structure RtaState (K : Type) where
  /-- `_read_gamma`. -/
  read : Bool
  /-- `_gamma`, `_gamma_N`, `_gamma_U`. -/
  widths : Linewidths K
  /-- `_gamma_iso`, if isotope scattering is on: by sigma, grid point, selected band. -/
  iso : Option (Nat → Nat → Nat → K)

/-- `_allocate_values`, `phono3py/conductivity/rta.py:167-194`. -/
def rtaInit {K : Type} [Zero K] (s : RtaSettings) : RtaState K where
  read := false
  widths := { gamma := fun _ _ _ _ => 0
              nu := if s.isNU then some (fun _ _ _ _ => 0, fun _ _ _ _ => 0) else none }
  iso := if s.isIsotope then some (fun _ _ _ => 0) else none

/-- `br.gamma = gamma` and, if read, `br.set_gamma_N_U(gamma_N, gamma_U)`
(`phono3py/conductivity/utils.py:833-838`, `phono3py/conductivity/base.py:547-551`). -/
def rtaTake {K : Type} (st : RtaState K) (v : Linewidths K) : RtaState K where
  read := true
  widths := { gamma := v.gamma, nu := v.nu.orElse fun _ => st.widths.nu }
  iso := st.iso

/-- The values computed at one grid point for all sigmas and temperatures and the selected bands
are stored at its position (`phono3py/conductivity/rta.py:299-307`). -/
def fillPoint {K : Type} (s : RtaSettings) (f : Option ℚ → ℚ → Nat → Nat → K) (gp i : Nat)
    (a : Nat → Nat → Nat → Nat → K) : Nat → Nat → Nat → Nat → K :=
  fun j t => setAt (a j t) i fun k => f (s.sigmas.getD j none) (s.temps.getD t 0) gp (s.bands.getD k 0)

/-- `_run_at_grid_point`, `phono3py/conductivity/rta.py:196-231`: linewidths unless they were read,
and isotope linewidths. -/
def rtaPoint {K : Type} (s : RtaSettings) (w : RtaWorld K) (st : RtaState K) (gp i : Nat) :
    RtaState K where
  read := st.read
  widths :=
    if st.read then st.widths
    else { gamma := fillPoint s w.gamma gp i st.widths.gamma
           nu := st.widths.nu.map fun p => (fillPoint s w.gammaN gp i p.1, fillPoint s w.gammaU gp i p.2) }
  iso := st.iso.map fun a => fun j => setAt (a j) i fun k => w.iso (s.sigmas.getD j none) gp (s.bands.getD k 0)

/-- A file written. -/
abbrev RtaPut (K : Type) := List Char × KappaFile K

/-- The files of `ConductivityRTAWriter.write_gamma`, `phono3py/conductivity/utils.py:113-216`, for
the grid point `gp` at position `i`, in their order. -/
def gammaPuts {K : Type} (r : StoreArgs) (all : Bool) (bands : List Nat) (v : Linewidths K)
    (i gp : Nat) : List (RtaPut K) :=
  if all then
    r.sigmas.zipIdx.map fun (s : Option ℚ × Nat) =>
      (pieceName "kappa".toList r s.1 (some gp) none,
        { gamma := pointSlice r v.gamma s.2 i
          gammaN := v.nu.map (fun p => pointSlice r p.1 s.2 i)
          gammaU := v.nu.map (fun p => pointSlice r p.2 s.2 i) })
  else
    r.sigmas.zipIdx.flatMap fun (s : Option ℚ × Nat) =>
      bands.zipIdx.map fun (b : Nat × Nat) =>
        (pieceName "kappa".toList r s.1 (some gp) (some b.1),
          { gamma := bandSlice r v.gamma s.2 i b.2
            gammaN := v.nu.map (fun p => bandSlice r p.1 s.2 i b.2)
            gammaU := v.nu.map (fun p => bandSlice r p.2 s.2 i b.2) })

/-- What a step writes, and whether it raises an exception afterwards
(phono3py/conductivity/rta.py:1078-1099). -/
structure RtaEffect (K : Type) where
  /-- The files, in their order. -/
  puts : List (RtaPut K)
  /-- Whether an exception follows. -/
  raised : Bool

/-- `ConductivityRTAWriter.write_gamma`, `phono3py/conductivity/utils.py:82-216`.  For the
Green-Kubo class `mode_heat_capacities` is `None` and is subscripted while the arguments of the
first file are prepared (104-107, 145, 202).  In a run with selected bands the isotope linewidth is
a scalar, for which HDF5 has no compression: `create_dataset` raises (`phono3py/file_IO.py:1001-1004`)
after `gamma` was written to the first file. -/
def gammaEffect {K : Type} (s : RtaSettings) (r : StoreArgs) (st : RtaState K) (i gp : Nat) :
    RtaEffect K :=
  if s.kind = .kubo ∧ gammaPuts r (allBands s) s.bands st.widths i gp ≠ [] then
    { puts := [], raised := true }
  else if allBands s = false ∧ s.compress = true ∧ st.iso.isSome = true ∧
      gammaPuts r (allBands s) s.bands st.widths i gp ≠ [] then
    { puts := (gammaPuts r false s.bands { gamma := st.widths.gamma } i gp).take 1, raised := true }
  else { puts := gammaPuts r (allBands s) s.bands st.widths i gp, raised := false }

/-- What is written at one grid point, `phono3py/conductivity/rta.py:1083-1091`. -/
def pointEffect {K : Type} (s : RtaSettings) (r : StoreArgs) (st : RtaState K) (i gp : Nat) :
    RtaEffect K :=
  if s.writeGamma then gammaEffect s r st i gp else { puts := [], raised := false }

/-- The loop over grid points, `phono3py/conductivity/rta.py:1078-1099`; each point comes with its
position. The last component tells whether an exception ended it. -/
def rtaLoop {K : Type} (s : RtaSettings) (w : RtaWorld K) (r : StoreArgs) :
    List (Nat × Nat) → RtaState K → RtaState K × List (RtaPut K) × Bool
  | [], st => (st, [], false)
  | (gp, i) :: l, st =>
    let st' := rtaPoint s w st gp i
    let e := pointEffect s r st' i gp
    if e.raised then (st', e.puts, true)
    else
      let z := rtaLoop s w r l st'
      (z.1, e.puts ++ z.2.1, z.2.2)

/-- Rows of linewidths at one sigma and temperature, by grid point and band
(`phono3py/conductivity/rta.py:583-592`). -/
def gammaRows {K : Type} (numGp numBand : Nat) (a : Nat → Nat → K) : List (List K) :=
  (List.range numGp).map fun i => (List.range numBand).map fun b => a i b

/-- `set_kappa_at_sigmas`, `phono3py/conductivity/rta.py:583-625`, by sigma and temperature. -/
def rtaKappa {K : Type} (s : RtaSettings) (w : RtaWorld K) (st : RtaState K) : List (List (List K)) :=
  (List.range s.sigmas.length).map fun j => s.temps.zipIdx.map fun (t : ℚ × Nat) =>
    w.kappa s.kind t.1 (rtaPoints s w)
      (gammaRows (rtaPoints s w).length s.numBand (st.widths.gamma j t.2))
      (st.iso.map fun a => gammaRows (rtaPoints s w).length s.numBand (a j))

/-- The files of `ConductivityRTAWriter.write_kappa`, `phono3py/conductivity/utils.py:273-345`. -/
def kappaPuts {K : Type} (r : StoreArgs) (v : Linewidths K) : List (RtaPut K) :=
  r.sigmas.zipIdx.map fun (s : Option ℚ × Nat) =>
    (pieceName "kappa".toList r s.1 (summaryPoint r.gridPoints) none,
      { gamma := allSlice r v.gamma s.2
        gammaN := v.nu.map (fun p => allSlice r p.1 s.2)
        gammaU := v.nu.map (fun p => allSlice r p.2 s.2) })

/-- The object returned: its arrays, and the conductivity if it was computed
(`phono3py/conductivity/rta.py:1101-1121`). -/
structure RtaResult (K : Type) where
  /-- The arrays. -/
  state : RtaState K
  /-- The conductivity by sigma and temperature; `none`: left at the zeros of `_allocate_values`. -/
  kappa : Option (List (List (List K)))

/-- How a run ends (phono3py/conductivity/rta.py:1071-1121). -/
inductive RtaOutcome (K : Type) where
  /-- An exception. -/
  | raised
  /-- `return False`. -/
  | failed
  /-- `return br`. -/
  | result (x : RtaResult K)

/-- A run: the files it writes in their order, and its end
(phono3py/conductivity/rta.py:1005-1121). -/
structure RtaTrace (K : Type) where
  /-- The files. -/
  puts : List (RtaPut K)
  /-- The end. -/
  outcome : RtaOutcome K

/-- What follows the loop, `phono3py/conductivity/rta.py:1101-1121`. -/
def rtaFinish {K : Type} (s : RtaSettings) (w : RtaWorld K)
    (z : RtaState K × List (RtaPut K) × Bool) : RtaTrace K :=
  if z.2.2 then { puts := z.2.1, outcome := .raised }
  else if s.points = none ∧ allBands s = true then
    { puts := z.2.1 ++ if s.writeKappa then kappaPuts (rtaStore s w s.outName) z.1.widths else []
      outcome := .result { state := z.1, kappa := some (rtaKappa s w z.1) } }
  else { puts := z.2.1, outcome := .result { state := z.1, kappa := none } }

/-- The loop and what follows, from the arrays `st` (phono3py/conductivity/rta.py:1078-1121). -/
def rtaGo {K : Type} (s : RtaSettings) (w : RtaWorld K) (st : RtaState K) : RtaTrace K :=
  rtaFinish s w (rtaLoop s w (rtaStore s w s.outName) (rtaPoints s w).zipIdx st)

/-- What is done with the result of `set_gamma_from_file`
(`phono3py/conductivity/rta.py:1073-1076`). -/
def rtaAfterRead {K : Type} [Zero K] (s : RtaSettings) (w : RtaWorld K) :
    Option (Option (Linewidths K)) → RtaTrace K
  | none => { puts := [], outcome := .raised }
  | some none => { puts := [], outcome := .failed }
  | some (some v) => rtaGo s w (rtaTake (rtaInit s) v)

/-- `get_thermal_conductivity_RTA`, `phono3py/conductivity/rta.py:1005-1121`, in the directory
`d`. -/
def rtaRun {K : Type} [Zero K] (s : RtaSettings) (w : RtaWorld K) (d : Disk (KappaFile K)) :
    RtaTrace K :=
  if s.readGamma then rtaAfterRead s w (setGammaFromFile (rtaStore s w s.inName) d)
  else rtaGo s w (rtaInit s)

/-- The directory after files were written (phono3py/file_IO.py:893-946). -/
def putAll {K : Type} (d : Disk (KappaFile K)) (l : List (RtaPut K)) : Disk (KappaFile K) :=
  l.foldl (fun (d : Disk (KappaFile K)) (p : RtaPut K) => d.put p.1 p.2) d

/-- The directory after a run that was killed when it had written `n` files, or has ended if it does
not write more (phono3py/conductivity/rta.py:1078-1119). A kill while a file is being written is not
modelled. -/
def rtaKilled {K : Type} [Zero K] (s : RtaSettings) (w : RtaWorld K) (n : Nat)
    (d : Disk (KappaFile K)) : Disk (KappaFile K) := putAll d ((rtaRun s w d).puts.take n)

/-- Several runs one after the other, each killed after some number of files
(phono3py/conductivity/rta.py:1005-1121). -/
def rtaRuns {K : Type} [Zero K] (w : RtaWorld K) (l : List (RtaSettings × Nat))
    (d : Disk (KappaFile K)) : Disk (KappaFile K) :=
  l.foldl (fun (d : Disk (KappaFile K)) (p : RtaSettings × Nat) => rtaKilled p.1 w p.2 d) d

end Phono3py
