import Verif.Model.RtaRun
import Verif.Spec.StoredGamma

/-!
# Conductivities put together from several runs
-/

namespace Phono3py.Spec

open Phono3py

variable {K : Type}

/-- A run over the whole mesh and all bands that stores no single grid points. -/
structure Whole (s : RtaSettings) : Prop where
  /-- No grid points are asked for. -/
  points : s.points = none
  /-- All bands. -/
  bands : s.bands = List.range s.numBand
  /-- No files of single grid points. -/
  writeGamma : s.writeGamma = false

/-- The linewidths of the whole mesh and all bands at the temperatures `ts`. -/
def trueWidths (s : RtaSettings) (w : RtaWorld K) (ts : List ℚ) : Linewidths K where
  gamma j t i b := w.gamma (s.sigmas.getD j none) (ts.getD t 0) (w.meshPoints.getD i 0) b
  nu := if s.isNU then
      some (fun j t i b => w.gammaN (s.sigmas.getD j none) (ts.getD t 0) (w.meshPoints.getD i 0) b,
        fun j t i b => w.gammaU (s.sigmas.getD j none) (ts.getD t 0) (w.meshPoints.getD i 0) b)
    else none

/-- A run of the same calculation as `s`, but at the temperatures `ts`, that leaves its files where
`s` looks for them: at any grid points and bands, or, from stored linewidths, over the whole mesh. -/
structure PieceOf (s : RtaSettings) (w : RtaWorld K) (ts : List ℚ) (p : RtaSettings) : Prop where
  /-- Same mesh. -/
  mesh : p.mesh = s.mesh
  /-- Same cutoff of the smearing. -/
  cutoff : p.cutoff = s.cutoff
  /-- Same smearing widths. -/
  sigmas : p.sigmas = s.sigmas
  /-- The temperatures. -/
  temps : p.temps = ts
  /-- Same number of bands. -/
  numBand : p.numBand = s.numBand
  /-- Parts of the linewidths are asked for in both or neither. -/
  isNU : p.isNU = s.isNU
  /-- File names fit. -/
  name : p.outName = s.inName
  /-- With isotope scattering and a selection of bands, compression is off. -/
  isotope : p.isIsotope = true → allBands p = true ∨ p.compress = false
  /-- A summary is not asked for on a mesh with a single (irreducible) point. -/
  one : p.writeKappa = true → w.meshPoints.length ≠ 1
  /-- A run that reads is over the whole mesh and reads the same files. -/
  read : p.readGamma = true → Whole p ∧ p.inName = s.inName

/-- Two results agree in everything an object offers for the mesh: linewidths, their parts, isotope
linewidths and the conductivity. -/
structure SameResult (s : RtaSettings) (w : RtaWorld K) (x y : RtaResult K) : Prop where
  /-- Conductivities. -/
  kappa : x.kappa = y.kappa
  /-- Linewidths and parts. -/
  widths : SameLinewidths (rtaStore s w s.inName) y.state.widths x.state.widths
  /-- Parts are there in both or in neither (given that there is something to compare). -/
  parts : y.state.widths.nu = none → x.state.widths.nu = none
  /-- Isotope linewidths. -/
  iso : x.state.iso.isSome = y.state.iso.isSome ∧ ∀ a a', x.state.iso = some a → y.state.iso = some a' →
    ∀ j < s.sigmas.length, ∀ i < w.meshPoints.length, ∀ b < s.numBand, a j i b = a' j i b

/-- The run has come to its end: it wrote all its files. -/
def Ended [Zero K] (w : RtaWorld K) (p : RtaSettings × Nat) : Prop :=
  ∀ d, (rtaRun p.1 w d).puts.length ≤ p.2

/-- Every grid point of the mesh has been done by the runs `l`: with all bands in one run, or band by
band, with files of grid points written in runs that came to their end and are not of the
Green-Kubo kind. -/
def AllDone [Zero K] (w : RtaWorld K) (numBand : Nat) (l : List (RtaSettings × Nat)) : Prop :=
  ∀ gp ∈ w.meshPoints,
    (∃ p ∈ l, gp ∈ rtaPoints p.1 w ∧ p.1.writeGamma = true ∧ p.1.kind ≠ .kubo ∧ allBands p.1 = true ∧
      Ended w p) ∨
    ∀ b < numBand, ∃ p ∈ l, gp ∈ rtaPoints p.1 w ∧ p.1.writeGamma = true ∧ p.1.kind ≠ .kubo ∧
      allBands p.1 = false ∧ b ∈ p.1.bands ∧ Ended w p

end Phono3py.Spec
