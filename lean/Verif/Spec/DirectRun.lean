import Verif.Model.DirectRun
import Verif.Spec.StoredGamma

/-!
# Direct solutions put together from several runs
-/

namespace Phono3py.Spec

open Phono3py

variable {K : Type}

/-- The same calculation over the whole mesh, computed at the temperatures `ts` and storing nothing. -/
def computed (s : DirSettings) (ts : List ℚ) : DirSettings :=
  { s with source := .compute ts none, writeCollision := false, writeSolution := false }

/-- Two results agree in everything an object offers for the mesh: temperatures, conductivity,
linewidths, collision matrix and isotope linewidths. -/
structure SameDirect (s : DirSettings) (w : DirWorld K) (x y : DirResult K) : Prop where
  /-- Temperatures. -/
  temps : x.state.temps = y.state.temps
  /-- Conductivities. -/
  kappa : x.kappa = y.kappa
  /-- Linewidths. -/
  gamma : ∀ j < s.sigmas.length, ∀ t < y.state.temps.length, ∀ i < dirPlaces s w,
    ∀ b < s.bands.length, x.state.data.gamma j t i b = y.state.data.gamma j t i b
  /-- Collision matrices. -/
  colmat : ∀ j < s.sigmas.length, ∀ t < y.state.temps.length, ∀ i < dirPlaces s w,
    ∀ b < s.bands.length, ∀ row, List.Forall₂ (· < ·) row (w.rowDims s.reducible) →
      x.state.data.colmat j t i b row = y.state.data.colmat j t i b row
  /-- Isotope linewidths. -/
  iso : x.state.iso = y.state.iso

/-- A mesh: different grid points have different positions within range. -/
structure MeshOK (s : DirSettings) (w : DirWorld K) : Prop where
  /-- Positions in the mesh. -/
  place_lt : s.reducible = true → ∀ gp ∈ w.meshPoints, w.gridIndex gp < w.numMesh
  /-- They are different. -/
  place_inj : s.reducible = true → ∀ gp ∈ w.meshPoints, ∀ gp' ∈ w.meshPoints,
    w.gridIndex gp = w.gridIndex gp' → gp = gp'

/-- A run of the same calculation as `s` at the temperatures `ts` that leaves its files where `s` looks
for them: at any grid points and bands.  The file with everything is asked for only over the whole
mesh with all bands. -/
structure DirPiece (s : DirSettings) (ts : List ℚ) (p : DirSettings) : Prop where
  /-- Same mesh. -/
  mesh : p.mesh = s.mesh
  /-- Same cutoff of the smearing. -/
  cutoff : p.cutoff = s.cutoff
  /-- Same smearing widths. -/
  sigmas : p.sigmas = s.sigmas
  /-- Same number of bands. -/
  numBand : p.numBand = s.numBand
  /-- Same layout of the collision matrix. -/
  reducible : p.reducible = s.reducible
  /-- File names fit. -/
  name : p.outName = s.inName
  /-- The temperatures; data are computed. -/
  source : ∃ points, p.source = .compute ts points
  /-- The file with everything. -/
  solution : p.writeSolution = true → p.source.points = none ∧ dirAllBands p = true

/-- The run has come to its end: it wrote all its files. -/
def DirEnded [Zero K] (w : DirWorld K) (p : DirSettings × Nat) : Prop :=
  ∀ d, (dirRun p.1 w d).puts.length ≤ p.2

/-- Every grid point of the mesh has been done by the runs `l`: with all bands in one run, or band by
band, with files of grid points written in runs that came to their end. -/
def DirAllDone [Zero K] (w : DirWorld K) (numBand : Nat) (l : List (DirSettings × Nat)) : Prop :=
  ∀ gp ∈ w.meshPoints,
    (∃ p ∈ l, gp ∈ dirPoints p.1 w ∧ p.1.writeCollision = true ∧ dirAllBands p.1 = true ∧
      DirEnded w p) ∨
    ∀ b < numBand, ∃ p ∈ l, gp ∈ dirPoints p.1 w ∧ p.1.writeCollision = true ∧
      dirAllBands p.1 = false ∧ b ∈ p.1.bands ∧ DirEnded w p

end Phono3py.Spec
