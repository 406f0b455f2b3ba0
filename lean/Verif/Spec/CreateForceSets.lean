import Verif.Model.CreateForceSets
import Verif.Spec.Dataset

/-!
# Specification of collecting forces

`truth f` are the forces that the calculation with output file `f` gives. What the command should
store for a supercell is the forces of its own calculation, minus those of the perfect supercell if
a file with residual forces was given.
-/

namespace Phono3py

/-- Names of the files with fc3 forces: from the file with the list, or from the command line. -/
def fc3Names {M F V K P : Type} (r : CalcReaders M F V K P) (s : CollectSettings M F) : List F :=
  match s.forcesFc3File with
  | some f => r.names f
  | none => s.forcesFc3.getD []

/-- The calculator of the run: what phono3py_disp.yaml says, else the option. -/
def usedCalculator {M F V K : Type} (s : CollectSettings M F) (y : DispYaml M V K) : Option M :=
  match y.calculator with
  | some m => some m
  | none => s.calculator

/-- The file with residual forces for fc2: that of `--cfz-fc2`, else that of `--cfz`. -/
def residualFc2 {M F : Type} (s : CollectSettings M F) : Option F :=
  match s.subtractFc2 with
  | some f => some f
  | none => s.subtract

/-- Forces of a calculation minus the residual forces. -/
def netForces {F V : Type} [Sub V] (truth : F → List V) (residual : Option F) (f : F) : List V :=
  match residual with
  | none => truth f
  | some z => List.zipWith (fun a b => a - b) (truth f) (truth z)

/-- The parser for this calculator gives the forces of every file, in the order of the files, and
every file holds the forces of `natom` atoms. -/
structure ReadsForces {M F V K P : Type} (r : CalcReaders M F V K P) (mode : Option M)
    (natom : Nat) (truth : F → List V) : Prop where
  parse : ∀ files, (r.parse mode natom files).forces = files.map truth
  wien2k : ∀ files ds, (r.parseWien2k files ds).forces = files.map truth
  rows : ∀ f, (truth f).length = natom

/-- All files are there and the positions read from them, if any, are those of the supercells. -/
structure FilesFit {M F V K P : Type} (r : CalcReaders M F V K P) (mode : Option M) (natom : Nat)
    (ds : AnyDataset V K) (files : List F) (residual : Option F) : Prop where
  present : ∀ f ∈ files, r.fileExists f = true
  fit : ∀ p, (r.parse mode natom files).points = some p → r.displacedDiffer ds p files = false
  fitWien2k : ∀ p, (r.parseWien2k files ds).points = some p → r.displacedDiffer ds p files = false
  residualPresent : ∀ z, residual = some z → r.fileExists z = true
  residualFit : ∀ z p, residual = some z → (r.parse mode natom [z]).points = some p →
    r.perfectDiffers p = false

end Phono3py
