/-
Start of a run on the command line: names of files, the crystal structure, its unit of length, the
cells for fc3 and fc2 and the check of these cells against those in a yaml file
(phono3py/cui/phono3py_script.py:307-516, phono3py/api_phono3py.py:232-256, 2391-2421).

Simplifications. `double` is a field `K`. A cell is the lattice and `X`, everything that does not
depend on the unit of length (scaled positions, species, masses, moments). What comes from phonopy is
a parameter: `collect_cell_info` is its outcome, `get_supercell` a function of a cell and a matrix,
`cells_isclose` a relation, and of a primitive cell only its atomic numbers are kept. Magnetic
moments are part of `X`. Messages on the screen are left out.
-/
import Mathlib.Algebra.Field.Defs
import Mathlib.Tactic.TypeStar

namespace Phono3py.InitRun

/-- Options `-i`, `-o` and `--io` (phono3py/cui/phono3py_script.py:307-330). -/
structure NameArgs (S : Type) where
  /-- `-i`. -/
  input : Option S
  /-- `-o`. -/
  output : Option S
  /-- `--io`. -/
  inputOutput : Option S

/-- `get_input_output_filenames_from_args`, phono3py/cui/phono3py_script.py:307-330: the strings in the
names of files read and written. -/
def namesFromArgs {S : Type} (a : NameArgs S) : Option S × Option S :=
  match a.inputOutput with
  | some s => (some s, some s)
  | none => (a.input, a.output)

/-- A crystal structure; `cell.cell` is `lattice` (phono3py/cui/phono3py_script.py:481-485). -/
structure Cell (K X : Type) where
  /-- `cell.cell`. -/
  lattice : Fin 3 → Fin 3 → K
  /-- What does not depend on the unit of length. -/
  rest : X

/-- `cell.cell = cell.cell * d` on a copy of the cell, phono3py/cui/phono3py_script.py:448-449,
481-485. -/
def Cell.scale {K X : Type} [Mul K] (c : Cell K X) (d : K) : Cell K X :=
  { c with lattice := fun i j => c.lattice i j * d }

/-- What is used of a yaml file read as crystal structure (phono3py/cui/phono3py_script.py:355-359,
437-471). -/
structure YamlCells (K X M : Type) where
  /-- `supercell`. -/
  supercell : Option (Cell K X)
  /-- `phonon_supercell`. -/
  phononSupercell : Option (Cell K X)
  /-- `phonon_supercell_matrix`. -/
  phononMatrix : Option M

/-- `cell_info` (phono3py/cui/phono3py_script.py:338-361). -/
structure CellInfo (K X M : Type) where
  /-- `unitcell`. -/
  unitcell : Cell K X
  /-- `supercell_matrix`. -/
  matrix : M
  /-- `phonon_supercell_matrix`. -/
  phononMatrix : Option M
  /-- `phonopy_yaml`, `None` when the structure is in a file of a calculator. -/
  yaml : Option (YamlCells K X M)

/-- `cell_info["phonon_supercell_matrix"]`, phono3py/cui/phono3py_script.py:355-359. -/
def phononMatrixOf {K X M : Type} (given : Option M) (yaml : Option (YamlCells K X M)) : Option M :=
  match given, yaml with
  | some m, _ => some m
  | none, some y => y.phononMatrix
  | none, none => none

/-- `get_cell_info`, phono3py/cui/phono3py_script.py:334-361. `collected` is what `collect_cell_info`
returns, `none` when it has an error message, which ends the run; `given` is the setting for the
supercell of fc2. -/
def getCellInfo {K X M : Type} (collected : Option (Cell K X × M × Option (YamlCells K X M)))
    (given : Option M) : Option (CellInfo K X M) := do
  let (unitcell, matrix, yaml) ← collected
  pure { unitcell, matrix, phononMatrix := phononMatrixOf given yaml, yaml }

/-- What phonopy does with cells: `get_supercell` (phono3py/api_phono3py.py:2402-2406), the atomic
numbers of the primitive cell of a supercell with its matrix
(phono3py/api_phono3py.py:2387-2389, 2412-2416) and `cells_isclose`
(phono3py/cui/phono3py_script.py:450, 464). -/
structure CellTools (K X M : Type) where
  /-- `get_supercell`. -/
  build : Cell K X → M → Cell K X
  /-- `_get_primitive_cell(...).numbers`. -/
  numbers : Cell K X → M → List Nat
  /-- `cells_isclose`. -/
  isclose : Cell K X → Cell K X → Bool

/-- The cells of a `Phono3py` object (phono3py/api_phono3py.py:250-256). -/
structure RunCells (K X : Type) where
  /-- `unitcell`. -/
  unitcell : Cell K X
  /-- `supercell`. -/
  supercell : Cell K X
  /-- `phonon_supercell`. -/
  phononSupercell : Cell K X

/-- Cells made in `Phono3py.__init__`, `_build_phonon_supercell` and `_build_phonon_primitive_cell`,
phono3py/api_phono3py.py:250-256, 2391-2421; `none` is the error when the primitive cells differ. -/
def makeCells {K X M : Type} (t : CellTools K X M) (unitcell : Cell K X) (matrix : M)
    (phononMatrix : Option M) : Option (RunCells K X) :=
  let supercell := t.build unitcell matrix
  match phononMatrix with
  | none => some ⟨unitcell, supercell, supercell⟩
  | some m =>
    let phononSupercell := t.build unitcell m
    if t.numbers supercell matrix ≠ t.numbers phononSupercell m then none
    else some ⟨unitcell, supercell, phononSupercell⟩

/-- `check_supercell_in_yaml`, phono3py/cui/phono3py_script.py:437-471; `false` ends the run. -/
def checkYaml {K X M : Type} [Mul K] [One K] (t : CellTools K X M) (yaml : Option (YamlCells K X M))
    (r : RunCells K X) (distanceToA : Option K) : Bool :=
  match yaml with
  | none => true
  | some y =>
    let d2A := match distanceToA with | none => 1 | some d => d
    let first := match y.supercell with
      | none => true
      | some c => t.isclose (c.scale d2A) r.supercell
    let second := match y.phononSupercell with
      | none => true
      | some c => t.isclose (c.scale d2A) r.phononSupercell
    first && second

/-- `init_phono3py`, phono3py/cui/phono3py_script.py:474-516, as far as cells are concerned. -/
def initRun {K X M : Type} [Mul K] [One K] (t : CellTools K X M) (info : CellInfo K X M)
    (distanceToA : Option K) : Option (RunCells K X) := do
  let unitcell := match distanceToA with
    | none => info.unitcell
    | some d => info.unitcell.scale d
  let r ← makeCells t unitcell info.matrix info.phononMatrix
  if checkYaml t info.yaml r distanceToA then some r else none

/-- `get_cell_info` and then `init_phono3py`, phono3py/cui/phono3py_script.py:981, 1012-1014. -/
def startRun {K X M : Type} [Mul K] [One K] (t : CellTools K X M)
    (collected : Option (Cell K X × M × Option (YamlCells K X M))) (given : Option M)
    (distanceToA : Option K) : Option (RunCells K X) := do
  let info ← getCellInfo collected given
  initRun t info distanceToA

end Phono3py.InitRun
