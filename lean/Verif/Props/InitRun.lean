/-
C179: which cells a run on the command line uses, and what the check against a yaml file assures.
-/
import Mathlib.Data.Rat.Defs
import Mathlib.Algebra.Field.Rat
import Mathlib.Data.Fin.VecNotation
import Mathlib.Algebra.Order.Ring.Rat
import Mathlib.Tactic.NormNum
import Verif.Spec.InitRun

namespace Phono3py.Props

open Phono3py.InitRun

section
variable {K X M : Type} [Field K]

theorem scale_inUnit (c : Cell K X) (d : K) : InUnit d c (c.scale d) := ⟨rfl, fun _ _ => rfl⟩

theorem InUnit_unique {c c' c'' : Cell K X} {d : K} (h : InUnit d c c') (h' : InUnit d c c'') :
    c' = c'' := by
  cases c'; cases c''
  obtain ⟨h1, h2⟩ := h
  obtain ⟨h3, h4⟩ := h'
  simp only [Cell.mk.injEq]
  exact ⟨funext fun i => funext fun j => (h2 i j).trans (h4 i j).symm, h1.trans h3.symm⟩

theorem scale_one (c : Cell K X) : c.scale 1 = c :=
  InUnit_unique (scale_inUnit c 1) ⟨rfl, fun _ _ => (mul_one _).symm⟩

/-- The unit cell in a run is the same with a factor of one in place of none. -/
theorem init_unitcell (t : CellTools K X M) (info : CellInfo K X M) (u : Option K) :
    initRun t info u = (makeCells t (info.unitcell.scale (u.getD 1)) info.matrix
      info.phononMatrix).bind fun r => if checkYaml t info.yaml r (some (u.getD 1)) then some r
        else none := by
  cases u with
  | none => simp only [Option.getD_none, scale_one]; rfl
  | some d => rfl

/-- C179: a run that starts has the unit cell of the file with its lengths in angstrom; its supercell
is made from that cell with the matrix for fc3; its supercell for fc2 is made with the matrix given,
without it with the one in the yaml file, and without both it is the supercell for fc3. -/
theorem C179_cells (t : CellTools K X M) (cell : Cell K X) (m : M) (yaml : Option (YamlCells K X M))
    (given : Option M) (u : Option K) (r : RunCells K X)
    (h : startRun t (some (cell, m, yaml)) given u = some r) :
    InUnit (u.getD 1) cell r.unitcell ∧ r.supercell = t.build r.unitcell m ∧
      (∀ mp, given = some mp → r.phononSupercell = t.build r.unitcell mp) ∧
      (∀ y mp, given = none → yaml = some y → y.phononMatrix = some mp →
        r.phononSupercell = t.build r.unitcell mp) ∧
      (given = none → (∀ y, yaml = some y → y.phononMatrix = none) →
        r.phononSupercell = r.supercell) := by
  simp only [startRun, getCellInfo, Option.bind_eq_bind, Option.bind_some, Option.pure_def,
    init_unitcell, Option.bind_eq_some_iff] at h
  obtain ⟨r', hr, h⟩ := h
  split at h <;> cases h
  have key : ∀ o : Option M, makeCells t (cell.scale (u.getD 1)) m o = some r →
      r.unitcell = cell.scale (u.getD 1) ∧ r.supercell = t.build r.unitcell m ∧
      (∀ mp, o = some mp → r.phononSupercell = t.build r.unitcell mp) ∧
      (o = none → r.phononSupercell = r.supercell) := by
    intro o ho
    cases o with
    | none => cases ho; exact ⟨rfl, rfl, by simp, fun _ => rfl⟩
    | some mp =>
      simp only [makeCells] at ho
      split at ho <;> cases ho
      refine ⟨rfl, rfl, ?_, by simp⟩
      intro mp' hmp; cases hmp; rfl
  obtain ⟨k1, k2, k3, k4⟩ := key _ hr
  refine ⟨k1 ▸ scale_inUnit cell _, k2, ?_, ?_, ?_⟩
  · rintro mp rfl; exact k3 mp rfl
  · rintro y mp rfl rfl hy; exact k3 mp hy
  · rintro rfl hy
    apply k4
    cases yaml with
    | none => rfl
    | some y => exact hy y rfl

/-- C179: in a run that starts with a matrix for fc2, given or in the yaml file, the primitive cells of
both supercells have the same atoms. -/
theorem C179_primitive (t : CellTools K X M) (cell : Cell K X) (m mp : M)
    (yaml : Option (YamlCells K X M)) (given : Option M) (u : Option K) (r : RunCells K X)
    (h : startRun t (some (cell, m, yaml)) given u = some r)
    (hm : given = some mp ∨ given = none ∧ ∃ y, yaml = some y ∧ y.phononMatrix = some mp) :
    t.numbers r.supercell m = t.numbers r.phononSupercell mp := by
  have e : phononMatrixOf given yaml = some mp := by
    rcases hm with rfl | ⟨rfl, y, rfl, hy⟩
    · rfl
    · exact hy
  simp only [startRun, getCellInfo, Option.bind_eq_bind, Option.bind_some, Option.pure_def,
    init_unitcell, Option.bind_eq_some_iff] at h
  obtain ⟨r', hr, h⟩ := h
  split at h <;> cases h
  rw [e] at hr
  simp only [makeCells] at hr
  split at hr
  · cases hr
  · rename_i hne
    cases hr
    exact not_not.mp hne

/-- C179: whatever supercells a yaml file has, those of a run that starts are close to them when they
are in angstrom, also when a matrix for fc2 is given; a run whose cells are not close does not start. -/
theorem C179_checked (t : CellTools K X M) (cell : Cell K X) (m : M) (y : YamlCells K X M)
    (given : Option M) (u : Option K) (r : RunCells K X)
    (h : startRun t (some (cell, m, some y)) given u = some r) (c c' : Cell K X) :
    (y.supercell = some c → InUnit (u.getD 1) c c' → t.isclose c' r.supercell = true) ∧
      (y.phononSupercell = some c → InUnit (u.getD 1) c c' →
        t.isclose c' r.phononSupercell = true) := by
  simp only [startRun, getCellInfo, Option.bind_eq_bind, Option.bind_some, Option.pure_def,
    init_unitcell, Option.bind_eq_some_iff] at h
  obtain ⟨r', hr, h⟩ := h
  split at h
  · rename_i hc
    cases h
    simp only [checkYaml, Bool.and_eq_true] at hc
    obtain ⟨h1, h2⟩ := hc
    constructor
    · intro hs hu
      rw [hs] at h1
      rw [InUnit_unique hu (scale_inUnit c _)]
      exact h1
    · intro hs hu
      rw [hs] at h2
      rw [InUnit_unique hu (scale_inUnit c _)]
      exact h2
  · cases h

/-- C179: a file that agrees with its own unit cell is accepted with whatever unit of length, if no
other matrix for fc2 is given and the primitive cells for fc3 and fc2 have the same atoms. -/
theorem C179_own_file (t : CellTools K X M) (hb : UnitFree (K := K) t)
    (hn : NumbersUnitFree (K := K) t) (hrefl : ∀ c, t.isclose c c = true) (cell : Cell K X) (m : M)
    (y : YamlCells K X M) (hy : OwnCells t cell m y)
    (hp : ∀ mp, y.phononMatrix = some mp →
      t.numbers (t.build cell m) m = t.numbers (t.build cell mp) mp)
    (given : Option M) (hg : given = none ∨ given = y.phononMatrix) (u : Option K) :
    ∃ r, startRun t (some (cell, m, some y)) given u = some r := by
  have hg' : phononMatrixOf given (some y) = y.phononMatrix := by
    rcases hg with rfl | rfl
    · rfl
    · unfold phononMatrixOf
      cases h : y.phononMatrix <;> simp [h]
  have hs : ∀ m', (t.build cell m').scale (u.getD 1) = t.build (cell.scale (u.getD 1)) m' :=
    fun m' => InUnit_unique (scale_inUnit _ _) (hb _ _ _ _ (scale_inUnit _ _))
  have hnum : ∀ m', t.numbers (t.build (cell.scale (u.getD 1)) m') m' = t.numbers (t.build cell m') m' :=
    fun m' => hn _ _ _ _ (hb _ _ _ _ (scale_inUnit _ _))
  simp only [startRun, getCellInfo, Option.bind_eq_bind, Option.bind_some, Option.pure_def,
    init_unitcell]
  obtain ⟨r, hr, hr1, hr2⟩ : ∃ r, makeCells t (cell.scale (u.getD 1)) m y.phononMatrix = some r ∧
      r.supercell = t.build (cell.scale (u.getD 1)) m ∧
      ∀ mp, y.phononMatrix = some mp → r.phononSupercell = t.build (cell.scale (u.getD 1)) mp := by
    cases hm : y.phononMatrix with
    | none => exact ⟨_, rfl, rfl, by simp⟩
    | some mp =>
      refine ⟨⟨cell.scale (u.getD 1), t.build (cell.scale (u.getD 1)) m,
        t.build (cell.scale (u.getD 1)) mp⟩, ?_, rfl, by rintro _ h; cases h; rfl⟩
      simp only [makeCells]
      rw [if_neg]
      rw [hnum, hnum]
      exact fun hne => hne (hp mp hm)
  refine ⟨r, ?_⟩
  rw [hg', hr, Option.bind_some, if_pos]
  simp only [checkYaml, Bool.and_eq_true]
  constructor
  · cases hc : y.supercell with
    | none => rfl
    | some c =>
      simp only
      rw [hy.1 c hc, hs, hr1]
      exact hrefl _
  · cases hc : y.phononSupercell with
    | none => rfl
    | some c =>
      obtain ⟨mp, hmp, rfl⟩ := hy.2 c hc
      simp only
      rw [hs, hr2 mp hmp]
      exact hrefl _

/-- C179: the check does not see a wrong unit of length. A file with lengths in angstrom is accepted
as well by a run for a calculator with another unit, and all lattices of the run are then larger by
the factor `d`. -/
theorem C179_unit_not_checked (t : CellTools K X M) (hb : UnitFree (K := K) t)
    (hn : NumbersUnitFree (K := K) t) (hrefl : ∀ c, t.isclose c c = true) (cell : Cell K X) (m : M)
    (y : YamlCells K X M) (hy : OwnCells t cell m y)
    (hp : ∀ mp, y.phononMatrix = some mp →
      t.numbers (t.build cell m) m = t.numbers (t.build cell mp) mp) (d : K) :
    ∃ r r', startRun t (some (cell, m, some y)) none none = some r ∧
      startRun t (some (cell, m, some y)) none (some d) = some r' ∧
      InUnit d r.unitcell r'.unitcell ∧ InUnit d r.supercell r'.supercell := by
  obtain ⟨r, hr⟩ := C179_own_file t hb hn hrefl cell m y hy hp none (Or.inl rfl) none
  obtain ⟨r', hr'⟩ := C179_own_file t hb hn hrefl cell m y hy hp none (Or.inl rfl) (some d)
  obtain ⟨a1, a2, -⟩ := C179_cells t cell m _ _ _ _ hr
  obtain ⟨b1, b2, -⟩ := C179_cells t cell m _ _ _ _ hr'
  have e : r.unitcell = cell := by
    rw [InUnit_unique a1 (scale_inUnit cell _)]; exact scale_one cell
  have hu : InUnit d r.unitcell r'.unitcell := by rw [e]; exact b1
  exact ⟨r, r', hr, hr', hu, a2 ▸ b2 ▸ hb _ _ _ _ hu⟩

end

/-- C179: `--io` is the name for both files, whatever `-i` and `-o` are; without it each file has its
own option. -/
theorem C179_names {S : Type} (a : NameArgs S) (s : S) :
    (a.inputOutput = some s → namesFromArgs a = (some s, some s)) ∧
      (a.inputOutput = none → namesFromArgs a = (a.input, a.output)) := by
  constructor <;> intro h <;> simp [namesFromArgs, h]

/-- Diagonal supercells, atoms counted, and equality of cells up to a tenth in each component. -/
def exampleCellTools : CellTools ℚ Nat Nat where
  build := fun c m => ⟨fun i j => c.lattice i j * m, c.rest * m ^ 3⟩
  numbers := fun c m => [c.rest / m ^ 3]
  isclose := fun a b => decide (a.rest = b.rest ∧ ∀ i j, a.lattice i j - b.lattice i j < 1 / 10 ∧
    b.lattice i j - a.lattice i j < 1 / 10)

/-- A cubic cell with two atoms. -/
def exampleUnit : Cell ℚ Nat := ⟨fun i j => if i = j then 5 else 0, 2⟩

/-- Its yaml file, with a larger supercell for fc2. -/
def exampleYamlCells : YamlCells ℚ Nat Nat :=
  ⟨some (exampleCellTools.build exampleUnit 2), some (exampleCellTools.build exampleUnit 3), some 3⟩

example : UnitFree exampleCellTools ∧ NumbersUnitFree exampleCellTools ∧
    (∀ c, exampleCellTools.isclose c c = true) ∧ OwnCells exampleCellTools exampleUnit 2 exampleYamlCells ∧
    (∀ mp, exampleYamlCells.phononMatrix = some mp →
      exampleCellTools.numbers (exampleCellTools.build exampleUnit 2) 2 =
        exampleCellTools.numbers (exampleCellTools.build exampleUnit mp) mp) := by
  refine ⟨?_, ?_, ?_, ⟨?_, ?_⟩, ?_⟩
  · rintro c c' m d ⟨h1, h2⟩
    refine ⟨by simp [exampleCellTools, h1], fun i j => ?_⟩
    simp only [exampleCellTools, h2]
    exact mul_right_comm _ _ _
  · rintro c c' m d ⟨h1, h2⟩
    simp [exampleCellTools, h1]
  · intro c
    simp [exampleCellTools]
  · intro c h; cases h; rfl
  · intro c h; cases h; exact ⟨3, rfl, rfl⟩
  · intro mp h; cases h; decide +kernel

example : (startRun exampleCellTools (some (exampleUnit, 2, some exampleYamlCells)) none
    (some (1 / 2))).isSome = true := by decide +kernel

/-- Another matrix for fc2 than in the file, or another supercell for fc3: the run does not start. -/
example : (startRun exampleCellTools (some (exampleUnit, 2, some exampleYamlCells)) (some 4)
    none).isSome = false ∧
    (startRun exampleCellTools (some (exampleUnit, 1, some exampleYamlCells)) none none).isSome = false := by
  decide +kernel

end Phono3py.Props
