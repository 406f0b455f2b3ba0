import Verif.Model.CreateSupercells
import Verif.Spec.CreateSupercells

/-!
# C161: displacements of a run
-/

namespace Phono3py.Props

open Phono3py Spec

section
variable {M C D X : Type}

theorem usableSeed_is (s : Option Int) : IsSeed s (usableSeed s) := by
  intro t
  cases s with
  | none => simp [usableSeed]
  | some s =>
    unfold usableSeed
    by_cases h : 0 ≤ s ∧ s < 2 ^ 32
    · simp only [if_pos h, Option.some.injEq]
      constructor
      · rintro rfl; exact ⟨rfl, h⟩
      · rintro ⟨e, -⟩; exact e
    · simp only [if_neg h, Option.some.injEq]
      constructor
      · intro e; cases e
      · rintro ⟨rfl, h'⟩; exact absurd h' h

theorem makeFc3_asked (g : DispMakers M C D X) (o : DispOptions M) (d : ℚ) :
    makeFc3 g d o.cutoff o.pm o.diagonal o.rd o.seed = askedFc3 g o d (usableSeed o.seed) := by
  unfold makeFc3 askedFc3 askedSnapshots wantsRandom snapshotCount
  rcases o.rd with _ | _ | n
  · rfl
  · simp [mul_comm]
  · by_cases h : 0 < n <;> simp [h]

theorem makeFc2_asked (g : DispMakers M C D X) (o : DispOptions M) (m : M) (d : ℚ)
    (h : o.rdFc2 ≠ some .auto ∨ g.estimate2 (g.phononSupercell m) = g.estimate2 g.supercell) :
    makeFc2 g (some m) d o.pmFc2 false o.rdFc2 o.seed = askedFc2 g o m d (usableSeed o.seed) := by
  unfold makeFc2 askedFc2 askedSnapshots wantsRandom snapshotCount phononCell
  generalize o.rdFc2 = r at h
  rcases r with _ | _ | n
  · rfl
  · rcases h with h | h
    · simp at h
    · simp [h, mul_comm]
  · by_cases h' : 0 < n <;> simp [h']

theorem files_numbered (l : List X) : supercellFiles (l.map some) = numbered l := by
  unfold supercellFiles numbered
  rw [List.zipIdx_map, List.filterMap_map, ← List.filterMap_eq_map]
  rfl

/-- **C161 (fc3).** A run with any of the options has the displacements for fc3 that `--rd`, `--pm`,
`--amplitude` and `--cutoff-pair` ask for, and writes the supercells of that dataset, each under its
number in the dataset. -/
theorem C161_fc3 (g : DispMakers M C D X) (kind : CalcKind) (o : DispOptions M) (yaml : Option M)
    (h : o.create = true ∨ o.rd.isSome ∨ o.rdFc2.isSome) :
    ∃ w seed, displacementRun g kind o yaml = some w ∧ IsSeed o.seed seed ∧
      w.dataset = askedFc3 g o (o.distance.getD (defaultDistance kind)) seed ∧
      ∀ i x, (i, x) ∈ w.fc3Files ↔ 0 < i ∧ (g.moved g.supercell w.dataset)[i - 1]? = some (some x) := by
  refine ⟨createSupercells g kind o yaml, usableSeed o.seed, ?_, usableSeed_is _,
    makeFc3_asked g o _, ?_⟩
  · unfold displacementRun
    rw [if_pos]
    rcases h with h | h | h <;> simp [h]
  · intro i x
    show (i, x) ∈ supercellFiles (g.moved g.supercell (createSupercells g kind o yaml).dataset) ↔ _
    generalize g.moved g.supercell _ = l
    unfold supercellFiles
    simp only [List.mem_filterMap, Option.map_eq_some_iff, Prod.mk.injEq]
    constructor
    · rintro ⟨⟨c, k⟩, hk, y, hy, rfl, rfl⟩
      refine ⟨Nat.succ_pos _, ?_⟩
      simp only at hy
      rw [hy] at hk
      rw [Nat.add_sub_cancel]
      exact List.mem_zipIdx_iff_getElem?.mp hk
    · rintro ⟨h0, hl⟩
      exact ⟨(some x, i - 1), List.mem_zipIdx_iff_getElem?.mpr hl, x, rfl, by simp; omega, rfl⟩

/-- **C161 (nothing).** Without any of the options no displacements are made. -/
theorem C161_nothing (g : DispMakers M C D X) (kind : CalcKind) (o : DispOptions M)
    (yaml : Option M) (h : o.create = false ∧ o.rd = none ∧ o.rdFc2 = none) :
    displacementRun g kind o yaml = none := by
  unfold displacementRun
  rw [h.1, h.2.1, h.2.2]
  rfl

theorem run_eq (g : DispMakers M C D X) (kind : CalcKind) (o : DispOptions M) (yaml : Option M)
    (h : o.create = true ∨ o.rd.isSome ∨ o.rdFc2.isSome) :
    displacementRun g kind o yaml = some (createSupercells g kind o yaml) := by
  unfold displacementRun
  rw [if_pos]
  rcases h with h | h | h <;> simp [h]

/-- **C161 (fc2).** When the matrix of the supercell for fc2 is given by `--dim-fc2`, or `--rd-fc2` has
a number other than zero and the matrix is known from the input file, displacements for fc2 are those
that `--rd-fc2` and `--pm-fc2` ask for, and their supercells are written, numbered from one.  Partial:
not for `--rd-fc2 auto` (`C161_auto`), nor for a matrix known from the input file alone
(`C161_yaml_matrix`). -/
theorem C161_fc2_partial (g : DispMakers M C D X) (kind : CalcKind) (o : DispOptions M)
    (yaml : Option M) (m : M) (h : o.create = true ∨ o.rd.isSome ∨ o.rdFc2.isSome)
    (hm : o.phononMatrix = some m ∨
      o.phononMatrix = none ∧ yaml = some m ∧ ∃ n, o.rdFc2 = some (.number n) ∧ n ≠ 0)
    (ha : o.rdFc2 ≠ some .auto) :
    ∃ w seed ds, displacementRun g kind o yaml = some w ∧ IsSeed o.seed seed ∧
      ds = askedFc2 g o m (o.distance.getD (defaultDistance kind)) seed ∧
      w.phononDataset = some ds ∧
      w.fc2Files = numbered (g.movedFc2 (g.phononSupercell m) ds) := by
  have hmat : matrixInForce o yaml = some m := by
    unfold matrixInForce
    rcases hm with h | ⟨h, h', -⟩
    · rw [h]
    · rw [h, h']
  have hp : runFc2 g o (some m) (o.distance.getD (defaultDistance kind)) =
      some (askedFc2 g o m (o.distance.getD (defaultDistance kind)) (usableSeed o.seed)) := by
    unfold runFc2
    rw [if_pos, makeFc2_asked g o m _ (.inl ha)]
    rcases hm with h | ⟨-, -, n, hn, h0⟩
    · simp [h]
    · simp [hn, truthySnapshots, h0]
  refine ⟨_, usableSeed o.seed, _, run_eq g kind o yaml h, usableSeed_is _, rfl, ?_, ?_⟩
  · unfold createSupercells
    simp only [hmat]
    exact hp
  · unfold createSupercells
    simp only [hmat, hp]
    exact files_numbered _

/-- **C161 fails (automatic number).** `--rd-fc2 auto` takes the number of supercells estimated for the
supercell of fc3, not for that of fc2. -/
theorem C161_auto (g : DispMakers M C D X) (kind : CalcKind) (o : DispOptions M)
    (yaml : Option M) (m : M) (hm : matrixInForce o yaml = some m)
    (ha : o.rdFc2 = some .auto) :
    ∃ w, displacementRun g kind o yaml = some w ∧
      w.phononDataset = some (g.random (2 * g.estimate2 g.supercell) (g.phononSupercell m)
        (o.distance.getD (defaultDistance kind)) (o.pmFc2 == .yes) (usableSeed o.seed)) := by
  refine ⟨_, run_eq g kind o yaml (by simp [ha]), ?_⟩
  unfold createSupercells
  simp [hm, runFc2, ha, truthySnapshots, makeFc2, wantsRandom, snapshotCount, phononCell, mul_comm]

/-- **C161 fails (matrix from the input file).** With the matrix for fc2 known from the input file and
without `--rd-fc2`, the displacements for fc2 go by `--pm`; `--pm-fc2` does nothing. -/
theorem C161_yaml_matrix (g : DispMakers M C D X) (kind : CalcKind) (o : DispOptions M) (m : M)
    (h : o.create = true ∨ o.rd.isSome) (hm : o.phononMatrix = none) (hr : o.rdFc2 = none) :
    (∃ w, displacementRun g kind o (some m) = some w ∧
      w.phononDataset = some (g.singles (g.phononSupercell m) o.pm false
        (o.distance.getD (defaultDistance kind)))) ∧
    ∀ pm', displacementRun g kind { o with pmFc2 := pm' } (some m) =
      displacementRun g kind o (some m) := by
  refine ⟨⟨_, run_eq g kind o _ (h.imp_right .inl), ?_⟩, fun pm' => ?_⟩
  · unfold createSupercells
    simp [matrixInForce, hm, runFc2, hr, truthySnapshots, makeFc2, wantsRandom, phononCell]
  · simp [displacementRun, createSupercells, matrixInForce, runFc2, hm, hr, truthySnapshots]

/-- **C161 fails (no matrix).** `--rd-fc2` without a matrix for fc2 puts displacements for fc2 into the
file of displacements and writes no supercell for them. -/
theorem C161_no_matrix (g : DispMakers M C D X) (kind : CalcKind) (o : DispOptions M)
    (hm : o.phononMatrix = none) (hr : truthySnapshots o.rdFc2 = true) :
    ∃ w ds, displacementRun g kind o none = some w ∧ w.phononDataset = some ds ∧ w.fc2Files = [] := by
  have hs : o.rdFc2.isSome := by
    rcases h : o.rdFc2 with _ | s
    · simp [h, truthySnapshots] at hr
    · rfl
  refine ⟨_, makeFc2 g none (o.distance.getD (defaultDistance kind)) o.pmFc2 false o.rdFc2 o.seed,
    run_eq g kind o none (.inr (.inr hs)), ?_, ?_⟩
  · unfold createSupercells runFc2
    simp only [matrixInForce, hm, hr, Bool.true_or, if_true]
  · unfold createSupercells
    simp [matrixInForce, hm]

/-- **C161 (default distance).** Without `--amplitude`, a run is that with a distance of 0.06 for programs
that use atomic units (Quantum ESPRESSO, Abinit, Turbomole), and of 0.03 for others. -/
theorem C161_default_distance (g : DispMakers M C D X) (kind : CalcKind) (o : DispOptions M)
    (yaml : Option M) (h : o.distance = none) :
    displacementRun g kind o yaml = displacementRun g kind { o with
      distance := some (if kind = .qe ∨ kind = .abinit ∨ kind = .turbomole then 6 / 100 else 3 / 100) }
      yaml := by
  unfold displacementRun createSupercells
  simp only [h, Option.getD_none, Option.getD_some]
  cases kind <;> rfl

end

/-! ### Examples -/

/-- What was asked of the makers. -/
inductive Asked where
  | pairs (cell : Nat) (pm : PlusMinus) (diagonal : Bool) (distance : ℚ)
  | singles (cell : Nat) (pm : PlusMinus) (distance : ℚ)
  | random (n : Int) (cell : Nat) (both : Bool) (seed : Option Int)
  deriving DecidableEq

/-- Cells are numbers of atoms; matrices are factors. -/
def writtenDown : DispMakers Nat Nat Asked (Asked × Nat) where
  supercell := 16
  phononSupercell m := 2 * m
  pairs c pm diag d _ := .pairs c pm diag d
  singles c pm _ d := .singles c pm d
  random n c _ both seed := .random n c both seed
  estimate3 c _ := c
  estimate2 c := 1000 / c
  moved _ a := [some (a, 0), none, some (a, 1)]
  movedFc2 _ a := [(a, 0)]

/-- `-d` with a matrix for fc2 and `--pm-fc2`. -/
def plainOptions : DispOptions Nat where
  create := true
  rd := none
  rdFc2 := none
  pm := .auto
  pmFc2 := .yes
  diagonal := true
  distance := none
  cutoff := none
  seed := some (-1)
  phononMatrix := some 64

example : displacementRun writtenDown .qe plainOptions none = some
    { dataset := .pairs 16 .auto true (6 / 100)
      phononDataset := some (.singles 128 .yes (6 / 100))
      fc3Files := [(1, (.pairs 16 .auto true (6 / 100), 0)), (3, (.pairs 16 .auto true (6 / 100), 1))]
      fc2Files := [(1, (.singles 128 .yes (6 / 100), 0))] } := rfl

/-- The matrix in the input file: `--pm-fc2` is not looked at. -/
example : (displacementRun writtenDown .other { plainOptions with phononMatrix := none } (some 64)).map
    (fun w => w.phononDataset) = some (some (.singles 128 .auto (3 / 100))) ∧
    askedFc2 writtenDown plainOptions 64 (3 / 100) none = .singles 128 .yes (3 / 100) := ⟨rfl, rfl⟩

/-- Automatic number: 124 snapshots instead of 14. -/
example : (displacementRun writtenDown .other { plainOptions with rdFc2 := some .auto } none).map
    (fun w => w.phononDataset) = some (some (.random 124 128 true none)) ∧
    askedFc2 writtenDown { plainOptions with rdFc2 := some .auto } 64 (3 / 100) none =
      .random 14 128 true none := ⟨rfl, rfl⟩

/-- `--rd-fc2` alone. -/
example : (displacementRun writtenDown .other { plainOptions with
      create := false, rdFc2 := some (.number 5), phononMatrix := none } none).map
    (fun w => (w.phononDataset, w.fc2Files)) = some (some (.random 5 16 true none), []) := rfl

/-- The default distance: `C161_default_distance` for Abinit. -/
example : displacementRun writtenDown .abinit plainOptions none =
    displacementRun writtenDown .abinit { plainOptions with distance := some (6 / 100) } none :=
  C161_default_distance writtenDown .abinit plainOptions none rfl

end Phono3py.Props
