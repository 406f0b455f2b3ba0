import Verif.Spec.MlpRun
import Verif.Props.ApiData
import Mathlib.Data.List.Perm.Basic

/-!
# C165: force constants from a machine-learning potential
-/

namespace Phono3py.Props

open Phono3py Phono3py.Spec

variable {Pot D M C X F2 F3 : Type}

/-! ### The potential -/

theorem readPot_saved (fs : PotFiles Pot) (n : List Char) (p : Pot)
    (hn : (fs.map Prod.fst).Nodup) (h : (n, some p) ∈ fs) : readPot fs n = some p := by
  induction fs with
  | nil => cases h
  | cons f fs ih =>
    rw [List.map_cons, List.nodup_cons] at hn
    unfold readPot
    rw [List.find?_cons]
    rcases List.mem_cons.1 h with h | h
    · rw [← h]
      simp
    · have hne : f.1 ≠ n := by
        intro he
        exact hn.1 (List.mem_map.2 ⟨_, h, he.symm⟩)
      have : (f.1 == n) = false := by simpa using hne
      rw [this]
      exact ih hn.2 h

theorem tryPot_saved (fs : PotFiles Pot) (p : Pot) (h : Saved fs p) :
    tryPot fs polymlpName = some (some p) := by
  unfold tryPot
  cases hf : fs.find? (fun f => polymlpName.isPrefixOf f.1) with
  | none =>
    have := List.find?_eq_none.1 hf _ h.file
    simp at this
  | some f =>
    have h1 := List.find?_some hf
    have h2 := List.mem_of_find?_eq_some hf
    simp only [h.others f h2 (List.isPrefixOf_iff_prefix.1 h1), if_true,
      readPot_saved fs polymlpName p h.names h.file, Option.map_some]

theorem findPot_saved (fs : PotFiles Pot) (p : Pot) (h : Saved fs p) :
    findPot fs = some (some p) := by
  simp only [findPot, tryPot_saved fs p h, Option.bind_some]

/-- **C165**. If `polymlp.yaml` holds a potential, it is used, whatever training data there are and
in whatever order the directory lists its files. -/
theorem C165_saved_partial (e : MlpEnv Pot D) (fs : PotFiles Pot) (p : Pot) (h : Saved fs p)
    (training : Option D) : getPot e fs training = some (p, fs) := by
  simp only [getPot, findPot_saved fs p h, Option.bind_some]

theorem tryPot_none (fs : PotFiles Pot) (n : List Char) (h : ∀ f ∈ fs, ¬ n <+: f.1) :
    tryPot fs n = some none := by
  have : fs.find? (fun f => n.isPrefixOf f.1) = none := by
    rw [List.find?_eq_none]
    intro f hf hp
    exact h f hf (List.isPrefixOf_iff_prefix.1 hp)
  simp only [tryPot, this]

theorem findPot_none (fs : PotFiles Pot) (h : NoPotential fs) : findPot fs = some none := by
  simp only [findPot, tryPot_none fs _ (fun f hf => (h f hf).1), Option.bind_some,
    tryPot_none fs _ (fun f hf => (h f hf).2)]

/-- **C165**. Without a potential file one is trained on the dataset and written to `polymlp.yaml`;
without forces in the dataset the run ends with an error. -/
theorem C165_trained (e : MlpEnv Pot D) (fs : PotFiles Pot) (h : NoPotential fs)
    (hc : ∀ d, e.complete d = true → e.hasForces d = true) (ds training : Option D)
    (ht : takeTraining e ds = some training) :
    (∀ d, ds = some d → ∃ fs', getPot e fs training = some (e.train d, fs') ∧
        (polymlpName, some (e.train d)) ∈ fs' ∧
        ∀ f, f.1 ≠ polymlpName → (f ∈ fs' ↔ f ∈ fs)) ∧
      (ds = none → getPot e fs training = none) := by
  cases ds with
  | none =>
    simp only [takeTraining, Option.some.injEq] at ht
    subst ht
    refine ⟨fun d hd => (nomatch hd), fun _ => ?_⟩
    simp only [getPot, findPot_none fs h, Option.bind_some]
  | some d =>
    simp only [takeTraining] at ht
    split at ht
    · rename_i hcd
      rw [Option.some.injEq] at ht
      subst ht
      refine ⟨?_, by intro hd; cases hd⟩
      intro d' hd'
      rw [Option.some.injEq] at hd'
      subst hd'
      refine ⟨writePot fs polymlpName (e.train d), ?_, by simp [writePot], ?_⟩
      · simp only [getPot, findPot_none fs h, Option.bind_some, hc d hcd, if_true]
      · intro f hf
        simp only [writePot, List.mem_cons, List.mem_filter, bne_iff_ne, ne_eq]
        constructor
        · rintro (h1 | h1)
          · exact absurd (by rw [h1]) hf
          · exact h1.1
        · exact fun h1 => Or.inr ⟨h1, hf⟩
    · cases ht

theorem saved_perm {fs fs' : PotFiles Pot} {p : Pot} (h : Saved fs p) (hp : fs.Perm fs') :
    Saved fs' p :=
  ⟨(hp.map _).nodup_iff.1 h.names, hp.mem_iff.1 h.file,
    fun f hf => h.others f (hp.mem_iff.2 hf)⟩

theorem saved_of_trained (e : MlpEnv Pot D) (fs : PotFiles Pot) (hn : (fs.map Prod.fst).Nodup)
    (h : NoPotential fs) (d : D) : Saved (writePot fs polymlpName (e.train d)) (e.train d) := by
  refine ⟨?_, by simp [writePot], ?_⟩
  · simp only [writePot, List.map_cons, List.nodup_cons, List.mem_map, List.mem_filter]
    refine ⟨?_, (hn.sublist (List.Sublist.map _ List.filter_sublist))⟩
    rintro ⟨f, ⟨-, hf⟩, he⟩
    simp [he] at hf
  · intro f hf hp
    simp only [writePot, List.mem_cons, List.mem_filter] at hf
    rcases hf with hf | hf
    · rw [hf]
      show pathSuffix polymlpName ∈ mlpSuffixes
      decide +kernel
    · exact absurd hp (h f hf.1).1

/-- What may happen to the files between two runs in a directory: they are listed in another order,
and other runs with or without training data are made. -/
inductive LaterRuns (e : MlpEnv Pot D) (g : DispMakers M C D X) (fs : PotFiles Pot) :
    PotFiles Pot → Prop where
  | start : LaterRuns e g fs fs
  | listed {a b : PotFiles Pot} : LaterRuns e g fs a → a.Perm b → LaterRuns e g fs b
  | run {a b : PotFiles Pot} (matrix : Option M) (o : MlpOptions) (ds pds : Option D)
      (r : MlpEnd D) : LaterRuns e g fs a → mlpBlock e g matrix o a ds pds = some (r, b) →
      LaterRuns e g fs b

theorem laterRuns_saved (e : MlpEnv Pot D) (g : DispMakers M C D X) (fs fs' : PotFiles Pot) (p : Pot)
    (h : Saved fs p) (hl : LaterRuns e g fs fs') : Saved fs' p := by
  induction hl with
  | start => exact h
  | listed _ hp ih => exact saved_perm ih hp
  | @run a b matrix o ds pds r _ hr ih =>
    simp only [mlpBlock, Option.bind_eq_some_iff] at hr
    obtain ⟨t, -, q, hq, hr⟩ := hr
    rw [C165_saved_partial e a p ih t, Option.some.injEq] at hq
    subst hq
    split at hr
    · simp only [Option.map_eq_some_iff, Prod.mk.injEq] at hr
      obtain ⟨_, -, -, hb⟩ := hr
      exact hb ▸ ih
    · simp only [Option.some.injEq, Prod.mk.injEq] at hr
      exact hr.2 ▸ ih

theorem mlpDataset_asked (g : DispMakers M C D X) (o : MlpOptions) :
    mlpDataset g o = askedMlp g o := by
  unfold askedMlp mlpDataset makeFc3 wantsRandom snapshotCount askedSnapshots
  rcases o.rd with _ | ⟨_ | n⟩
  · simp
  · simp [Int.mul_comm]
  · by_cases hp : 0 < n
    · simp [hp]
    · simp [hp]

/-- **C165**. All later runs in a directory use the potential that the first one trained, and the
dataset they go on with consists of the displacements asked for with the forces of that potential. -/
theorem C165_one_potential (e : MlpEnv Pot D) (g : DispMakers M C D X) (fs fs1 fs2 fs3 : PotFiles Pot)
    (hn : (fs.map Prod.fst).Nodup) (hnone : NoPotential fs) (matrix matrix' : Option M)
    (o o' : MlpOptions) (d : D) (ds pds pds' : Option D) (r : MlpEnd D)
    (h1 : mlpBlock e g matrix o fs (some d) pds = some (r, fs1)) (hl : LaterRuns e g fs1 fs2)
    (x : D) (px : Option D)
    (h2 : mlpBlock e g matrix' o' fs2 ds pds' = some (.dataset x px, fs3)) :
    e.evaluate (e.train d) (askedMlp g o') = some x ∧ fs3 = fs2 := by
  have hs1 : Saved fs1 (e.train d) := by
    simp only [mlpBlock, Option.bind_eq_some_iff] at h1
    obtain ⟨t, ht, q, hq, hr⟩ := h1
    have hq2 : q.2 = fs1 := by
      split at hr
      · simp only [Option.map_eq_some_iff, Prod.mk.injEq] at hr
        obtain ⟨_, -, -, hb⟩ := hr
        exact hb
      · simp only [Option.some.injEq, Prod.mk.injEq] at hr
        exact hr.2
    simp only [takeTraining] at ht
    split at ht
    · rw [Option.some.injEq] at ht
      subst ht
      simp only [getPot, findPot_none fs hnone, Option.bind_some] at hq
      split at hq
      · rw [Option.some.injEq] at hq
        rw [← hq2, ← hq]
        exact saved_of_trained e fs hn hnone d
      · cases hq
    · cases ht
  have hs2 := laterRuns_saved e g fs1 fs2 _ hs1 hl
  simp only [mlpBlock, Option.bind_eq_some_iff] at h2
  obtain ⟨t, -, q, hq, hr⟩ := h2
  rw [C165_saved_partial e fs2 _ hs2 t, Option.some.injEq] at hq
  subst hq
  split at hr
  · simp only [Option.map_eq_some_iff, Prod.mk.injEq, MlpEnd.dataset.injEq] at hr
    obtain ⟨y, hy, ⟨hyx, -⟩, hfs⟩ := hr
    refine ⟨?_, hfs.symm⟩
    rw [← hyx, ← hy, mlpDataset_asked]
  · simp at hr

/-! ### The force constants -/

/-- **C165**. Without files of force constants and without a supercell for fc2, fc3 and fc2 are those
calculated from the displacements asked for and the forces of the potential; the training data are
not used for anything else than the potential. -/
theorem C165_force_constants_partial (e : MlpEnv Pot D) (l : LoadEnv F2 F3 D) (g : DispMakers M C D X)
    (o : MlpOptions) (fs fs' : PotFiles Pot) (dir : Directory F2 F3 D) (ds : Option D)
    (h3 : dir "fc3.hdf5" = none) (h2 : dir "fc2.hdf5" = none) (hm : l.phononMatrix = false)
    (v3 : F3) (v2 : F2)
    (h : mlpCommand e l g none o fs dir ds none = some (some (v3, v2), fs')) :
    ∃ training p d, takeTraining e ds = some training ∧ getPot e fs training = some (p, fs') ∧
      e.evaluate p (askedMlp g o) = some d ∧ (l.solve3 d).map Prod.snd = some v3 ∧
      l.solve2 d = some v2 := by
  simp only [mlpCommand, mlpBlock, Option.bind_eq_some_iff] at h
  obtain ⟨r, ⟨t, ht, p, hp, hr⟩, h⟩ := h
  split at hr
  · simp only [Option.map_eq_some_iff] at hr
    obtain ⟨d, hd, hr⟩ := hr
    subst hr
    simp only [mlpPhononDataset, Option.map_eq_some_iff, Prod.mk.injEq, Option.some.injEq] at h
    obtain ⟨v, hv, ⟨hv3, hv2⟩, hfs⟩ := h
    refine ⟨t, p.1, d, ht, by rw [hp, ← hfs], by rw [← mlpDataset_asked]; exact hd, ?_⟩
    simp only [storeForceConstants, loadFc3, loadFc2, h3, h2, Option.bind_some, computeForceConstants,
      computeFc3, Option.isSome_none, Option.bind_eq_some_iff] at hv
    obtain ⟨s, ⟨s1, hs1, hs⟩, hv⟩ := hv
    split at hs1
    · simp only [hm, Option.map_eq_some_iff] at hs1
      obtain ⟨w, hw, hs1⟩ := hs1
      subst hs1
      rename_i hf
      simp only [computeFc2, hm, LoadEnv.usable, hf, Option.map_eq_some_iff] at hs
      simp only [Bool.not_false, Bool.true_and, Bool.or_eq_true, Bool.false_and, Bool.false_eq_true,
        or_false, if_true, if_false, Option.map_eq_some_iff] at hs
      rw [if_pos hf, Option.map_eq_some_iff] at hs
      obtain ⟨u, hu, hs⟩ := hs
      rw [← hs] at hv
      simp only [Option.some.injEq] at hv
      subst hv
      exact ⟨by rw [hw]; simpa using hv3, by rw [hu]; simpa using hv2⟩
    · rename_i hf
      rw [Option.some.injEq] at hs1
      subst hs1
      simp only [computeFc2, hm, LoadEnv.usable, hf] at hs
      simp at hs
      subst hs
      simp at hv
  · rw [Option.some.injEq] at hr
    subst hr
    simp at h

/-! ### The forces -/

variable {V K : Type} [AddMonoid V] {MM : Type}

theorem energies_pairs (s : ApiData V K MM) (d : DispDataset V K) (hd : s.dataset = some (.type1 d))
    (es : List K) (hl : es.length = (displacedCells d).length) :
    ∃ d', setEnergiesApi s es = ({ s with dataset := some (.type1 d') }, false) ∧
      displacedCells d' = displacedCells d := by
  rw [displacedCells_length] at hl
  let put1 : K → Disp1 V K → Disp1 V K := fun v d1 => { d1 with energy := some v }
  let put2 : K → Disp2 V K → Disp2 V K := fun v d2 => { d2 with energy := some v }
  have h1 := assignFirst_long put1 d.first es (by omega)
  have hsum : ∀ (l : List (Disp1 V K)) (vs : List K), l.length ≤ vs.length →
      ((List.zipWith (fun d v => put1 v d) l vs).map fun d => d.second.length) =
        l.map fun d => d.second.length := by
    intro l
    induction l with
    | nil => intro vs _; rfl
    | cons x l ih =>
      intro vs h
      cases vs with
      | nil => simp at h
      | cons v vs => simp only [List.zipWith_cons_cons, List.map_cons, ih vs (by simpa using h)]; rfl
  have hk : ∀ {β : Type} (f : Disp1 V K → β) (hf : ∀ v d, f (put1 v d) = f d)
      (l : List (Disp1 V K)) (vs : List K), l.length ≤ vs.length →
      (List.zipWith (fun d v => put1 v d) l vs).map f = l.map f := by
    intro β f hf l
    induction l with
    | nil => intro vs _; rfl
    | cons x l ih =>
      intro vs h
      cases vs with
      | nil => simp at h
      | cons v vs => simp only [List.zipWith_cons_cons, List.map_cons, ih vs (by simpa using h), hf]
  let w := List.zipWith (fun d v => put1 v d) d.first es
  have hw := hsum d.first es (by omega)
  have h2 : ¬ (assignPairs put2 w (es.drop d.first.length)).2 = none := by
    rw [assignPairs_none, hw, List.length_drop]
    omega
  obtain ⟨e1, e2⟩ := assignPairs_value put2
    (fun d1 d2 => (⟨d2.id, d2.included.getD true,
      fun k => oneAtom d1.number d1.displacement k + oneAtom d2.number d2.displacement k,
      d2.forces⟩ : Displaced V))
    (fun c _ => c)
    (fun d1 => (⟨d1.id, true, oneAtom d1.number d1.displacement, d1.forces⟩ : Displaced V))
    (fun _ _ _ => rfl) (fun _ _ _ => rfl) (fun _ _ => rfl) w (es.drop d.first.length)
    (by rw [hw, List.length_drop]; omega)
  refine ⟨{ d with first := (assignPairs put2 w (es.drop d.first.length)).1 }, ?_, ?_⟩
  · have hn : (assignPairs put2 w (es.drop d.first.length)).2.isNone = false := by
      rw [← Bool.not_eq_true, Option.isNone_iff_eq_none]
      exact h2
    unfold setEnergiesApi
    rw [hd]
    simp only [assignValues]
    rw [show assignFirst (fun (v : K) (d1 : Disp1 V K) => { d1 with energy := some v }) d.first es =
      (w, some (es.drop d.first.length)) from h1]
    simp only
    rw [show (assignPairs (fun (v : K) (d2 : Disp2 V K) => { d2 with energy := some v }) w
      (es.drop d.first.length)).2.isNone = false from hn]
  · unfold displacedCells
    simp only
    rw [e1, e2]
    have e3 := hk (fun d1 => (⟨d1.id, true, oneAtom d1.number d1.displacement, d1.forces⟩ :
      Displaced V)) (fun _ _ => rfl) d.first es (by omega)
    rw [e3]
    congr 1
    have hz : ∀ {α β : Type} (l : List α) (vs : List β), l.length ≤ vs.length →
        List.zipWith (fun c _ => c) l vs = l := by
      intro α β l
      induction l with
      | nil => intro vs _; rfl
      | cons x l ih =>
        intro vs h
        cases vs with
        | nil => simp at h
        | cons v vs => simp only [List.zipWith_cons_cons, ih vs (by simpa using h)]
    rw [hz]
    · rw [List.flatMap_def, List.flatMap_def]
      congr 1
      exact hk (fun d1 => d1.second.map fun d2 => (⟨d2.id, d2.included.getD true,
        fun k => oneAtom d1.number d1.displacement k + oneAtom d2.number d2.displacement k,
        d2.forces⟩ : Displaced V)) (fun _ _ => rfl) d.first es (by omega)
    · have hw' : (w.map fun d => d.second.length).sum = (d.first.map fun d => d.second.length).sum := by
        rw [hw]
      simp only [List.length_flatMap, List.length_map, List.length_drop, hw']
      omega

/-- **C165**. Evaluating a dataset of pairs gives every displaced supercell the forces that the
potential has for this supercell, the perfect one moved by its displacements. -/
theorem C165_forces_pairs (c : ApiCells V) (m : MM) (energy : Option (MovedCell V MM) → K)
    (forces : Option (MovedCell V MM) → List V) (d : DispDataset V K) :
    ∃ d', evaluateCells c m energy forces (.type1 d) = some (.type1 d') ∧
      displacedCells d' =
        (displacedCells d).map (fun x => { x with forces := some (forces (cellOf c.pos m x)) }) := by
  let cs : List (Option (MovedCell V MM)) := (displacedCells d).map (cellOf c.pos m)
  have hb : (buildSupercells c.pos d).map (fun p => p.map fun (x : Nat → V) =>
      (⟨x, m⟩ : MovedCell V MM)) = cs := by
    rw [C48_supercells, List.map_map]
    apply List.map_congr_left
    intro x _
    simp only [Function.comp_apply, cellOf]
    split <;> rfl
  let s0 : ApiData V K MM := ⟨m, some (.type1 d), some cs, none, none⟩
  have hr : readCells c (⟨m, some (.type1 d), none, none, none⟩ : ApiData V K MM) = (s0, some cs) := by
    simp only [readCells, Option.bind_some, buildCells, hb]
    rfl
  obtain ⟨d1, h1, h2⟩ := energies_pairs s0 d rfl (cs.map energy) (by simp [cs])
  let s1 : ApiData V K MM := { s0 with dataset := some (.type1 d1) }
  have h3 := C123_type1 c s1 d1 rfl (cs.map forces)
  have hok : (dataStep c s1 (.setForces (cs.map forces))).2 = false := by
    rw [← Bool.not_eq_true, h3.1, h2]
    simp [cs]
  obtain ⟨d', h4, h5⟩ := h3.2 hok
  refine ⟨d', ?_, ?_⟩
  · have h6 : setForcesApi s1 (cs.map forces) = (dataStep c s1 (.setForces (cs.map forces))) := rfl
    simp only [evaluateCells, evaluateMlp, hr, thenStep, h1]
    show (if (setForcesApi s1 (cs.map forces)).2 = true then none
      else (setForcesApi s1 (cs.map forces)).1.dataset) = _
    rw [h6, hok]
    simpa using h4
  · rw [h5, h2]
    simp only [cs, List.map_map, List.zipWith_map_right]
    generalize displacedCells d = xs
    induction xs with
    | nil => rfl
    | cons x xs ih =>
      simp only [List.zipWith_cons_cons, List.map_cons, Function.comp_apply, List.cons.injEq, true_and]
      exact ih

/-- **C165**. The same for displacements of all atoms. -/
theorem C165_forces_all (c : ApiCells V) (m : MM) (energy : Option (MovedCell V MM) → K)
    (forces : Option (MovedCell V MM) → List V) (d : DispDataset2 V K) (D : List (List V))
    (hd : d.displacements = some D) :
    ∃ E, evaluateCells c m energy forces (.type2 d) = some (.type2 ⟨some D,
      some (D.map fun v => forces (some ⟨fun k => c.pos k + v.getD k 0, m⟩)), E⟩) := by
  refine ⟨some (D.map fun v => energy (some ⟨fun k => c.pos k + v.getD k 0, m⟩)), ?_⟩
  simp [evaluateCells, evaluateMlp, readCells, buildCells, hd, thenStep, setEnergiesApi, setEnergies2,
    setForcesApi, setForces2, Function.comp_def]

/-! ### What fails -/

/-- **C165**, what fails. With `polymlp.yaml` at hand and a yaml file that has displacements but no
forces the run must use the potential (the documentation says so); it ends with an error. -/
theorem C165_displacements_only (e : MlpEnv Pot D) (g : DispMakers M C D X) (matrix : Option M)
    (o : MlpOptions) (fs : PotFiles Pot) (p : Pot) (_h : Saved fs p) (d : D) (pds : Option D)
    (hd : e.complete d = false) : mlpBlock e g matrix o fs (some d) pds = none := by
  simp [mlpBlock, takeTraining, hd]

/-- **C165**, what fails. If a file whose name goes on after `polymlp.yaml`, such as a backup, is
listed first, the potential is not used: a new one is trained and written over it. -/
theorem C165_backup (e : MlpEnv Pot D) (fs : PotFiles Pot) (p : Pot) (n : List Char)
    (c : Option Pot) (hn : polymlpName <+: n) (hs : pathSuffix n ∉ mlpSuffixes)
    (hp : ∀ f ∈ (n, c) :: fs, ¬ pmlpName <+: f.1) (d : D) (hd : e.hasForces d = true)
    (_h : (polymlpName, some p) ∈ fs) :
    getPot e ((n, c) :: fs) (some d) =
      some (e.train d, writePot ((n, c) :: fs) polymlpName (e.train d)) ∧
    ((polymlpName, some p) ∈ writePot ((n, c) :: fs) polymlpName (e.train d) → p = e.train d) := by
  constructor
  · have hb : polymlpName.isPrefixOf n = true := List.isPrefixOf_iff_prefix.2 hn
    have h1 : tryPot ((n, c) :: fs) polymlpName = some none := by
      simp only [tryPot, List.find?_cons, hb, hs, if_false]
    simp only [getPot, findPot, h1, Option.bind_some, tryPot_none _ _ hp, hd, if_true]
  · intro hm
    simp only [writePot, List.mem_cons, Prod.mk.injEq, true_and, Option.some.injEq,
      List.mem_filter] at hm
    rcases hm with hm | hm
    · exact hm
    · simp at hm

/-- **C165**, what fails. A compressed potential is found, but the run asks for the file without the
suffix of the compression and ends with an error. -/
theorem C165_compressed (e : MlpEnv Pot D) (fs : PotFiles Pot) (n : List Char) (c : Option Pot)
    (hn : polymlpName <+: n) (hs : pathSuffix n ∈ mlpSuffixes)
    (hne : ∀ f ∈ (n, c) :: fs, f.1 ≠ polymlpName) (training : Option D) :
    getPot e ((n, c) :: fs) training = none := by
  have h1 : tryPot ((n, c) :: fs) polymlpName = none := by
    have hr : readPot ((n, c) :: fs) polymlpName = none := by
      have : ((n, c) :: fs).find? (fun f => f.1 == polymlpName) = none := by
        rw [List.find?_eq_none]
        intro f hf
        simpa using hne f hf
      simp only [readPot, this, Option.bind_none]
    have hb : polymlpName.isPrefixOf n = true := List.isPrefixOf_iff_prefix.2 hn
    simp only [tryPot, List.find?_cons, hb, hs, if_true, hr, Option.map_none]
  simp only [getPot, findPot, h1, Option.bind_none]

/-- **C165**, what fails. With a supercell for fc2 and no forces for it the potential is not used for
fc2, although it could be: the run ends with an error after all forces for fc3 were calculated. -/
theorem C165_no_fc2 (e : MlpEnv Pot D) (l : LoadEnv F2 F3 D) (g : DispMakers M C D X) (matrix : M)
    (o : MlpOptions) (ho : o.prepares = true) (fs : PotFiles Pot) (dir : Directory F2 F3 D)
    (ds : Option D) (h2 : dir "fc2.hdf5" = none) (hm : l.phononMatrix = true)
    (hg : ∀ dist pm, l.hasForces (makeFc2 g (some matrix) dist pm false none none) = false) :
    mlpCommand e l g (some matrix) o fs dir ds none = none := by
  rw [Option.eq_none_iff_forall_ne_some]
  intro x h
  simp only [mlpCommand, mlpBlock, ho, if_true, Option.bind_eq_some_iff] at h
  obtain ⟨r, ⟨t, -, p, -, hr⟩, h⟩ := h
  simp only [Option.map_eq_some_iff] at hr
  obtain ⟨d, -, hr⟩ := hr
  subst hr
  simp only [mlpPhononDataset, Option.isSome_some, if_true, Option.map_eq_some_iff] at h
  obtain ⟨v, hv, -⟩ := h
  have hu := hg (o.distance.getD (1 / 100)) .yes
  simp only [storeForceConstants, loadFc2, h2, Option.bind_eq_some_iff, computeForceConstants] at hv
  obtain ⟨fc3, -, fc2, hfc2, s, ⟨s1, hs1, hs⟩, hv⟩ := hv
  rw [Option.some.injEq] at hfc2
  subst hfc2
  have hs1' : s1.fc2 = none ∧
      s1.phononDataset = some (makeFc2 g (some matrix) (o.distance.getD (1 / 100)) .yes false none none) := by
    unfold computeFc3 at hs1
    split at hs1
    · split at hs1
      · simp only [hm, Option.map_eq_some_iff] at hs1
        obtain ⟨w, -, hs1⟩ := hs1
        subst hs1
        exact ⟨rfl, rfl⟩
      · rw [Option.some.injEq] at hs1
        subst hs1
        exact ⟨rfl, rfl⟩
    · rw [Option.some.injEq] at hs1
      subst hs1
      exact ⟨rfl, rfl⟩
  have hs' : s = s1 := by
    simp only [computeFc2, hm, hs1'.2, LoadEnv.usable, hu] at hs
    simpa using hs.symm
  rw [hs', hs1'.1] at hv
  simp at hv

/-- **C165**, what fails. Force constants of an earlier run are used instead of those of the
displacements and forces just made and written. -/
theorem C165_left_over (e : MlpEnv Pot D) (l : LoadEnv F2 F3 D) (g : DispMakers M C D X)
    (o : MlpOptions) (fs fs' : PotFiles Pot) (dir : Directory F2 F3 D) (ds pds : Option D)
    (matrix : Option M) (w3 : F3) (w2 : F2) (h3 : dir "fc3.hdf5" = some (.fc3 w3))
    (h2 : dir "fc2.hdf5" = some (.fc2 w2)) (r : F3 × F2)
    (h : mlpCommand e l g matrix o fs dir ds pds = some (some r, fs')) : r = (w3, w2) := by
  simp only [mlpCommand, Option.bind_eq_some_iff] at h
  obtain ⟨b, -, h⟩ := h
  split at h
  · simp at h
  · simp only [Option.map_eq_some_iff, Prod.mk.injEq, Option.some.injEq] at h
    obtain ⟨v, hv, hr, -⟩ := h
    simp only [storeForceConstants, loadFc3, loadFc2, h3, h2, Option.getD_none,
      Option.bind_eq_some_iff] at hv
    obtain ⟨a3, ha3, a2, ha2, s, hs, hv⟩ := hv
    split at ha3
    · split at ha2
      · rw [Option.some.injEq] at ha3 ha2
        subst ha3
        subst ha2
        simp only [computeForceConstants, computeFc3, computeFc2, Option.isSome_some, if_true,
          Option.bind_some, Option.some.injEq] at hs
        subst hs
        simp only [Option.some.injEq] at hv
        subst hv
        exact hr.symm
      · cases ha2
    · cases ha3

/-- **C165**, what fails. `phono3py.load(use_pypolymlp=True)` trains a potential on the forces of the
dataset but gives no fc3: displacements are not made and the dataset is put away. -/
theorem C165_load (e : MlpEnv Pot D) (l : LoadEnv F2 F3 D) (fs fs' : PotFiles Pot)
    (s t : Loaded F2 F3 D) (d : D) (hs : s.fc3 = none) (hd : s.dataset = some d)
    (hf : l.hasForces d = true) (h : loadWithMlp e l fs s = some (t, fs')) :
    t.fc3 = none ∧ t.dataset = none := by
  have hu : l.usable s.dataset = true := by rw [hd]; exact hf
  simp only [loadWithMlp, hs, hu, if_true, Option.bind_eq_some_iff, Option.map_eq_some_iff,
    Prod.mk.injEq] at h
  obtain ⟨_, -, q, -, u, h, ht, -⟩ := h
  subst ht
  simp only [computeForceConstants, computeFc3, hs, Option.bind_some, computeFc2] at h
  split at h
  · rw [Option.some.injEq] at h
    subst h
    exact ⟨rfl, rfl⟩
  · split at h
    · split at h
      · cases h
      · split at h
        · simp only [Option.map_eq_some_iff] at h
          obtain ⟨_, -, h⟩ := h
          subst h
          exact ⟨rfl, rfl⟩
        · cases h
    · rw [Option.some.injEq] at h
      subst h
      exact ⟨rfl, rfl⟩

/-! ## A concrete case -/

/-- Datasets are lists of numbers: displacement, then force and energy. The potential is the force of
the training data, and evaluating appends it. -/
def numberMlp : MlpEnv Nat (List Nat) where
  complete d := d.length == 3
  hasForces d := decide (2 ≤ d.length)
  train d := d.getD 1 0
  evaluate p d := some (d ++ [p, 0])

/-- Pairs are the displacement 1, single displacements 2, random ones their number. -/
def numberMakers : DispMakers Unit Unit (List Nat) Unit where
  supercell := ()
  phononSupercell := fun _ => ()
  pairs := fun _ _ _ _ _ => [1]
  singles := fun _ _ _ _ => [2]
  random := fun n _ _ _ _ => [n.toNat]
  estimate3 := fun _ _ => 5
  estimate2 := fun _ => 4
  moved := fun _ _ => []
  movedFc2 := fun _ _ => []

/-- Force constants are the datasets they come from. -/
def numberLoad : LoadEnv (List Nat) (List Nat) (List Nat) where
  hasForces d := decide (2 ≤ d.length)
  natomOf _ := none
  convert := none
  fc2Fits _ := true
  fc3Fits _ := true
  natom := 1
  pnatom := 1
  phononMatrix := false
  solve3 d := some (d, d)
  solve2 d := some d

/-- The hypotheses of `C165_one_potential` are met: a first run trains on force 7 and stops, a second
one with another training set makes ten random displacements with the forces of the first. -/
example : mlpBlock numberMlp numberMakers none ⟨false, none, none, none, none⟩ [] (some [3, 7, 1])
      none = some (.stopped, [(polymlpName, some 7)]) ∧
    mlpBlock numberMlp numberMakers none ⟨false, some .auto, none, none, none⟩
      [(polymlpName, some 7)] (some [3, 9, 1]) none =
      some (.dataset [10, 7, 0] none, [(polymlpName, some 7)]) :=
  ⟨rfl, rfl⟩

/-- The hypotheses of `C165_force_constants_partial` and `C165_saved_partial` are met. -/
example : mlpCommand numberMlp numberLoad numberMakers none ⟨true, none, none, none, none⟩
      [(polymlpName, some 7)] (fun _ => none) none none =
      some (some ([1, 7, 0], [1, 7, 0]), [(polymlpName, some 7)]) ∧
    Saved [(polymlpName, some 7)] 7 :=
  ⟨rfl, by simp, by simp, by decide +kernel⟩

/-- The hypotheses of `C165_backup` and `C165_compressed` are met by `polymlp.yaml.bak` and
`polymlp.yaml.xz`; a suffix `.lzma` is not accepted although the list names it. -/
example : polymlpName <+: polymlpName ++ ['.', 'b', 'a', 'k'] ∧
    pathSuffix (polymlpName ++ ['.', 'b', 'a', 'k']) ∉ mlpSuffixes ∧
    pathSuffix (polymlpName ++ ['.', 'x', 'z']) ∈ mlpSuffixes ∧
    pathSuffix (polymlpName ++ ['.', 'l', 'z', 'm', 'a']) ∉ mlpSuffixes ∧
    getPot numberMlp [(polymlpName ++ ['.', 'b', 'a', 'k'], none), (polymlpName, some 7)]
      (some [3, 9, 1]) = some (9, [(polymlpName, some 9),
        (polymlpName ++ ['.', 'b', 'a', 'k'], none)]) := by
  decide +kernel

end Phono3py.Props
