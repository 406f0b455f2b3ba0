import Verif.Model.LoadForces
import Mathlib.Tactic.Common

/-!
# C136–C138: which force constants a run uses

* C136: the documented order of sources in `phono3py.load`.
* C137: runs of the `phono3py-load` command in one directory do not change the force constants that
  later runs use.
* C138: the `phono3py` command makes or reads the force constants it needs and keeps what it reads.
-/

namespace Phono3py.Props

variable {F2 F3 D : Type}

/-! ## Specification -/

/-- A forces file `f` read for the dataset `stored` of the yaml file gives the dataset `d`: the
contents of a file of type 2, or the stored dataset with the forces of a file of type 1. Units are
converted at the end. -/
def ForcesGive (e : LoadEnv F2 F3 D) (dir : Directory F2 F3 D) (stored : Option D) (f : String)
    (d : D) : Prop :=
  ∃ raw, (dir f = some (.forces2 raw) ∨
      ∃ fill x, dir f = some (.forces1 fill) ∧ stored = some x ∧ fill x = some raw) ∧
    d = (match e.convert with
      | none => raw
      | some c => c raw)

/-- fc3 is what the solver makes of a dataset with forces. -/
def SolvedFc3 (e : LoadEnv F2 F3 D) (d : D) (v : Option F3) : Prop :=
  e.hasForces d = true → ∃ r, e.solve3 d = some r ∧ v = some r.2

/-! ## C136 -/

theorem readForcesFile_gives {e : LoadEnv F2 F3 D} {dir : Directory F2 F3 D} {x : Option D}
    {f : String} {raw : D} (h : readForcesFile dir x (.name f) = some (some raw)) :
    dir f = some (.forces2 raw) ∨
      ∃ fill y, dir f = some (.forces1 fill) ∧ x = some y ∧ fill y = some raw := by
  simp only [readForcesFile] at h
  cases hf : dir f with
  | none => simp [hf] at h
  | some c =>
    cases c with
    | forces2 v => simp only [hf, Option.some.injEq] at h; subst h; exact Or.inl rfl
    | forces1 fill =>
      simp only [hf] at h
      cases hx : x with
      | none => simp [hx] at h
      | some y =>
        cases hy : fill y with
        | none => simp [hx, hy] at h
        | some z =>
          simp only [hx, Option.bind_some, hy, Option.map_some, Option.some.injEq] at h
          subst h
          exact Or.inr ⟨fill, y, rfl, rfl, hy⟩
    | fc2 v => simp [hf] at h
    | fc3 v => simp [hf] at h
    | broken => simp [hf] at h

/-- The end of `parseForces`: units and the number of atoms. -/
theorem finish_eq {e : LoadEnv F2 F3 D} {n : Nat} {x d : D}
    (h : (let x' := match e.convert with
        | none => x
        | some c => c x
      match e.natomOf x' with
      | none => some x'
      | some m => if m = n then some x' else none) = some d) :
    d = (match e.convert with
      | none => x
      | some c => c x) := by
  dsimp only at h
  split at h
  · exact (Option.some.inj h).symm
  · split at h
    · exact (Option.some.inj h).symm
    · simp at h

theorem parseForces_gives' {e : LoadEnv F2 F3 D} {dir : Directory F2 F3 D} {forFc3 : Bool}
    {yaml : Option (YamlSource D)} {f : String} {d : D}
    (hy : ∀ x, yaml.bind (extractDataset forFc3) = some x → e.hasForces x = false)
    (h : parseForces e dir forFc3 yaml (some (.name f)) = some d) :
    ForcesGive e dir (yaml.bind (extractDataset forFc3)) f d := by
  unfold parseForces at h
  dsimp only at h
  cases hs : yaml.bind (extractDataset forFc3) with
  | none =>
    simp only [hs] at h
    cases hr : readForcesFile dir (none : Option D) (.name f) with
    | none => simp [hr] at h
    | some o =>
      cases o with
      | none => simp [hr] at h
      | some raw =>
        simp only [hr, Option.bind_some] at h
        exact ⟨raw, readForcesFile_gives (e := e) hr, finish_eq h⟩
  | some x =>
    simp only [hs, hy x hs, Bool.false_eq_true, if_false] at h
    cases hr : readForcesFile dir (some x) (.name f) with
    | none => simp [hr] at h
    | some o =>
      cases o with
      | none => simp [hr] at h
      | some raw =>
        simp only [hr, Option.bind_some] at h
        exact ⟨raw, readForcesFile_gives (e := e) hr, finish_eq h⟩

theorem extractDataset_fc3 (yaml : Option (YamlSource D)) :
    yaml.bind (extractDataset true) = yaml.bind (fun y => y.dataset) := by
  cases yaml with
  | none => rfl
  | some y => simp [extractDataset]

theorem parseForces_gives {e : LoadEnv F2 F3 D} {dir : Directory F2 F3 D}
    {yaml : Option (YamlSource D)} {f : String} {d : D}
    (hy : ∀ x, yaml.bind (fun y => y.dataset) = some x → e.hasForces x = false)
    (h : parseForces e dir true yaml (some (.name f)) = some d) :
    ForcesGive e dir (yaml.bind (fun y => y.dataset)) f d := by
  rw [← extractDataset_fc3] at hy ⊢
  exact parseForces_gives' hy h

theorem selectDataset_file {e : LoadEnv F2 F3 D} {dir : Directory F2 F3 D}
    {yaml : Option (YamlSource D)} {arg : Option ForcesArg} {f : String} {o : Option D}
    (hy : ∀ x, yaml.bind (fun y => y.dataset) = some x → e.hasForces x = false)
    (hf : arg = some (.name f) ∨ arg = none ∧ f = "FORCES_FC3" ∧ (dir "FORCES_FC3").isSome)
    (h : selectDataset e dir yaml arg = some o) :
    ∃ d, o = some d ∧ ForcesGive e dir (yaml.bind (fun y => y.dataset)) f d := by
  have key : ∀ g : Option ForcesArg, g = some (ForcesArg.name f) →
      (match yaml.bind (fun y => y.dataset), g with
        | some d, some f =>
          if e.hasForces d then (parseForces e dir true yaml none).map some
          else (parseForces e dir true yaml (some f)).map some
        | some _, none => (parseForces e dir true yaml none).map some
        | none, some f => (parseForces e dir true yaml (some f)).map some
        | none, none => some none) = some o →
      ∃ d, o = some d ∧ ForcesGive e dir (yaml.bind (fun y => y.dataset)) f d := by
    intro g hg h
    subst hg
    cases hs : yaml.bind (fun y => y.dataset) with
    | none =>
      simp only [hs] at h
      rw [Option.map_eq_some_iff] at h
      obtain ⟨d, hd, rfl⟩ := h
      exact ⟨d, rfl, hs ▸ parseForces_gives hy hd⟩
    | some x =>
      simp only [hs, hy x hs, Bool.false_eq_true, if_false] at h
      rw [Option.map_eq_some_iff] at h
      obtain ⟨d, hd, rfl⟩ := h
      exact ⟨d, rfl, hs ▸ parseForces_gives hy hd⟩
  refine key _ ?_ h
  rcases hf with rfl | ⟨rfl, rfl, h2⟩
  · rfl
  · simp [h2]

theorem loadPhono3py_eq {e : LoadEnv F2 F3 D} {dir : Directory F2 F3 D}
    {yaml : Option (YamlSource D)} {a : LoadArgs} {s : Loaded F2 F3 D}
    (h : loadPhono3py e dir yaml a = some s) :
    ∃ fc3 fc2 ds pds, loadFc3 e dir a.fc3 = some fc3 ∧ loadFc2 e dir a.fc2 = some fc2 ∧
      selectDataset e dir yaml a.forcesFc3 = some ds ∧
      selectPhononDataset e dir yaml a.forcesFc2 = some pds ∧
      (if a.produce then computeForceConstants e ⟨fc3, fc2, ds, pds⟩
        else some ⟨fc3, fc2, ds, pds⟩) = some s := by
  unfold loadPhono3py at h
  simp only [Option.bind_eq_some_iff] at h
  obtain ⟨fc3, h1, fc2, h2, ds, h3, pds, h4, h5⟩ := h
  exact ⟨fc3, fc2, ds, pds, h1, h2, h3, h4, h5⟩

theorem computeFc2_keeps {e : LoadEnv F2 F3 D} {b : Bool} {s t : Loaded F2 F3 D}
    (h : computeFc2 e b s = some t) :
    t.fc3 = s.fc3 ∧ t.dataset = s.dataset ∧ t.phononDataset = s.phononDataset := by
  have key : ∀ o : Option F2, o.map (fun v => ({ s with fc2 := some v } : Loaded F2 F3 D)) = some t →
      t.fc3 = s.fc3 ∧ t.dataset = s.dataset ∧ t.phononDataset = s.phononDataset := by
    intro o ho
    rw [Option.map_eq_some_iff] at ho
    obtain ⟨v, -, rfl⟩ := ho
    exact ⟨rfl, rfl, rfl⟩
  have same : some s = some t →
      t.fc3 = s.fc3 ∧ t.dataset = s.dataset ∧ t.phononDataset = s.phononDataset := by
    intro hx; cases hx; exact ⟨rfl, rfl, rfl⟩
  unfold computeFc2 at h
  by_cases hb : b = true
  · rw [if_pos hb] at h
    exact same h
  · rw [if_neg hb] at h
    by_cases hc : ((!e.phononMatrix && e.usable s.dataset) ||
        (e.phononMatrix && e.usable s.phononDataset)) = true
    · rw [if_pos hc] at h
      cases hd : s.dataset <;> cases hp : s.phononDataset <;> simp only [hd, hp] at h
      · simp at h
      all_goals
        split at h
        · simp only [hd, hp] at key
          exact key _ h
        · simp at h
    · rw [if_neg hc] at h
      exact same h

theorem computeFc3_spec {e : LoadEnv F2 F3 D} {s t : Loaded F2 F3 D}
    (h : computeFc3 e s = some t) :
    t.dataset = s.dataset ∧ t.phononDataset = s.phononDataset ∧
      (∀ v, s.fc3 = some v → t.fc3 = some v) ∧ (∀ v, s.fc2 = some v → t.fc2 = some v) ∧
      (s.fc3 = none → ∀ d, s.dataset = some d → SolvedFc3 e d t.fc3) := by
  unfold computeFc3 at h
  split at h
  · rename_i d h3 hd
    split at h
    · rename_i hf
      rw [Option.map_eq_some_iff] at h
      obtain ⟨r, hr, rfl⟩ := h
      refine ⟨rfl, rfl, fun v hv => by simp [h3] at hv, fun v hv => by simp [hv], ?_⟩
      intro _ d' hd' _
      rw [hd, Option.some.injEq] at hd'
      subst hd'
      exact ⟨r, hr, rfl⟩
    · rename_i hf
      cases h
      refine ⟨rfl, rfl, fun _ h => h, fun _ h => h, ?_⟩
      intro _ d' hd' hf'
      rw [hd, Option.some.injEq] at hd'
      subst hd'
      exact absurd hf' hf
  · rename_i h3
    cases h
    refine ⟨rfl, rfl, fun _ h => h, fun _ h => h, ?_⟩
    intro hn d hd
    exact absurd hd (h3 d hn)

theorem computeForceConstants_spec {e : LoadEnv F2 F3 D} {s t : Loaded F2 F3 D}
    (h : computeForceConstants e s = some t) :
    t.dataset = s.dataset ∧ t.phononDataset = s.phononDataset ∧
      (∀ v, s.fc3 = some v → t.fc3 = some v) ∧
      (s.fc3 = none → ∀ d, s.dataset = some d → SolvedFc3 e d t.fc3) := by
  unfold computeForceConstants at h
  rw [Option.bind_eq_some_iff] at h
  obtain ⟨u, h1, h2⟩ := h
  obtain ⟨a1, a2, a3, -, a5⟩ := computeFc3_spec h1
  obtain ⟨b1, b2, b3⟩ := computeFc2_keeps h2
  exact ⟨b2.trans a1, b3.trans a2, fun v hv => by rw [b1]; exact a3 v hv,
    fun hn d hd => by rw [b1]; exact a5 hn d hd⟩

theorem loadFc3_none {e : LoadEnv F2 F3 D} {dir : Directory F2 F3 D} {arg : Option String}
    {o : Option F3} (h : loadFc3 e dir arg = some o) (h1 : arg = none) (h2 : dir "fc3.hdf5" = none) :
    o = none := by
  subst h1
  simp only [loadFc3, h2] at h
  exact (Option.some.inj h).symm

theorem loadFc3_some {e : LoadEnv F2 F3 D} {dir : Directory F2 F3 D} {arg : Option String}
    {o : Option F3} (h : loadFc3 e dir arg = some o) (h1 : arg.isSome ∨ (dir "fc3.hdf5").isSome) :
    ∃ v, dir (arg.getD "fc3.hdf5") = some (.fc3 v) ∧ o = some v := by
  unfold loadFc3 at h
  split at h
  · rename_i h3
    simp [h3] at h1
  · split at h
    · rename_i v hv
      split at h
      · exact ⟨v, hv, (Option.some.inj h).symm⟩
      · simp at h
    · simp at h

theorem loaded_result {e : LoadEnv F2 F3 D} {a : LoadArgs} {x s : Loaded F2 F3 D}
    (h : (if a.produce then computeForceConstants e x else some x) = some s) :
    s.dataset = x.dataset ∧ (∀ v, x.fc3 = some v → s.fc3 = some v) ∧
      (a.produce = true → x.fc3 = none → ∀ d, x.dataset = some d → SolvedFc3 e d s.fc3) := by
  split at h
  · obtain ⟨h1, -, h3, h4⟩ := computeForceConstants_spec h
    exact ⟨h1, h3, fun _ => h4⟩
  · rename_i hp
    cases h
    exact ⟨rfl, fun _ h => h, fun h => absurd h hp⟩

/-- **C136**, the part that holds. Without forces in phono3py.yaml, fc3 comes from the first of the
documented sources that exists: the file `fc3_filename`, the forces in `forces_fc3_filename`,
`fc3.hdf5`, the forces in `FORCES_FC3` — except that `fc3.hdf5` must not exist in the second case
(`C136_hdf5_first`). -/
theorem C136_priority_partial (e : LoadEnv F2 F3 D) (dir : Directory F2 F3 D)
    (yaml : Option (YamlSource D)) (a : LoadArgs) (s : Loaded F2 F3 D)
    (hy : ∀ x, yaml.bind (fun y => y.dataset) = some x → e.hasForces x = false)
    (hp : a.produce = true) (h : loadPhono3py e dir yaml a = some s) :
    (∀ f, a.fc3 = some f → ∃ v, dir f = some (.fc3 v) ∧ s.fc3 = some v) ∧
    (∀ f, a.fc3 = none → a.forcesFc3 = some (.name f) → dir "fc3.hdf5" = none →
      ∃ d, ForcesGive e dir (yaml.bind (fun y => y.dataset)) f d ∧ s.dataset = some d ∧
        SolvedFc3 e d s.fc3) ∧
    (∀ c, a.fc3 = none → a.forcesFc3 = none → dir "fc3.hdf5" = some c →
      ∃ v, c = .fc3 v ∧ s.fc3 = some v) ∧
    (a.fc3 = none → a.forcesFc3 = none → dir "fc3.hdf5" = none → (dir "FORCES_FC3").isSome →
      ∃ d, ForcesGive e dir (yaml.bind (fun y => y.dataset)) "FORCES_FC3" d ∧
        s.dataset = some d ∧ SolvedFc3 e d s.fc3) := by
  obtain ⟨fc3, fc2, ds, pds, h1, h2, h3, h4, h5⟩ := loadPhono3py_eq h
  obtain ⟨r1, r2, r3⟩ := loaded_result h5
  refine ⟨?_, ?_, ?_, ?_⟩
  · intro f hf
    obtain ⟨v, hv, ho⟩ := loadFc3_some h1 (Or.inl (by simp [hf]))
    rw [hf, Option.getD_some] at hv
    exact ⟨v, hv, r2 v ho⟩
  · intro f hn hf hd
    obtain ⟨d, rfl, hg⟩ := selectDataset_file hy (Or.inl hf) h3
    exact ⟨d, hg, r1, r3 hp (loadFc3_none h1 hn hd) d rfl⟩
  · intro c hn _ hc
    obtain ⟨v, hv, ho⟩ := loadFc3_some h1 (Or.inr (by simp [hc]))
    rw [hn, Option.getD_none, hc, Option.some.injEq] at hv
    exact ⟨v, hv, r2 v ho⟩
  · intro hn hf hd hF
    obtain ⟨d, rfl, hg⟩ := selectDataset_file hy (Or.inr ⟨hf, rfl, hF⟩) h3
    exact ⟨d, hg, r1, r3 hp (loadFc3_none h1 hn hd) d rfl⟩

/-- **C136**, a violation. A file `fc3.hdf5` that happens to be in the directory wins over the
forces that the user names with `forces_fc3_filename`. -/
theorem C136_hdf5_first (e : LoadEnv F2 F3 D) (dir : Directory F2 F3 D)
    (yaml : Option (YamlSource D)) (a : LoadArgs) (s : Loaded F2 F3 D) (f : ForcesArg) (v : F3)
    (hn : a.fc3 = none) (_hf : a.forcesFc3 = some f) (hd : dir "fc3.hdf5" = some (.fc3 v))
    (h : loadPhono3py e dir yaml a = some s) : s.fc3 = some v := by
  obtain ⟨fc3, fc2, ds, pds, h1, h2, h3, h4, h5⟩ := loadPhono3py_eq h
  obtain ⟨-, r2, -⟩ := loaded_result h5
  obtain ⟨w, hw, ho⟩ := loadFc3_some h1 (Or.inr (by simp [hd]))
  rw [hn, Option.getD_none, hd, Option.some.injEq, SourceFile.fc3.injEq] at hw
  subst hw
  exact r2 v ho

/-- **C136**, a violation. Forces in phono3py.yaml win over the forces that the user names: the
argument `forces_fc3_filename` has no effect at all. -/
theorem C136_yaml_first (e : LoadEnv F2 F3 D) (dir : Directory F2 F3 D) (y : YamlSource D) (d : D)
    (hd : y.dataset = some d) (hf : e.hasForces d = true) (a : LoadArgs) (f : Option ForcesArg) :
    loadPhono3py e dir (some y) { a with forcesFc3 := f } = loadPhono3py e dir (some y) a := by
  have key : ∀ g, selectDataset e dir (some y) g =
      (parseForces e dir true (some y) none).map some := by
    intro g
    unfold selectDataset
    simp only [Option.bind_some, hd]
    split
    · rename_i x z hx hz
      cases hx
      rw [if_pos hf]
    · rfl
    · rename_i hx _; simp at hx
    · rename_i hx _; simp at hx
  unfold loadPhono3py
  simp only [key]

/-- **C136**, a violation. The documented pair of names `('FORCES_FC3', 'phono3py_disp.yaml')` is not
accepted: `load` raises. -/
theorem C136_sequence_raises (e : LoadEnv F2 F3 D) (dir : Directory F2 F3 D)
    (yaml : Option (YamlSource D)) (a : LoadArgs) (fs : List String)
    (hy : ∀ x, yaml.bind (fun y => y.dataset) = some x → e.hasForces x = false)
    (hf : a.forcesFc3 = some (.sequence fs)) : loadPhono3py e dir yaml a = none := by
  cases h : loadPhono3py e dir yaml a with
  | none => rfl
  | some s =>
    exfalso
    obtain ⟨fc3, fc2, ds, pds, h1, h2, h3, h4, h5⟩ := loadPhono3py_eq h
    rw [hf] at h3
    have hex : yaml.bind (extractDataset true) = yaml.bind (fun y => y.dataset) := by
      cases yaml with
      | none => rfl
      | some y => simp [extractDataset]
    have hp : parseForces e dir true yaml (some (.sequence fs)) = none := by
      unfold parseForces
      rw [hex]
      dsimp only
      cases hs : yaml.bind (fun y => y.dataset) with
      | none => simp [readForcesFile]
      | some x => simp [hy x hs, readForcesFile]
    unfold selectDataset at h3
    dsimp only at h3
    cases hs : yaml.bind (fun y => y.dataset) with
    | none => simp [hs, hp] at h3
    | some x => simp [hs, hy x hs, hp] at h3

theorem loadFc2_some {e : LoadEnv F2 F3 D} {dir : Directory F2 F3 D} {arg : Option String}
    {o : Option F2} (h : loadFc2 e dir arg = some o) (h1 : arg.isSome ∨ (dir "fc2.hdf5").isSome) :
    ∃ v, dir (arg.getD "fc2.hdf5") = some (.fc2 v) ∧ o = some v := by
  unfold loadFc2 at h
  split at h
  · rename_i h3
    simp [h3] at h1
  · split at h
    · rename_i v hv
      split at h
      · exact ⟨v, hv, (Option.some.inj h).symm⟩
      · simp at h
    · simp at h

theorem loadFc2_none {e : LoadEnv F2 F3 D} {dir : Directory F2 F3 D} {arg : Option String}
    {o : Option F2} (h : loadFc2 e dir arg = some o) (h1 : arg = none) (h2 : dir "fc2.hdf5" = none) :
    o = none := by
  subst h1
  simp only [loadFc2, h2] at h
  exact (Option.some.inj h).symm

/-- **C136**. fc2 is what was read from `fc2_filename` or `fc2.hdf5`; otherwise it is what the solver
makes of the forces for fc2, which are those for fc3 if there is no other supercell for fc2. fc2 that
comes as a by-product of fc3 is never kept. -/
theorem C136_fc2 (e : LoadEnv F2 F3 D) (dir : Directory F2 F3 D) (yaml : Option (YamlSource D))
    (a : LoadArgs) (s : Loaded F2 F3 D) (hp : a.produce = true)
    (h : loadPhono3py e dir yaml a = some s) :
    (a.fc2.isSome ∨ (dir "fc2.hdf5").isSome →
      ∃ v, dir (a.fc2.getD "fc2.hdf5") = some (.fc2 v) ∧ s.fc2 = some v) ∧
    (a.fc2 = none → dir "fc2.hdf5" = none → e.phononMatrix = true →
      ∀ d, s.phononDataset = some d → e.hasForces d = true →
        ∃ v, e.solve2 d = some v ∧ s.fc2 = some v) ∧
    (a.fc2 = none → dir "fc2.hdf5" = none → e.phononMatrix = false → s.phononDataset = none →
      ∀ d, s.dataset = some d → e.hasForces d = true →
        ∃ v, e.solve2 d = some v ∧ s.fc2 = some v) := by
  obtain ⟨fc3, fc2, ds, pds, h1, h2, h3, h4, h5⟩ := loadPhono3py_eq h
  rw [if_pos hp] at h5
  unfold computeForceConstants at h5
  rw [Option.bind_eq_some_iff] at h5
  obtain ⟨u, c1, c2⟩ := h5
  obtain ⟨a1, a2, -, a4, -⟩ := computeFc3_spec c1
  dsimp only at a1 a2 a4 c2
  obtain ⟨-, b2, b3⟩ := computeFc2_keeps c2
  refine ⟨?_, ?_, ?_⟩
  · intro hs
    obtain ⟨v, hv, rfl⟩ := loadFc2_some h2 hs
    have := a4 v rfl
    simp only [computeFc2, Option.isSome_some, if_true, Option.some.injEq] at c2
    exact ⟨v, hv, by rw [← c2]; exact this⟩
  · intro hn hd hm d hpd hf
    have hfc2 := loadFc2_none h2 hn hd
    subst hfc2
    have hu : u.phononDataset = some d := by rw [← b3]; exact hpd
    simp only [computeFc2, LoadEnv.usable, Option.isSome_none, Bool.false_eq_true, if_false, hm, hu, hf,
      Bool.not_true, Bool.false_and, Bool.true_and, Bool.false_or, if_true] at c2
    rw [Option.map_eq_some_iff] at c2
    obtain ⟨v, hv, rfl⟩ := c2
    exact ⟨v, hv, rfl⟩
  · intro hn hd hm hpd d hds hf
    have hfc2 := loadFc2_none h2 hn hd
    subst hfc2
    have hu : u.phononDataset = none := by rw [← b3]; exact hpd
    have hv : u.dataset = some d := by rw [← b2]; exact hds
    simp only [computeFc2, LoadEnv.usable, Option.isSome_none, Bool.false_eq_true, if_false, hm, hu, hv, hf,
      Bool.not_false, Bool.true_and, Bool.false_and, Bool.or_false, if_true] at c2
    rw [Option.map_eq_some_iff] at c2
    obtain ⟨v, hv, rfl⟩ := c2
    exact ⟨v, hv, rfl⟩

/-- **C136**. With a separate supercell for fc2 and no forces for it in phono3py.yaml, the forces for
fc2 come from `forces_fc2_filename`, or from `FORCES_FC2` if that argument is absent; without such a
supercell neither is looked at. -/
theorem C136_phonon_forces (e : LoadEnv F2 F3 D) (dir : Directory F2 F3 D)
    (yaml : Option (YamlSource D)) (a : LoadArgs) (s : Loaded F2 F3 D)
    (hs : ∀ y, yaml = some y → y.phononSupercell = e.phononMatrix ∧
      (e.phononMatrix = false → y.phononDataset = none) ∧
      ∀ x, y.phononDataset = some x → e.hasForces x = false)
    (h : loadPhono3py e dir yaml a = some s) :
    (e.phononMatrix = true → ∀ f, (a.forcesFc2 = some (.name f) ∨
        a.forcesFc2 = none ∧ f = "FORCES_FC2" ∧ (dir "FORCES_FC2").isSome) →
      ∃ d, ForcesGive e dir (yaml.bind (fun y => y.phononDataset)) f d ∧
        s.phononDataset = some d) ∧
    (e.phononMatrix = false → s.phononDataset = none) := by
  obtain ⟨fc3, fc2, ds, pds, h1, h2, h3, h4, h5⟩ := loadPhono3py_eq h
  have hk : s.phononDataset = pds := by
    split at h5
    · exact (computeForceConstants_spec h5).2.1
    · cases h5; rfl
  rw [hk]
  constructor
  · intro hm f hf
    have hex : yaml.bind (extractDataset false) = yaml.bind (fun y => y.phononDataset) := by
      cases yaml with
      | none => rfl
      | some y => simp [extractDataset, (hs y rfl).1, hm]
    have hy : ∀ x, yaml.bind (fun y => y.phononDataset) = some x → e.hasForces x = false := by
      intro x hx
      rw [Option.bind_eq_some_iff] at hx
      obtain ⟨y, rfl, hx⟩ := hx
      exact (hs y rfl).2.2 x hx
    have key : ∀ g : Option ForcesArg, g = some (ForcesArg.name f) →
        (match yaml.bind (fun y => y.phononDataset), g with
          | some d, some f =>
            if e.hasForces d then (parseForces e dir false yaml none).map some
            else (parseForces e dir false yaml (some f)).map some
          | some _, none => (parseForces e dir false yaml none).map some
          | none, some f => (parseForces e dir false yaml (some f)).map some
          | none, none => some none) = some pds →
        ∃ d, ForcesGive e dir (yaml.bind (fun y => y.phononDataset)) f d ∧ pds = some d := by
      intro g hg h
      subst hg
      have fin : (parseForces e dir false yaml (some (.name f))).map some = some pds →
          ∃ d, ForcesGive e dir (yaml.bind (fun y => y.phononDataset)) f d ∧ pds = some d := by
        intro h
        rw [Option.map_eq_some_iff] at h
        obtain ⟨d, hd, rfl⟩ := h
        have := parseForces_gives' (e := e) (forFc3 := false) (by rw [hex]; exact hy) hd
        rw [hex] at this
        exact ⟨d, this, rfl⟩
      cases hs : yaml.bind (fun y => y.phononDataset) with
      | none =>
        simp only [hs] at h
        rw [← hs]
        exact fin h
      | some x =>
        simp only [hs, hy x hs, Bool.false_eq_true, if_false] at h
        rw [← hs]
        exact fin h
    refine key _ ?_ h4
    rw [if_pos hm]
    rcases hf with hf | ⟨hf, rfl, h2⟩
    · rw [hf]
    · simp [hf, h2]
  · intro hm
    have hn : yaml.bind (fun y => y.phononDataset) = none := by
      cases yaml with
      | none => rfl
      | some y => exact (hs y rfl).2.1 hm
    unfold selectPhononDataset at h4
    simp only [hn, hm, Bool.false_eq_true, if_false, Option.some.injEq] at h4
    exact h4.symm

/-! ## C137 -/

/-- What a history of `--cutoff-fc3` options makes of fc3. -/
def applyCuts (v : F3) (cuts : List (Option (F3 → F3))) : F3 :=
  cuts.foldl (fun w c => match c with
    | none => w
    | some f => f w) v

theorem computeForceConstants_read (e : LoadEnv F2 F3 D) (v3 : F3) (v2 : F2) (ds pds : Option D) :
    computeForceConstants e ⟨some v3, some v2, ds, pds⟩ = some ⟨some v3, some v2, ds, pds⟩ := by
  simp [computeForceConstants, computeFc3, computeFc2]

/-- A run of `phono3py-load` where both files exist: the new fc3 is written over the old one. -/
theorem storeForceConstants_read (e : LoadEnv F2 F3 D) (dir : Directory F2 F3 D) (ds pds : Option D)
    (cut : Option (F3 → F3)) (v3 : F3) (v2 : F2) (h3 : dir "fc3.hdf5" = some (.fc3 v3))
    (h2 : dir "fc2.hdf5" = some (.fc2 v2)) (f3 : e.fc3Fits v3 = true) (f2 : e.fc2Fits v2 = true) :
    storeForceConstants e dir ds pds cut = some (applyCuts v3 [cut], v2,
      [.truncate "fc3.hdf5", .put "fc3.hdf5" (.fc3 (applyCuts v3 [cut])),
        .truncate "fc2.hdf5", .put "fc2.hdf5" (.fc2 v2)]) := by
  have e3 : loadFc3 e dir none = some (some v3) := by simp [loadFc3, h3, f3]
  have e2 : loadFc2 e dir none = some (some v2) := by simp [loadFc2, h2, f2]
  unfold storeForceConstants
  rw [e3, e2]
  simp only [Option.bind_some, computeForceConstants_read, applyCuts, List.foldl_cons,
    List.foldl_nil]
  cases cut <;> rfl

theorem dirSteps_read (dir : Directory F2 F3 D) (w3 : F3) (v2 : F2) (m : String) :
    dirSteps dir [.truncate "fc3.hdf5", .put "fc3.hdf5" (.fc3 w3),
        .truncate "fc2.hdf5", .put "fc2.hdf5" (.fc2 v2)] m =
      if m = "fc2.hdf5" then some (.fc2 v2) else if m = "fc3.hdf5" then some (.fc3 w3)
        else dir m := by
  simp only [dirSteps, List.foldl_cons, List.foldl_nil, dirStep]
  split
  · rfl
  · split
    · rfl
    · rfl

theorem loadRuns_read (e : LoadEnv F2 F3 D) (ds pds : Option D) (cuts : List (Option (F3 → F3))) :
    ∀ (dir : Directory F2 F3 D) (v3 : F3) (v2 : F2), dir "fc3.hdf5" = some (.fc3 v3) →
      dir "fc2.hdf5" = some (.fc2 v2) → (∀ n, e.fc3Fits (applyCuts v3 (cuts.take n)) = true) →
      e.fc2Fits v2 = true → ∀ m, loadRuns e ds pds dir cuts m =
        if m = "fc3.hdf5" then some (.fc3 (applyCuts v3 cuts)) else dir m := by
  induction cuts with
  | nil =>
    intro dir v3 v2 h3 h2 _ _ m
    by_cases hm : m = "fc3.hdf5"
    · subst hm; simp [loadRuns, h3, applyCuts]
    · simp [loadRuns, hm]
  | cons c cs ih =>
    intro dir v3 v2 h3 h2 f3 f2 m
    have hs := storeForceConstants_read e dir ds pds c v3 v2 h3 h2
      (by simpa [applyCuts] using f3 0) f2
    unfold loadRuns
    rw [hs]
    dsimp only
    rw [ih _ (applyCuts v3 [c]) v2 (by rw [dirSteps_read]; simp) (by rw [dirSteps_read]; simp)
      (fun n => by simpa [applyCuts] using f3 (n + 1)) f2 m]
    rw [dirSteps_read]
    by_cases hm : m = "fc3.hdf5"
    · subst hm
      simp [applyCuts]
    · by_cases hm2 : m = "fc2.hdf5"
      · subst hm2; simp [h2]
      · simp [hm, hm2]

theorem applyCuts_none (v : F3) (n : Nat) : applyCuts v (List.replicate n none) = v := by
  induction n with
  | zero => rfl
  | succ n ih => simpa [applyCuts, List.replicate_succ] using ih

/-- **C137**, the part that holds. Where `fc3.hdf5` and `fc2.hdf5` exist, any number of runs of
`phono3py-load` without `--cutoff-fc3` leaves every file of the directory as it is, and each run uses
the force constants in the files. -/
theorem C137_runs_keep_partial (e : LoadEnv F2 F3 D) (ds pds : Option D) (dir : Directory F2 F3 D)
    (v3 : F3) (v2 : F2) (h3 : dir "fc3.hdf5" = some (.fc3 v3)) (h2 : dir "fc2.hdf5" = some (.fc2 v2))
    (f3 : e.fc3Fits v3 = true) (f2 : e.fc2Fits v2 = true) (n : Nat) :
    loadRuns e ds pds dir (List.replicate n none) = dir ∧
      ∃ steps, storeForceConstants e (loadRuns e ds pds dir (List.replicate n none)) ds pds none =
        some (v3, v2, steps) := by
  have h : loadRuns e ds pds dir (List.replicate n none) = dir := by
    funext m
    rw [loadRuns_read e ds pds _ dir v3 v2 h3 h2
      (fun k => by rw [List.take_replicate, applyCuts_none]; exact f3) f2 m, applyCuts_none]
    split
    · rename_i hm; rw [hm, h3]
    · rfl
  rw [h]
  exact ⟨rfl, _, storeForceConstants_read e dir ds pds none v3 v2 h3 h2 f3 f2⟩

/-- **C137**. In a directory without force constants the first run makes them from the forces, and
any number of later runs, in which the solver is not called, uses the same ones. -/
theorem C137_first_run (e : LoadEnv F2 F3 D) (ds pds : Option D) (dir : Directory F2 F3 D) (d : D)
    (r : F2 × F3) (v2 : F2) (h3 : dir "fc3.hdf5" = none) (h2 : dir "fc2.hdf5" = none)
    (hm : e.phononMatrix = false) (hd : ds = some d) (hp : pds = none) (hf : e.hasForces d = true)
    (s3 : e.solve3 d = some r) (s2 : e.solve2 d = some v2) (f3 : e.fc3Fits r.2 = true)
    (f2 : e.fc2Fits v2 = true) (n : Nat) :
    (∃ steps, storeForceConstants e dir ds pds none = some (r.2, v2, steps)) ∧
      ∃ steps, storeForceConstants e (loadRuns e ds pds dir (none :: List.replicate n none)) ds pds
        none = some (r.2, v2, steps) := by
  subst hd hp
  have e3 : loadFc3 e dir none = some none := by simp [loadFc3, h3]
  have e2 : loadFc2 e dir none = some none := by simp [loadFc2, h2]
  have hs : storeForceConstants e dir (some d) none none = some (r.2, v2,
      [.truncate "fc3.hdf5", .put "fc3.hdf5" (.fc3 r.2),
        .truncate "fc2.hdf5", .put "fc2.hdf5" (.fc2 v2)]) := by
    unfold storeForceConstants
    rw [e3, e2]
    simp [computeForceConstants, computeFc3, computeFc2, LoadEnv.usable, hf, s3, s2, hm]
  refine ⟨⟨_, hs⟩, ?_⟩
  unfold loadRuns
  rw [hs]
  have a3 := dirSteps_read dir r.2 v2 "fc3.hdf5"
  have a2 := dirSteps_read dir r.2 v2 "fc2.hdf5"
  exact (C137_runs_keep_partial e (some d) none _ r.2 v2 (a3.trans (by simp))
    (a2.trans (by simp)) f3 f2 n).2

/-- **C137**, the violation. `--cutoff-fc3` is not an option of one run: `fc3.hdf5`, although only
read, is overwritten with the truncated fc3, so that after any history of runs it holds the original
with all the cutoffs of the history. -/
theorem C137_cutoffs_accumulate (e : LoadEnv F2 F3 D) (ds pds : Option D) (dir : Directory F2 F3 D)
    (v3 : F3) (v2 : F2) (h3 : dir "fc3.hdf5" = some (.fc3 v3)) (h2 : dir "fc2.hdf5" = some (.fc2 v2))
    (cuts : List (Option (F3 → F3)))
    (f3 : ∀ n, e.fc3Fits (applyCuts v3 (cuts.take n)) = true) (f2 : e.fc2Fits v2 = true) :
    loadRuns e ds pds dir cuts "fc3.hdf5" = some (.fc3 (applyCuts v3 cuts)) ∧
      ∃ steps, storeForceConstants e (loadRuns e ds pds dir cuts) ds pds none =
        some (applyCuts v3 cuts, v2, steps) := by
  have h := loadRuns_read e ds pds cuts dir v3 v2 h3 h2 f3 f2
  refine ⟨by rw [h]; simp, _, storeForceConstants_read e _ ds pds none (applyCuts v3 cuts) v2
    (by rw [h]; simp) (by rw [h]; simpa using h2) ?_ f2⟩
  have := f3 cuts.length
  rwa [List.take_length] at this

/-- **C137**, the violation for one cutoff that changes fc3: a later run without `--cutoff-fc3` does
not use the fc3 that was in the directory at first, which no file holds any more. -/
theorem C137_original_lost (e : LoadEnv F2 F3 D) (ds pds : Option D) (dir : Directory F2 F3 D)
    (v3 : F3) (v2 : F2) (h3 : dir "fc3.hdf5" = some (.fc3 v3)) (h2 : dir "fc2.hdf5" = some (.fc2 v2))
    (c : F3 → F3) (hc : c v3 ≠ v3) (f3 : e.fc3Fits v3 = true) (g3 : e.fc3Fits (c v3) = true)
    (f2 : e.fc2Fits v2 = true) (ho : ∀ m, m ≠ "fc3.hdf5" → dir m ≠ some (.fc3 v3)) :
    (∃ steps, storeForceConstants e dir ds pds none = some (v3, v2, steps)) ∧
    (∃ w steps, storeForceConstants e (loadRuns e ds pds dir [some c]) ds pds none =
      some (w, v2, steps) ∧ w ≠ v3) ∧
    ∀ m, loadRuns e ds pds dir [some c] m ≠ some (.fc3 v3) := by
  have hfit : ∀ n, e.fc3Fits (applyCuts v3 (([some c] : List (Option (F3 → F3))).take n)) = true := by
    intro n
    cases n with
    | zero => simpa [applyCuts] using f3
    | succ n => simpa [applyCuts] using g3
  refine ⟨⟨_, storeForceConstants_read e dir ds pds none v3 v2 h3 h2 f3 f2⟩, ?_, ?_⟩
  · obtain ⟨-, steps, hs⟩ := C137_cutoffs_accumulate e ds pds dir v3 v2 h3 h2 [some c] hfit f2
    exact ⟨_, steps, hs, hc⟩
  · intro m
    rw [loadRuns_read e ds pds [some c] dir v3 v2 h3 h2 hfit f2 m]
    split
    · intro he
      simp only [Option.some.injEq, SourceFile.fc3.injEq] at he
      exact hc he
    · rename_i hm
      exact ho m hm

/-- **C137**, crashes. A run, with a cutoff or without, that is interrupted after it opened `fc3.hdf5`
for writing leaves a directory in which every later run fails, although the file had been complete
and the run had nothing new to write. -/
theorem C137_interrupted (e : LoadEnv F2 F3 D) (ds pds : Option D) (dir : Directory F2 F3 D)
    (v3 : F3) (v2 : F2) (h3 : dir "fc3.hdf5" = some (.fc3 v3)) (h2 : dir "fc2.hdf5" = some (.fc2 v2))
    (f3 : e.fc3Fits v3 = true) (f2 : e.fc2Fits v2 = true) (cut : Option (F3 → F3)) :
    ∃ w steps, storeForceConstants e dir ds pds cut = some (w, v2, steps) ∧
      ∀ (later : List (Option (F3 → F3))) (c : Option (F3 → F3)),
        storeForceConstants e (loadRuns e ds pds (dirSteps dir (steps.take 1)) later) ds pds c =
          none := by
  refine ⟨_, _, storeForceConstants_read e dir ds pds cut v3 v2 h3 h2 f3 f2, ?_⟩
  have hb : ∀ (dir' : Directory F2 F3 D), dir' "fc3.hdf5" = some .broken → ∀ c,
      storeForceConstants e dir' ds pds c = none := by
    intro dir' hd c
    simp [storeForceConstants, loadFc3, hd]
  have hr : ∀ (later : List (Option (F3 → F3))) (dir' : Directory F2 F3 D),
      dir' "fc3.hdf5" = some .broken → loadRuns e ds pds dir' later = dir' := by
    intro later
    induction later with
    | nil => intro dir' _; rfl
    | cons a l ih =>
      intro dir' hd
      unfold loadRuns
      rw [hb dir' hd a]
      exact ih dir' hd
  intro later c
  have hx : dirSteps dir ([(.truncate "fc3.hdf5" : DirStep F2 F3 D)]) "fc3.hdf5" = some .broken := by
    simp [dirSteps, dirStep]
  simp only [List.take_succ_cons, List.take_zero]
  rw [hr later _ hx]
  exact hb _ hx c

/-! ## C138 -/

/-- **C138**, a violation. Where fc3 is not needed (`--jdos`, `--read-gamma`, ...) and fc2 is not read
from a file, the `phono3py` command always fails, whatever forces it is given. -/
theorem C138_skip_raises (e : LoadEnv F2 F3 D) (dir : Directory F2 F3 D)
    (yaml : Option (YamlSource D)) (c : FcSettings) (cut : Option (F3 → F3))
    (hs : c.skipsFc3 = true) (h2 : c.readFc2 = false) :
    createForceConstants e dir yaml c cut = none := by
  unfold createForceConstants
  simp only [hs, if_true, Option.bind_some, h2, Bool.false_eq_true, if_false, Option.bind_none]
  cases (if (none : Option D).isNone || e.phononMatrix then
    readDatasetFc2 e dir yaml ⟨none, none, none, none⟩ else some ⟨none, none, none, none⟩) <;> simp

/-- **C138**. Where the force constants that are needed are read from files, the `phono3py` command
uses them and writes nothing. The cutoff applies to this run only. -/
theorem C138_read_keeps (e : LoadEnv F2 F3 D) (dir : Directory F2 F3 D)
    (yaml : Option (YamlSource D)) (c : FcSettings) (cut : Option (F3 → F3)) (v2 : F2)
    (h2 : c.readFc2 = true) (d2 : dir "fc2.hdf5" = some (.fc2 v2)) (f2 : e.fc2Fits v2 = true) :
    (c.skipsFc3 = true →
      createForceConstants e dir yaml c cut = some (⟨none, some v2, none, none⟩, [])) ∧
    (∀ v3, c.skipsFc3 = false → c.readFc3 = true → dir "fc3.hdf5" = some (.fc3 v3) →
      e.fc3Fits v3 = true → createForceConstants e dir yaml c cut =
        some (⟨some (applyCuts v3 [cut]), some v2, none, none⟩, [])) := by
  constructor
  · intro hs
    simp [createForceConstants, hs, h2, d2, f2]
  · intro v3 hs h3 d3 f3
    cases cut <;> simp [createForceConstants, hs, h2, h3, d2, d3, f2, f3, applyCuts]

/-- The file that a step changes. -/
def stepName : DirStep F2 F3 D → String
  | .truncate n => n
  | .put n _ => n

theorem dirSteps_other (m : String) (l : List (DirStep F2 F3 D)) :
    ∀ dir : Directory F2 F3 D, (∀ x ∈ l, stepName x ≠ m) → dirSteps dir l m = dir m := by
  induction l with
  | nil => intro dir _; rfl
  | cons x l ih =>
    intro dir hx
    have h1 : dirSteps dir (x :: l) m = dirSteps (dirStep dir x) l m := rfl
    rw [h1, ih _ (fun y hy => hx y (List.mem_cons_of_mem _ hy))]
    have h2 := hx x (List.mem_cons_self ..)
    cases x with
    | truncate n => simp only [stepName] at h2; simp [dirStep, h2.symm]
    | put n c => simp only [stepName] at h2; simp [dirStep, h2.symm]

/-- **C138**. Whatever the `phono3py` command does, it never changes `fc3.hdf5` with `--fc3` and never
changes `fc2.hdf5` with `--fc2`. -/
theorem C138_read_untouched (e : LoadEnv F2 F3 D) (dir : Directory F2 F3 D)
    (yaml : Option (YamlSource D)) (c : FcSettings) (cut : Option (F3 → F3))
    (s : Loaded F2 F3 D) (steps : List (DirStep F2 F3 D))
    (h : createForceConstants e dir yaml c cut = some (s, steps)) (n : Nat) :
    (c.readFc3 = true → dirSteps dir (steps.take n) "fc3.hdf5" = dir "fc3.hdf5") ∧
    (c.readFc2 = true → dirSteps dir (steps.take n) "fc2.hdf5" = dir "fc2.hdf5") := by
  have key : (c.readFc3 = true → ∀ x ∈ steps, stepName x ≠ "fc3.hdf5") ∧
      (c.readFc2 = true → ∀ x ∈ steps, stepName x ≠ "fc2.hdf5") := by
    unfold createForceConstants at h
    dsimp only at h
    rw [Option.bind_eq_some_iff] at h
    obtain ⟨r, h1, h2⟩ := h
    have hr : (c.readFc3 = true → r.2.1 = []) ∧ ∀ x ∈ r.2.1, stepName x = "fc3.hdf5" := by
      split at h1
      · cases h1; simp
      · split at h1
        · split at h1
          · split at h1
            · cases h1; simp
            · simp at h1
          · simp at h1
        · rename_i hn
          simp only [Option.bind_eq_some_iff, Option.map_eq_some_iff] at h1
          obtain ⟨d, -, q, -, rfl⟩ := h1
          refine ⟨fun h => absurd h hn, ?_⟩
          intro x hx
          simp only [List.mem_cons, List.not_mem_nil, or_false] at hx
          rcases hx with rfl | rfl <;> rfl
    split at h2
    · rename_i hr2
      split at h2
      · split at h2
        · cases h2
          refine ⟨fun h => by simp [hr.1 h], fun _ x hx => by rw [hr.2 x hx]; decide⟩
        · simp at h2
      · simp at h2
    · rename_i hr2
      refine ⟨fun h3 => ?_, fun h => absurd h hr2⟩
      simp only [Option.bind_eq_some_iff] at h2
      obtain ⟨u, -, -, -, d, -, h2⟩ := h2
      split at h2
      · rw [Option.map_eq_some_iff] at h2
        obtain ⟨v, -, h2⟩ := h2
        cases h2
        rw [hr.1 h3]
        intro x hx
        simp only [List.nil_append, List.mem_cons, List.not_mem_nil, or_false] at hx
        rcases hx with rfl | rfl <;> simp [stepName]
      · simp at h2
  exact ⟨fun h3 => dirSteps_other _ _ _ fun x hx => key.1 h3 x (List.mem_of_mem_take hx),
    fun h2 => dirSteps_other _ _ _ fun x hx => key.2 h2 x (List.mem_of_mem_take hx)⟩

/-- **C138**. Where nothing is read from hdf5 files and one supercell serves for both orders, both
force constants are made from the forces in `FORCES_FC3`, are used, and are written to the
directory. -/
theorem C138_makes_partial (e : LoadEnv F2 F3 D) (dir : Directory F2 F3 D)
    (c : FcSettings) (cut : Option (F3 → F3)) (d : D) (r : F2 × F3) (v2 : F2)
    (hs : c.skipsFc3 = false) (h3 : c.readFc3 = false) (h2 : c.readFc2 = false)
    (hm : e.phononMatrix = false) (hd : dir "FORCES_FC3" = some (.forces2 d))
    (hc : e.convert = none) (hn : e.natomOf d = none ∨ e.natomOf d = some e.natom)
    (hf : e.hasForces d = true) (s3 : e.solve3 d = some r) (s2 : e.solve2 d = some v2) :
    ∃ s steps, createForceConstants e dir none c cut = some (s, steps) ∧
      s.fc3 = some (applyCuts r.2 [cut]) ∧ s.fc2 = some v2 ∧
      dirSteps dir steps "fc3.hdf5" = some (.fc3 (applyCuts r.2 [cut])) ∧
      dirSteps dir steps "fc2.hdf5" = some (.fc2 v2) := by
  have hp : parseForces e dir true none (some (.name "FORCES_FC3")) = some d := by
    rcases hn with hn | hn <;> simp [parseForces, readForcesFile, hd, hc, hn]
  have hx : createForceConstants e dir none c cut =
      some (⟨some (applyCuts r.2 [cut]), some v2, some d, none⟩,
        [.truncate "fc3.hdf5", .put "fc3.hdf5" (.fc3 (applyCuts r.2 [cut])),
          .truncate "fc2.hdf5", .put "fc2.hdf5" (.fc2 v2)]) := by
    unfold createForceConstants
    simp only [hs, Bool.false_eq_true, if_false, h3, h2, hp, Option.bind_some, s3, Option.map_some,
      Option.isNone_some, hm, Bool.or_self, hf, s2, if_true]
    cases cut <;> rfl
  refine ⟨_, _, hx, rfl, rfl, ?_, ?_⟩
  · rw [dirSteps_read]; simp
  · rw [dirSteps_read]; simp

/-- **C138**. With the joint density of states, isotope scattering alone, linewidths or interaction
strengths read from files, phonons written without a conductivity, or constant interaction strengths,
the `phono3py` command does not look for fc3 or forces, and fc2 read from a file is all it has. -/
theorem C138_no_fc3 (e : LoadEnv F2 F3 D) (dir : Directory F2 F3 D) (yaml : Option (YamlSource D))
    (c : FcSettings) (cut : Option (F3 → F3)) (v2 : F2)
    (hc : c.jointDos = true ∨ (c.isotope = true ∧ c.bterta = false ∧ c.lbte = false) ∨
      c.readGamma = true ∨ c.readPp = true ∨ (c.writePhonon = true ∧ c.bterta = false) ∨
      c.constantPp = true)
    (h2 : c.readFc2 = true) (d2 : dir "fc2.hdf5" = some (.fc2 v2)) (f2 : e.fc2Fits v2 = true) :
    createForceConstants e dir yaml c cut = some (⟨none, some v2, none, none⟩, []) := by
  refine (C138_read_keeps e dir yaml c cut v2 h2 d2 f2).1 ?_
  unfold FcSettings.skipsFc3
  rcases hc with h | ⟨h, h', h''⟩ | h | h | ⟨h, h'⟩ | h <;> simp [*]

/-- **C138**. In all other runs fc3 is there: whatever the command does, it ends with fc3 or fails. -/
theorem C138_fc3 (e : LoadEnv F2 F3 D) (dir : Directory F2 F3 D) (yaml : Option (YamlSource D))
    (c : FcSettings) (cut : Option (F3 → F3)) {s : Loaded F2 F3 D} {steps : List (DirStep F2 F3 D)}
    (hc : ¬ (c.jointDos = true ∨ (c.isotope = true ∧ c.bterta = false ∧ c.lbte = false) ∨
      c.readGamma = true ∨ c.readPp = true ∨ (c.writePhonon = true ∧ c.bterta = false) ∨
      c.constantPp = true)) (h2 : c.readFc2 = true) (h3 : c.readFc3 = true)
    (h : createForceConstants e dir yaml c cut = some (s, steps)) : s.fc3.isSome := by
  have hs : c.skipsFc3 = false := by
    unfold FcSettings.skipsFc3
    rw [Bool.eq_false_iff]
    intro hk
    apply hc
    simp only [Bool.or_eq_true, Bool.and_eq_true, Bool.not_eq_true', Bool.or_eq_false_iff] at hk
    tauto
  unfold createForceConstants at h
  simp only [hs, h2, h3, Bool.false_eq_true, if_false, if_true] at h
  rcases hd : dir "fc3.hdf5" with _ | f
  · simp [hd] at h
  · cases f <;> simp only [hd, Option.bind_none, reduceCtorEq] at h
    split at h
    · simp only [Option.bind_some] at h
      split at h
      · split at h
        · simp only [Option.some.injEq, Prod.mk.injEq] at h
          rw [← h.1]
          rfl
        · simp at h
      · simp at h
    · simp at h

/-- **C138**. With a supercell of its own for fc2, and fc3 read from a file, fc2 is that of the forces in
`FORCES_FC2`. -/
theorem C138_own_supercell (e : LoadEnv F2 F3 D) (dir : Directory F2 F3 D)
    (c : FcSettings) (cut : Option (F3 → F3)) (d : D) (v3 : F3) (v2 : F2)
    (hs : c.skipsFc3 = false) (h3 : c.readFc3 = true) (h2 : c.readFc2 = false)
    (d3 : dir "fc3.hdf5" = some (.fc3 v3)) (f3 : e.fc3Fits v3 = true)
    (hm : e.phononMatrix = true) (hd : dir "FORCES_FC2" = some (.forces2 d))
    (hc : e.convert = none) (hn : e.natomOf d = none ∨ e.natomOf d = some e.pnatom)
    (hf : e.hasForces d = true) (s2 : e.solve2 d = some v2) :
    ∃ s steps, createForceConstants e dir none c cut = some (s, steps) ∧
      s.fc3 = some (applyCuts v3 [cut]) ∧ s.fc2 = some v2 ∧
      dirSteps dir steps "fc3.hdf5" = some (.fc3 v3) ∧
      dirSteps dir steps "fc2.hdf5" = some (.fc2 v2) := by
  have hp : parseForces e dir false none (some (.name "FORCES_FC2")) = some d := by
    rcases hn with hn | hn <;> simp [parseForces, readForcesFile, hd, hc, hn]
  have hx : createForceConstants e dir none c cut =
      some (⟨some (applyCuts v3 [cut]), some v2, none, some d⟩,
        [.truncate "fc2.hdf5", .put "fc2.hdf5" (.fc2 v2)]) := by
    unfold createForceConstants readDatasetFc2
    simp only [hs, Bool.false_eq_true, if_false, h3, h2, d3, f3, hp, Option.bind_some,
      Option.map_some, Option.isNone_none, hm, Bool.or_self, hf, s2, if_true]
    cases cut <;> rfl
  refine ⟨_, _, hx, rfl, rfl, ?_, ?_⟩
  · simp [dirSteps, dirStep, d3]
  · simp [dirSteps, dirStep]

/-! ## Non-vacuity -/

/-- Datasets are numbers, with forces if positive; fc3 and fc2 are numbers made from them. -/
def exampleLoadEnv : LoadEnv Nat Nat Nat where
  natom := 8
  pnatom := 8
  phononMatrix := false
  hasForces d := decide (0 < d)
  natomOf _ := some 8
  convert := none
  solve3 d := some (d + 100, d + 200)
  solve2 d := some (d + 300)
  fc3Fits _ := true
  fc2Fits _ := true

/-- A directory with `fc3.hdf5`, `fc2.hdf5` and `FORCES_FC3`. -/
def exampleDirectory : Directory Nat Nat Nat := fun m =>
  if m = "fc3.hdf5" then some (.fc3 1) else if m = "fc2.hdf5" then some (.fc2 2)
  else if m = "FORCES_FC3" then some (.forces2 5) else none

/-- A directory with `FORCES_FC3` only, of type 1. -/
def exampleForcesDirectory : Directory Nat Nat Nat := fun m =>
  if m = "FORCES_FC3" then some (.forces1 fun d => some (d + 7)) else none

-- `C136_priority_partial`: the last source, with the displacements of a yaml file.
example : loadPhono3py exampleLoadEnv exampleForcesDirectory (some ⟨some 0, none, false⟩)
    ⟨none, none, none, none, true⟩ = some ⟨some 207, some 307, some 7, none⟩ := by rfl

-- ... and the second one.
example : loadPhono3py exampleLoadEnv exampleForcesDirectory (some ⟨some 0, none, false⟩)
    ⟨none, none, some (.name "FORCES_FC3"), none, true⟩ =
      some ⟨some 207, some 307, some 7, none⟩ := by rfl

-- `C136_hdf5_first`: the forces named by the user are not used.
example : loadPhono3py exampleLoadEnv exampleDirectory none
    ⟨none, none, some (.name "FORCES_FC3"), none, true⟩ =
      some ⟨some 1, some 2, some 5, none⟩ := by rfl

-- `C136_yaml_first`: forces in the yaml file.
example : loadPhono3py exampleLoadEnv exampleForcesDirectory (some ⟨some 3, none, false⟩)
    ⟨none, none, some (.name "FORCES_FC3"), none, true⟩ =
      some ⟨some 203, some 303, some 3, none⟩ := by rfl

-- `C137_original_lost`: a cutoff that sets fc3 to zero.
example : loadRuns exampleLoadEnv none none exampleDirectory [some fun _ => 0] "fc3.hdf5" =
    some (.fc3 0) := by
  have := (C137_cutoffs_accumulate exampleLoadEnv none none exampleDirectory 1 2 rfl rfl
    [some fun _ => 0] (fun _ => rfl) rfl).1
  exact this

-- `C137_first_run`: forces only.
example : ∃ steps, storeForceConstants exampleLoadEnv
    (loadRuns exampleLoadEnv (some 5) none (fun _ => none) (none :: List.replicate 3 none))
      (some 5) none none = some (205, 305, steps) :=
  (C137_first_run exampleLoadEnv (some 5) none (fun _ => none) 5 (105, 205) 305 rfl rfl rfl rfl rfl
    rfl rfl rfl rfl rfl 3).2

-- `C138_skip_raises`: `--jdos` without `--fc2`.
example : createForceConstants exampleLoadEnv exampleDirectory none
    ⟨true, false, false, false, false, false, false, false, false, false⟩ none = none :=
  C138_skip_raises _ _ _ _ _ rfl rfl

-- `C138_makes_partial`: nothing is read.
example : ∃ s steps, createForceConstants exampleLoadEnv exampleDirectory none
    ⟨false, false, true, false, false, false, false, false, false, false⟩ none = some (s, steps) ∧
      s.fc3 = some 205 :=
  let ⟨s, steps, h, h3, _⟩ := C138_makes_partial exampleLoadEnv exampleDirectory
    ⟨false, false, true, false, false, false, false, false, false, false⟩ none 5 (105, 205) 305
    rfl rfl rfl rfl rfl rfl (Or.inr rfl) rfl rfl rfl
  ⟨s, steps, h, h3⟩

-- `C138_no_fc3`: `--jdos --fc2`.
example : createForceConstants exampleLoadEnv exampleDirectory none
    ⟨true, false, false, false, false, false, false, false, false, true⟩ none =
      some (⟨none, some 2, none, none⟩, []) :=
  C138_no_fc3 _ _ _ _ _ 2 (Or.inl rfl) rfl rfl rfl

-- `C138_fc3`: `--br --fc3 --fc2`.
example : createForceConstants exampleLoadEnv exampleDirectory none
    ⟨false, false, true, false, false, false, false, false, true, true⟩ none =
      some (⟨some 1, some 2, none, none⟩, []) := by rfl

-- `C138_own_supercell`: `--br --fc3` with a matrix for fc2.
example : ∃ s steps, createForceConstants { exampleLoadEnv with phononMatrix := true }
    (fun m => if m = "FORCES_FC2" then some (.forces2 6) else exampleDirectory m) none
    ⟨false, false, true, false, false, false, false, false, true, false⟩ none = some (s, steps) ∧
      s.fc2 = some 306 :=
  let ⟨s, steps, h, _, h2, _⟩ := C138_own_supercell { exampleLoadEnv with phononMatrix := true }
    (fun m => if m = "FORCES_FC2" then some (.forces2 6) else exampleDirectory m)
    ⟨false, false, true, false, false, false, false, false, true, false⟩ none 6 1 306
    rfl rfl rfl rfl rfl rfl rfl rfl (Or.inr rfl) rfl rfl
  ⟨s, steps, h, h2⟩

end Phono3py.Props
