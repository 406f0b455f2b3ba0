import Verif.Spec.ApiPhonon
import Verif.Props.ApiData
import Verif.Spec.ApiData
import Mathlib.Algebra.Field.Rat

/-!
# C124, C125: which data a calculation uses, and where force constants come from
-/

namespace Phono3py.Props

section
variable {V K M F2 F3 B G N S W : Type} [AddMonoid V]

theorem apiRun_append (e : ApiEnv V F3 G S) (s : Api V K M F2 F3 B G N S W)
    (h1 h2 : List (ApiOp V K M F2 F3 B G N S W)) :
    apiRun e s (h1 ++ h2) = apiRun e (apiRun e s h1) h2 := by
  induction h1 generalizing s with
  | nil => rfl
  | cons op h1 ih => exact ih _

/-- The interaction, if there is one, belongs to the current grid. -/
def GridKept (s : Api V K M F2 F3 B G N S W) : Prop :=
  ∀ i, s.inter = some i → s.grid = some i.grid

theorem initDynmat_grid (s : Api V K M F2 F3 B G N S W) (i : InteractionState M F2 B G N S)
    (h : s.grid = some i.grid) : GridKept (s.initDynmat i).1 := by
  intro j hj
  unfold Api.initDynmat at hj ⊢
  split at hj
  · cases hj
    exact h
  · cases hj
    exact h

theorem solve_grid (s : Api V K M F2 F3 B G N S W) (gps : List Nat) (h : GridKept s) :
    GridKept (s.solve gps).1 := by
  unfold Api.solve
  split
  · exact h
  · rename_i i hi
    intro j hj
    cases hj
    exact h i hi

theorem run_state (e : ApiEnv V F3 G S) (s : Api V K M F2 F3 B G N S W) :
    (s.run e).1 = s ∨ ∃ gps, (s.run e).1 = (s.solve gps).1 := by
  unfold Api.run
  split
  · exact Or.inl rfl
  · rename_i i hi
    right
    refine ⟨List.range (e.points i.grid), ?_⟩
    simp only [Api.solve, hi]

theorem shareFc3_facts (e : ApiEnv V F3 G S) (s : Api V K M F2 F3 B G N S W) (scale : Option S)
    (plain : Bool) :
    (s.shareFc3 e scale plain).1.data = s.data ∧ (s.shareFc3 e scale plain).1.store2 = s.store2 ∧
      (s.shareFc3 e scale plain).1.fc2 = s.fc2 ∧ (s.shareFc3 e scale plain).1.fc3 = s.fc3 ∧
      (s.shareFc3 e scale plain).1.bands = s.bands ∧ (s.shareFc3 e scale plain).1.nac = s.nac ∧
      (s.shareFc3 e scale plain).1.sigmas = s.sigmas ∧
      (s.shareFc3 e scale plain).1.grid = s.grid := by
  unfold Api.shareFc3
  split
  · split <;> simp
  · simp

theorem apiStep_grid (e : ApiEnv V F3 G S) (s : Api V K M F2 F3 B G N S W)
    (op : ApiOp V K M F2 F3 B G N S W) (h : GridKept s) : GridKept (apiStep e s op).1 := by
  cases op with
  | data op => exact h
  | setFc2 v => cases v <;> exact h
  | setFc3 v => cases v <;> exact h
  | setBands b => exact h
  | setNac n =>
    simp only [apiStep, Api.putNac]
    split
    · exact h
    · rename_i i hi
      exact initDynmat_grid _ i (h i hi)
  | setSigmas w => exact h
  | setMesh g => cases g <;> (intro i hi; simp [apiStep, Api.putMesh] at hi)
  | init scale plain =>
    simp only [apiStep, Api.init]
    split
    · rename_i g p hg hp
      apply initDynmat_grid
      rw [(shareFc3_facts e s scale plain).2.2.2.2.2.2.2]
      exact hg
    · exact h
  | changeFc3 f =>
    simp only [apiStep, Api.changeFc3]
    split <;> exact h
  | changeBoth f g =>
    simp only [apiStep, Api.changeBoth]
    cases hf : s.fc2 <;> cases hf3 : s.fc3 <;> simp [hf3] <;> exact h
  | produceFc3 solver split =>
    simp only [apiStep, Api.produceFc3, Api.putFc3, Api.putFc2]
    split
    · exact h
    · split
      · exact h
      · split <;> exact h
  | produceFc2 solver =>
    simp only [apiStep, Api.produceFc2, Api.putFc2]
    split
    · exact h
    · split
      · split <;> exact h
      · exact h
  | solve gps => exact solve_grid s gps h
  | run =>
    simp only [apiStep]
    rcases run_state e s with hr | ⟨gps, hr⟩
    · rw [hr]; exact h
    · rw [hr]; exact solve_grid s gps h

theorem apiRun_grid (e : ApiEnv V F3 G S) (h : List (ApiOp V K M F2 F3 B G N S W))
    (s : Api V K M F2 F3 B G N S W) (hs : GridKept s) : GridKept (apiRun e s h) := by
  induction h generalizing s with
  | nil => exact hs
  | cons op h ih => exact ih _ (apiStep_grid e s op hs)

/-- What a calculation uses, in terms of the interaction before it. -/
theorem run_used (e : ApiEnv V F3 G S) (s : Api V K M F2 F3 B G N S W)
    (u : Used M F2 F3 B G N S W) :
    (s.run e).2 = some u ↔ ∃ i, s.inter = some i ∧
      u.fc3 = i.fc3.bind (fun p => s.store3[p]?) ∧ u.bands = i.bands ∧ u.grid = i.grid ∧
      u.masses = i.masses ∧ u.scale = i.scale ∧ u.sigmas = s.sigmas ∧ u.labels = s.bands ∧
      u.phonons = (fun gp => match i.done gp with
        | some x => some x
        | none => if (List.range (e.points i.grid)).contains gp then s.sourceNow i else none) := by
  unfold Api.run
  cases hi : s.inter with
  | none => simp
  | some i =>
    simp only [Api.solve, hi, Option.some.injEq]
    constructor
    · rintro rfl
      exact ⟨i, rfl, rfl, rfl, rfl, rfl, rfl, rfl, rfl, rfl⟩
    · rintro ⟨j, rfl, h1, h2, h3, h4, h5, h6, h7, h8⟩
      cases u
      simp only at h1 h2 h3 h4 h5 h6 h7 h8
      subst h1 h2 h3 h4 h5 h6 h7 h8
      rfl

/-- **C124**. After any history of calls, a calculation that does not raise uses the grid and the
smearing widths the object shows: an interaction made for another mesh is never used. -/
theorem C124_grid (e : ApiEnv V F3 G S) (m : M) (b : B) (w : W)
    (h : List (ApiOp V K M F2 F3 B G N S W)) (u : Used M F2 F3 B G N S W)
    (hu : ((apiRun e (newApi m b w) h).run e).2 = some u) :
    (apiRun e (newApi m b w) h).grid = some u.grid ∧
      u.sigmas = (apiRun e (newApi m b w) h).sigmas := by
  have hk : GridKept (apiRun e (newApi m b w) h) :=
    apiRun_grid e h _ (by intro i hi; simp [newApi] at hi)
  obtain ⟨i, hi, _, _, hg, _, _, hw, _⟩ := (run_used e _ u).1 hu
  exact ⟨hg ▸ hk i hi, hw⟩

/-- fc3 with the scale factor applied. -/
def scaled (e : ApiEnv V F3 G S) (scale : Option S) (v : F3) : F3 :=
  match scale with
  | none => v
  | some x => e.scaleFc3 x v

/-- The interaction, if there is one, agrees with the object. -/
def InterFresh (e : ApiEnv V F3 G S) (scale : Option S) (shared : Bool)
    (s : Api V K M F2 F3 B G N S W) : Prop :=
  ∀ i, s.inter = some i → ∃ v, s.fc2 = some i.fc2 ∧ s.store2[i.fc2]? = some v ∧
    i.bands = s.bands ∧ i.masses = s.data.masses ∧ i.nac = s.nac ∧ s.grid = some i.grid ∧
    i.scale = scale ∧
    (∀ gp x, i.done gp = some x → x = ⟨v, s.data.masses, s.nac, scale⟩) ∧
    (i.fc3.bind fun p => s.store3[p]?) = s.fc3Value.map (scaled e scale) ∧
    (shared = true → scale = none ∧ (i.fc3 = s.fc3 ∨ (i.fc3 = none ∧ s.fc3Value = none)))

theorem shareFc3_value (e : ApiEnv V F3 G S) (s : Api V K M F2 F3 B G N S W) (scale : Option S)
    (plain : Bool) :
    ((s.shareFc3 e scale plain).2.bind fun p => (s.shareFc3 e scale plain).1.store3[p]?) =
        s.fc3Value.map (scaled e scale) ∧
      (s.shareFc3 e scale plain).1.fc3Value = s.fc3Value ∧
      ((scale.isNone && plain) = true → (s.shareFc3 e scale plain).2 = s.fc3 ∨
        ((s.shareFc3 e scale plain).2 = none ∧ s.fc3Value = none)) := by
  unfold Api.shareFc3
  split
  · rename_i p v hp hv
    have hlt : p < s.store3.length := by
      simp only [Api.fc3Value, hp, Option.bind_some] at hv
      exact (List.getElem?_eq_some_iff.1 hv).1
    have hpv : s.store3[p]? = some v := by simpa [Api.fc3Value, hp] using hv
    split
    · refine ⟨?_, rfl, fun _ => Or.inl hp.symm⟩
      simp [hpv, hv, scaled]
    · refine ⟨?_, ?_, by simp⟩
      · simp [hv, scaled]
      · simp only [Api.fc3Value, hp, Option.bind_some]
        rw [List.getElem?_append_left hlt]
    · refine ⟨?_, ?_, by simp⟩
      · simp [hv, scaled]
      · simp only [Api.fc3Value, hp, Option.bind_some]
        rw [List.getElem?_append_left hlt]
  · rename_i hn
    have hv : s.fc3Value = none := by
      cases hp : s.fc3 with
      | none => simp [Api.fc3Value, hp]
      | some p =>
        cases hv : s.fc3Value with
        | none => rfl
        | some v => exact absurd hv (by simpa using hn p v hp)
    exact ⟨by simp [hv], rfl, fun _ => Or.inr ⟨rfl, hv⟩⟩

theorem init_fresh (e : ApiEnv V F3 G S) (s : Api V K M F2 F3 B G N S W) (scale : Option S)
    (plain : Bool) (hok : (s.init e scale plain).2 = false) :
    InterFresh e scale (scale.isNone && plain) (s.init e scale plain).1 := by
  obtain ⟨f1, f2, f3, f4, f5, f6, f7, f8⟩ := shareFc3_facts e s scale plain
  obtain ⟨g1, g2, g3⟩ := shareFc3_value e s scale plain
  simp only [Api.init] at hok ⊢
  cases hg : s.grid with
  | none => simp [hg] at hok
  | some g =>
    cases hp : s.fc2 with
    | none => simp [hg, hp] at hok
    | some p =>
      simp only [hg, hp] at hok ⊢
      unfold Api.initDynmat at hok ⊢
      split at hok
      · rename_i q v hq hv
        have hpq : p = q := by rw [f3, hp] at hq; exact Option.some.inj hq
        subst hpq
        intro i hi
        cases hi
        refine ⟨v, hq, ?_, f5.symm, by rw [f1], rfl, by rw [f8, hg], rfl, by simp, ?_, ?_⟩
        · simpa [Api.fc2Value, hq] using hv
        · rw [← g2] at g1
          exact g1
        · intro hs
          refine ⟨by simp_all, ?_⟩
          rcases g3 hs with h | ⟨h, h'⟩
          · exact Or.inl (h.trans f4.symm)
          · exact Or.inr ⟨h, g2.trans h'⟩
      · cases hok

theorem sourceNow_fresh {e : ApiEnv V F3 G S} {scale : Option S} {shared : Bool}
    {s : Api V K M F2 F3 B G N S W} (h : InterFresh e scale shared s)
    (i : InteractionState M F2 B G N S) (hi : s.inter = some i) (v : F2)
    (hv : s.store2[i.fc2]? = some v) :
    s.sourceNow i = some ⟨v, s.data.masses, s.nac, scale⟩ := by
  obtain ⟨v', _, hv', _, _, hn, _, hs, _⟩ := h i hi
  simp [Api.sourceNow, hv, hn, hs]

theorem solve_fresh (e : ApiEnv V F3 G S) (scale : Option S) (shared : Bool)
    (s : Api V K M F2 F3 B G N S W) (gps : List Nat) (h : InterFresh e scale shared s) :
    InterFresh e scale shared (s.solve gps).1 := by
  cases hi : s.inter with
  | none =>
    have : s.solve gps = (s, true) := by simp [Api.solve, hi]
    rw [this]; exact h
  | some i =>
    obtain ⟨v, h1, h2, h3, h4, h5, h6, h7, h8, h9, h10⟩ := h i hi
    have hsrc := sourceNow_fresh h i hi v h2
    simp only [Api.solve, hi]
    intro j hj
    cases hj
    refine ⟨v, h1, h2, h3, h4, h5, h6, h7, ?_, h9, h10⟩
    intro gp x hx
    simp only at hx
    cases hd : i.done gp with
    | some y =>
      rw [hd] at hx
      cases hx
      exact h8 gp _ hd
    | none =>
      rw [hd] at hx
      simp only at hx
      split at hx
      · rw [hsrc] at hx
        exact (Option.some.inj hx).symm
      · cases hx

theorem apiStep_fresh (e : ApiEnv V F3 G S) (scale : Option S) (shared : Bool)
    (s : Api V K M F2 F3 B G N S W) (op : ApiOp V K M F2 F3 B G N S W)
    (hop : Harmless shared op) (h : InterFresh e scale shared s) :
    InterFresh e scale shared (apiStep e s op).1 := by
  cases op with
  | data op =>
    have hm : (dataStep e.cells s.data op).1.masses = s.data.masses := by
      have forces : ∀ (t : ApiData V K M) vs, (setForcesApi t vs).1.masses = t.masses := by
        intro t vs; unfold setForcesApi
        split
        · rfl
        · rfl
        · split <;> rfl
      have energies : ∀ (t : ApiData V K M) vs, (setEnergiesApi t vs).1.masses = t.masses := by
        intro t vs; unfold setEnergiesApi
        split
        · rfl
        · rfl
        · split <;> rfl
      have disps : ∀ (t : ApiData V K M) vs,
          (setDisplacementsApi e.cells t vs).1.masses = t.masses := by
        intro t vs; unfold setDisplacementsApi
        split
        · rfl
        · split <;> rfl
        · split <;> rfl
      have pforces : ∀ (t : ApiData V K M) vs,
          (setPhononForcesApi e.cells t vs).1.masses = t.masses := by
        intro t vs; unfold setPhononForcesApi
        split
        · rfl
        · rfl
        · split <;> rfl
      have penergies : ∀ (t : ApiData V K M) vs,
          (setPhononEnergiesApi t vs).1.masses = t.masses := by
        intro t vs; unfold setPhononEnergiesApi
        split
        · rfl
        · rfl
        · split
          · rfl
          · split <;> rfl
      have pdisps : ∀ (t : ApiData V K M) vs,
          (setPhononDisplacementsApi e.cells t vs).1.masses = t.masses := by
        intro t vs; unfold setPhononDisplacementsApi
        split
        · split
          · rfl
          · split <;> rfl
          · split <;> rfl
        · rfl
      have read : ∀ (t : ApiData V K M), (readCells e.cells t).1.masses = t.masses := by
        intro t; unfold readCells
        split
        · rfl
        · split <;> rfl
      have step : ∀ (a : M) (r : ApiData V K M × Bool) (f : ApiData V K M → ApiData V K M × Bool),
          r.1.masses = a → (∀ t, (f t).1.masses = t.masses) → (thenStep r f).1.masses = a := by
        intro a r f hr hf
        unfold thenStep
        split
        · exact hr
        · rw [hf, hr]
      cases op with
      | setDataset g =>
        simp only [dataStep, setDatasetApi]
        refine step _ _ _ ?_ (fun t => rfl)
        cases g with
        | nothing => rfl
        | type1 d => rfl
        | type2 ds fs es =>
          refine step _ _ _ (step _ _ _ (disps _ _) ?_) ?_
          · intro t; cases fs
            · rfl
            · exact forces _ _
          · intro t; cases es
            · rfl
            · exact energies _ _
        | other => rfl
      | setDisplacements vs => exact disps _ _
      | setForces vs => exact forces _ _
      | setEnergies vs => exact energies _ _
      | setPhononDataset g =>
        simp only [dataStep, setPhononDatasetApi]
        refine step _ _ _ ?_ (fun t => rfl)
        cases g with
        | nothing => rfl
        | type1 d => rfl
        | type2 ds fs es =>
          refine step _ _ _ (step _ _ _ (pdisps _ _) ?_) ?_
          · intro t; cases fs
            · rfl
            · exact pforces _ _
          · intro t; cases es
            · rfl
            · exact penergies _ _
        | other => rfl
      | setPhononDisplacements vs => exact pdisps _ _
      | setPhononForces vs => exact pforces _ _
      | setPhononEnergies vs => exact penergies _ _
      | generate ds pds =>
        cases ds with
        | none => rfl
        | some d =>
          simp only [dataStep, generateApi]
          split
          · cases pds <;> rfl
          · rfl
      | generatePhonon pds => cases pds <;> rfl
      | setMasses m => exact absurd hop id
      | readCells => exact read _
      | readPhononCells =>
        simp only [dataStep, readPhononCells]
        split
        · rfl
        · split
          · rfl
          · split <;> rfl
      | evaluateMlp mlp =>
        simp only [dataStep, evaluateMlp]
        split
        · exact read _
        · exact step _ _ _ ((energies _ _).trans (read _)) (fun t => forces _ _)
    intro i hi
    obtain ⟨v, h1, h2, h3, h4, h5, h6, h7, h8, h9, h10⟩ := h i hi
    exact ⟨v, h1, h2, h3, h4.trans hm.symm, h5, h6, h7,
      fun gp x hx => by simp only [apiStep]; rw [hm]; exact h8 gp x hx, h9, h10⟩
  | setFc2 v => exact absurd hop id
  | setFc3 v => exact absurd hop id
  | setBands b => exact absurd hop id
  | setNac n =>
    cases hi : s.inter with
    | none =>
      intro i hi'
      exact absurd hi' (by simp [apiStep, Api.putNac, hi])
    | some i =>
      have hput : (apiStep e s (.setNac n)).1 =
          (Api.initDynmat ({ s with nac := n } : Api V K M F2 F3 B G N S W) i).1 := by
        simp only [apiStep, Api.putNac]
        rw [hi]
      rw [hput]
      obtain ⟨v, h1, h2, h3, h4, h5, h6, h7, h8, h9, h10⟩ := h i hi
      have hv : ({ s with nac := n } : Api V K M F2 F3 B G N S W).fc2Value = some v := by
        simp [Api.fc2Value, h1, h2]
      have hst : (Api.initDynmat ({ s with nac := n } : Api V K M F2 F3 B G N S W) i).1.inter =
            some { i with
              fc2 := i.fc2
              nac := n
              done := fun _ => none
              gammaStored := match i.gammaStored with
                | some g => some g
                | none => some ⟨v, s.data.masses, n, i.scale⟩ } ∧
          (Api.initDynmat ({ s with nac := n } : Api V K M F2 F3 B G N S W) i).1 =
            { s with
              nac := n
              inter := (Api.initDynmat ({ s with nac := n } : Api V K M F2 F3 B G N S W) i).1.inter } := by
        unfold Api.initDynmat
        rw [hv]
        simp only
        rw [h1]
        exact ⟨rfl, rfl⟩
      intro j hj
      rw [hst.1] at hj
      rw [hst.2]
      cases hj
      exact ⟨v, h1, h2, h3, h4, rfl, h6, h7, by simp, h9, h10⟩
  | setSigmas w => exact h
  | setMesh g => cases g <;> (intro i hi; simp [apiStep, Api.putMesh] at hi)
  | init scale plain => exact absurd hop id
  | changeFc3 f =>
    have hs : shared = true := hop
    simp only [apiStep]
    cases hp : s.fc3 with
    | none => simpa only [Api.changeFc3, hp] using h
    | some p =>
      have hst : (s.changeFc3 f).1 = { s with store3 := s.store3.modify p f } := by
        unfold Api.changeFc3
        rw [hp]
      rw [hst]
      intro i hi
      obtain ⟨v, h1, h2, h3, h4, h5, h6, h7, h8, h9, h10⟩ := h i hi
      obtain ⟨hn, h12⟩ := h10 hs
      clear h10
      subst hn
      have hid : ∀ x : Option F3, x.map (scaled e (none : Option S)) = x := by
        intro x; cases x <;> rfl
      have hval : ({ s with store3 := s.store3.modify p f } : Api V K M F2 F3 B G N S W).fc3Value =
          (s.store3.modify p f)[p]? := by simp [Api.fc3Value, hp]
      refine ⟨v, h1, h2, h3, h4, h5, h6, h7, h8, ?_, fun _ => ⟨rfl, ?_⟩⟩
      · rw [hval, hid]
        rcases h12 with h10 | ⟨h10, h11⟩
        · rw [h10, hp]; rfl
        · rw [h10]
          simp only [Api.fc3Value, hp, Option.bind_some] at h11
          simp [List.getElem?_modify, h11]
      · rcases h12 with h10 | ⟨h10, h11⟩
        · exact Or.inl h10
        · refine Or.inr ⟨h10, ?_⟩
          rw [hval]
          simp only [Api.fc3Value, hp, Option.bind_some] at h11
          simp [List.getElem?_modify, h11]
  | changeBoth f g => exact absurd hop id
  | produceFc3 solver split => exact absurd hop id
  | produceFc2 solver => exact absurd hop id
  | solve gps => exact solve_fresh e scale shared s gps h
  | run =>
    simp only [apiStep]
    rcases run_state e s with hr | ⟨gps, hr⟩
    · rw [hr]; exact h
    · rw [hr]; exact solve_fresh e scale shared s gps h

theorem apiRun_fresh (e : ApiEnv V F3 G S) (scale : Option S) (shared : Bool)
    (h : List (ApiOp V K M F2 F3 B G N S W)) (s : Api V K M F2 F3 B G N S W)
    (hop : ∀ op ∈ h, Harmless shared op) (hs : InterFresh e scale shared s) :
    InterFresh e scale shared (apiRun e s h) := by
  induction h generalizing s with
  | nil => exact hs
  | cons op h ih =>
    exact ih _ (fun o ho => hop o (List.mem_cons_of_mem _ ho))
      (apiStep_fresh e scale shared s op (hop op (List.mem_cons_self ..)) hs)

/-- **C124**. Let the interaction be initialised at some point of an arbitrary history, followed by
any calls that leave force constants, masses and band indices alone: work with datasets, new smearing
widths, new parameters of the non-analytical correction, a new mesh, solving phonons, calculations,
and changes of fc3 in place if the array is shared. Then every calculation that does not raise uses,
for all grid points, exactly what the object shows. Missing: assigning force constants, masses or
band indices after the initialisation, see `C124_old_fc3` and the following. -/
theorem C124_current_partial (e : ApiEnv V F3 G S) (m : M) (b : B) (w : W)
    (h1 h2 : List (ApiOp V K M F2 F3 B G N S W)) (scale : Option S) (plain : Bool)
    (hok : (apiStep e (apiRun e (newApi m b w) h1) (.init scale plain)).2 = false)
    (hh : ∀ op ∈ h2, Harmless (scale.isNone && plain) op) (u : Used M F2 F3 B G N S W)
    (hu : ((apiRun e (newApi m b w) (h1 ++ .init scale plain :: h2)).run e).2 = some u) :
    UsesCurrent e (apiRun e (newApi m b w) (h1 ++ .init scale plain :: h2)) u ∧ u.scale = scale := by
  have hf : InterFresh e scale (scale.isNone && plain)
      (apiRun e (newApi m b w) (h1 ++ .init scale plain :: h2)) := by
    rw [apiRun_append]
    exact apiRun_fresh e scale _ h2 _ hh (init_fresh e _ scale plain hok)
  generalize apiRun e (newApi m b w) (h1 ++ .init scale plain :: h2) = s at hu hf
  obtain ⟨i, hi, u1, u2, u3, u4, u5, u6, u7, u8⟩ := (run_used e s u).1 hu
  obtain ⟨v, f1, f2, f3, f4, f5, f6, f7, f8, f9, _⟩ := hf i hi
  have hsc : u.scale = scale := u5.trans f7
  refine ⟨⟨?_, u2.trans f3, u7, u3 ▸ f6, u4.trans f4, u6, v, ?_, ?_⟩, hsc⟩
  · rw [u1, f9, hsc]
    rfl
  · simp [Api.fc2Value, f1, f2]
  · intro gp hgp
    rw [u8, hsc]
    simp only
    cases hd : i.done gp with
    | some x =>
      simp only
      rw [f8 gp x hd]
    | none =>
      rw [u3] at hgp
      simp only [List.contains_eq_mem, List.mem_range, hgp, decide_true, if_true]
      exact sourceNow_fresh hf i hi v f2

/-- **C124**, negative. Assigning fc3 after the initialisation has no effect on calculations: they
go on using the fc3 of before. -/
theorem C124_old_fc3 (e : ApiEnv V F3 G S) (s : Api V K M F2 F3 B G N S W)
    (u : Used M F2 F3 B G N S W) (x y : F3) (hu : (s.run e).2 = some u) (hx : u.fc3 = some x) :
    ∃ u', ((apiStep e s (.setFc3 (some y))).1.run e).2 = some u' ∧ u'.fc3 = some x ∧
      (apiStep e s (.setFc3 (some y))).1.fc3Value = some y := by
  obtain ⟨i, hi, u1, _⟩ := (run_used e s u).1 hu
  refine ⟨_, (run_used e _ ⟨some x, i.bands, i.grid, i.masses, i.scale, _, s.sigmas, s.bands⟩).2
    ⟨i, hi, ?_, rfl, rfl, rfl, rfl, rfl, rfl, rfl⟩, rfl, ?_⟩
  · rw [hx] at u1
    cases hp : i.fc3 with
    | none => simp [hp] at u1
    | some p =>
      simp only [hp, Option.bind_some] at u1
      have hlt := (List.getElem?_eq_some_iff.1 u1.symm).1
      simp only [apiStep, Api.putFc3, hp, Option.bind_some]
      rw [List.getElem?_append_left hlt]
      exact u1
  · simp [apiStep, Api.putFc3, Api.fc3Value]

/-- **C124**, negative. Assigning fc2 after the initialisation has no effect on the phonons, neither
those solved before nor those solved later. -/
theorem C124_old_fc2 (e : ApiEnv V F3 G S) (s : Api V K M F2 F3 B G N S W)
    (u : Used M F2 F3 B G N S W) (y : F2) (hu : (s.run e).2 = some u) :
    ∃ u', ((apiStep e s (.setFc2 (some y))).1.run e).2 = some u' ∧
      (∀ gp x, u.phonons gp = some x → u'.phonons gp = some x) ∧
      (apiStep e s (.setFc2 (some y))).1.fc2Value = some y := by
  obtain ⟨i, hi, _, _, _, _, _, _, _, u8⟩ := (run_used e s u).1 hu
  refine ⟨_, (run_used e _ ⟨_, i.bands, i.grid, i.masses, i.scale, _, s.sigmas, s.bands⟩).2
    ⟨i, hi, rfl, rfl, rfl, rfl, rfl, rfl, rfl, rfl⟩, ?_, ?_⟩
  · intro gp x hx
    rw [u8] at hx
    simp only at hx ⊢
    cases hd : i.done gp with
    | some z => rw [hd] at hx; exact hx
    | none =>
      rw [hd] at hx
      simp only at hx ⊢
      split at hx
      · rename_i hc
        rw [if_pos hc]
        unfold Api.sourceNow at hx ⊢
        cases hv : s.store2[i.fc2]? with
        | none => simp [hv] at hx
        | some v =>
          have hlt := (List.getElem?_eq_some_iff.1 hv).1
          have : (apiStep e s (.setFc2 (some y))).1.store2[i.fc2]? = some v := by
            simp only [apiStep, Api.putFc2]
            rw [List.getElem?_append_left hlt, hv]
          rw [this]
          rw [hv] at hx
          exact hx
      · cases hx
  · simp [apiStep, Api.putFc2, Api.fc2Value]

/-- **C124**, negative. Assigning the band indices after the initialisation changes the labels of the
output but not the bands that are calculated. -/
theorem C124_old_bands (e : ApiEnv V F3 G S) (s : Api V K M F2 F3 B G N S W)
    (u : Used M F2 F3 B G N S W) (b : B) (hu : (s.run e).2 = some u) :
    ∃ u', ((apiStep e s (.setBands b)).1.run e).2 = some u' ∧ u'.bands = u.bands ∧
      u'.labels = b := by
  obtain ⟨i, hi, _, u2, _⟩ := (run_used e s u).1 hu
  exact ⟨_, (run_used e _ ⟨_, i.bands, i.grid, i.masses, i.scale, _, s.sigmas, b⟩).2
    ⟨i, hi, rfl, rfl, rfl, rfl, rfl, rfl, rfl, rfl⟩, u2.symm, rfl⟩

/-- **C124**, negative. Assigning the masses after the initialisation leads to calculations with two
sets of masses: phonons not solved before use the new ones, phonons solved before and the
interaction strengths the old ones. -/
theorem C124_mixed_masses (e : ApiEnv V F3 G S) (s : Api V K M F2 F3 B G N S W)
    (u : Used M F2 F3 B G N S W) (m' : M) (hu : (s.run e).2 = some u) :
    ∃ u' i, s.inter = some i ∧
      ((apiStep e s (.data (.setMasses m'))).1.run e).2 = some u' ∧ u'.masses = u.masses ∧
      (∀ gp x, i.done gp = some x → u'.phonons gp = some x) ∧
      (∀ gp x, i.done gp = none → u.phonons gp = some x →
        u'.phonons gp = some ⟨x.fc2, m', x.nac, x.scale⟩) := by
  obtain ⟨i, hi, _, _, _, u4, _, _, _, u8⟩ := (run_used e s u).1 hu
  refine ⟨_, i, hi, (run_used e _ ⟨_, i.bands, i.grid, i.masses, i.scale, _, s.sigmas, s.bands⟩).2
    ⟨i, hi, rfl, rfl, rfl, rfl, rfl, rfl, rfl, rfl⟩, u4.symm, ?_, ?_⟩
  · intro gp x hd
    simp only [hd]
  · intro gp x hd hx
    rw [u8] at hx
    simp only [hd] at hx ⊢
    split at hx
    · rename_i hc
      rw [if_pos hc]
      unfold Api.sourceNow at hx ⊢
      cases hv : s.store2[i.fc2]? with
      | none => simp [hv] at hx
      | some v =>
        rw [hv] at hx
        cases Option.some.inj hx
        show Option.map _ s.store2[i.fc2]? = _
        rw [hv]
        rfl
    · cases hx

/-! ### Where force constants come from -/

/-- **C125**. When `produce_fc3` does not raise, fc3 is what the solver made of the dataset, and fc2
is taken from the same solution if there was none before and the object has no separate supercell for
fc2. Missing: an fc2 that exists already stays, see `C125_old_fc2`. -/
theorem C125_fc3_partial (e : ApiEnv V F3 G S) (s : Api V K M F2 F3 B G N S W)
    (solver : AnyDataset V K → Option (F2 × F3)) (split : Bool)
    (hok : (apiStep e s (.produceFc3 solver split)).2 = false) :
    ∃ d f2 f3, s.data.dataset = some d ∧ solver d = some (f2, f3) ∧
      (apiStep e s (.produceFc3 solver split)).1.fc3Value = some f3 ∧
      (s.fc2 = none → split = false → e.cells.hasPhononMatrix = false →
        (apiStep e s (.produceFc3 solver split)).1.fc2Value = some f2) ∧
      (split = true ∨ e.cells.hasPhononMatrix = true →
        (apiStep e s (.produceFc3 solver split)).1.fc2Value = s.fc2Value) := by
  simp only [apiStep, Api.produceFc3] at hok ⊢
  cases hd : s.data.dataset with
  | none => simp [hd] at hok
  | some d =>
    simp only [hd, Option.bind_some] at hok ⊢
    cases hs : solver d with
    | none => simp [hs] at hok
    | some r =>
      obtain ⟨f2, f3⟩ := r
      refine ⟨d, f2, f3, rfl, hs, ?_, ?_, ?_⟩
      · simp only
        split
        · simp [Api.putFc3, Api.fc3Value]
        · split <;> simp [Api.putFc3, Api.putFc2, Api.fc3Value]
      · intro h1 h2 h3
        simp [h2, h3, Api.putFc3, Api.putFc2, Api.fc2Value, h1]
      · intro h
        have : (split || e.cells.hasPhononMatrix) = true := by simpa using h
        simp [this, Api.putFc3, Api.fc2Value]

/-- **C125**, negative. If fc2 exists, `produce_fc3` leaves it as it is, whatever dataset it came
from, while fc3 is made from the current dataset. -/
theorem C125_old_fc2 (e : ApiEnv V F3 G S) (s : Api V K M F2 F3 B G N S W)
    (solver : AnyDataset V K → Option (F2 × F3)) (split : Bool) (x : F2)
    (hx : s.fc2Value = some x) :
    (apiStep e s (.produceFc3 solver split)).1.fc2Value = some x := by
  have hp : ∃ p, s.fc2 = some p := by
    cases h : s.fc2 with
    | none => simp [Api.fc2Value, h] at hx
    | some p => exact ⟨p, rfl⟩
  obtain ⟨p, hp⟩ := hp
  simp only [apiStep, Api.produceFc3]
  split
  · exact hx
  · split
    · exact hx
    · simp only [Api.putFc3, hp]
      simpa only [Api.fc2Value, hp] using hx

/-- **C125**. `produce_fc2` raises or makes fc2 from the dataset for fc2 if there is one, and from the
dataset for fc3 otherwise; the dataset has forces, and fc3 is not touched. -/
theorem C125_fc2 (e : ApiEnv V F3 G S) (s : Api V K M F2 F3 B G N S W)
    (solver : Nat → AnyDataset V K → Option F2) :
    (∃ d v, (s.data.pdataset = some d ∨ s.data.pdataset = none ∧ s.data.dataset = some d) ∧
      forcesInDataset d = true ∧ solver e.cells.pnatom d = some v ∧
      (apiStep e s (.produceFc2 solver)).2 = false ∧
      (apiStep e s (.produceFc2 solver)).1.fc2Value = some v ∧
      (apiStep e s (.produceFc2 solver)).1.fc3Value = s.fc3Value) ∨
    apiStep e s (.produceFc2 solver) = (s, true) := by
  have main : ∀ d, (s.data.pdataset = some d ∨ s.data.pdataset = none ∧ s.data.dataset = some d) →
      s.produceFc2 e solver = if forcesInDataset d then
        match solver e.cells.pnatom d with
        | none => (s, true)
        | some v => (s.putFc2 (some v), false)
      else (s, true) := by
    rintro d (h | ⟨h, h'⟩)
    · simp only [Api.produceFc2, h]
      rfl
    · simp only [Api.produceFc2, h, h']
      rfl
  simp only [apiStep]
  by_cases hd : ∃ d, s.data.pdataset = some d ∨ s.data.pdataset = none ∧ s.data.dataset = some d
  · obtain ⟨d, hd⟩ := hd
    rw [main d hd]
    cases hf : forcesInDataset d with
    | false => right; simp
    | true =>
      cases hs : solver e.cells.pnatom d with
      | none => right; simp
      | some v =>
        left
        exact ⟨d, v, hd, hf, hs, by simp, by simp [Api.putFc2, Api.fc2Value],
          by simp [Api.putFc2, Api.fc3Value]⟩
  · right
    unfold Api.produceFc2
    cases hp : s.data.pdataset with
    | some d => exact absurd ⟨d, Or.inl hp⟩ hd
    | none =>
      cases hq : s.data.dataset with
      | some d => exact absurd ⟨d, Or.inr ⟨hp, hq⟩⟩ hd
      | none => rfl

/-- **C125**, negative. With a separate supercell for fc2 but no dataset for it, `produce_fc2` hands
the dataset of the other supercell to the solver, together with the number of atoms of the supercell
for fc2. -/
theorem C125_wrong_cell (e : ApiEnv V F3 G S) (s : Api V K M F2 F3 B G N S W)
    (d : AnyDataset V K) (v : F2) (hp : s.data.pdataset = none) (hd : s.data.dataset = some d)
    (hf : forcesInDataset d = true) (solver : Nat → AnyDataset V K → Option F2)
    (hs : solver e.cells.pnatom d = some v) :
    (apiStep e s (.produceFc2 solver)).2 = false ∧
      (apiStep e s (.produceFc2 solver)).1.fc2Value = some v := by
  simp [apiStep, Api.produceFc2, hp, hd, hf, hs, Api.putFc2, Api.fc2Value]

/-- **C125**, negative. After a refused assignment of a dataset for fc2 (the object has no separate
supercell for fc2), `produce_fc2` raises for every solver, although nothing was assigned and the
dataset for fc3 could be used before. -/
theorem C125_blocked (e : ApiEnv V F3 G S) (s : Api V K M F2 F3 B G N S W)
    (hm : e.cells.hasPhononMatrix = false) (disps : List (List V))
    (f : Option (List (List V))) (en : Option (List K))
    (solver : Nat → AnyDataset V K → Option F2) :
    (apiStep e s (.data (.setPhononDataset (.type2 disps f en)))).2 = true ∧
      (apiStep e (apiStep e s (.data (.setPhononDataset (.type2 disps f en)))).1
        (.produceFc2 solver)).2 = true := by
  simp [apiStep, C122_phonon_refused _ _ hm, Api.produceFc2, forcesInDataset]

/-! ### Concrete histories -/

/-- A supercell of two atoms; fc3 is a number that the scale factor multiplies by its square. -/
def twoAtomEnv : ApiEnv ℚ ℚ Nat ℚ := ⟨⟨2, fun i => i, 2, fun i => i, false⟩, fun g => g, fun x v => x ^ 2 * v⟩

/-- Datasets, force constants, mesh. -/
def firstCalls : List (ApiOp ℚ ℚ ℚ ℚ ℚ (List Nat) Nat ℚ ℚ (List ℚ)) :=
  [.data (.setDisplacements [[1, 0], [0, 1]]), .data (.setForces [[5, -5], [-5, 5]]),
    .produceFc3 (fun d => if forcesInDataset d then some (3, 7) else none) false,
    .setMesh (some 4)]

/-- Calls that leave force constants, masses and band indices alone. -/
def laterCalls : List (ApiOp ℚ ℚ ℚ ℚ ℚ (List Nat) Nat ℚ ℚ (List ℚ)) :=
  [.solve [0, 2], .setSigmas [1], .setNac (some 9), .solve [1], .changeFc3 (fun x => x - 1),
    .data (.setForces [[6, -6], [-6, 6]])]

example : (apiStep twoAtomEnv (apiRun twoAtomEnv (newApi 28 [0] []) firstCalls)
    (.init none true)).2 = false := rfl

example : ∀ op ∈ laterCalls, Harmless ((none : Option ℚ).isNone && true) op := by
  simp [laterCalls, Harmless]

/-- The calculation after these calls: fc3 changed in place, fc2 from the dataset, the new
parameters at every point. -/
example : ∃ u, ((apiRun twoAtomEnv (newApi 28 [0] [])
    (firstCalls ++ .init none true :: laterCalls)).run twoAtomEnv).2 = some u ∧
    u.fc3 = some (7 - 1) ∧ u.grid = 4 ∧ u.sigmas = [1] ∧
    u.phonons 0 = some ⟨3, 28, some 9, none⟩ ∧ u.phonons 3 = some ⟨3, 28, some 9, none⟩ :=
  ⟨_, rfl, rfl, rfl, rfl, rfl, rfl⟩

/-- With a scale factor the interaction has its own array. -/
example : ∃ u, ((apiRun twoAtomEnv (newApi 28 [0] [])
    (firstCalls ++ [.init (some 2) true, .solve [1]])).run twoAtomEnv).2 = some u ∧
    u.fc3 = some (2 ^ 2 * 7) ∧ u.phonons 1 = some ⟨3, 28, none, some 2⟩ :=
  ⟨_, rfl, rfl, rfl⟩

/-- Masses assigned after the initialisation: two sets of masses in one calculation. -/
example : ∃ u, ((apiRun twoAtomEnv (newApi 28 [0] []) (firstCalls ++
    [.init none true, .solve [0], .data (.setMasses 29)])).run twoAtomEnv).2 = some u ∧
    u.masses = 28 ∧ u.phonons 0 = some ⟨3, 28, none, none⟩ ∧
    u.phonons 1 = some ⟨3, 29, none, none⟩ :=
  ⟨_, rfl, rfl, rfl, rfl⟩

/-- A second dataset: fc3 is new, fc2 that of the first dataset. -/
example :
    let s := apiRun twoAtomEnv (newApi 28 [0] []) (firstCalls ++
      [.data (.setForces [[9, -9], [-9, 9]]), .produceFc3 (fun _ => some (30, 70)) false])
    s.fc3Value = some 70 ∧ s.fc2Value = some 3 := ⟨rfl, rfl⟩

end
end Phono3py.Props
