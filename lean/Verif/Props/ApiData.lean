import Verif.Spec.ApiData
import Verif.Props.Dataset
import Mathlib.Data.List.Induction

/-!
# C122, C123: histories of datasets, displaced supercells and forces
-/

namespace Phono3py.Props

section
variable {V K M : Type} [AddMonoid V]

theorem dataRun_append (e : ApiCells V) (s : ApiData V K M) (h1 h2 : List (DataOp V K M)) :
    dataRun e s (h1 ++ h2) = dataRun e (dataRun e s h1) h2 := by
  induction h1 generalizing s with
  | nil => rfl
  | cons op h1 ih => exact ih _

/-! ### What the single calls keep -/

theorem assign_kept {X : Type} (put1 : X → Disp1 V K → Disp1 V K) (put2 : X → Disp2 V K → Disp2 V K)
    (h1 : ∀ v d, (put1 v d).number = d.number ∧ (put1 v d).displacement = d.displacement ∧
      (put1 v d).id = d.id ∧ (put1 v d).second = d.second)
    (h2 : ∀ v d, (put2 v d).number = d.number ∧ (put2 v d).displacement = d.displacement ∧
      (put2 v d).id = d.id ∧ (put2 v d).included = d.included)
    (ds : DispDataset V K) (vs : List X) (pos : Nat → V) :
    buildSupercells pos (assignValues put1 put2 ds vs).1 = buildSupercells pos ds := by
  have second : ∀ (l : List (Disp2 V K)) (vs : List X) (f : Disp2 V K → Option (Nat → V)),
      (∀ v d, f (put2 v d) = f d) → (assignSecond put2 l vs).1.map f = l.map f := by
    intro l
    induction l with
    | nil => intro vs f _; rfl
    | cons d l ih =>
      intro vs f hf
      cases vs with
      | nil => rfl
      | cons v vs => simp only [assignSecond, List.map_cons, hf, ih vs f hf]
  have first : ∀ (l : List (Disp1 V K)) (vs : List X),
      buildSupercells pos { ds with first := (assignFirst put1 l vs).1 } =
        buildSupercells pos { ds with first := l } := by
    intro l
    induction l with
    | nil => intro vs; rfl
    | cons d l ih =>
      intro vs
      cases vs with
      | nil => rfl
      | cons v vs =>
        have := ih vs
        simp only [buildSupercells, buildFirst] at this ⊢
        simp only [assignFirst, List.map_cons, List.flatMap_cons, (h1 v d).1, (h1 v d).2.1,
          (h1 v d).2.2.2, List.cons_append, List.cons.injEq, true_and]
        have hlen : ((assignFirst put1 l vs).1.map
            (fun d1 => moveAtom pos d1.number d1.displacement)).map some =
            (l.map (fun d1 => moveAtom pos d1.number d1.displacement)).map some := by
          have : ∀ (l : List (Disp1 V K)) (vs : List X), (assignFirst put1 l vs).1.map
            (fun d1 => moveAtom pos d1.number d1.displacement) =
            l.map (fun d1 => moveAtom pos d1.number d1.displacement) := by
            intro l
            induction l with
            | nil => intro vs; rfl
            | cons d l ih =>
              intro vs
              cases vs with
              | nil => rfl
              | cons v vs => simp only [assignFirst, List.map_cons, (h1 v d).1, (h1 v d).2.1, ih]
          rw [this]
        rw [hlen] at this ⊢
        rw [List.append_cancel_left this]
  have pairs : ∀ (l : List (Disp1 V K)) (vs : List X),
      buildSupercells pos { ds with first := (assignPairs put2 l vs).1 } =
        buildSupercells pos { ds with first := l } := by
    intro l
    have hfirst : ∀ (l : List (Disp1 V K)) (vs : List X), (assignPairs put2 l vs).1.map
        (fun d1 => moveAtom pos d1.number d1.displacement) =
        l.map (fun d1 => moveAtom pos d1.number d1.displacement) := by
      intro l
      induction l with
      | nil => intro vs; rfl
      | cons d l ih =>
        intro vs
        simp only [assignPairs]
        split
        · rfl
        · simp only [List.map_cons, ih]
    have hsecond : ∀ (d : Disp1 V K) (vs : List X),
        (assignSecond put2 d.second vs).1.map (fun d2 =>
          if d2.included.getD true then
            some (moveAtom (moveAtom pos d.number d.displacement) d2.number d2.displacement)
          else none) = d.second.map (fun d2 =>
          if d2.included.getD true then
            some (moveAtom (moveAtom pos d.number d.displacement) d2.number d2.displacement)
          else none) := by
      intro d vs
      apply second
      intro v d2
      rw [(h2 v d2).1, (h2 v d2).2.1, (h2 v d2).2.2.2]
    induction l with
    | nil => intro vs; rfl
    | cons d l ih =>
      intro vs
      simp only [buildSupercells, buildFirst, hfirst]
      congr 1
      simp only [assignPairs]
      split
      · simp only [List.flatMap_cons]
        rw [hsecond]
      · rename_i ws _
        have := ih ws
        simp only [buildSupercells, buildFirst, hfirst] at this
        simp only [List.flatMap_cons]
        rw [hsecond, List.append_cancel_left this]
  unfold assignValues
  simp only
  split
  · exact first ds.first vs
  · rw [pairs]
    exact first ds.first vs

theorem buildCells_described (pos : Nat → V) (d : AnyDataset V K) :
    buildCells pos d = (describedFields d).map
      (fun fields => fields.map (fun f => f.map (fun (f : Nat → V) (k : Nat) => pos k + f k))) := by
  cases d with
  | type1 d =>
    simp only [buildCells, describedFields, Option.map_some, C48_supercells, List.map_map]
    congr 1
    apply List.map_congr_left
    intro e _
    simp only [Function.comp_apply]
    split <;> rfl
  | type2 d =>
    cases hd : d.displacements <;> simp [buildCells, describedFields, hd]

theorem buildPhononCells_described (pos : Nat → V) (d : AnyDataset V K) :
    buildPhononCells pos d = (describedPhononFields d).map
      (fun fields => fields.map (fun (f : Nat → V) (k : Nat) => pos k + f k)) := by
  cases d with
  | type1 d =>
    simp only [buildPhononCells, describedPhononFields, Option.map_some, buildFirst, List.map_map]
    congr 1
    apply List.map_congr_left
    intro e _
    funext k
    exact moveAtom_one ..
  | type2 d =>
    cases hd : d.displacements <;> simp [buildPhononCells, describedPhononFields, hd]

theorem cellsOf_iff (pos : Nat → V) (ds : Option (AnyDataset V K))
    (cells : List (Option (MovedCell V M))) :
    CellsOf pos ds cells ↔
      ds.bind (buildCells pos) = some (cells.map (fun c => c.map (fun c => c.positions))) := by
  unfold CellsOf
  cases ds with
  | none => simp
  | some d =>
    rw [Option.bind_some, buildCells_described]
    constructor
    · rintro ⟨d', fields, hd, hf, h⟩
      cases hd
      rw [hf, Option.map_some, h]
    · intro h
      obtain ⟨fields, hf, h⟩ := Option.map_eq_some_iff.1 h
      exact ⟨d, fields, rfl, hf, h.symm⟩

theorem phononCellsOf_iff (pos : Nat → V) (ds : Option (AnyDataset V K))
    (cells : List (MovedCell V M)) :
    PhononCellsOf pos ds cells ↔
      ds.bind (buildPhononCells pos) = some (cells.map (fun c => c.positions)) := by
  unfold PhononCellsOf
  cases ds with
  | none => simp
  | some d =>
    rw [Option.bind_some, buildPhononCells_described]
    constructor
    · rintro ⟨d', fields, hd, hf, h⟩
      cases hd
      rw [hf, Option.map_some, h]
    · intro h
      obtain ⟨fields, hf, h⟩ := Option.map_eq_some_iff.1 h
      exact ⟨d, fields, rfl, hf, h.symm⟩

/-- The caches hold what the datasets describe. -/
structure CachesFresh (e : ApiCells V) (s : ApiData V K M) : Prop where
  cells : ∀ c, s.cells = some c → CellsOf e.pos s.dataset c
  pcells : ∀ c, s.pcells = some c → PhononCellsOf e.ppos s.pdataset c

/-- The dataset changed in forces or energies only. -/
structure SameCells (e : ApiCells V) (s t : ApiData V K M) : Prop where
  build : t.dataset.bind (buildCells e.pos) = s.dataset.bind (buildCells e.pos)
  pbuild : t.pdataset.bind (buildPhononCells e.ppos) = s.pdataset.bind (buildPhononCells e.ppos)
  cells : t.cells = s.cells
  pcells : t.pcells = s.pcells

theorem CachesFresh.same {e : ApiCells V} {s t : ApiData V K M} (h : CachesFresh e s)
    (hs : SameCells e s t) : CachesFresh e t := by
  constructor
  · intro c hc
    rw [cellsOf_iff, hs.build, ← cellsOf_iff]
    exact h.cells c (hs.cells ▸ hc)
  · intro c hc
    rw [phononCellsOf_iff, hs.pbuild, ← phononCellsOf_iff]
    exact h.pcells c (hs.pcells ▸ hc)

theorem SameCells.refl (e : ApiCells V) (s : ApiData V K M) : SameCells e s s := ⟨rfl, rfl, rfl, rfl⟩

theorem SameCells.trans {e : ApiCells V} {s t u : ApiData V K M} (h : SameCells e s t)
    (h' : SameCells e t u) : SameCells e s u :=
  ⟨h'.build.trans h.build, h'.pbuild.trans h.pbuild, h'.cells.trans h.cells,
    h'.pcells.trans h.pcells⟩

theorem setForcesApi_same (e : ApiCells V) (s : ApiData V K M) (vs : List (List V)) :
    SameCells e s (setForcesApi s vs).1 := by
  unfold setForcesApi
  split
  · exact .refl e s
  · rename_i d hd
    refine ⟨?_, rfl, rfl, rfl⟩
    simp only [hd, Option.bind_some, buildCells]
    rw [assign_kept] <;> intros <;> exact ⟨rfl, rfl, rfl, rfl⟩
  · rename_i d hd
    unfold setForces2
    by_cases hc : d.displacements.isSome ∨ d.forces.isSome
    · simp only [hc, if_true]
      exact ⟨by simp only [hd, Option.bind_some, buildCells], rfl, rfl, rfl⟩
    · simp only [hc, if_false]
      exact .refl e s

theorem setEnergiesApi_same (e : ApiCells V) (s : ApiData V K M) (vs : List K) :
    SameCells e s (setEnergiesApi s vs).1 := by
  unfold setEnergiesApi
  split
  · exact .refl e s
  · rename_i d hd
    refine ⟨?_, rfl, rfl, rfl⟩
    simp only [hd, Option.bind_some, buildCells]
    rw [assign_kept] <;> intros <;> exact ⟨rfl, rfl, rfl, rfl⟩
  · rename_i d hd
    unfold setEnergies2
    by_cases hc : d.displacements.isSome ∨ d.forces.isSome
    · simp only [hc, if_true]
      exact ⟨by simp only [hd, Option.bind_some, buildCells], rfl, rfl, rfl⟩
    · simp only [hc, if_false]
      exact .refl e s

theorem setPhononForcesApi_same (e : ApiCells V) (s : ApiData V K M) (vs : List (List V)) :
    SameCells e s (setPhononForcesApi e s vs).1 := by
  unfold setPhononForcesApi
  split
  · exact .refl e s
  · rename_i d hd
    refine ⟨rfl, ?_, rfl, rfl⟩
    simp only [hd, Option.bind_some, buildPhononCells, buildFirst, setPhononForces, List.map_append,
      List.map_map]
    congr 1
    have : ∀ (l : List (Disp1 V K)) (vs : List (List V)),
        (l.zip vs).map ((fun d1 => moveAtom e.ppos d1.number d1.displacement) ∘
          (fun p => { p.1 with forces := some p.2 })) ++
          (l.drop vs.length).map (fun d1 => moveAtom e.ppos d1.number d1.displacement) =
          l.map (fun d1 => moveAtom e.ppos d1.number d1.displacement) := by
      intro l
      induction l with
      | nil => intro vs; simp
      | cons d l ih =>
        intro vs
        cases vs with
        | nil => rfl
        | cons v vs => exact congrArg (List.cons _) (ih vs)
    exact this ..
  · rename_i d hd
    cases h : setPhononForces2 e.pnatom d vs with
    | none => exact .refl e s
    | some d' =>
      refine ⟨rfl, ?_, rfl, rfl⟩
      unfold setPhononForces2 at h
      cases hdd : d.displacements with
      | none => simp [hdd] at h
      | some disps =>
        simp only [hdd] at h
        split at h
        · simp only [Option.some.injEq] at h
          subst h
          simp only [hd, Option.bind_some, buildPhononCells, hdd]
        · cases h

theorem setPhononEnergiesApi_same (e : ApiCells V) (s : ApiData V K M) (vs : List K) :
    SameCells e s (setPhononEnergiesApi s vs).1 := by
  unfold setPhononEnergiesApi
  split
  · exact .refl e s
  · rename_i d hd
    refine ⟨rfl, ?_, rfl, rfl⟩
    simp only [hd, Option.bind_some, buildPhononCells, buildFirst, List.map_append, List.map_map]
    congr 1
    have : ∀ (l : List (Disp1 V K)) (vs : List K),
        (l.zip vs).map ((fun d1 => moveAtom e.ppos d1.number d1.displacement) ∘
          (fun p => { p.1 with energy := some p.2 })) ++
          (l.drop vs.length).map (fun d1 => moveAtom e.ppos d1.number d1.displacement) =
          l.map (fun d1 => moveAtom e.ppos d1.number d1.displacement) := by
      intro l
      induction l with
      | nil => intro vs; simp
      | cons d l ih =>
        intro vs
        cases vs with
        | nil => rfl
        | cons v vs => exact congrArg (List.cons _) (ih vs)
    exact this ..
  · rename_i d hd
    cases hdd : d.displacements with
    | none => exact .refl e s
    | some disps =>
      simp only
      split
      · exact ⟨rfl, by simp only [hd, Option.bind_some, buildPhononCells, hdd], rfl, rfl⟩
      · exact .refl e s

theorem readCells_fresh (e : ApiCells V) (s : ApiData V K M) (h : CachesFresh e s) :
    CachesFresh e (readCells e s).1 ∧ (readCells e s).1.dataset = s.dataset ∧
      (readCells e s).1.pdataset = s.pdataset ∧ (readCells e s).1.masses = s.masses ∧
      (∀ c, (readCells e s).2 = some c → CellsOf e.pos s.dataset c) ∧
      ((readCells e s).2 = none ↔ s.dataset.bind (buildCells e.pos) = none ∧ s.cells = none) := by
  unfold readCells
  split
  · rename_i c hc
    refine ⟨h, rfl, rfl, rfl, ?_, by simp [hc]⟩
    intro c' hc'
    cases hc'
    exact h.cells c hc
  · rename_i hn
    split
    · rename_i hb
      exact ⟨h, rfl, rfl, rfl, by simp, by simp [hb, hn]⟩
    · rename_i c hb
      have key : CellsOf e.pos s.dataset
          (c.map fun p => p.map fun (x : Nat → V) => (⟨x, s.masses⟩ : MovedCell V M)) := by
        rw [cellsOf_iff, hb, List.map_map]
        congr 1
        conv_lhs => rw [← List.map_id c]
        apply List.map_congr_left
        intro p _
        cases p <;> rfl
      refine ⟨⟨?_, h.pcells⟩, rfl, rfl, rfl, ?_, by simp [hb]⟩
      · intro c' hc'
        cases hc'
        exact key
      · intro c' hc'
        cases hc'
        exact key

theorem readPhononCells_fresh (e : ApiCells V) (s : ApiData V K M) (h : CachesFresh e s) :
    CachesFresh e (readPhononCells e s).1 ∧ (readPhononCells e s).1.dataset = s.dataset ∧
      (readPhononCells e s).1.pdataset = s.pdataset ∧
      (readPhononCells e s).1.masses = s.masses ∧
      (∀ c, (readPhononCells e s).2 = some (some c) → PhononCellsOf e.ppos s.pdataset c) := by
  unfold readPhononCells
  split
  · rename_i c hc
    refine ⟨h, rfl, rfl, rfl, ?_⟩
    intro c' hc'
    cases hc'
    exact h.pcells c hc
  · rename_i hn
    split
    · exact ⟨h, rfl, rfl, rfl, by simp⟩
    · rename_i d hd
      split
      · exact ⟨h, rfl, rfl, rfl, by simp⟩
      · rename_i c hb
        have key : PhononCellsOf e.ppos s.pdataset
            (c.map fun (x : Nat → V) => (⟨x, s.masses⟩ : MovedCell V M)) := by
          rw [phononCellsOf_iff, hd, Option.bind_some, hb, List.map_map]
          congr 1
          conv_lhs => rw [← List.map_id c]
          rfl
        refine ⟨⟨h.cells, ?_⟩, rfl, rfl, rfl, ?_⟩
        · intro c' hc'
          cases hc'
          exact key
        · intro c' hc'
          cases hc'
          exact key


theorem setDisplacementsApi_fresh (e : ApiCells V) (s : ApiData V K M) (vs : List (List V))
    (h : CachesFresh e s) : CachesFresh e (setDisplacementsApi e s vs).1 := by
  unfold setDisplacementsApi
  split
  · exact h
  · split
    · exact h
    · exact ⟨by simp, h.pcells⟩
  · split
    · exact h
    · exact ⟨by simp, h.pcells⟩

theorem setPhononDisplacementsApi_fresh (e : ApiCells V) (s : ApiData V K M) (vs : List (List V))
    (h : CachesFresh e s) : CachesFresh e (setPhononDisplacementsApi e s vs).1 := by
  unfold setPhononDisplacementsApi
  split
  · split
    · exact h
    · split
      · exact h
      · exact ⟨h.cells, by simp⟩
    · split
      · exact h
      · exact ⟨h.cells, by simp⟩
  · exact h

theorem setDisplacements2_fits (natom : Nat) (ds : DispDataset2 V K) (vs : List (List V))
    (hv : ∀ v ∈ vs, v.length = natom) :
    setDisplacements2 natom ds vs = some { ds with displacements := some vs } := by
  unfold setDisplacements2
  rw [if_pos hv]

/-- What `dataset` holds after assigning a type-2 dataset that fits. -/
theorem setDatasetApi_type2 (e : ApiCells V) (s : ApiData V K M) (disps : List (List V))
    (forces : Option (List (List V))) (energies : Option (List K))
    (hv : ∀ v ∈ disps, v.length = e.natom) :
    setDatasetApi e s (.type2 disps forces energies) =
      ({ s with dataset := some (.type2 ⟨some disps, forces, energies⟩), cells := none,
                pcells := none }, false) := by
  cases forces <;> cases energies <;>
    simp [setDatasetApi, setDisplacementsApi, setDisplacements2_fits _ _ _ hv, thenStep,
      setForcesApi, setEnergiesApi, setForces2, setEnergies2]

theorem dataStep_fresh (e : ApiCells V) (s : ApiData V K M) (op : DataOp V K M)
    (hop : FitsCell e op) (h : CachesFresh e s) : CachesFresh e (dataStep e s op).1 := by
  cases op with
  | setDataset g =>
    cases g with
    | nothing => exact ⟨by simp [dataStep, setDatasetApi, thenStep],
        by simp [dataStep, setDatasetApi, thenStep]⟩
    | type1 d => exact ⟨by simp [dataStep, setDatasetApi, thenStep],
        by simp [dataStep, setDatasetApi, thenStep]⟩
    | type2 disps forces energies =>
      simp only [dataStep]
      rw [setDatasetApi_type2 e s disps forces energies hop]
      exact ⟨by simp, by simp⟩
    | other => exact h
  | setDisplacements vs => exact setDisplacementsApi_fresh e s vs h
  | setForces vs => exact h.same (setForcesApi_same e s vs)
  | setEnergies es => exact h.same (setEnergiesApi_same e s es)
  | setPhononDataset g =>
    cases g with
    | nothing =>
      exact ⟨h.cells, by simp [dataStep, setPhononDatasetApi, thenStep]⟩
    | type1 d => exact ⟨h.cells, by simp [dataStep, setPhononDatasetApi, thenStep]⟩
    | type2 disps forces energies =>
      obtain ⟨hm, hv⟩ := hop
      simp only [dataStep, setPhononDatasetApi]
      have h1 : (setPhononDisplacementsApi e
          ({ s with pdataset := some (.type2 ⟨none, none, none⟩) } : ApiData V K M) disps) =
          ({ s with pdataset := some (.type2 ⟨some disps, none, none⟩), pcells := none }, false) := by
        simp [setPhononDisplacementsApi, hm, setDisplacements2_fits _ _ _ hv]
      rw [h1]
      have h2 : CachesFresh e (⟨s.masses, s.dataset, s.cells,
          some (.type2 ⟨some disps, none, none⟩), none⟩ : ApiData V K M) := ⟨h.cells, by simp⟩
      have step : ∀ (r : ApiData V K M × Bool) (f : ApiData V K M → ApiData V K M × Bool),
          CachesFresh e r.1 → (∀ t, CachesFresh e t → CachesFresh e (f t).1) →
            CachesFresh e (thenStep r f).1 := by
        intro r f hr hf
        unfold thenStep
        split
        · exact hr
        · exact hf _ hr
      apply step
      · apply step
        · apply step _ _ h2
          intro t ht
          cases forces with
          | none => exact ht
          | some f => exact ht.same (setPhononForcesApi_same e t f)
        · intro t ht
          cases energies with
          | none => exact ht
          | some f => exact ht.same (setPhononEnergiesApi_same e t f)
      · intro t ht
        exact ⟨ht.cells, by simp⟩
    | other => exact h
  | setPhononDisplacements vs => exact setPhononDisplacementsApi_fresh e s vs h
  | setPhononForces vs => exact h.same (setPhononForcesApi_same e s vs)
  | setPhononEnergies es => exact h.same (setPhononEnergiesApi_same e s es)
  | generate ds pds =>
    cases ds with
    | none => exact h
    | some d =>
      simp only [dataStep, generateApi]
      split
      · cases pds with
        | none => exact ⟨by simp [generatePhonon], h.pcells⟩
        | some p => exact ⟨by simp [generatePhonon], by simp [generatePhonon]⟩
      · exact ⟨by simp, h.pcells⟩
  | generatePhonon pds =>
    cases pds with
    | none => exact h
    | some p => exact ⟨h.cells, by simp [dataStep, generatePhonon]⟩
  | setMasses m => exact ⟨h.cells, h.pcells⟩
  | readCells => exact (readCells_fresh e s h).1
  | readPhononCells => exact (readPhononCells_fresh e s h).1
  | evaluateMlp mlp =>
    have hr := (readCells_fresh e s h).1
    simp only [dataStep, evaluateMlp]
    split
    · exact hr
    · rename_i c _
      have h1 := hr.same (setEnergiesApi_same e (readCells e s).1 (mlp c).1)
      unfold thenStep
      split
      · exact h1
      · exact h1.same (setForcesApi_same e _ _)

theorem dataRun_fresh (e : ApiCells V) (h : List (DataOp V K M)) (s : ApiData V K M)
    (hf : ∀ op ∈ h, FitsCell e op) (hs : CachesFresh e s) : CachesFresh e (dataRun e s h) := by
  induction h generalizing s with
  | nil => exact hs
  | cons op h ih =>
    exact ih _ (fun o ho => hf o (List.mem_cons_of_mem _ ho))
      (dataStep_fresh e s op (hf op (List.mem_cons_self ..)) hs)

/-- **C122**. After any history of calls in which assigned datasets fit the supercells, whatever
other calls raised, the supercells with displacements that the object hands out are those of its
current datasets: no cached supercell survives a change of the displacements. They are refused only
when the dataset describes no displacements. Missing: assigning a dataset that does not fit, see
`C122_failed_assignment`. -/
theorem C122_supercells_partial (e : ApiCells V) (m : M) (h : List (DataOp V K M))
    (hf : ∀ op ∈ h, FitsCell e op) :
    let s := dataRun e (newApiData m) h
    (∀ c, (readCells e s).2 = some c → CellsOf e.pos s.dataset c) ∧
      ((readCells e s).2 = none ↔ ∀ d, s.dataset = some d → describedFields d = none) ∧
      (∀ c, (readPhononCells e s).2 = some (some c) → PhononCellsOf e.ppos s.pdataset c) := by
  intro s
  have hs : CachesFresh e s := dataRun_fresh e h _ hf ⟨by simp [newApiData], by simp [newApiData]⟩
  obtain ⟨_, _, _, _, h1, h2⟩ := readCells_fresh e s hs
  refine ⟨h1, ?_, (readPhononCells_fresh e s hs).2.2.2.2⟩
  rw [h2]
  constructor
  · rintro ⟨hb, _⟩ d hd
    rw [hd, Option.bind_some, buildCells_described, Option.map_eq_none_iff] at hb
    exact hb
  · intro hd
    have hb : s.dataset.bind (buildCells e.pos) = none := by
      cases hsd : s.dataset with
      | none => rfl
      | some d => rw [Option.bind_some, buildCells_described, hd d hsd, Option.map_none]
    refine ⟨hb, ?_⟩
    cases hc : s.cells with
    | none => rfl
    | some c =>
      have := hs.cells c hc
      rw [cellsOf_iff, hb] at this
      cases this

/-- **C122**. Reading supercells, also with a machine-learning potential, or assigning forces,
energies or masses never changes the displaced supercells that are read next. -/
theorem C122_reading (e : ApiCells V) (m : M) (h : List (DataOp V K M))
    (hf : ∀ op ∈ h, FitsCell e op) (op : DataOp V K M)
    (hop : match op with
      | .readCells | .readPhononCells | .setForces _ | .setEnergies _ | .setPhononForces _ |
        .setPhononEnergies _ | .setMasses _ | .evaluateMlp _ => True
      | _ => False) (c c' : List (Option (MovedCell V M)))
    (hc : (readCells e (dataRun e (newApiData m) h)).2 = some c)
    (hc' : (readCells e (dataRun e (newApiData m) (h ++ [op]))).2 = some c') :
    c'.map (fun c => c.map (fun c => c.positions)) = c.map (fun c => c.map (fun c => c.positions)) := by
  have hfop : FitsCell e op := by cases op <;> simp_all [FitsCell]
  have hs : CachesFresh e (dataRun e (newApiData m) h) :=
    dataRun_fresh e h _ hf ⟨by simp [newApiData], by simp [newApiData]⟩
  have hs' : CachesFresh e (dataRun e (newApiData m) (h ++ [op])) :=
    dataRun_fresh e _ _ (by
      intro o ho
      rcases List.mem_append.1 ho with ho | ho
      · exact hf o ho
      · rw [List.mem_singleton.1 ho]; exact hfop) ⟨by simp [newApiData], by simp [newApiData]⟩
  have h1 := (readCells_fresh e _ hs).2.2.2.2.1 c hc
  have h2 := (readCells_fresh e _ hs').2.2.2.2.1 c' hc'
  rw [cellsOf_iff] at h1 h2
  rw [dataRun_append] at h2
  generalize dataRun e (newApiData m) h = s at h1 h2 hs
  have key : (dataStep e s op).1.dataset.bind (buildCells e.pos) =
      s.dataset.bind (buildCells e.pos) := by
    cases op with
    | setForces vs => exact (setForcesApi_same e s vs).build
    | setEnergies vs => exact (setEnergiesApi_same e s vs).build
    | setPhononForces vs => exact (setPhononForcesApi_same e s vs).build
    | setPhononEnergies vs => exact (setPhononEnergiesApi_same e s vs).build
    | setMasses m => rfl
    | readCells =>
      simp only [dataStep]
      rw [(readCells_fresh e s hs).2.1]
    | readPhononCells =>
      simp only [dataStep]
      rw [(readPhononCells_fresh e s hs).2.1]
    | evaluateMlp mlp =>
      simp only [dataStep, evaluateMlp]
      have hd := (readCells_fresh e s hs).2.1
      split
      · rw [hd]
      · rename_i c _
        have h1 := (setEnergiesApi_same e (readCells e s).1 (mlp c).1).build
        unfold thenStep
        split
        · rw [h1, hd]
        · rw [(setForcesApi_same e _ _).build, h1, hd]
    | _ => exact absurd hop id
  have h2' : (dataStep e s op).1.dataset.bind (buildCells e.pos) = _ := h2
  rw [key, h1] at h2'
  exact (Option.some.inj h2').symm

/-! ### Forces belong to displacements -/

theorem holds_of_dataset {s t : ApiData V K M} (h : t.dataset = s.dataset) {F D : List (List V)}
    (hh : Holds t F D) : Holds s F D := by
  obtain ⟨d, hd, hF, hD⟩ := hh
  exact ⟨d, h ▸ hd, hF, hD⟩

theorem setEnergiesApi_holds (s : ApiData V K M) (es : List K) (F D : List (List V)) :
    Holds (setEnergiesApi s es).1 F D → Holds s F D := by
  rintro ⟨d', hd', hF, hD⟩
  unfold setEnergiesApi at hd'
  split at hd'
  · exact ⟨d', hd', hF, hD⟩
  · simp at hd'
  · rename_i d hd
    unfold setEnergies2 at hd'
    by_cases hc : d.displacements.isSome ∨ d.forces.isSome
    · simp only [hc, if_true, Option.some.injEq, AnyDataset.type2.injEq] at hd'
      subst hd'
      exact ⟨d, hd, hF, hD⟩
    · simp only [hc, if_false] at hd'
      exact ⟨d', hd', hF, hD⟩

theorem setForcesApi_holds (s : ApiData V K M) (vs : List (List V)) (F D : List (List V)) :
    Holds (setForcesApi s vs).1 F D → vs = F ∨ Holds s F D := by
  rintro ⟨d', hd', hF, hD⟩
  unfold setForcesApi at hd'
  split at hd'
  · exact Or.inr ⟨d', hd', hF, hD⟩
  · simp at hd'
  · rename_i d hd
    unfold setForces2 at hd'
    by_cases hc : d.displacements.isSome ∨ d.forces.isSome
    · simp only [hc, if_true, Option.some.injEq, AnyDataset.type2.injEq] at hd'
      subst hd'
      exact Or.inl (Option.some.inj hF)
    · simp only [hc, if_false] at hd'
      exact Or.inr ⟨d', hd', hF, hD⟩

theorem dataStep_holds (e : ApiCells V) (s : ApiData V K M) (op : DataOp V K M)
    (hk : KeepsPairing s op) (hf : FitsCell e op) (F D : List (List V))
    (h : Holds (dataStep e s op).1 F D) : GivesForces e s op F ∨ Holds s F D := by
  cases op with
  | setDataset g =>
    cases g with
    | nothing =>
      obtain ⟨d, hd, _⟩ := h
      simp [dataStep, setDatasetApi, thenStep] at hd
    | type1 t =>
      obtain ⟨d, hd, _⟩ := h
      simp [dataStep, setDatasetApi, thenStep] at hd
    | type2 disps forces energies =>
      obtain ⟨d, hd, hF, hD⟩ := h
      simp only [dataStep] at hd
      rw [setDatasetApi_type2 e s disps forces energies hf] at hd
      simp only [Option.some.injEq, AnyDataset.type2.injEq] at hd
      subst hd
      cases forces with
      | none => cases hF
      | some f => exact Or.inl (Option.some.inj hF)
    | other => exact Or.inr h
  | setDisplacements vs =>
    right
    obtain ⟨d', hd', hF, hD⟩ := h
    simp only [dataStep, setDisplacementsApi] at hd'
    split at hd'
    · exact ⟨d', hd', hF, hD⟩
    · rename_i d hd
      unfold setDisplacements2 at hd'
      have hn : d.forces = none := hk d hd
      by_cases hc : ∀ v ∈ vs, v.length = e.natom
      · simp only [if_pos hc, Option.some.injEq, AnyDataset.type2.injEq] at hd'
        subst hd'
        simp [hn] at hF
      · simp only [if_neg hc] at hd'
        exact ⟨d', hd', hF, hD⟩
    · rename_i hd
      unfold setDisplacements2 at hd'
      by_cases hc : ∀ v ∈ vs, v.length = e.natom
      · simp only [if_pos hc, Option.some.injEq, AnyDataset.type2.injEq] at hd'
        subst hd'
        simp at hF
      · simp only [if_neg hc] at hd'
        exact ⟨d', hd', hF, hD⟩
  | setForces vs => exact setForcesApi_holds s vs F D h
  | setEnergies es => exact Or.inr (setEnergiesApi_holds s es F D h)
  | setPhononDataset g =>
    right
    refine holds_of_dataset ?_ h
    have hpf : ∀ (t : ApiData V K M) f, (setPhononForcesApi e t f).1.dataset = t.dataset := by
      intro t f
      unfold setPhononForcesApi
      split
      · rfl
      · rfl
      · split <;> rfl
    have hpe : ∀ (t : ApiData V K M) f, (setPhononEnergiesApi t f).1.dataset = t.dataset := by
      intro t f
      unfold setPhononEnergiesApi
      split
      · rfl
      · rfl
      · split
        · rfl
        · split <;> rfl
    have hpd : ∀ (t : ApiData V K M) f, (setPhononDisplacementsApi e t f).1.dataset = t.dataset := by
      intro t f
      unfold setPhononDisplacementsApi
      split
      · split
        · rfl
        · split <;> rfl
        · split <;> rfl
      · rfl
    have step : ∀ (r : ApiData V K M × Bool) (f : ApiData V K M → ApiData V K M × Bool),
        r.1.dataset = s.dataset → (∀ t, (f t).1.dataset = t.dataset) →
          (thenStep r f).1.dataset = s.dataset := by
      intro r f hr hf
      unfold thenStep
      split
      · exact hr
      · rw [hf, hr]
    simp only [dataStep, setPhononDatasetApi]
    apply step _ _ _ (fun t => rfl)
    cases g with
    | nothing => rfl
    | type1 t => rfl
    | type2 disps forces energies =>
      apply step
      · refine step _ _ ?_ ?_
        · exact hpd _ _
        · intro t
          cases forces with
          | none => rfl
          | some f => exact hpf t f
      · intro t
        cases energies with
        | none => rfl
        | some f => exact hpe t f
    | other => rfl
  | setPhononDisplacements vs =>
    refine Or.inr (holds_of_dataset ?_ h)
    simp only [dataStep, setPhononDisplacementsApi]
    split
    · split
      · rfl
      · split <;> rfl
      · split <;> rfl
    · rfl
  | setPhononForces vs =>
    refine Or.inr (holds_of_dataset ?_ h)
    simp only [dataStep, setPhononForcesApi]
    split
    · rfl
    · rfl
    · split <;> rfl
  | setPhononEnergies es =>
    refine Or.inr (holds_of_dataset ?_ h)
    simp only [dataStep, setPhononEnergiesApi]
    split
    · rfl
    · rfl
    · split
      · rfl
      · split <;> rfl
  | generate ds pds =>
    cases ds with
    | none => exact Or.inr h
    | some d =>
      obtain ⟨d', hd', hF, hD⟩ := h
      have : (dataStep e s (.generate (some d) pds)).1.dataset = some d := by
        simp only [dataStep, generateApi]
        split
        · cases pds <;> rfl
        · rfl
      rw [this, Option.some.injEq] at hd'
      subst hd'
      simp only [KeepsPairing, WithoutForces] at hk
      rw [hk] at hF
      cases hF
  | generatePhonon pds =>
    refine Or.inr (holds_of_dataset ?_ h)
    cases pds <;> rfl
  | setMasses m => exact Or.inr (holds_of_dataset rfl h)
  | readCells =>
    refine Or.inr (holds_of_dataset ?_ h)
    simp only [dataStep, readCells]
    split
    · rfl
    · split <;> rfl
  | readPhononCells =>
    refine Or.inr (holds_of_dataset ?_ h)
    simp only [dataStep, readPhononCells]
    split
    · rfl
    · split
      · rfl
      · split <;> rfl
  | evaluateMlp mlp =>
    have hrd : (readCells e s).1.dataset = s.dataset := by
      unfold readCells
      split
      · rfl
      · split <;> rfl
    simp only [dataStep, evaluateMlp] at h
    split at h
    · exact Or.inr (holds_of_dataset hrd h)
    · rename_i c hc
      unfold thenStep at h
      split at h
      · exact Or.inr (holds_of_dataset hrd (setEnergiesApi_holds _ _ _ _ h))
      · rcases setForcesApi_holds _ _ _ _ h with h | h
        · exact Or.inl ⟨c, hc, h⟩
        · exact Or.inr (holds_of_dataset hrd (setEnergiesApi_holds _ _ _ _ h))

/-- **C123**. Whenever the object holds forces and displacements of all atoms, the forces were given
by some call while exactly these displacements were set: forces of other displacements are never
paired with them. This holds for every history in which displacements are not assigned over forces.
Missing: `displacements = ...` on a dataset that already has forces, see `C123_kept_forces`. -/
theorem C123_forces_partial (e : ApiCells V) (m : M) (h : List (DataOp V K M))
    (hf : ∀ op ∈ h, FitsCell e op)
    (hk : ∀ h1 op h2, h = h1 ++ op :: h2 → KeepsPairing (dataRun e (newApiData m) h1) op)
    (F D : List (List V)) (hh : Holds (dataRun e (newApiData m) h) F D) :
    ∃ h1 op h2, h = h1 ++ op :: h2 ∧ GivesForces e (dataRun e (newApiData m) h1) op F ∧
      Holds (dataRun e (newApiData m) (h1 ++ [op])) F D := by
  induction h using List.reverseRecOn with
  | nil =>
    obtain ⟨d, hd, _⟩ := hh
    simp [dataRun, newApiData] at hd
  | append_singleton h op ih =>
    have hh' := hh
    rw [dataRun_append] at hh'
    rcases dataStep_holds e _ op (hk h op [] rfl) (hf op (by simp)) F D hh' with hg | hs
    · exact ⟨h, op, [], rfl, hg, hh⟩
    · obtain ⟨h1, op1, h2, he, hg, hh1⟩ := ih (fun o ho => hf o (by simp [ho]))
        (fun h1 o h2 hho => hk h1 o (h2 ++ [op]) (by rw [hho]; simp)) hs
      exact ⟨h1, op1, h2 ++ [op], by rw [he]; simp, hg, hh1⟩

/-- **C123**. With a machine-learning potential: after `evaluate_mlp` has succeeded on a dataset of
type 2, the forces are those the potential gives for the supercells displaced by the displacements
of the dataset, one per displacement. -/
theorem C123_mlp (e : ApiCells V) (m : M) (h : List (DataOp V K M))
    (hf : ∀ op ∈ h, FitsCell e op) (d : DispDataset2 V K)
    (hd : (dataRun e (newApiData m) h).dataset = some (.type2 d))
    (mlp : List (Option (MovedCell V M)) → List K × List (List V))
    (hok : (dataStep e (dataRun e (newApiData m) h) (.evaluateMlp mlp)).2 = false) :
    ∃ (D : List (List V)) (cells : List (Option (MovedCell V M))), d.displacements = some D ∧
      cells.map (fun c => c.map (fun c => c.positions)) =
        D.map (fun (v : List V) => some (fun (k : Nat) => e.pos k + v.getD k 0)) ∧
      (dataRun e (newApiData m) (h ++ [.evaluateMlp mlp])).dataset =
        some (.type2 ⟨some D, some (mlp cells).2, some (mlp cells).1⟩) := by
  have hs : CachesFresh e (dataRun e (newApiData m) h) :=
    dataRun_fresh e h _ hf ⟨by simp [newApiData], by simp [newApiData]⟩
  rw [dataRun_append]
  generalize dataRun e (newApiData m) h = s at hd hok hs
  obtain ⟨_, hrd, _, _, hrc, _⟩ := readCells_fresh e s hs
  simp only [dataRun, dataStep, evaluateMlp] at hok ⊢
  cases hr : (readCells e s).2 with
  | none => simp [hr] at hok
  | some c =>
    have hc := hrc c hr
    rw [cellsOf_iff, hd, Option.bind_some] at hc
    cases hD : d.displacements with
    | none => simp [buildCells, hD] at hc
    | some D =>
      simp only [buildCells, hD, Option.map_some, Option.some.injEq] at hc
      refine ⟨D, c, rfl, hc.symm, ?_⟩
      simp [thenStep, setEnergiesApi, hrd, hd, setEnergies2, hD, setForcesApi, setForces2]

/-! ### What fails -/

/-- **C122**, what fails. Assigning a type-2 dataset with displacements of the wrong shape raises, but
the old dataset is already gone and the old displaced supercells are still handed out: they belong to
no dataset of the object. -/
theorem C122_failed_assignment (e : ApiCells V) (s : ApiData V K M)
    (c : List (Option (MovedCell V M))) (hc : s.cells = some c) (disps : List (List V))
    (hv : ¬ ∀ v ∈ disps, v.length = e.natom) (f : Option (List (List V))) (en : Option (List K)) :
    let r := dataStep e s (.setDataset (.type2 disps f en))
    r.2 = true ∧ r.1.dataset = some (.type2 ⟨none, none, none⟩) ∧
      (readCells e r.1).2 = some c ∧ ¬ CellsOf e.pos r.1.dataset c := by
  have hr : dataStep e s (.setDataset (.type2 disps f en)) =
      ({ s with dataset := some (.type2 ⟨none, none, none⟩) }, true) := by
    simp [dataStep, setDatasetApi, setDisplacementsApi, setDisplacements2, hv, thenStep]
  intro r
  have hr' : r = ({ s with dataset := some (.type2 ⟨none, none, none⟩) }, true) := hr
  rw [hr']
  refine ⟨rfl, rfl, by simp [readCells, hc], ?_⟩
  rw [cellsOf_iff]
  simp [buildCells]

/-- **C122**, what fails. Displaced supercells built before the masses are changed keep the old
masses, whatever the new ones are. -/
theorem C122_old_masses (e : ApiCells V) (s : ApiData V K M) (c : List (Option (MovedCell V M)))
    (hc : s.cells = some c) (m : M) :
    (dataStep e s (.setMasses m)).1.masses = m ∧
      (readCells e (dataStep e s (.setMasses m)).1).2 = some c := by
  simp [dataStep, readCells, hc]

/-- **C122**, what fails. Without a supercell matrix for fc2 a dataset of type 2 for fc2 is refused,
but afterwards the object holds an empty dataset for fc2 in place of none. -/
theorem C122_phonon_refused (e : ApiCells V) (s : ApiData V K M) (hm : e.hasPhononMatrix = false)
    (disps : List (List V)) (f : Option (List (List V))) (en : Option (List K)) :
    dataStep e s (.setPhononDataset (.type2 disps f en)) =
      ({ s with pdataset := some (.type2 ⟨none, none, none⟩) }, true) := by
  simp [dataStep, setPhononDatasetApi, setPhononDisplacementsApi, hm, thenStep]

/-- **C123**, what fails. Assigning displacements to a dataset that has forces keeps the forces,
although they belong to other displacements, even to another number of supercells. -/
theorem C123_kept_forces (e : ApiCells V) (s : ApiData V K M) (F D D' : List (List V))
    (h : Holds s F D) (hv : ∀ v ∈ D', v.length = e.natom) :
    (dataStep e s (.setDisplacements D')).2 = false ∧
      Holds (dataStep e s (.setDisplacements D')).1 F D' := by
  obtain ⟨d, hd, hF, hD⟩ := h
  have : dataStep e s (.setDisplacements D') =
      ({ s with dataset := some (.type2 { d with displacements := some D' }), cells := none },
        false) := by
    simp [dataStep, setDisplacementsApi, hd, setDisplacements2_fits _ _ _ hv]
  rw [this]
  exact ⟨rfl, _, rfl, hF, rfl⟩

theorem assignFirst_short (put : List V → Disp1 V K → Disp1 V K) (ds : List (Disp1 V K))
    (vs : List (List V)) (h : vs.length < ds.length) :
    (assignFirst put ds vs).2 = none ∧
      (assignFirst put ds vs).1 = List.zipWith (fun d v => put v d) ds vs ++ ds.drop vs.length := by
  induction ds generalizing vs with
  | nil => simp at h
  | cons d ds ih =>
    cases vs with
    | nil => exact ⟨rfl, rfl⟩
    | cons v vs =>
      have := ih vs (by simpa using h)
      exact ⟨this.1, by simp [assignFirst, this.2]⟩

theorem assignFirst_long {X : Type} (put : X → Disp1 V K → Disp1 V K) (ds : List (Disp1 V K))
    (vs : List X) (h : ds.length ≤ vs.length) :
    assignFirst put ds vs = (List.zipWith (fun d v => put v d) ds vs, some (vs.drop ds.length)) := by
  induction ds generalizing vs with
  | nil => rfl
  | cons d ds ih =>
    cases vs with
    | nil => simp at h
    | cons v vs =>
      have := ih vs (by simpa using h)
      simp [assignFirst, this]

theorem assignSecond_long {X : Type} (put : X → Disp2 V K → Disp2 V K) (ds : List (Disp2 V K))
    (vs : List X) (h : ds.length ≤ vs.length) :
    assignSecond put ds vs = (List.zipWith (fun d v => put v d) ds vs, some (vs.drop ds.length)) := by
  induction ds generalizing vs with
  | nil => rfl
  | cons d ds ih =>
    cases vs with
    | nil => simp at h
    | cons v vs =>
      have := ih vs (by simpa using h)
      simp [assignSecond, this]

theorem assignSecond_fails {X : Type} (put : X → Disp2 V K → Disp2 V K) (ds : List (Disp2 V K))
    (vs : List X) (h : vs.length < ds.length) : (assignSecond put ds vs).2 = none := by
  induction ds generalizing vs with
  | nil => simp at h
  | cons d ds ih =>
    cases vs with
    | nil => rfl
    | cons v vs => exact ih vs (by simpa using h)

theorem assignFirst_fails {X : Type} (put : X → Disp1 V K → Disp1 V K) (ds : List (Disp1 V K))
    (vs : List X) (h : vs.length < ds.length) : (assignFirst put ds vs).2 = none := by
  induction ds generalizing vs with
  | nil => simp at h
  | cons d ds ih =>
    cases vs with
    | nil => rfl
    | cons v vs => exact ih vs (by simpa using h)

theorem assignPairs_none {X : Type} (put : X → Disp2 V K → Disp2 V K) (ds : List (Disp1 V K))
    (vs : List X) :
    (assignPairs put ds vs).2 = none ↔ vs.length < (ds.map fun d => d.second.length).sum := by
  induction ds generalizing vs with
  | nil => simp [assignPairs]
  | cons d ds ih =>
    rcases Nat.lt_or_ge vs.length d.second.length with h | h
    · have := assignSecond_fails put d.second vs h
      simp only [assignPairs, this, List.map_cons, List.sum_cons, true_iff]
      omega
    · have := assignSecond_long put d.second vs h
      simp only [assignPairs, this, List.map_cons, List.sum_cons, ih, List.length_drop]
      omega

theorem assignPairs_value {X β γ : Type} (put : X → Disp2 V K → Disp2 V K)
    (f : Disp1 V K → Disp2 V K → β) (g : β → X → β) (k : Disp1 V K → γ)
    (hf : ∀ d l x, f { d with second := l } x = f d x) (hg : ∀ d v x, f d (put v x) = g (f d x) v)
    (hk : ∀ d l, k { d with second := l } = k d)
    (ds : List (Disp1 V K)) (vs : List X) (h : (ds.map fun d => d.second.length).sum ≤ vs.length) :
    (assignPairs put ds vs).1.map k = ds.map k ∧
      (assignPairs put ds vs).1.flatMap (fun d => d.second.map (f d)) =
        List.zipWith g (ds.flatMap fun d => d.second.map (f d)) vs := by
  induction ds generalizing vs with
  | nil => simp [assignPairs]
  | cons d ds ih =>
    simp only [List.map_cons, List.sum_cons] at h
    have h2 := assignSecond_long put d.second vs (by omega)
    have := ih (vs.drop d.second.length) (by rw [List.length_drop]; omega)
    simp only [assignPairs, h2, List.map_cons, hk, this.1, List.flatMap_cons, this.2, true_and]
    have e : (List.zipWith (fun d v => put v d) d.second vs).map
        (f { d with second := List.zipWith (fun d v => put v d) d.second vs }) =
        List.zipWith g (d.second.map (f d)) (vs.take d.second.length) := by
      rw [List.map_zipWith, List.zipWith_map_left]
      simp only [hf, hg]
      rw [List.zipWith_eq_zipWith_take_min]
      conv_rhs => rw [List.zipWith_eq_zipWith_take_min]
      rw [List.length_take, List.take_take]
      simp
    rw [e]
    conv_rhs => rw [← List.take_append_drop d.second.length vs]
    rw [List.zipWith_append]
    simp
    omega

theorem displacedCells_length (d : DispDataset V K) :
    (displacedCells d).length = d.first.length + (d.first.map fun d => d.second.length).sum := by
  simp [displacedCells, List.length_flatMap]

/-- **C123**. Forces assigned to a type-1 dataset go to the displaced supercells in their order, the
single displacements before the pairs (a pair that is not included takes its place as well), and
nothing else of the supercells changes. The call raises exactly when there are too few arrays. -/
theorem C123_type1 (e : ApiCells V) (s : ApiData V K M) (d : DispDataset V K)
    (hd : s.dataset = some (.type1 d)) (vs : List (List V)) :
    ((dataStep e s (.setForces vs)).2 = true ↔ vs.length < (displacedCells d).length) ∧
      ((dataStep e s (.setForces vs)).2 = false → ∃ d',
        (dataStep e s (.setForces vs)).1.dataset = some (.type1 d') ∧
        displacedCells d' =
          List.zipWith (fun c v => { c with forces := some v }) (displacedCells d) vs) := by
  have hst : dataStep e s (.setForces vs) = setForcesApi s vs := rfl
  rw [hst]
  clear hst
  unfold setForcesApi
  rw [hd]
  simp only []
  set put1 : List V → Disp1 V K → Disp1 V K := fun v d1 => { d1 with forces := some v } with hp1
  set put2 : List V → Disp2 V K → Disp2 V K := fun v d2 => { d2 with forces := some v } with hp2
  rw [displacedCells_length]
  rcases Nat.lt_or_ge vs.length d.first.length with h | h
  · have := assignFirst_fails put1 d.first vs h
    simp only [assignValues, this]
    refine ⟨⟨fun _ => by omega, fun _ => trivial⟩, fun h => (Bool.false_ne_true h.symm).elim⟩
  · have h1 := assignFirst_long put1 d.first vs h
    have hl : ((List.zipWith (fun d v => put1 v d) d.first vs).map fun d => d.second.length) =
        d.first.map fun d => d.second.length := by
      rw [List.map_zipWith]
      clear h1
      generalize d.first = l at h
      induction l generalizing vs with
      | nil => rfl
      | cons x l ih =>
        cases vs with
        | nil => simp at h
        | cons v vs =>
          have := ih vs (by simpa using h)
          simp only [List.zipWith_cons_cons, List.map_cons, this]
          rfl
    simp only [assignValues, h1]
    constructor
    · rw [Option.isNone_iff_eq_none, assignPairs_none, hl, List.length_drop]
      omega
    · intro hok
      have hn : ¬ (assignPairs put2 (List.zipWith (fun d v => put1 v d) d.first vs)
          (vs.drop d.first.length)).2 = none := by
        intro hn; rw [hn] at hok; exact Bool.false_ne_true hok.symm
      rw [assignPairs_none, hl, List.length_drop] at hn
      refine ⟨_, rfl, ?_⟩
      obtain ⟨e1, e2⟩ := assignPairs_value put2
        (fun d1 d2 => (⟨d2.id, d2.included.getD true,
          fun k => oneAtom d1.number d1.displacement k + oneAtom d2.number d2.displacement k,
          d2.forces⟩ : Displaced V))
        (fun c v => { c with forces := some v })
        (fun d1 => (⟨d1.id, true, oneAtom d1.number d1.displacement, d1.forces⟩ : Displaced V))
        (fun _ _ _ => rfl) (fun _ _ _ => rfl) (fun _ _ => rfl)
        (List.zipWith (fun d v => put1 v d) d.first vs) (vs.drop d.first.length)
        (by rw [hl, List.length_drop]; omega)
      unfold displacedCells
      simp only
      rw [e1, e2]
      have e3 : (List.zipWith (fun d v => put1 v d) d.first vs).flatMap (fun d1 => d1.second.map
          (fun d2 => (⟨d2.id, d2.included.getD true,
          fun k => oneAtom d1.number d1.displacement k + oneAtom d2.number d2.displacement k,
          d2.forces⟩ : Displaced V))) = d.first.flatMap (fun d1 => d1.second.map
          (fun d2 => (⟨d2.id, d2.included.getD true,
          fun k => oneAtom d1.number d1.displacement k + oneAtom d2.number d2.displacement k,
          d2.forces⟩ : Displaced V))) := by
        clear h1 hl hn e1 e2 hok
        generalize d.first = l at h
        induction l generalizing vs with
        | nil => rfl
        | cons x l ih =>
          cases vs with
          | nil => simp at h
          | cons v vs =>
            simp only [List.zipWith_cons_cons, List.flatMap_cons, ih vs (by simpa using h)]
            rfl
      rw [e3]
      have e4 : (List.zipWith (fun d v => put1 v d) d.first vs).map
          (fun d1 => (⟨d1.id, true, oneAtom d1.number d1.displacement, d1.forces⟩ : Displaced V)) =
          List.zipWith (fun (c : Displaced V) v => { c with forces := some v })
            (d.first.map (fun d1 => (⟨d1.id, true, oneAtom d1.number d1.displacement, d1.forces⟩ : Displaced V)))
            (vs.take d.first.length) := by
        clear h1 hl hn e1 e2 hok e3
        generalize d.first = l at h
        induction l generalizing vs with
        | nil => rfl
        | cons x l ih =>
          cases vs with
          | nil => simp at h
          | cons v vs =>
            have := ih vs (by simpa using h)
            simp only [List.zipWith_cons_cons, List.map_cons, List.length_cons, List.take_succ_cons,
              this]
            rfl
      rw [e4]
      conv_rhs => rw [← List.take_append_drop d.first.length vs]
      rw [List.zipWith_append]
      simp
      omega

/-- **C123**, what fails. Assigning too few arrays of forces to a type-1 dataset raises, but the
first entries already have the new forces while the others keep the old ones: two sets of forces are
mixed. -/
theorem C123_mixed (e : ApiCells V) (s : ApiData V K M) (d : DispDataset V K)
    (hd : s.dataset = some (.type1 d)) (vs : List (List V)) (h : vs.length < d.first.length) :
    (dataStep e s (.setForces vs)).2 = true ∧
      ∃ d', (dataStep e s (.setForces vs)).1.dataset = some (.type1 d') ∧
        (∀ (i : Nat) (v : List V), vs[i]? = some v →
          ∃ x : Disp1 V K, d'.first[i]? = some x ∧ x.forces = some v) ∧
        (∀ i, vs.length ≤ i → d'.first[i]? = d.first[i]?) := by
  have hs := assignFirst_short (fun v (d1 : Disp1 V K) => { d1 with forces := some v }) d.first vs h
  let l : List (Disp1 V K) :=
    List.zipWith (fun (d1 : Disp1 V K) v => { d1 with forces := some v }) d.first vs ++
      d.first.drop vs.length
  have hst : dataStep e s (.setForces vs) =
      ({ s with dataset := some (.type1 { d with first := l }) }, true) := by
    simp only [dataStep, setForcesApi, hd, assignValues]
    rw [hs.1, hs.2]
  rw [hst]
  refine ⟨rfl, _, rfl, ?_, ?_⟩
  · intro i v hi
    obtain ⟨hlt, rfl⟩ := List.getElem?_eq_some_iff.1 hi
    refine ⟨{ d.first[i] with forces := some vs[i] }, ?_, rfl⟩
    simp only [l]
    rw [List.getElem?_append_left (by simp; omega)]
    simp [List.getElem?_eq_getElem, hlt, Nat.lt_trans hlt h]
  · intro i hi
    simp only [l]
    rw [List.getElem?_append_right (by simp; omega)]
    simp only [List.length_zipWith, List.getElem?_drop]
    congr 1
    omega

end

/-! ### Examples -/

/-- Two atoms at 0 and 1 on a line. -/
def twoAtoms : ApiCells ℚ := ⟨2, fun k => if k = 0 then 0 else 1, 2, fun k => if k = 0 then 0 else 1,
  false⟩

/-- A potential that pulls every atom back to the origin. -/
def springs (cells : List (Option (MovedCell ℚ ℚ))) : List ℚ × List (List ℚ) :=
  (cells.map fun _ => 0, cells.map fun c => match c with
    | none => [0, 0]
    | some c => [-(c.positions 0), -(c.positions 1)])

/-- Generate two displaced supercells, look at them, evaluate the potential, change the masses, refuse
forces of the fc2 dataset, replace the dataset. -/
def sampleHistory : List (DataOp ℚ ℚ ℚ) :=
  [.generate (some (.type2 ⟨some [[1/10, 0], [0, 1/10]], none, none⟩)) none, .readCells,
    .evaluateMlp springs, .setMasses 12, .setPhononForces [], .readPhononCells,
    .setDataset (.type2 [[0, 1/5]] none none), .evaluateMlp springs]

theorem sampleHistory_fits : ∀ op ∈ sampleHistory, FitsCell twoAtoms op := by
  intro op hop
  simp only [sampleHistory, List.mem_cons, List.not_mem_nil, or_false] at hop
  rcases hop with rfl | rfl | rfl | rfl | rfl | rfl | rfl | rfl <;>
    simp [FitsCell, twoAtoms]

/-- The history meets the hypotheses of `C122_supercells_partial` and `C123_mlp`, some calls of it
raise, and it ends with forces of the last displacements. -/
example : (dataStep twoAtoms (dataRun twoAtoms (newApiData 1) (sampleHistory.take 4))
      (.setPhononForces [])).2 = true ∧
    Holds (dataRun twoAtoms (newApiData 1) sampleHistory) [[0, -(6/5)]] [[0, 1/5]] := by
  refine ⟨rfl, _, rfl, ?_, rfl⟩
  simp [springs, twoAtoms]
  norm_num

/-- The same history meets the hypothesis of `C123_forces_partial` on displacements. -/
example : ∀ h1 op h2, sampleHistory = h1 ++ op :: h2 →
    KeepsPairing (dataRun twoAtoms (newApiData 1) h1) op := by
  intro h1 op h2 h
  have hop : op ∈ sampleHistory := by rw [h]; simp
  simp only [sampleHistory, List.mem_cons, List.not_mem_nil, or_false] at hop
  rcases hop with rfl | rfl | rfl | rfl | rfl | rfl | rfl | rfl <;> simp [KeepsPairing, WithoutForces]

/-- The states of `C122_failed_assignment` and `C122_old_masses` are reached. -/
example : ∃ c, (dataRun twoAtoms (newApiData (1 : ℚ)) (sampleHistory.take 2)).cells = some c :=
  ⟨_, rfl⟩

/-- A dataset with one single displacement and one pair, as `C123_type1` asks for: two arrays are
accepted, one is refused. -/
def onePair : DispDataset ℚ ℚ :=
  ⟨2, [], none, [⟨1, 0, 1 / 10, none, none, [⟨2, 1, 1 / 10, 1, none, none, none⟩]⟩]⟩

example : (dataStep twoAtoms ⟨(1 : ℚ), some (.type1 onePair), none, none, none⟩
      (.setForces [[1, 2], [3, 4]])).2 = false ∧
    (dataStep twoAtoms ⟨(1 : ℚ), some (.type1 onePair), none, none, none⟩
      (.setForces [[1, 2]])).2 = true := ⟨rfl, rfl⟩

end Phono3py.Props
