import Verif.Lemmas.CreateForceSets

/-!
# C145: forces collected from calculator output
-/

namespace Phono3py.Props

open Phono3py

variable {M F V K P : Type}

theorem fc3FileNames_eq {r : CalcReaders M F V K P} {s : CollectSettings M F} {files : List F}
    (h : fc3FileNames r s = some files) : files = fc3Names r s := by
  unfold fc3FileNames at h
  unfold fc3Names
  cases hq : s.forcesFc3File with
  | none =>
    rw [hq] at h
    exact (Option.some.inj h).symm
  | some f =>
    rw [hq] at h
    dsimp only at h ⊢
    split at h
    · exact (Option.some.inj h).symm
    · cases h

theorem parseFc3_forces {r : CalcReaders M F V K P} {mode : Option M} {natom : Nat}
    {truth : F → List V} (hr : ReadsForces r mode natom truth) (ds : AnyDataset V K)
    (files : List F) : (parseFc3 r ds mode natom files).forces = files.map truth := by
  unfold parseFc3
  split
  · exact hr.wien2k _ _
  · exact hr.parse _

theorem usedCalculator_eq (s : CollectSettings M F) (y : DispYaml M V K) :
    (if y.calculator.isSome then y.calculator else s.calculator) = usedCalculator s y := by
  unfold usedCalculator
  cases y.calculator <;> rfl

theorem residualFc2_eq (s : CollectSettings M F) :
    (if s.subtractFc2.isSome then s.subtractFc2 else s.subtract) = residualFc2 s := by
  unfold residualFc2
  cases s.subtractFc2 <;> rfl

theorem forceSetsFc3_forces [AddGroup V] {r : CalcReaders M F V K P} {s : CollectSettings M F}
    {mode : Option M} {ds : DispDataset V K} {c : CalcDataset V K P}
    (h : forceSetsFc3 r s (.type1 ds) mode = some c) (hne : c.forces ≠ []) :
    (fc3Names r s).length = ((displacedCells ds).filter (fun e => e.included)).length ∧
      subtractResidual r mode ds.natom s.subtract
        (parseFc3 r (.type1 ds) mode ds.natom (fc3Names r s)) = some c := by
  unfold forceSetsFc3 at h
  rw [countsFc3_eq, Option.bind_some, Option.bind_eq_some_iff] at h
  obtain ⟨files, hfiles, h⟩ := h
  have hf := fc3FileNames_eq hfiles
  subst hf
  split at h
  · simp only [hasFirstAtoms, Bool.true_and] at h
    split at h
    · split at h
      · cases h
      · rw [← Option.some.inj h] at hne
        exact absurd rfl hne
    · rename_i hlen
      simp only [decide_eq_true_eq, ne_eq, not_not] at hlen
      split at h
      · cases h
      · exact ⟨hlen.symm, h⟩
  · cases h

theorem collectFc3_some [Sub V] {r : CalcReaders M F V K P} {s : CollectSettings M F}
    {y : DispYaml M V K} {x : Option (AnyDataset V K × CalcDataset V K P)}
    (hw : wantsFc3 s = true) (h : collectFc3 r s y = some x) :
    ∃ ds c, x = some (ds, c) ∧ y.dataset = some ds ∧
      forceSetsFc3 r s ds (usedCalculator s y) = some c ∧ c.forces ≠ [] := by
  unfold collectFc3 at h
  rw [usedCalculator_eq] at h
  simp only at h
  rw [if_pos hw, Option.bind_eq_some_iff] at h
  obtain ⟨ds, hd, h⟩ := h
  rw [Option.bind_eq_some_iff] at h
  obtain ⟨c, hc, h⟩ := h
  split at h
  · cases h
  · rename_i he
    exact ⟨ds, c, (Option.some.inj h).symm, hd, hc, by simpa using he⟩

/-- **C145**. Forces for a dataset with single and pair displacements. If the command ends without
an error, there was one file for every supercell that needs a calculation, and reading FORCES_FC3
back gives the supercells, in the order in which they were written, the forces of the files in the
order given, minus the residual forces; pairs beyond the cutoff get zeros. -/
theorem C145_forces_fc3 [AddGroup V] (shown : V → V) (h0 : shown 0 = 0)
    (r : CalcReaders M F V K P) (s : CollectSettings M F) (y : DispYaml M V K)
    (ds : DispDataset V K) (truth : F → List V) (hs : s.saveParams = false)
    (hw : wantsFc3 s = true) (hy : y.dataset = some (.type1 ds)) (hn : 0 < ds.natom)
    (hr : ReadsForces r (usedCalculator s y) ds.natom truth)
    (hok : (createForces shown r s y).2 = true) :
    ∃ lines ds', (createForces shown r s y).1.forcesFc3 = some (.lines lines) ∧
      parseForcesFc3 none ds lines = some ds' ∧
      (fc3Names r s).length = ((displacedCells ds).filter (fun e => e.included)).length ∧
      (displacedCells ds').map (fun e => (e.id, e.included, e.field)) =
        (displacedCells ds).map (fun e => (e.id, e.included, e.field)) ∧
      ((displacedCells ds').filter (fun e => e.included)).map (fun e => e.forces) =
        (fc3Names r s).map (fun f => some ((netForces truth s.subtract f).map shown)) ∧
      ∀ e ∈ displacedCells ds', e.included = false →
        e.forces = some (List.replicate ds.natom 0) := by
  cases h3 : collectFc3 r s y with
  | none => simp [createForces, h3] at hok
  | some x =>
    obtain ⟨ds2, c, rfl, hd, hc, hne⟩ := collectFc3_some hw h3
    rw [hy, Option.some.injEq] at hd
    subst hd
    obtain ⟨hl, hres⟩ := forceSetsFc3_forces hc hne
    have hf := (subtractResidual_forces hr _ _ _ c (parseFc3_forces hr _ _) hres).1
    obtain ⟨file, ds', e1, e2, e3, e4, e5⟩ := C45_round_trip shown h0 ds hn c.forces
      (by rw [hf, List.length_map, hl]) (by
        rw [hf]
        intro g hg
        obtain ⟨f, -, rfl⟩ := List.mem_map.1 hg
        unfold netForces
        cases s.subtract with
        | none => exact hr.rows f
        | some z => simp [hr.rows])
    refine ⟨file, ds', ?_, e2, hl, e3, by rw [e4, hf, List.map_map]; rfl, e5⟩
    cases h2 : collectFc2 r s y with
    | none => simp [createForces, h3, h2] at hok
    | some x2 =>
      have hwf : writeFc3 shown (.type1 ds) c.forces = some (.lines file) := by
        simp [writeFc3, e1]
      simp only [createForces, h3, h2, hs, Bool.false_eq_true, if_false, hwf]
      cases x2 with
      | none => rfl
      | some p => rfl

theorem zip_supercells {W : Type} [AddMonoid V] (pos : Nat → V) (ds ds' : DispDataset V K)
    (output : Nat × (Nat → V) → F) (g : F → W) (get : Displaced V → W)
    (hsame : (displacedCells ds').map (fun e => (e.id, e.included, e.field)) =
        (displacedCells ds).map (fun e => (e.id, e.included, e.field)))
    (hf : ((displacedCells ds').filter (fun e => e.included)).map get =
        ((supercellFiles (buildSupercells pos ds)).map output).map g) :
    ((displacedCells ds').filter (fun e => e.included)).map
        (fun e => ((fun k => pos k + e.field k : Nat → V), get e)) =
      (supercellFiles (buildSupercells pos ds)).map (fun p => (p.2, g (output p))) := by
  have hfield : ((displacedCells ds').filter (fun e => e.included)).map (fun e => e.field) =
      ((displacedCells ds).filter (fun e => e.included)).map (fun e => e.field) := by
    have : ∀ l : List (Displaced V), (l.filter (fun e => e.included)).map (fun e => e.field) =
        ((l.map (fun e => (e.id, e.included, e.field))).filter (fun t => t.2.1)).map
          (fun t => t.2.2) := by
      intro l
      rw [List.filter_map, List.map_map]
      rfl
    rw [this, this, hsame]
  have hcell : ((displacedCells ds').filter (fun e => e.included)).map
      (fun e => (fun k => pos k + e.field k : Nat → V)) =
      (supercellFiles (buildSupercells pos ds)).map (fun p => p.2) := by
    rw [supercells_written]
    have := congrArg (List.map (fun (f : Nat → V) => (fun k => pos k + f k : Nat → V))) hfield
    rw [List.map_map, List.map_map] at this
    exact this
  have key : ∀ {A B : Type} (l : List A) (m : List B) (a : A → (Nat → V)) (b : B → (Nat → V))
      (c : A → W) (d : B → W), l.map a = m.map b → l.map c = m.map d →
      l.map (fun x => (a x, c x)) = m.map (fun x => (b x, d x)) := by
    intro A B l
    induction l with
    | nil => intro m a b c d h1 _; cases m <;> simp_all
    | cons x l ih =>
      intro m a b c d h1 h2
      cases m with
      | nil => simp at h1
      | cons z m =>
        simp only [List.map_cons, List.cons.injEq] at h1 h2 ⊢
        exact ⟨by rw [h1.1, h2.1], ih m a b c d h1.2 h2.2⟩
  rw [List.map_map] at hf
  exact key _ _ _ _ _ _ hcell hf

/-- **C145**. The calculations were made for the supercell files that phono3py wrote for this
dataset, and their outputs are given in the order of the numbers of those files. Then FORCES_FC3
holds for every supercell the forces calculated for it. -/
theorem C145_own_forces [AddGroup V] (shown : V → V) (h0 : shown 0 = 0)
    (r : CalcReaders M F V K P) (s : CollectSettings M F) (y : DispYaml M V K)
    (ds : DispDataset V K) (truth : F → List V) (hs : s.saveParams = false)
    (hw : wantsFc3 s = true) (hy : y.dataset = some (.type1 ds)) (hn : 0 < ds.natom)
    (hr : ReadsForces r (usedCalculator s y) ds.natom truth)
    (pos : Nat → V) (output : Nat × (Nat → V) → F)
    (hout : fc3Names r s = (supercellFiles (buildSupercells pos ds)).map output)
    (hok : (createForces shown r s y).2 = true) :
    ∃ lines ds', (createForces shown r s y).1.forcesFc3 = some (.lines lines) ∧
      parseForcesFc3 none ds lines = some ds' ∧
      ((displacedCells ds').filter (fun e => e.included)).map
          (fun e => ((fun k => pos k + e.field k : Nat → V), e.forces)) =
        (supercellFiles (buildSupercells pos ds)).map
          (fun p => (p.2, some ((netForces truth s.subtract (output p)).map shown))) := by
  obtain ⟨lines, ds', h1, h2, -, h3, h4, -⟩ :=
    C145_forces_fc3 shown h0 r s y ds truth hs hw hy hn hr hok
  refine ⟨lines, ds', h1, h2, ?_⟩
  rw [hout] at h4
  exact zip_supercells pos ds ds' output (fun f => some ((netForces truth s.subtract f).map shown))
    (fun e => e.forces) h3 h4

/-- **C145**. With a number of files other than the number of supercells that need a calculation
the command stops and writes nothing, whatever the files contain and whatever else is asked for. -/
theorem C145_wrong_number [AddGroup V] (shown : V → V) (r : CalcReaders M F V K P)
    (s : CollectSettings M F) (y : DispYaml M V K) (ds : DispDataset V K)
    (hw : wantsFc3 s = true) (hy : y.dataset = some (.type1 ds))
    (hlen : (fc3Names r s).length ≠
      ((displacedCells ds).filter (fun e => e.included)).length) :
    createForces shown r s y = ({}, false) := by
  cases h3 : collectFc3 r s y with
  | none => simp only [createForces, h3]
  | some x =>
    obtain ⟨ds2, c, rfl, hd, hc, hne⟩ := collectFc3_some hw h3
    rw [hy, Option.some.injEq] at hd
    subst hd
    exact absurd (forceSetsFc3_forces hc hne).1 hlen

theorem collectFc3_accept [AddGroup V] {r : CalcReaders M F V K P} {s : CollectSettings M F}
    {y : DispYaml M V K} {ds : DispDataset V K} {truth : F → List V}
    (hw : wantsFc3 s = true) (hy : y.dataset = some (.type1 ds))
    (hr : ReadsForces r (usedCalculator s y) ds.natom truth)
    (hfit : FilesFit r (usedCalculator s y) ds.natom (.type1 ds) (fc3Names r s) s.subtract)
    (hlist : ∀ f, s.forcesFc3File = some f → r.fileExists f = true)
    (hpos : fc3Names r s ≠ [])
    (hlen : (fc3Names r s).length =
      ((displacedCells ds).filter (fun e => e.included)).length) :
    ∃ c, collectFc3 r s y = some (some (.type1 ds, c)) ∧
      c.forces = (fc3Names r s).map (netForces truth s.subtract) ∧
      c.energies =
        (parseFc3 r (.type1 ds) (usedCalculator s y) ds.natom (fc3Names r s)).energies := by
  have hfiles : fc3FileNames r s = some (fc3Names r s) := by
    unfold fc3Names fc3FileNames
    cases hq : s.forcesFc3File with
    | none => rfl
    | some f => simp [hlist f hq]
  have hall : (fc3Names r s).all r.fileExists = true := by
    rw [List.all_eq_true]
    exact hfit.present
  have hcf := parseFc3_forces hr (.type1 ds) (fc3Names r s)
  have hpt : (parseFc3 r (.type1 ds) (usedCalculator s y) ds.natom (fc3Names r s)).points.any
        (fun p => r.displacedDiffer (.type1 ds) p (fc3Names r s)) = false := by
    unfold parseFc3
    split
    · cases hq : (r.parseWien2k (fc3Names r s) (.type1 ds)).points with
      | none => rfl
      | some p => exact hfit.fitWien2k p hq
    · cases hq : (r.parse (usedCalculator s y) ds.natom (fc3Names r s)).points with
      | none => rfl
      | some p => exact hfit.fit p hq
  obtain ⟨c, hc⟩ := subtractResidual_some hr s.subtract _ hfit _ hcf
  obtain ⟨hc1, hc2⟩ := subtractResidual_forces hr s.subtract _ _ c hcf hc
  have hfs : forceSetsFc3 r s (.type1 ds) (usedCalculator s y) = some c := by
    unfold forceSetsFc3
    rw [countsFc3_eq, Option.bind_some, hfiles, Option.bind_some, if_pos hall]
    simp only [hasFirstAtoms, Bool.true_and]
    rw [if_neg (by simpa using hlen.symm), hpt]
    simpa using hc
  refine ⟨c, ?_, hc1, hc2⟩
  unfold collectFc3
  simp only [usedCalculator_eq, hw, if_true, hy, Option.bind_some, hfs]
  rw [if_neg]
  simp [hc1, hpos]

/-- **C145**. When all files are there, fit the supercells and are as many as the supercells that
need a calculation, the command succeeds, with FORCES_FC3 as well as with phono3py_params.yaml. -/
theorem C145_accepted [AddGroup V] (shown : V → V) (h0 : shown 0 = 0)
    (r : CalcReaders M F V K P) (s : CollectSettings M F)
    (y : DispYaml M V K) (ds : DispDataset V K) (truth : F → List V)
    (hw : wantsFc3 s = true) (h2 : givenFiles s.forcesFc2 = false)
    (hy : y.dataset = some (.type1 ds)) (hn : 0 < ds.natom)
    (hr : ReadsForces r (usedCalculator s y) ds.natom truth)
    (hfit : FilesFit r (usedCalculator s y) ds.natom (.type1 ds) (fc3Names r s) s.subtract)
    (hlist : ∀ f, s.forcesFc3File = some f → r.fileExists f = true)
    (hpos : fc3Names r s ≠ [])
    (hlen : (fc3Names r s).length =
      ((displacedCells ds).filter (fun e => e.included)).length)
    (hen : ∀ es, (parseFc3 r (.type1 ds) (usedCalculator s y) ds.natom
      (fc3Names r s)).energies = some es → es.length = (fc3Names r s).length) :
    (createForces shown r s y).2 = true := by
  obtain ⟨c, hc, hf, he⟩ := collectFc3_accept hw hy hr hfit hlist hpos hlen
  have hc2 : collectFc2 r s y = some none := by simp [collectFc2, h2]
  cases hs : s.saveParams with
  | true =>
    have hce : EnergiesFit c := by
      intro es hes
      rw [he] at hes
      rw [hen es hes, hf, List.length_map]
    have hcl : c.forces.length = ds.first.length +
        ((pairCells ds.first).filter (fun e => e.included)).length := by
      rw [hf, List.length_map, hlen, included_count]
    obtain ⟨l', hl⟩ := storeFirst_some hce 0 ds.first.length ds.first (by omega) (by omega)
    simp only [createForces, hc, hc2, hs, if_true, storeFc3, hl, Option.map_some]
  | false =>
    obtain ⟨file, ds', e1, -⟩ := C45_round_trip shown h0 ds hn c.forces
      (by rw [hf, List.length_map, hlen]) (by
        rw [hf]
        intro g hg
        obtain ⟨f, -, rfl⟩ := List.mem_map.1 hg
        unfold netForces
        cases s.subtract with
        | none => exact hr.rows f
        | some z => simp [hr.rows])
    have hwf : writeFc3 shown (.type1 ds) c.forces = some (.lines file) := by
      simp [writeFc3, e1]
    simp only [createForces, hc, hc2, hs, Bool.false_eq_true, if_false, hwf]

/-- **C145**. With `--sp` the dataset of phono3py_params.yaml has for every supercell that was
calculated the same forces, unrounded, and leaves the pairs beyond the cutoff as they were. -/
theorem C145_params [AddGroup V] (shown : V → V)
    (r : CalcReaders M F V K P) (s : CollectSettings M F) (y : DispYaml M V K)
    (ds : DispDataset V K) (truth : F → List V) (hs : s.saveParams = true)
    (hw : wantsFc3 s = true) (hy : y.dataset = some (.type1 ds))
    (hr : ReadsForces r (usedCalculator s y) ds.natom truth)
    (hok : (createForces shown r s y).2 = true) :
    ∃ ds' pds, (createForces shown r s y).1.params = some (some (.type1 ds'), pds) ∧
      (fc3Names r s).length = ((displacedCells ds).filter (fun e => e.included)).length ∧
      (displacedCells ds').map (fun e => (e.id, e.included, e.field)) =
        (displacedCells ds).map (fun e => (e.id, e.included, e.field)) ∧
      ((displacedCells ds').filter (fun e => e.included)).map (fun e => e.forces) =
        (fc3Names r s).map (fun f => some (netForces truth s.subtract f)) ∧
      (displacedCells ds').filter (fun e => !e.included) =
        (displacedCells ds).filter (fun e => !e.included) := by
  cases h3 : collectFc3 r s y with
  | none => simp [createForces, h3] at hok
  | some x =>
    obtain ⟨ds2, c, rfl, hd, hc, hne⟩ := collectFc3_some hw h3
    rw [hy, Option.some.injEq] at hd
    subst hd
    obtain ⟨hl, hres⟩ := forceSetsFc3_forces hc hne
    have hf := (subtractResidual_forces hr _ _ _ c (parseFc3_forces hr _ _) hres).1
    cases h2 : collectFc2 r s y with
    | none => simp [createForces, h3, h2] at hok
    | some x2 =>
      cases hst : storeFc3 c (.type1 ds) with
      | none => simp [createForces, h3, h2, hs, hst] at hok
      | some a =>
        obtain ⟨ds', rfl⟩ : ∃ d, a = .type1 d := by
          simp only [storeFc3, Option.map_eq_some_iff] at hst
          obtain ⟨l, -, rfl⟩ := hst
          exact ⟨_, rfl⟩
        have hcells := storeFc3_cells c ds ds' hst
        have hmain : ∃ pds, (createForces shown r s y).1.params = some (some (.type1 ds'), pds) := by
          cases x2 with
          | none =>
            exact ⟨y.phononDataset, by simp only [createForces, h3, h2, hs, if_true, hst]⟩
          | some p =>
            cases hp : storeFc2 p.2 p.1 with
            | none => simp [createForces, h3, h2, hs, hst, hp] at hok
            | some b => exact ⟨some b, by simp only [createForces, h3, h2, hs, if_true, hst, hp]⟩
        obtain ⟨pds, hpds⟩ := hmain
        refine ⟨ds', pds, hpds, hl, ?_, ?_, ?_⟩
        · rw [hcells]
          exact placeForces_same _ (fun _ _ => rfl) _ _
        · rw [hcells, placeForces_included _ _ (by rw [hf, List.length_map, hl]), hf, List.map_map]
          rfl
        · rw [hcells, placeForces_excluded]

/-- **C145**, what fails. With `--sp` and a cutoff for pairs, collected forces cannot be used as
arrays of displacements and forces: the pairs beyond the cutoff have none, and the assertion that
every displacement has forces stops the calculation of force constants. Collected into FORCES_FC3
the same forces can be used, since zeros are stored for those pairs. -/
theorem C145_params_cutoff [AddGroup V] (shown : V → V) (h0 : shown 0 = 0)
    (r : CalcReaders M F V K P) (s : CollectSettings M F) (y : DispYaml M V K)
    (ds : DispDataset V K) (truth : F → List V)
    (hw : wantsFc3 s = true) (hy : y.dataset = some (.type1 ds)) (hn : 0 < ds.natom)
    (hr : ReadsForces r (usedCalculator s y) ds.natom truth)
    (hd : DistinctPairs ds) (hempty : ∀ e ∈ displacedCells ds, e.forces = none)
    (hcut : ∃ e ∈ displacedCells ds, e.included = false) (hfirst : ds.first ≠ [])
    (hok : (createForces shown r s y).2 = true) :
    (s.saveParams = true → ∃ ds' pds,
      (createForces shown r s y).1.params = some (some (.type1 ds'), pds) ∧
        (DistinctPairs ds' → displacementsAndForces ds' = none)) ∧
    (s.saveParams = false → ∃ lines ds',
      (createForces shown r s y).1.forcesFc3 = some (.lines lines) ∧
        parseForcesFc3 none ds lines = some ds' ∧
        ∀ e ∈ displacedCells ds', e.forces ≠ none) := by
  constructor
  · intro hs
    obtain ⟨ds', pds, h1, h2, h3, h4, h5⟩ := C145_params shown r s y ds truth hs hw hy hr hok
    refine ⟨ds', pds, h1, fun hd' => C49_some_forces ds' hd' ?_ ?_⟩
    · have hpos : 0 < ((displacedCells ds).filter (fun e => e.included)).length := by
        rw [included_count]
        have : ds.first.length ≠ 0 := by simpa using hfirst
        omega
      have hne : ((displacedCells ds').filter (fun e => e.included)) ≠ [] := by
        intro he
        rw [he] at h4
        simp only [List.map_nil] at h4
        have := congrArg List.length h4
        simp only [List.length_nil, List.length_map] at this
        omega
      obtain ⟨e, he⟩ := List.exists_mem_of_ne_nil _ hne
      refine ⟨e, (List.mem_filter.1 he).1, ?_⟩
      have hm : e.forces ∈ ((displacedCells ds').filter (fun e => e.included)).map
        (fun e => e.forces) := List.mem_map_of_mem he
      rw [h4] at hm
      obtain ⟨f, -, hf⟩ := List.mem_map.1 hm
      rw [← hf]
      exact Option.some_ne_none _
    · obtain ⟨e, he, hi⟩ := hcut
      have : e ∈ (displacedCells ds').filter (fun e => !e.included) := by
        rw [h5]
        exact List.mem_filter.2 ⟨he, by simp [hi]⟩
      exact ⟨e, (List.mem_filter.1 this).1, hempty e he⟩
  · intro hs
    obtain ⟨lines, ds', h1, h2, -, h3, h4, h5⟩ :=
      C145_forces_fc3 shown h0 r s y ds truth hs hw hy hn hr hok
    refine ⟨lines, ds', h1, h2, ?_⟩
    intro e he
    cases hi : e.included with
    | false =>
      rw [h5 e he hi]
      exact Option.some_ne_none _
    | true =>
      have hm : e.forces ∈ ((displacedCells ds').filter (fun e => e.included)).map
        (fun e => e.forces) := List.mem_map_of_mem (List.mem_filter.2 ⟨he, hi⟩)
      rw [h4] at hm
      obtain ⟨f, -, hf⟩ := List.mem_map.1 hm
      rw [← hf]
      exact Option.some_ne_none _

/-! ## FORCES_FC2 -/

theorem collectFc2_some [Sub V] {r : CalcReaders M F V K P} {s : CollectSettings M F}
    {y : DispYaml M V K} {x : Option (AnyDataset V K × CalcDataset V K P)}
    (hw : givenFiles s.forcesFc2 = true) (h : collectFc2 r s y = some x) :
    ∃ ds c, x = some (ds, c) ∧ y.phononDataset = some ds ∧
      forceSetsFc2 r s ds = some c ∧ c.forces ≠ [] := by
  unfold collectFc2 at h
  rw [if_pos hw, Option.bind_eq_some_iff] at h
  obtain ⟨ds, hd, h⟩ := h
  rw [Option.bind_eq_some_iff] at h
  obtain ⟨c, hc, h⟩ := h
  split at h
  · cases h
  · rename_i he
    exact ⟨ds, c, (Option.some.inj h).symm, hd, hc, by simpa using he⟩

theorem forceSetsFc2_forces [AddGroup V] {r : CalcReaders M F V K P} {s : CollectSettings M F}
    {ds : DispDataset V K} {truth : F → List V} (hr : ReadsForces r s.calculator ds.natom truth)
    {c : CalcDataset V K P} (h : forceSetsFc2 r s (.type1 ds) = some c) :
    c.forces = (s.forcesFc2.getD []).map (netForces truth (residualFc2 s)) := by
  unfold forceSetsFc2 at h
  simp only [countsFc2, Option.bind_some, residualFc2_eq] at h
  split at h
  · split at h
    · cases h
    · exact (subtractResidual_forces hr _ _ _ c (hr.parse _) h).1
  · cases h

theorem fc2Written_some (shown : V → V) (g : List (List V)) (i : Nat) (ds : List (Disp1 V K))
    (h : i + ds.length ≤ g.length) :
    fc2Lines shown (some g) i ds = some (fc2Written shown g i ds).1 ∧
      (fc2Written shown g i ds).2 = true := by
  induction ds generalizing i with
  | nil => exact ⟨rfl, rfl⟩
  | cons d ds ih =>
    rw [List.length_cons] at h
    obtain ⟨h1, h2⟩ := ih (i + 1) (by omega)
    have hg : g[i]? = some g[i] := List.getElem?_eq_getElem (by omega)
    constructor
    · simp only [fc2Lines, hg, Option.bind_some, h1, Option.map_some, fc2Written]
    · simp only [fc2Written, hg, h2]

theorem fc2Written_short (shown : V → V) (g : List (List V)) (i : Nat) (ds : List (Disp1 V K))
    (hi : i ≤ g.length) (h : g.length < i + ds.length) :
    (fc2Written shown g i ds).2 = false ∧
      forceRows (fc2Written shown g i ds).1 =
        ((g.drop i).map (fun b => b.map shown)).flatten := by
  induction ds generalizing i with
  | nil => simp at h; omega
  | cons d ds ih =>
    rw [List.length_cons] at h
    have h2 : ∀ (n a : Nat) (v : V) (ls : List (ForceLine V)),
      forceRows (.file n :: .moved a v :: ls) = forceRows ls := fun _ _ _ _ => rfl
    by_cases hlt : i < g.length
    · obtain ⟨h1, h3⟩ := ih (i + 1) (by omega) (by omega)
      have hg : g[i]? = some g[i] := List.getElem?_eq_getElem hlt
      have : g.drop i = g[i] :: g.drop (i + 1) := List.drop_eq_getElem_cons hlt
      constructor
      · simp only [fc2Written, hg, h1]
      · simp only [fc2Written, hg, h2]
        rw [forceRows_append, forceRows_rows, h3, this, List.map_cons, List.flatten_cons]
    · have hg : g[i]? = none := List.getElem?_eq_none (by omega)
      constructor
      · simp only [fc2Written, hg]
      · simp only [fc2Written, hg, h2]
        rw [List.drop_eq_nil_of_le (by omega)]
        rfl

theorem fc2Written_extra (shown : V → V) (g h : List (List V)) (i : Nat) (ds : List (Disp1 V K))
    (hi : i + ds.length ≤ g.length) :
    fc2Written shown (g ++ h) i ds = fc2Written shown g i ds := by
  induction ds generalizing i with
  | nil => rfl
  | cons d ds ih =>
    rw [List.length_cons] at hi
    have hg : g[i]? = some g[i] := List.getElem?_eq_getElem (by omega)
    have hg' : (g ++ h)[i]? = some g[i] := by
      rw [List.getElem?_append_left (by omega), hg]
    simp only [fc2Written, hg, hg', ih (i + 1) (by omega)]

theorem createForces_fc2 [AddGroup V] (shown : V → V) {r : CalcReaders M F V K P}
    {s : CollectSettings M F} {y : DispYaml M V K} {ds : DispDataset V K} {truth : F → List V}
    (hs : s.saveParams = false) (hw : givenFiles s.forcesFc2 = true)
    (h3 : (collectFc3 r s y).isSome)
    (hf3 : ∀ a c, collectFc3 r s y = some (some (a, c)) → (writeFc3 shown a c.forces).isSome)
    (hy : y.phononDataset = some (.type1 ds))
    (hr : ReadsForces r s.calculator ds.natom truth)
    (hfit : FilesFit r s.calculator ds.natom (.type1 ds) (s.forcesFc2.getD []) (residualFc2 s)) :
    ∃ f3, createForces shown r s y =
      ({ forcesFc3 := f3
         forcesFc2 := some (.lines (fc2Written shown
          ((s.forcesFc2.getD []).map (netForces truth (residualFc2 s))) 0 ds.first).1) },
        (fc2Written shown ((s.forcesFc2.getD []).map (netForces truth (residualFc2 s))) 0
          ds.first).2) := by
  have hall : (s.forcesFc2.getD []).all r.fileExists = true := by
    rw [List.all_eq_true]
    exact hfit.present
  have hpt : (r.parse s.calculator ds.natom (s.forcesFc2.getD [])).points.any
        (fun p => r.displacedDiffer (.type1 ds) p (s.forcesFc2.getD [])) = false := by
    cases hq : (r.parse s.calculator ds.natom (s.forcesFc2.getD [])).points with
    | none => rfl
    | some p => exact hfit.fit p hq
  obtain ⟨c, hc⟩ := subtractResidual_some hr (residualFc2 s) _ hfit _ (hr.parse _)
  have hfs : forceSetsFc2 r s (.type1 ds) = some c := by
    unfold forceSetsFc2
    simp only [countsFc2, Option.bind_some, residualFc2_eq, hall, if_true, hpt, hc,
      Bool.false_eq_true, if_false]
  have hcf := forceSetsFc2_forces hr hfs
  have hne : s.forcesFc2.getD [] ≠ [] := by
    unfold givenFiles at hw
    split at hw
    · rename_i heq
      rw [heq]
      simp
    · cases hw
  have h2 : collectFc2 r s y = some (some (.type1 ds, c)) := by
    unfold collectFc2
    simp only [hw, if_true, hy, Option.bind_some, hfs]
    rw [if_neg]
    simp [hcf, hne]
  obtain ⟨x, hx⟩ := Option.isSome_iff_exists.1 h3
  cases x with
  | none =>
    refine ⟨none, ?_⟩
    simp only [createForces, hx, h2, hs, Bool.false_eq_true, if_false, writeFc2, hcf]
  | some p =>
    obtain ⟨file, hfile⟩ := Option.isSome_iff_exists.1 (hf3 p.1 p.2 hx)
    refine ⟨some file, ?_⟩
    simp only [createForces, hx, h2, hs, Bool.false_eq_true, if_false, hfile, writeFc2, hcf]

/-- **C145**, fc2. With as many files as displacements, read by the parser of the option
`calculator`, the command succeeds and reading FORCES_FC2 back gives the displacements, in order,
the forces of the files minus the residual forces. -/
theorem C145_forces_fc2_partial [AddGroup V] (shown : V → V) (r : CalcReaders M F V K P)
    (s : CollectSettings M F) (y : DispYaml M V K) (ds : DispDataset V K) (truth : F → List V)
    (hs : s.saveParams = false) (hw : givenFiles s.forcesFc2 = true)
    (h3 : wantsFc3 s = false) (hy : y.phononDataset = some (.type1 ds)) (hn : 0 < ds.natom)
    (hr : ReadsForces r s.calculator ds.natom truth)
    (hfit : FilesFit r s.calculator ds.natom (.type1 ds) (s.forcesFc2.getD []) (residualFc2 s))
    (hlen : (s.forcesFc2.getD []).length = ds.first.length) :
    ∃ lines ds', createForces shown r s y = ({ forcesFc2 := some (.lines lines) }, true) ∧
      parseForcesFc2 none ds lines = (ds', false) ∧
      ds'.first.map (fun d => d.forces) = (s.forcesFc2.getD []).map
        (fun f => some ((netForces truth (residualFc2 s) f).map shown)) ∧
      ds'.first.map (fun d => (d.id, d.number, d.displacement)) =
        ds.first.map (fun d => (d.id, d.number, d.displacement)) := by
  have hx : collectFc3 r s y = some none := by simp [collectFc3, h3]
  obtain ⟨f3, hmain⟩ := createForces_fc2 shown hs hw (by simp [hx]) (by simp [hx]) hy hr hfit
  obtain ⟨file, ds', e1, e2, e3, e4⟩ := C46_round_trip shown ds hn
    ((s.forcesFc2.getD []).map (netForces truth (residualFc2 s))) (by simpa using hlen) (by
      intro g hg
      obtain ⟨f, -, rfl⟩ := List.mem_map.1 hg
      unfold netForces
      cases residualFc2 s with
      | none => exact hr.rows f
      | some z => simp [hr.rows])
  obtain ⟨w1, w2⟩ := fc2Written_some shown
    ((s.forcesFc2.getD []).map (netForces truth (residualFc2 s))) 0 ds.first (by simp [hlen])
  rw [w1, Option.some.injEq] at e1
  subst e1
  refine ⟨_, ds', ?_, e2, by rw [e3, List.map_map]; rfl, e4⟩
  obtain ⟨c2, hc2⟩ : ∃ c2, collectFc2 r s y = some c2 := by
    cases hq : collectFc2 r s y with
    | none => simp [createForces, hx, hq] at hmain
    | some c2 => exact ⟨c2, rfl⟩
  rw [hmain, w2]
  cases c2 with
  | none => simp [createForces, hx, hc2, hs] at hmain
  | some p =>
    have := congrArg (fun t => t.1.forcesFc3) hmain
    simp only [createForces, hx, hc2, hs, Bool.false_eq_true, if_false] at this
    rw [← this]

theorem storeFirstFc2_spec (c : CalcDataset V K P) (i : Nat) (l l' : List (Disp1 V K))
    (h : storeFirstFc2 c i l = some l') :
    l'.map (fun d => d.forces) = ((c.forces.drop i).take l.length).map some ∧
      i + l.length ≤ max i c.forces.length ∧
      l'.map (fun d => (d.id, d.number, d.displacement, d.second)) =
        l.map (fun d => (d.id, d.number, d.displacement, d.second)) := by
  induction l generalizing i l' with
  | nil =>
    simp only [storeFirstFc2, Option.some.injEq] at h
    subst h
    simp
  | cons d l ih =>
    simp only [storeFirstFc2, Option.bind_eq_some_iff, Option.map_eq_some_iff] at h
    obtain ⟨f, hf, e, -, r, hr, rfl⟩ := h
    obtain ⟨h1, h2, h3⟩ := ih _ _ hr
    obtain ⟨hlt, rfl⟩ := List.getElem?_eq_some_iff.1 hf
    refine ⟨?_, ?_, ?_⟩
    · rw [List.drop_eq_getElem_cons hlt, List.length_cons, List.take_succ_cons, List.map_cons,
        List.map_cons, h1]
    · rw [List.length_cons]
      omega
    · simp only [List.map_cons, h3]

/-- **C145**, fc2 with `--sp`. If the command succeeds, there were at least as many files as
displacements, and the fc2 dataset of phono3py_params.yaml has the forces of the first files in the
order given, minus the residual forces. -/
theorem C145_params_fc2_partial [AddGroup V] (shown : V → V) (r : CalcReaders M F V K P)
    (s : CollectSettings M F) (y : DispYaml M V K) (ds : DispDataset V K) (truth : F → List V)
    (hs : s.saveParams = true) (hw : givenFiles s.forcesFc2 = true)
    (hy : y.phononDataset = some (.type1 ds))
    (hr : ReadsForces r s.calculator ds.natom truth)
    (hok : (createForces shown r s y).2 = true) :
    ∃ ds3 ds', (createForces shown r s y).1.params = some (ds3, some (.type1 ds')) ∧
      ds.first.length ≤ (s.forcesFc2.getD []).length ∧
      ds'.first.map (fun d => d.forces) = ((s.forcesFc2.getD []).take ds.first.length).map
        (fun f => some (netForces truth (residualFc2 s) f)) ∧
      ds'.first.map (fun d => (d.id, d.number, d.displacement)) =
        ds.first.map (fun d => (d.id, d.number, d.displacement)) := by
  cases h3 : collectFc3 r s y with
  | none => simp [createForces, h3] at hok
  | some x3 =>
    cases h2 : collectFc2 r s y with
    | none => simp [createForces, h3, h2] at hok
    | some x2 =>
      obtain ⟨a, c, rfl, hd, hc, -⟩ := collectFc2_some hw h2
      rw [hy, Option.some.injEq] at hd
      subst hd
      have hf := forceSetsFc2_forces hr hc
      cases x3 with
      | none => simp [createForces, h3, h2, hs] at hok
      | some p =>
        cases hst : storeFc3 p.2 p.1 with
        | none => simp [createForces, h3, h2, hs, hst] at hok
        | some a =>
          cases hq : storeFirstFc2 c 0 ds.first with
          | none => simp [createForces, h3, h2, hs, hst, storeFc2, hq] at hok
          | some l =>
            obtain ⟨e1, e2, e3⟩ := storeFirstFc2_spec c 0 _ _ hq
            refine ⟨some a, { ds with first := l }, ?_, ?_, ?_, ?_⟩
            · simp only [createForces, h3, h2, hs, if_true, hst, storeFc2, hq, Option.map_some]
            · rw [hf, List.length_map] at e2
              omega
            · rw [e1, hf, List.drop_zero, ← List.map_take, List.map_map]
              rfl
            · have := congrArg (List.map (fun t : Nat × Nat × V × List (Disp2 V K) =>
                (t.1, t.2.1, t.2.2.1))) e3
              rw [List.map_map, List.map_map] at this
              exact this

/-- **C145**, what fails. Fewer files than displacements for fc2: the command raises, but leaves a
FORCES_FC2 with the forces of the files given, and reading that file later raises nothing and leaves
the displacements without forces. -/
theorem C145_fc2_too_few [AddGroup V] (shown : V → V) (r : CalcReaders M F V K P)
    (s : CollectSettings M F) (y : DispYaml M V K) (ds : DispDataset V K) (truth : F → List V)
    (hs : s.saveParams = false) (hw : givenFiles s.forcesFc2 = true)
    (h3 : wantsFc3 s = false) (hy : y.phononDataset = some (.type1 ds)) (hn : 0 < ds.natom)
    (hr : ReadsForces r s.calculator ds.natom truth)
    (hfit : FilesFit r s.calculator ds.natom (.type1 ds) (s.forcesFc2.getD []) (residualFc2 s))
    (hlen : (s.forcesFc2.getD []).length < ds.first.length) :
    (createForces shown r s y).2 = false ∧
    ∃ lines, (createForces shown r s y).1.forcesFc2 = some (.lines lines) ∧
      forceRows lines = ((s.forcesFc2.getD []).map
        (fun f => (netForces truth (residualFc2 s) f).map shown)).flatten ∧
      readForcesFc2 ds lines = some ds := by
  have hx : collectFc3 r s y = some none := by simp [collectFc3, h3]
  obtain ⟨f3, hmain⟩ := createForces_fc2 shown hs hw (by simp [hx]) (by simp [hx]) hy hr hfit
  obtain ⟨w1, w2⟩ := fc2Written_short shown
    ((s.forcesFc2.getD []).map (netForces truth (residualFc2 s))) 0 ds.first (Nat.zero_le _)
    (by simpa using hlen)
  rw [hmain]
  refine ⟨w1, _, rfl, ?_, ?_⟩
  · rw [w2, List.drop_zero, List.map_map]
    rfl
  · apply C46_reader_silent ds hn
    rw [w2, List.drop_zero]
    have : ∀ l : List F, (((l.map (netForces truth (residualFc2 s))).map
        (fun b => b.map shown)).flatten).length = l.length * ds.natom := by
      intro l
      induction l with
      | nil => simp
      | cons f l ih =>
        rw [List.map_cons, List.map_cons, List.flatten_cons, List.length_append, ih,
          List.length_cons, Nat.succ_mul, Nat.add_comm, List.length_map]
        congr 1
        unfold netForces
        cases residualFc2 s with
        | none => exact hr.rows f
        | some z => simp [hr.rows]
    rw [this]
    exact Nat.mul_lt_mul_of_pos_right hlen hn

/-- **C145**, what fails. More files than displacements for fc2 are accepted, and FORCES_FC2 is the
same as without the files at the end of the list. -/
theorem C145_fc2_too_many [AddGroup V] (shown : V → V) (r : CalcReaders M F V K P)
    (s : CollectSettings M F) (y : DispYaml M V K) (ds : DispDataset V K) (truth : F → List V)
    (hs : s.saveParams = false) (h3 : wantsFc3 s = false)
    (hy : y.phononDataset = some (.type1 ds))
    (hr : ReadsForces r s.calculator ds.natom truth) (files more : List F) (hne : files ≠ [])
    (hset : s.forcesFc2 = some (files ++ more)) (hlen : files.length = ds.first.length)
    (hfit : FilesFit r s.calculator ds.natom (.type1 ds) (files ++ more) (residualFc2 s)) :
    createForces shown r s y =
      ({ forcesFc2 := some (.lines (fc2Written shown
          (files.map (netForces truth (residualFc2 s))) 0 ds.first).1) }, true) := by
  have hx : collectFc3 r s y = some none := by simp [collectFc3, h3]
  have hw : givenFiles s.forcesFc2 = true := by
    rw [hset]
    cases files with
    | nil => exact absurd rfl hne
    | cons f fs => rfl
  have hg : s.forcesFc2.getD [] = files ++ more := by rw [hset]; rfl
  obtain ⟨f3, hmain⟩ := createForces_fc2 shown hs hw (by simp [hx]) (by simp [hx]) hy hr
    (by rw [hg]; exact hfit)
  rw [hg, List.map_append, fc2Written_extra _ _ _ _ _ (by simp [hlen]),
    (fc2Written_some shown (files.map (netForces truth (residualFc2 s))) 0 ds.first
      (by simp [hlen])).2] at hmain
  obtain ⟨c2, hc2⟩ : ∃ c2, collectFc2 r s y = some c2 := by
    cases hq : collectFc2 r s y with
    | none => simp [createForces, hx, hq] at hmain
    | some c2 => exact ⟨c2, rfl⟩
  rw [hmain]
  cases c2 with
  | none => simp [createForces, hx, hc2, hs] at hmain
  | some p =>
    have := congrArg (fun t => t.1.forcesFc3) hmain
    simp only [createForces, hx, hc2, hs, Bool.false_eq_true, if_false] at this
    rw [← this]

/-- **C145**, what fails. The calculator named in phono3py_disp.yaml has no influence on how the
output files for fc2 are read. -/
theorem C145_fc2_calculator_ignored [Sub V] (r : CalcReaders M F V K P) (s : CollectSettings M F)
    (y : DispYaml M V K) (m : Option M) :
    collectFc2 r s { y with calculator := m } = collectFc2 r s y := rfl

/-! ## Displacements of all atoms -/

/-- **C145**, what fails. When the dataset read has displacements of all atoms and already forces,
FORCES_FC3 and FORCES_FC2 get the old forces, whatever the output files contain. -/
theorem C145_old_forces [AddGroup V] (shown : V → V) (r : CalcReaders M F V K P)
    (s : CollectSettings M F) (y : DispYaml M V K) (d : DispDataset2 V K) (old : List (List V))
    (hold : d.forces = some old) (hs : s.saveParams = false)
    (hok : (createForces shown r s y).2 = true) :
    (wantsFc3 s = true → y.dataset = some (.type2 d) →
      (createForces shown r s y).1.forcesFc3 = some (.sets d.displacements old)) ∧
    (givenFiles s.forcesFc2 = true → y.phononDataset = some (.type2 d) →
      (createForces shown r s y).1.forcesFc2 = some (.sets d.displacements old)) := by
  cases h3 : collectFc3 r s y with
  | none => simp [createForces, h3] at hok
  | some x3 =>
    cases h2 : collectFc2 r s y with
    | none => simp [createForces, h3, h2] at hok
    | some x2 =>
      constructor
      · intro hw hy
        obtain ⟨ds, c, rfl, hd, -⟩ := collectFc3_some hw h3
        rw [hy, Option.some.injEq] at hd
        subst hd
        have hwf : writeFc3 shown (.type2 d) c.forces = some (.sets d.displacements old) := by
          simp [writeFc3, hold]
        simp only [createForces, h3, h2, hs, Bool.false_eq_true, if_false, hwf]
        cases x2 with
        | none => rfl
        | some p => rfl
      · intro hw hy
        obtain ⟨ds, c, rfl, hd, -⟩ := collectFc2_some hw h2
        rw [hy, Option.some.injEq] at hd
        subst hd
        have hwf : writeFc2 shown (.type2 d) c.forces = (.sets d.displacements old, true) := by
          simp [writeFc2, hold]
        simp only [createForces, h3, h2, hs, Bool.false_eq_true, if_false, hwf] at hok ⊢
        cases x3 with
        | none => rfl
        | some p =>
          cases hq : writeFc3 shown p.1 p.2.forces with
          | none => simp only [hq] at hok; cases hok
          | some file => simp only [hq]

/-- **C145**, what fails. For displacements of all atoms `--sp` needs energies: if the parser gives
none, the command stops and writes nothing. -/
theorem C145_params_energies [AddGroup V] (shown : V → V) (r : CalcReaders M F V K P)
    (s : CollectSettings M F) (y : DispYaml M V K) (d : DispDataset2 V K)
    (hs : s.saveParams = true) (hw : wantsFc3 s = true) (hy : y.dataset = some (.type2 d))
    (hen : ∀ mode natom files, (r.parse mode natom files).energies = none)
    (hen2 : ∀ files ds, (r.parseWien2k files ds).energies = none) :
    createForces shown r s y = ({}, false) := by
  cases h3 : collectFc3 r s y with
  | none => simp [createForces, h3]
  | some x3 =>
    obtain ⟨ds, c, rfl, hd, hc, -⟩ := collectFc3_some hw h3
    rw [hy, Option.some.injEq] at hd
    subst hd
    have hce : c.energies = none := by
      unfold forceSetsFc3 at hc
      rw [Option.bind_eq_some_iff] at hc
      obtain ⟨counts, -, hc⟩ := hc
      rw [Option.bind_eq_some_iff] at hc
      obtain ⟨files, -, hc⟩ := hc
      have hp : ∀ n, (parseFc3 r (.type2 d) (usedCalculator s y) n files).energies = none := by
        intro n
        unfold parseFc3
        split
        · exact hen2 _ _
        · exact hen _ _ _
      split at hc
      · simp only [hasFirstAtoms, Bool.false_and, Bool.false_eq_true, if_false] at hc
        split at hc
        · cases hc
        · cases hz : s.subtract with
          | none =>
            rw [hz] at hc
            simp only [subtractResidual, Option.some.injEq] at hc
            rw [← hc, hp]
          | some f =>
            rw [hz] at hc
            simp only [subtractResidual] at hc
            split at hc
            · split at hc
              · cases hc
              · split at hc
                · cases hc
                · rw [Option.map_eq_some_iff] at hc
                  obtain ⟨fs, -, rfl⟩ := hc
                  exact hp _
            · cases hc
      · cases hc
    cases h2 : collectFc2 r s y with
    | none => simp [createForces, h3, h2]
    | some x2 =>
      simp only [createForces, h3, h2, hs, if_true, storeFc3, storeType2, hce, Option.bind_none,
        Option.map_none]

/-- **C145**, what fails. For displacements of all atoms the number of files is not checked: any
number of files is accepted. FORCES_FC3 gets all displacements with the forces of these files, and
phono3py_params.yaml the displacements cut to the number of files, so that with more files than
displacements it has more forces than displacements. -/
theorem C145_type2_number [AddGroup V] (shown : V → V) (r : CalcReaders M F V K P)
    (s : CollectSettings M F) (y : DispYaml M V K) (d : DispDataset2 V K)
    (us : List (List V)) (natom : Nat) (truth : F → List V) (es : List K) (files : List F)
    (hy : y.dataset = some (.type2 d)) (hus : d.displacements = some us) (hno : d.forces = none)
    (hlen : ∃ u rest, us = u :: rest ∧ u.length = natom)
    (hfiles : s.forcesFc3 = some files) (hne : files ≠ []) (hfile : s.forcesFc3File = none)
    (h2 : givenFiles s.forcesFc2 = false)
    (hr : ReadsForces r (usedCalculator s y) natom truth)
    (hfit : FilesFit r (usedCalculator s y) natom (.type2 d) files s.subtract)
    (hes : (parseFc3 r (.type2 d) (usedCalculator s y) natom files).energies = some es) :
    createForces shown r s y =
      (if s.saveParams then
        { params := some (some (.type2
            ⟨some (us.take files.length), some (files.map (netForces truth s.subtract)), some es⟩),
            y.phononDataset) }
      else { forcesFc3 := some (.sets (some us) (files.map (netForces truth s.subtract))) },
      true) := by
  obtain ⟨u, rest, rfl, hu⟩ := hlen
  have hw : wantsFc3 s = true := by
    unfold wantsFc3
    rw [hfiles]
    cases files with
    | nil => exact absurd rfl hne
    | cons f fs => rfl
  have hcnt : countsFc3 (.type2 d) = some ((u :: rest).length, natom) := by
    simp only [countsFc3, hus, hu]
  have hnames : fc3FileNames r s = some files := by
    unfold fc3FileNames
    rw [hfile, hfiles]
    rfl
  have hall : files.all r.fileExists = true := by
    rw [List.all_eq_true]
    exact hfit.present
  have hcf := parseFc3_forces hr (.type2 d) files
  have hpt : (parseFc3 r (.type2 d) (usedCalculator s y) natom files).points.any
        (fun p => r.displacedDiffer (.type2 d) p files) = false := by
    unfold parseFc3
    split
    · cases hq : (r.parseWien2k files (.type2 d)).points with
      | none => rfl
      | some p => exact hfit.fitWien2k p hq
    · cases hq : (r.parse (usedCalculator s y) natom files).points with
      | none => rfl
      | some p => exact hfit.fit p hq
  obtain ⟨c, hc⟩ := subtractResidual_some hr s.subtract _ hfit _ hcf
  obtain ⟨hc1, hc2⟩ := subtractResidual_forces hr s.subtract _ _ c hcf hc
  have hfs : forceSetsFc3 r s (.type2 d) (usedCalculator s y) = some c := by
    unfold forceSetsFc3
    rw [hcnt, Option.bind_some, hnames, Option.bind_some, if_pos hall]
    simp only [hasFirstAtoms, Bool.false_and, Bool.false_eq_true, if_false, hpt, hc]
  have h3 : collectFc3 r s y = some (some (.type2 d, c)) := by
    unfold collectFc3
    simp only [usedCalculator_eq, hw, if_true, hy, Option.bind_some, hfs]
    rw [if_neg]
    simp [hc1, hne]
  have hx2 : collectFc2 r s y = some none := by simp [collectFc2, h2]
  rw [hes] at hc2
  cases hs : s.saveParams with
  | true =>
    have htake : (if (files.map (netForces truth s.subtract)).length ≠ (u :: rest).length then
        (u :: rest).take (files.map (netForces truth s.subtract)).length else u :: rest) =
        (u :: rest).take files.length := by
      rw [List.length_map]
      split
      · rfl
      · rename_i h
        rw [not_not] at h
        rw [h, List.take_length]
    simp only [createForces, h3, hx2, hs, if_true, storeFc3, storeType2, hc2, hus, Option.map_some,
      Option.bind_some, hc1, htake]
  | false =>
    simp only [createForces, h3, hx2, hs, Bool.false_eq_true, if_false, writeFc3, hno, hus, hc1]

/-! ## A concrete case -/

/-- The forces in file `n`. -/
def fileForces (n : Nat) : List ℤ := [(n : ℤ), -(n : ℤ)]

/-- Two interfaces: for calculator `1` file `n` holds the forces `n`, `-n`, for no calculator the
same text is read as `0`, `0`. No energies and no positions are given. -/
def twoInterfaces : CalcReaders Nat Nat ℤ Nat Unit where
  fileExists _ := true
  names _ := []
  parse mode _ files :=
    ⟨files.map (fun n => if mode = some 1 then fileForces n else [0, 0]), none, none⟩
  isWien2k _ := false
  parseWien2k files _ := ⟨files.map fileForces, none, none⟩
  displacedDiffer _ _ _ := false
  perfectDiffers _ := false

/-- One single displacement and two pairs, the second beyond the cutoff. -/
def cutoffPairs : DispDataset ℤ Nat :=
  ⟨2, [], none, [⟨1, 0, 3, none, none,
    [⟨2, 1, 3, 1, some true, none, none⟩, ⟨3, 1, -3, 5, some false, none, none⟩]⟩]⟩

/-- phono3py_disp.yaml written with calculator `1`, with fc2 displacements of two atoms. -/
def cutoffYaml : DispYaml Nat ℤ Nat :=
  ⟨some 1, some (.type1 cutoffPairs),
    some (.type1 ⟨2, [], none, [⟨1, 0, 3, none, none, []⟩, ⟨2, 1, 3, none, none, []⟩]⟩)⟩

/-- `--cf3 11 12 --cfz 10`. -/
def cf3Settings : CollectSettings Nat Nat := ⟨none, some [11, 12], none, none, some 10, none, false⟩

theorem twoInterfaces_reads :
    ReadsForces twoInterfaces (usedCalculator cf3Settings cutoffYaml) cutoffPairs.natom
      fileForces where
  parse _ := rfl
  wien2k files ds := by
    show (twoInterfaces.parseWien2k files ds).forces = _
    rfl
  rows _ := rfl

theorem twoInterfaces_fit (mode : Option Nat) (natom : Nat) (ds : AnyDataset ℤ Nat)
    (files : List Nat) (z : Option Nat) : FilesFit twoInterfaces mode natom ds files z :=
  { present := fun _ _ => rfl
    fit := fun _ _ => rfl
    fitWien2k := fun _ _ => rfl
    residualPresent := fun _ _ => rfl
    residualFit := fun _ _ _ _ => rfl }

/-- The hypotheses of `C145_accepted`, `C145_forces_fc3`, `C145_params` and `C145_params_cutoff`
are met, and this is what the command writes. -/
example : wantsFc3 cf3Settings = true ∧ cutoffYaml.dataset = some (.type1 cutoffPairs) ∧
    DistinctPairs cutoffPairs ∧ (∃ e ∈ displacedCells cutoffPairs, e.included = false) ∧
    (createForces id twoInterfaces cf3Settings cutoffYaml).2 = true ∧
    (createForces id twoInterfaces { cf3Settings with saveParams := true } cutoffYaml).2 = true ∧
    ((createForces id twoInterfaces cf3Settings cutoffYaml).1.forcesFc3.map (fun f => match f with
      | .lines l => forceRows l
      | .sets _ _ => [])) = some [1, -1, 2, -2, 0, 0] := by
  refine ⟨rfl, rfl, ?_, ?_, rfl, rfl, rfl⟩
  · intro d1 h1 d2 h2
    simp only [cutoffPairs, List.mem_singleton] at h1
    subst h1
    simp only [List.mem_cons, List.not_mem_nil, or_false] at h2
    rcases h2 with rfl | rfl <;> decide
  · exact ⟨⟨3, false, fun k => oneAtom 0 3 k + oneAtom 1 (-3) k, none⟩, by
      simp [displacedCells, cutoffPairs], rfl⟩

/-- With one file too few the command writes nothing (`C145_wrong_number`). -/
example : (createForces id twoInterfaces { cf3Settings with forcesFc3 := some [11] }
    cutoffYaml).1.forcesFc3.isNone := rfl

/-- **C145**, what fails. The output files of one calculation method for fc3 and fc2, with the
calculator known from phono3py_disp.yaml: the forces in FORCES_FC3 are right, those in FORCES_FC2
are read with another interface. -/
theorem C145_fc2_calculator :
    ∃ (r : CalcReaders Nat Nat ℤ Nat Unit) (s : CollectSettings Nat Nat) (y : DispYaml Nat ℤ Nat)
      (truth : Nat → List ℤ) (l3 l2 : List (ForceLine ℤ)),
      ReadsForces r y.calculator 2 truth ∧ y.calculator = some 1 ∧
      createForces id r s y =
        ({ forcesFc3 := some (.lines l3), forcesFc2 := some (.lines l2) }, true) ∧
      s.forcesFc3 = some [11, 12] ∧ s.forcesFc2 = some [21, 22] ∧
      forceRows l3 = truth 11 ++ truth 12 ++ [0, 0] ∧
      forceRows l2 = [0, 0, 0, 0] ∧ truth 21 = [21, -21] :=
  ⟨twoInterfaces, ⟨none, some [11, 12], none, some [21, 22], none, none, false⟩, cutoffYaml,
    fileForces, _, _, ⟨fun _ => rfl, fun _ _ => rfl, fun _ => rfl⟩, rfl, rfl, rfl, rfl,
    rfl, rfl, rfl⟩

/-- The hypotheses of `C145_forces_fc2_partial`, `C145_fc2_too_few` and `C145_fc2_too_many` are met
when the calculator is given as an option; so are those of `C145_type2_number`. -/
example :
    (createForces id twoInterfaces ⟨some 1, none, none, some [21, 22], none, none, false⟩
      cutoffYaml).2 = true ∧
    (createForces id twoInterfaces ⟨some 1, none, none, some [21], none, none, false⟩
      cutoffYaml).2 = false ∧
    (createForces id twoInterfaces ⟨some 1, none, none, some [21, 22, 23], none, none, false⟩
      cutoffYaml).2 = true ∧
    (createForces id twoInterfaces ⟨some 1, some [11, 12], none, some [21, 22], none, none, true⟩
      cutoffYaml).2 = true ∧
    (createForces id twoInterfaces ⟨some 1, some [1, 2, 3], none, none, none, none, false⟩
      ⟨none, some (.type2 ⟨some [[1, 0], [0, 1]], none, none⟩), none⟩) =
      ({ forcesFc3 := some (.sets (some [[1, 0], [0, 1]]) [[1, -1], [2, -2], [3, -3]]) }, true) ∧
    (createForces id twoInterfaces ⟨some 1, some [1, 2], none, none, none, none, false⟩
      ⟨none, some (.type2 ⟨some [[1, 0], [0, 1]], some [[9, 9], [8, 8]], none⟩), none⟩) =
      ({ forcesFc3 := some (.sets (some [[1, 0], [0, 1]]) [[9, 9], [8, 8]]) }, true) :=
  ⟨rfl, rfl, rfl, rfl, rfl, rfl⟩

end Phono3py.Props
