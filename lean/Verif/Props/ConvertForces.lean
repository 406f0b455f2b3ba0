import Verif.Props.CreateForceSets
import Verif.Spec.ConvertForces

/-!
# C162: conversion between FORCES_FC3, FORCES_FC2 and phonopy's FORCE_SETS
-/

namespace Phono3py.Props

open Phono3py

variable {M F S V K P : Type}

theorem parseBlocks_take (natom n m : Nat) (l : List (ForceLine V)) (fs : List (List V))
    (h : parseBlocks natom (n + m) l = some fs) : parseBlocks natom n l = some (fs.take n) := by
  induction n generalizing l fs with
  | zero => simp [parseBlocks]
  | succ n ih =>
    rw [show n + 1 + m = (n + m) + 1 by omega] at h
    simp only [parseBlocks, Option.bind_eq_some_iff, Option.map_eq_some_iff] at h ⊢
    obtain ⟨f, hf, r, hr, rfl⟩ := h
    exact ⟨f, hf, _, ih _ r hr, by simp⟩

theorem parseBlocks_length (natom n : Nat) (l : List (ForceLine V)) (fs : List (List V))
    (h : parseBlocks natom n l = some fs) : fs.length = n := by
  induction n generalizing l fs with
  | zero => simp only [parseBlocks, Option.some.injEq] at h; simp [← h]
  | succ n ih =>
    simp only [parseBlocks, Option.bind_eq_some_iff, Option.map_eq_some_iff] at h
    obtain ⟨f, -, r, hr, rfl⟩ := h
    simp [ih _ _ hr]

theorem setFirst_entries (ds : List (Disp1 V K)) (vs : List (List V)) (h : vs.length = ds.length) :
    setFirstForces ds vs =
      some (List.zipWith (fun d v => { d with forces := some v }) ds vs, []) := by
  induction ds generalizing vs with
  | nil => cases vs <;> simp_all [setFirstForces]
  | cons d ds ih =>
    cases vs with
    | nil => simp at h
    | cons v vs =>
      rw [setFirstForces, ih vs (by simpa using h)]
      rfl

theorem setEntries_zip (shownD shown : V → V) (ds : List (Disp1 V K)) (vs : List (List V)) :
    setEntries shownD shown (List.zipWith (fun d v => { d with forces := some v }) ds vs) =
      some (List.zipWith (fun d f => ⟨d.number + 1, shownD d.displacement, f.map shown⟩)
        ds vs) := by
  induction ds generalizing vs with
  | nil => rfl
  | cons d ds ih =>
    cases vs with
    | nil => rfl
    | cons v vs =>
      simp only [List.zipWith_cons_cons, setEntries, ih, Option.bind_some, Option.map_some]

theorem cfsWrite_blocks (shownD shown : V → V) (ds : DispDataset V K) (l : List (ForceLine V))
    (fs : List (List V)) (h : parseBlocks ds.natom ds.first.length l = some fs) :
    cfsWrite shownD shown (some (.type1 ds)) l =
      .written (wantedSets shownD shown ds.natom ds.first fs) := by
  have hl := parseBlocks_length _ _ _ _ h
  have : parseForcesFc2 none ds l =
      ({ ds with first := List.zipWith (fun d v => { d with forces := some v }) ds.first fs },
        false) := by
    unfold parseForcesFc2
    simp only [h, Option.getD_none, List.map_id_fun, id_eq, List.map_id']
    rw [setFirst_entries _ _ hl]
  simp only [cfsWrite, this, writeForceSets, setEntries_zip, Option.map_some, wantedSets]

theorem hasNumbers_iff (l : List (ForceLine V)) : hasNumbers l = true ↔ forceRows l ≠ [] := by
  induction l with
  | nil => simp [hasNumbers, forceRows]
  | cons a l ih =>
    cases a with
    | row f => simp [hasNumbers, forceRows]
    | file n => exact ih
    | moved n d => exact ih
    | blank => exact ih

theorem blocks_numbers (natom n : Nat) (hn : 0 < natom) (h0 : 0 < n) (l : List (ForceLine V))
    (fs : List (List V)) (h : parseBlocks natom n l = some fs) : hasNumbers l = true := by
  rw [hasNumbers_iff]
  intro hc
  rw [parseBlocks_none natom hn n l (by rw [hc]; simpa using Nat.mul_pos h0 hn)] at h
  cases h

theorem convert_lines [DecidableEq S] (shownD shown : V → V) (dimFc2 : Option S)
    (y : CfsYaml S V K) (fc3 fc2 : Option (ForceFile V)) (l : List (ForceLine V))
    (hf : cfsFile dimFc2 fc3 fc2 = some (.lines l)) (hl : hasNumbers l = true)
    (hm : matrixBad dimFc2 (cfsDataset dimFc2 y).2 = false) :
    convertToForceSets shownD shown dimFc2 y fc3 fc2 =
      cfsWrite shownD shown (cfsDataset dimFc2 y).1 l := by
  simp only [convertToForceSets, hf, firstLineOfThree, hl, if_true, hm, Bool.false_eq_true, if_false]

/-- The entries of FORCE_SETS for displacements that have forces. -/
theorem setPair_same (l l' : List (Disp1 V K)) (vs vs' : List (List V))
    (h : setPairForces l vs = some (l', vs')) :
    l'.map (fun d => (d.number, d.displacement, d.forces)) =
      l.map (fun d => (d.number, d.displacement, d.forces)) := by
  induction l generalizing l' vs vs' with
  | nil =>
    simp only [setPairForces, Option.some.injEq, Prod.mk.injEq] at h
    rw [← h.1]
  | cons d l ih =>
    simp only [setPairForces, Option.bind_eq_some_iff, Option.map_eq_some_iff] at h
    obtain ⟨r, -, t, ht, he⟩ := h
    rw [Prod.mk.injEq] at he
    rw [← he.1, List.map_cons, List.map_cons, ih t.1 r.2 t.2 ht]

theorem fc3_blocks (ds ds' : DispDataset V K) (l : List (ForceLine V))
    (h : parseForcesFc3 none ds l = some ds') :
    ∃ fs, parseBlocks ds.natom ds.first.length l = some fs ∧
      ds'.first.map (fun d => (d.number, d.displacement, d.forces)) =
        List.zipWith (fun d f => (d.number, d.displacement, some f)) ds.first fs := by
  simp only [parseForcesFc3, Option.bind_eq_some_iff, Option.getD_none, List.map_id_fun, id_eq,
    List.map_id'] at h
  obtain ⟨fs, hfs, hset⟩ := h
  have ht := parseBlocks_take _ _ _ _ _ hfs
  have hl := parseBlocks_length _ _ _ _ ht
  refine ⟨_, ht, ?_⟩
  simp only [setForces, Option.bind_eq_some_iff, Option.map_eq_some_iff] at hset
  obtain ⟨r, hr, t, hp, rfl⟩ := hset
  have hsplit := setFirst_frame ds.first (fs.take ds.first.length) (fs.drop ds.first.length)
    (by omega)
  rw [List.take_append_drop, hr, setFirst_entries _ _ hl] at hsplit
  simp only [Option.map_some, Option.some.injEq] at hsplit
  rw [setPair_same _ _ _ _ hp, hsplit, List.map_zipWith]

/-- **C162**. FORCES_FC3 for single and pair displacements. Whatever the file, if phono3py can read
it for the dataset, `--cfs` writes FORCE_SETS with the single displacements and just the forces that
phono3py reads for them. -/
theorem C162_fc3 [DecidableEq S] (shownD shown : V → V) (y : CfsYaml S V K) (m : S)
    (ds ds' : DispDataset V K) (l : List (ForceLine V)) (fc2 : Option (ForceFile V))
    (hy : y.dataset = some (.type1 ds)) (hm : y.matrix = some m) (hn : 0 < ds.natom)
    (h1 : ds.first ≠ []) (hp : parseForcesFc3 none ds l = some ds') :
    ∃ forces : List (List V),
      convertToForceSets shownD shown none y (some (.lines l)) fc2 =
        .written (wantedSets shownD shown ds.natom ds.first forces) ∧
      ds'.first.map (fun d => (d.number, d.displacement, d.forces)) =
        List.zipWith (fun d f => (d.number, d.displacement, some f)) ds.first forces := by
  obtain ⟨fs, hb, he⟩ := fc3_blocks ds ds' l hp
  refine ⟨fs, ?_, he⟩
  rw [convert_lines shownD shown none y _ fc2 l rfl
    (blocks_numbers _ _ hn (List.length_pos_iff.2 h1) l fs hb) (by simp [cfsDataset, hm, matrixBad])]
  simp only [cfsDataset, hy]
  exact cfsWrite_blocks shownD shown ds l fs hb

/-- **C162**. `--cf3` and then `--cfs`: FORCE_SETS holds, for every single displacement, the forces
in the output file of its own supercell, minus the residual forces. -/
theorem C162_collected [AddGroup V] [DecidableEq S] (shownD shown : V → V) (h0 : shown 0 = 0)
    (r : CalcReaders M F V K P) (s : CollectSettings M F) (y : DispYaml M V K) (y' : CfsYaml S V K)
    (m : S) (ds : DispDataset V K) (truth : F → List V) (fc2 : Option (ForceFile V))
    (hs : s.saveParams = false) (hw : wantsFc3 s = true) (hy : y.dataset = some (.type1 ds))
    (hy' : y'.dataset = y.dataset) (hm : y'.matrix = some m) (hn : 0 < ds.natom)
    (h1 : ds.first ≠ []) (hr : ReadsForces r (usedCalculator s y) ds.natom truth)
    (hok : (createForces shown r s y).2 = true) :
    ds.first.length ≤ (fc3Names r s).length ∧
    convertToForceSets shownD shown none y' (createForces shown r s y).1.forcesFc3 fc2 =
      .written (wantedSets shownD shown ds.natom ds.first
        (((fc3Names r s).take ds.first.length).map
          (fun f => (netForces truth s.subtract f).map shown))) := by
  obtain ⟨l, ds', e1, e2, e3, e4, e5, -⟩ := C145_forces_fc3 shown h0 r s y ds truth hs hw hy hn hr hok
  obtain ⟨forces, c1, c2⟩ := C162_fc3 shownD shown y' m ds ds' l fc2 (hy'.trans hy) hm hn h1 e2
  have hlen : ds'.first.length = ds.first.length := by
    obtain ⟨fs, hb, he⟩ := fc3_blocks ds ds' l e2
    have h2 := parseBlocks_length _ _ _ _ hb
    have h3 := congrArg List.length he
    simp only [List.length_map, List.length_zipWith, h2, Nat.min_self] at h3
    exact h3
  have hfirst : ∀ d : DispDataset V K, (displacedCells d).filter (fun e => e.included) =
      d.first.map firstCell ++ (pairCells d.first).filter (fun e => e.included) := by
    intro d
    rw [displacedCells_eq, List.filter_append]
    congr 1
    rw [List.filter_eq_self]
    intro e he
    obtain ⟨x, -, rfl⟩ := List.mem_map.1 he
    rfl
  have hcount : ds.first.length ≤ (fc3Names r s).length := by
    rw [e3, hfirst]
    simp
  have hforces : ds'.first.map (fun d => d.forces) =
      ((fc3Names r s).take ds.first.length).map
        (fun f => some ((netForces truth s.subtract f).map shown)) := by
    have := congrArg (List.take ds.first.length) e5
    rw [hfirst, List.map_append, List.map_map, List.take_append_of_le_length (by simp [hlen]),
      List.take_of_length_le (by simp [hlen]), ← List.map_take] at this
    exact this
  have hzip : ∀ (a : List (Disp1 V K)) (b : List (List V)) (c : List (Disp1 V K))
      (e : List (List V)), a.length = e.length →
      c.map (fun d => (d.number, d.displacement, d.forces)) =
        List.zipWith (fun d f => (d.number, d.displacement, some f)) a b →
      c.map (fun d => d.forces) = e.map some → c.length = a.length →
      wantedSets shownD shown ds.natom a b = wantedSets shownD shown ds.natom a e := by
    intro a
    induction a with
    | nil => intro b c e _ _ _ _; rfl
    | cons x a ih =>
      intro b c e h2 h3 h4 h5
      cases e with
      | nil => simp at h2
      | cons w e =>
        cases c with
        | nil => simp at h5
        | cons z c =>
          cases b with
          | nil => simp at h3
          | cons u b =>
            simp only [List.map_cons, List.zipWith_cons_cons, List.cons.injEq, Prod.mk.injEq] at h3 h4
            have := ih b c e (by simpa using h2) h3.2 h4.2 (by simpa using h5)
            simp only [wantedSets, ForceSets.type1.injEq, true_and, List.zipWith_cons_cons,
              List.cons.injEq, SetEntry.mk.injEq] at this ⊢
            have hu : some u = some w := by rw [← h3.1.2.2, h4.1]
            rw [Option.some.injEq] at hu
            exact ⟨by rw [hu], this⟩
  refine ⟨hcount, ?_⟩
  rw [e1, c1, hzip ds.first forces ds'.first (((fc3Names r s).take ds.first.length).map
    (fun f => (netForces truth s.subtract f).map shown)) (by simp [hcount]) c2
    (by rw [hforces, List.map_map]; rfl) hlen]

/-- **C162**. `--cfs --dim-fc2` with FORCES_FC2. If the lines of the file begin with the forces
`forces`, one array for every displacement for fc2, FORCE_SETS holds these displacements and
forces. FORCES_FC3 plays no part. (Not so for a file with too few lines, see `C162_short_file` and
`C162_old_forces`.) -/
theorem C162_fc2_partial [DecidableEq S] (shownD shown : V → V) (y : CfsYaml S V K) (m : S)
    (ds : DispDataset V K) (l : List (ForceLine V)) (fc3 : Option (ForceFile V))
    (hy : y.phononDataset = some (.type1 ds)) (hm : y.phononMatrix = some m) (hn : 0 < ds.natom)
    (h1 : ds.first ≠ []) (forces : List (List V)) (hlen : forces.length = ds.first.length)
    (hrow : ∀ f ∈ forces, f.length = ds.natom)
    (hfile : ∃ more, forceRows l = forces.flatten ++ more) :
    convertToForceSets shownD shown (some m) y fc3 (some (.lines l)) =
      .written (wantedSets shownD shown ds.natom ds.first forces) := by
  have hb := parseBlocks_some ds.natom hn forces hrow l hfile
  rw [hlen] at hb
  rw [convert_lines shownD shown (some m) y fc3 _ l rfl
    (blocks_numbers _ _ hn (List.length_pos_iff.2 h1) l _ hb) (by simp [cfsDataset, hm, matrixBad])]
  simp only [cfsDataset, hy]
  exact cfsWrite_blocks shownD shown ds l forces hb

/-- **C162**. With `--dim-fc2`, FORCE_SETS is written only if the yaml file has the same supercell
matrix for fc2. Without, only if it has a supercell matrix. -/
theorem C162_matrix [DecidableEq S] (shownD shown : V → V) (dimFc2 : Option S) (y : CfsYaml S V K)
    (fc3 fc2 : Option (ForceFile V)) (f : ForceSets V)
    (h : convertToForceSets shownD shown dimFc2 y fc3 fc2 = .written f) :
    (dimFc2 = none ∧ y.matrix ≠ none) ∨ (dimFc2 ≠ none ∧ dimFc2 = y.phononMatrix) := by
  have hm : matrixBad dimFc2 (cfsDataset dimFc2 y).2 = false := by
    by_contra hc
    rw [Bool.not_eq_false] at hc
    simp only [convertToForceSets, hc, if_true] at h
    split at h
    · cases h
    · split at h <;> cases h
  cases dimFc2 with
  | none =>
    refine Or.inl ⟨rfl, fun hc => ?_⟩
    simp [cfsDataset, hc, matrixBad] at hm
  | some d =>
    refine Or.inr ⟨by simp, ?_⟩
    cases hp : y.phononMatrix with
    | none => simp [cfsDataset, hp, matrixBad] at hm
    | some p =>
      simp only [cfsDataset, hp, matrixBad, decide_eq_false_iff_not, not_not] at hm
      rw [hm]

/-- **C162**. A file with displacements and forces of all atoms is left as it is: phonopy reads
it. -/
theorem C162_readable [DecidableEq S] (shownD shown : V → V) (dimFc2 : Option S)
    (y : CfsYaml S V K) (us : Option (List (List V))) (fs : List (List V))
    (hf : ∃ f ∈ fs, f ≠ []) :
    convertToForceSets shownD shown dimFc2 y (some (.sets us fs)) (some (.sets us fs)) =
      .readable := by
  have : fs.any (fun f => !f.isEmpty) = true := by
    obtain ⟨f, h1, h2⟩ := hf
    rw [List.any_eq_true]
    exact ⟨f, h1, by simpa using h2⟩
  have hc : cfsFile dimFc2 (some (ForceFile.sets us fs)) (some (.sets us fs)) =
      some (.sets us fs) := by
    cases dimFc2 <;> rfl
  simp only [convertToForceSets, hc, firstLineOfThree, this, if_true]

/-- **C162**. A file with fewer lines than the single displacements need, when the yaml file has no
forces for one of them: an error, and FORCE_SETS is not written. -/
theorem C162_short_file [DecidableEq S] (shownD shown : V → V) (dimFc2 : Option S)
    (y : CfsYaml S V K) (ds : DispDataset V K) (l : List (ForceLine V))
    (fc3 fc2 : Option (ForceFile V)) (hf : cfsFile dimFc2 fc3 fc2 = some (.lines l))
    (hy : (cfsDataset dimFc2 y).1 = some (.type1 ds)) (hn : 0 < ds.natom)
    (hs : (forceRows l).length < ds.first.length * ds.natom)
    (d : Disp1 V K) (hd : d ∈ ds.first) (hno : d.forces = none) :
    convertToForceSets shownD shown dimFc2 y fc3 fc2 = .failed := by
  have hnone : ∀ es : List (Disp1 V K), d ∈ es → setEntries shownD shown es = none := by
    intro es
    induction es with
    | nil => simp
    | cons e es ih =>
      intro h
      rcases List.mem_cons.1 h with rfl | h
      · simp [setEntries, hno]
      · simp [setEntries, ih h]
  have hw : cfsWrite shownD shown (some (.type1 ds)) l = .failed := by
    simp only [cfsWrite, C46_short_file_partial none ds hn l hs, writeForceSets, hnone _ hd,
      Option.map_none]
  simp only [convertToForceSets, hf, hy, hw]
  split
  · rfl
  · rename_i h
    simp only [firstLineOfThree] at h
    split at h <;> simp at h
  · split <;> rfl

/-- **C162**, what fails. The yaml file holds forces (phono3py_params.yaml given with `-c`) and the
forces file has lines, but fewer than the displacements need. Nothing is said, and FORCE_SETS gets
the forces of the yaml file, whatever is in the forces file. -/
theorem C162_old_forces [DecidableEq S] (shownD shown : V → V) (y : CfsYaml S V K) (m : S)
    (ds : DispDataset V K) (old : List (List V)) (l : List (ForceLine V))
    (fc2 : Option (ForceFile V)) (hy : y.dataset = some (.type1 ds)) (hm : y.matrix = some m)
    (hn : 0 < ds.natom) (hold : ds.first.map (fun d => d.forces) = old.map some)
    (h1 : forceRows l ≠ []) (hs : (forceRows l).length < ds.first.length * ds.natom) :
    convertToForceSets shownD shown none y (some (.lines l)) fc2 =
      .written (wantedSets shownD shown ds.natom ds.first old) := by
  rw [convert_lines shownD shown none y _ fc2 l rfl ((hasNumbers_iff l).2 h1)
    (by simp [cfsDataset, hm, matrixBad])]
  have hz : ∀ (es : List (Disp1 V K)) (vs : List (List V)),
      es.map (fun d => d.forces) = vs.map some →
      setEntries shownD shown es = some (List.zipWith
        (fun d f => ⟨d.number + 1, shownD d.displacement, f.map shown⟩) es vs) := by
    intro es
    induction es with
    | nil => intro vs _; rfl
    | cons e es ih =>
      intro vs h
      cases vs with
      | nil => simp at h
      | cons v vs =>
        simp only [List.map_cons, List.cons.injEq] at h
        simp only [setEntries, h.1, Option.bind_some, ih vs h.2, Option.map_some,
          List.zipWith_cons_cons]
  simp only [cfsDataset, hy, cfsWrite, C46_short_file_partial none ds hn l hs, writeForceSets,
    hz _ _ hold, Option.map_some, wantedSets]

theorem fs2f2_lines (shown : V → V) (i : Nat) (es : List (SetEntry V)) :
    ∃ l, fc2Lines (K := K) shown none i
        (es.map fun e => ⟨0, e.atom - 1, e.displacement, some e.forces, none, []⟩) = some l ∧
      forceRows l = ((es.map (fun e => e.forces)).map (fun f => f.map shown)).flatten := by
  induction es generalizing i with
  | nil => exact ⟨[], rfl, rfl⟩
  | cons e es ih =>
    obtain ⟨l, e1, e2⟩ := ih (i + 1)
    refine ⟨_, by simp only [List.map_cons, fc2Lines, e1]; rfl, ?_⟩
    have h2 : ∀ (n a : Nat) (v : V) (ls : List (ForceLine V)),
      forceRows (.file n :: .moved a v :: ls) = forceRows ls := fun _ _ _ _ => rfl
    rw [h2, forceRows_append, forceRows_rows, e2]
    simp

/-- **C162**. `--fs2f2` for a FORCE_SETS of single displacements: FORCES_FC2 is written without an
error. Read with any dataset for fc2 that has as many displacements and atoms, it gives the
displacements, in order, the forces of FORCE_SETS; and `--cfs --dim-fc2` with such a dataset gives
these forces back. -/
theorem C162_fs2f2 [AddMonoid V] [DecidableEq S] (shownD shown : V → V) (log : Bool) (natom : Nat)
    (es : List (SetEntry V)) (hn : 0 < natom) (h1 : es ≠ [])
    (hrow : ∀ e ∈ es, e.forces.length = natom) :
    ∃ l, convertToForcesFc2 (K := K) shown log (.type1 natom es) = (some (.lines l), true) ∧
      ∀ ds : DispDataset V K, ds.natom = natom → ds.first.length = es.length →
        (∃ ds', readForcesFc2 ds l = some ds' ∧
          ds'.first.map (fun d => d.forces) = es.map (fun e => some (e.forces.map shown))) ∧
        ∀ (y : CfsYaml S V K) (m : S) (fc3 : Option (ForceFile V)),
          y.phononDataset = some (.type1 ds) → y.phononMatrix = some m →
          convertToForceSets shownD shown (some m) y fc3 (some (.lines l)) =
            .written (wantedSets shownD shown natom ds.first
              (es.map (fun e => e.forces.map shown))) := by
  obtain ⟨l, e1, e2⟩ := fs2f2_lines (K := K) shown 0 es
  refine ⟨l, ?_, ?_⟩
  · simp only [convertToForcesFc2, parseForceSets, writeStoredFc2, e1, Option.map_some, linesPrinted]
    cases es with
    | nil => exact absurd rfl h1
    | cons e es => simp
  · intro ds hds hlen
    have hrows : forceRows l = (es.map (fun e => e.forces.map shown)).flatten := by
      rw [e2, List.map_map]; rfl
    have hr2 : ∀ f ∈ es.map (fun e => e.forces.map shown), f.length = ds.natom := by
      intro f hf
      obtain ⟨e, he, rfl⟩ := List.mem_map.1 hf
      rw [List.length_map, hrow e he, hds]
    constructor
    · have hb := parseBlocks_some ds.natom (by omega) (es.map (fun e => e.forces.map shown)) hr2 l
        ⟨[], by rw [hrows]; simp⟩
      rw [List.length_map, ← hlen] at hb
      have hset := setFirst_entries ds.first (es.map (fun e => e.forces.map shown)) (by simp [hlen])
      refine ⟨_, rfl, ?_⟩
      unfold parseForcesFc2
      simp only [hb, Option.getD_none, List.map_id_fun, id_eq, List.map_id', hset]
      have : ∀ (a : List (Disp1 V K)) (b : List (SetEntry V)), a.length = b.length →
          (List.zipWith (fun d v => ({ d with forces := some v } : Disp1 V K)) a
            (b.map (fun e => e.forces.map shown))).map (fun d => d.forces) =
          b.map (fun e => some (e.forces.map shown)) := by
        intro a
        induction a with
        | nil => intro b h; cases b <;> simp_all
        | cons x a ih =>
          intro b h
          cases b with
          | nil => simp at h
          | cons z b => simpa using ih b (by simpa using h)
      exact this _ _ hlen
    · intro y m fc3 hy hm
      rw [← hds]
      refine C162_fc2_partial shownD shown y m ds l fc3 hy hm (by omega) ?_ _ (by simp [hlen]) hr2
        ⟨[], by rw [hrows]; simp⟩
      intro hc
      rw [hc] at hlen
      exact h1 (List.length_eq_zero_iff.1 hlen.symm)

/-- **C162**, what fails. `--fs2f2` for a FORCE_SETS with displacements and forces of all atoms
writes FORCES_FC2 and then, unless it is quiet, ends with an error. -/
theorem C162_fs2f2_all_atoms (shown : V → V) (us fs : List (List V)) :
    (convertToForcesFc2 (K := K) shown true (.type2 us fs)).2 = false ∧
    (convertToForcesFc2 (K := K) shown false (.type2 us fs)).2 = true ∧
    ∀ log, (convertToForcesFc2 (K := K) shown log (.type2 us fs)).1 =
      some (.sets (some us) (fs.map fun f => f.map shown)) := ⟨rfl, rfl, fun _ => rfl⟩

/-! ## A concrete case -/

/-- `--cf3` and `--cfs` for the dataset of C145: its hypotheses are met. -/
example : convertToForceSets (S := Nat) id id none ⟨cutoffYaml.dataset, some 2, none, none⟩
    (createForces id twoInterfaces cf3Settings cutoffYaml).1.forcesFc3 none =
      .written (.type1 2 [⟨1, 3, [1, -1]⟩]) := rfl

/-- Two displacements with forces in the yaml file. -/
def paramsDataset : DispDataset ℤ Nat :=
  ⟨2, [], none, [⟨1, 0, 3, some [7, -7], none, []⟩, ⟨2, 1, 3, some [8, -8], none, []⟩]⟩

/-- One block of forces for two displacements: the forces of the yaml file are written, and not
the new ones (`C162_old_forces`). -/
example : convertToForceSets (S := Nat) id id none ⟨some (.type1 paramsDataset), some 2, none, none⟩
    (some (.lines [.row 1, .row (-1)])) none =
      .written (.type1 2 [⟨1, 3, [7, -7]⟩, ⟨2, 3, [8, -8]⟩]) := rfl

/-- `--fs2f2` and back, and the check of the matrix. -/
example :
    ((convertToForcesFc2 (K := Nat) id true (.type1 2 [⟨1, (3 : ℤ), [5, -5]⟩, ⟨2, 3, [6, -6]⟩])).1.map
      fun f => convertToForceSets id id (some 4)
        ⟨none, some 2, some (.type1 paramsDataset), some 4⟩ none (some f)) =
      some (.written (.type1 2 [⟨1, 3, [5, -5]⟩, ⟨2, 3, [6, -6]⟩])) ∧
    convertToForceSets (K := Nat) id id (some 3) ⟨none, some 2, some (.type1 paramsDataset), some 4⟩
      none (some (.lines [.row (1 : ℤ), .row 1, .row 1, .row 1])) = .failed := ⟨rfl, rfl⟩

end Phono3py.Props
