/-
C180: what files of thermal conductivity hold, and that conductivities can be calculated again from them.
-/
import Verif.Spec.KappaDatasets
import Verif.Props.Kappa

namespace Phono3py.Props

open Phono3py.KappaDatasets

section
variable {D : Type}

theorem lookup_append_single (f : List (String × D)) (name key : String) (d : D)
    (h : f.lookup name = none) :
    (f ++ [(name, d)]).lookup key = if key = name then some d else f.lookup key := by
  induction f with
  | nil =>
    by_cases e : key = name
    · simp [List.lookup, e]
    · have ek : (key == name) = false := by simpa using e
      simp [List.lookup, e, ek]
  | cons p f ih =>
    obtain ⟨k, v⟩ := p
    have hk : (name == k) = false := by
      by_contra hc
      simp only [Bool.not_eq_false] at hc
      simp [List.lookup, hc] at h
    have hf : f.lookup name = none := by simpa [List.lookup, hk] using h
    by_cases e : key = k
    · subst e
      have : key ≠ name := fun hc => by simp [hc] at hk
      simp [List.lookup, this]
    · have ek : (key == k) = false := by simpa using e
      simp only [List.cons_append, List.lookup, ek]
      exact ih hf

theorem writeEntries_spec (l : List (String × Option D)) (hl : (l.map Prod.fst).Nodup) :
    ∀ f : List (String × D), (∀ k ∈ l.map Prod.fst, f.lookup k = none) →
      ∃ f', writeEntries l f = some f' ∧
        (∀ k, k ∉ l.map Prod.fst → f'.lookup k = f.lookup k) ∧
        ∀ k v, (k, v) ∈ l → f'.lookup k = v := by
  induction l with
  | nil => intro f _; exact ⟨f, rfl, fun _ _ => rfl, by simp⟩
  | cons p l ih =>
    obtain ⟨name, o⟩ := p
    intro f hf
    simp only [List.map_cons, List.nodup_cons] at hl
    cases o with
    | none =>
      obtain ⟨f', h1, h2, h3⟩ := ih hl.2 f fun k hk => hf k (by simp only [List.map_cons]; exact List.mem_cons_of_mem _ hk)
      refine ⟨f', h1, fun k hk => h2 k fun hc => hk (by simp only [List.map_cons]; exact List.mem_cons_of_mem _ hc), ?_⟩
      intro k v hkv
      rcases List.mem_cons.1 hkv with e | e
      · cases e
        rw [h2 _ hl.1]
        exact hf _ (by simp)
      · exact h3 k v e
    | some d =>
      have hn : f.lookup name = none := hf name (by simp)
      obtain ⟨f', h1, h2, h3⟩ := ih hl.2 (f ++ [(name, d)]) (by
        intro k hk
        rw [lookup_append_single f name k d hn, if_neg (fun e : k = name => hl.1 (e ▸ hk))]
        exact hf k (by simp only [List.map_cons]; exact List.mem_cons_of_mem _ hk))
      refine ⟨f', ?_, ?_, ?_⟩
      · simp only [writeEntries, create, hn, Option.isSome_none, Bool.false_eq_true, if_false,
          Option.bind_some, h1]
      · intro k hk
        simp only [List.map_cons, List.mem_cons, not_or] at hk
        rw [h2 k hk.2, lookup_append_single f name k d hn, if_neg hk.1]
      · intro k v hkv
        rcases List.mem_cons.1 hkv with e | e
        · cases e
          rw [h2 _ hl.1, lookup_append_single f name name d hn, if_pos rfl]
        · exact h3 k v e

theorem entries_nodup (version : D) (arg : String → Option D) (grid : Option (D × D × D))
    (next : D → D) : ((entries version arg grid next).map Prod.fst).Nodup := by
  simp only [entries, List.map_cons, List.map_nil]
  decide +kernel

theorem entries_documented (version : D) (arg : String → Option D) (grid : Option (D × D × D))
    (next : D → D) (key name : String) (h : (key, name) ∈ documentedNames) :
    (key, arg name) ∈ entries version arg grid next := by
  have key' : ∀ p ∈ documentedNames, (p.1, arg p.2) ∈ entries version arg grid next := by
    simp [documentedNames, entries]
  exact key' _ h

/-- C180: writing never fails for a name that exists; every argument is found under its documented
name, and nothing is found there when the argument was not given; the number of a band is counted from
one; matrices of the grid are there when the grid has a matrix; there are no other datasets. -/
theorem C180_datasets (version : D) (arg : String → Option D) (grid : Option (D × D × D))
    (next : D → D) :
    ∃ f, writeKappaFile version arg grid next = some f ∧
      (∀ key name, (key, name) ∈ documentedNames → f.lookup key = arg name) ∧
      f.lookup "version" = some version ∧
      f.lookup "band_index" = (arg "band_index").map next ∧
      f.lookup "grid_matrix" = grid.map (fun g => g.1) ∧
      f.lookup "P_matrix" = grid.map (fun g => g.2.1) ∧
      f.lookup "Q_matrix" = grid.map (fun g => g.2.2) ∧
      ∀ key, key ∉ documentedNames.map Prod.fst →
        key ∉ ["version", "band_index", "grid_matrix", "P_matrix", "Q_matrix"] →
        f.lookup key = none := by
  obtain ⟨f, h1, h2, h3⟩ := writeEntries_spec _ (entries_nodup version arg grid next) []
    (fun _ _ => rfl)
  refine ⟨f, h1, fun key name h => h3 _ _ (entries_documented version arg grid next key name h),
    h3 _ _ (by simp [entries]), h3 _ _ (by simp [entries]), h3 _ _ (by simp [entries]),
    h3 _ _ (by simp [entries]), h3 _ _ (by simp [entries]), ?_⟩
  intro key hk hk'
  rw [h2 key]
  · rfl
  · have sub : ∀ k ∈ (entries version arg grid next).map Prod.fst,
        k ∈ documentedNames.map Prod.fst ∨
          k ∈ ["version", "band_index", "grid_matrix", "P_matrix", "Q_matrix"] := by
      simp only [entries, List.map_cons, List.map_nil]
      decide +kernel
    intro hc
    rcases sub key hc with h | h
    · exact hk h
    · exact hk' h

/-- C180: mean free paths are an argument of the function and are never written. -/
theorem C180_mean_free_path (version : D) (arg : String → Option D) (grid : Option (D × D × D))
    (next : D → D) (f : List (String × D)) (h : writeKappaFile version arg grid next = some f) :
    f.lookup "mean_free_path" = none := by
  obtain ⟨f', h', -, -, -, -, -, -, h2⟩ := C180_datasets version arg grid next
  cases h.symm.trans h'
  exact h2 _ (by decide +kernel) (by decide +kernel)

end

section
variable {K : Type} [Field K] [LinearOrder K] [IsStrictOrderedRing K]

theorem file_reads (r : RtaArrays K) (version : List Nat → K)
    (grid : Option ((List Nat → K) × (List Nat → K) × (List Nat → K))) (j : Nat)
    (f : List (String × (List Nat → K))) (h : r.file version grid j = some f) :
    ∀ key name, (key, name) ∈ documentedNames → f.lookup key = r.args j name := by
  obtain ⟨f', h', h2, -⟩ := C180_datasets version (r.args j) grid fun d x => d x + 1
  cases h.symm.trans h'
  exact h2

theorem gSum_value (r : RtaArrays K) (j t i l : Nat) (hl : l < r.numBand) :
    r.gSum j t i l = r.gamma j t i l + ((r.iso.map fun a => a j i l).getD 0) +
      match r.boundaryMfp with
      | none => 0
      | some m => r.norm (r.gv i l) * r.length / (4 * r.pi * m) := by
  unfold RtaArrays.gSum
  rw [C42_value r.channels r.numBand _ _ _ (by simp) (by simp), Option.getD_some,
    List.getD_eq_getElem _ _ (by simpa using hl), List.getElem_map, List.getElem_range, channelSum,
    List.getD_eq_getElem _ _ (by simpa using hl), List.getD_eq_getElem _ _ (by simpa using hl),
    List.getElem_map, List.getElem_map, List.getElem_range]
  congr 2
  cases h : r.iso <;> simp [RtaArrays.channels, h]

/-- Datasets of a file that are used to calculate conductivities again. -/
theorem file_values (r : RtaArrays K) (version : List Nat → K)
    (grid : Option ((List Nat → K) × (List Nat → K) × (List Nat → K))) (j : Nat)
    (f : List (String × (List Nat → K))) (h : r.file version grid j = some f) :
    f.lookup "gamma" = r.args j "gamma" ∧ f.lookup "gamma_isotope" = r.args j "gamma_isotope" ∧
      f.lookup "boundary_mfp" = r.args j "boundary_mfp" ∧
      f.lookup "group_velocity" = r.args j "group_velocity" ∧
      f.lookup "kappa_unit_conversion" = r.args j "kappa_unit_conversion" ∧
      f.lookup "heat_capacity" = r.args j "heat_capacity" ∧
      f.lookup "gv_by_gv" = r.args j "gv_by_gv" ∧ f.lookup "mode_kappa" = r.args j "mode_kappa" ∧
      f.lookup "kappa" = r.args j "kappa" ∧ f.lookup "frequency" = r.args j "frequency" ∧
      f.lookup "weight" = r.args j "weight" := by
  have key := file_reads r version grid j f h
  refine ⟨key _ _ ?_, key _ _ ?_, key _ _ ?_, key _ _ ?_, key _ _ ?_, key _ _ ?_, key _ _ ?_,
    key _ _ ?_, key _ _ ?_, key _ _ ?_, key _ _ ?_⟩ <;> decide +kernel

theorem totalWidth_value (r : RtaArrays K) (version : List Nat → K)
    (grid : Option ((List Nat → K) × (List Nat → K) × (List Nat → K))) (j : Nat)
    (f : List (String × (List Nat → K))) (h : r.file version grid j = some f) (t i l : Nat)
    (hl : l < r.numBand) : totalWidth r.norm r.length r.pi f t i l = r.gSum j t i l := by
  obtain ⟨h1, h2, h3, h4, -⟩ := file_values r version grid j f h
  rw [gSum_value r j t i l hl]
  have e4 : (fun a : Fin 3 => readAt f "group_velocity" [i, l, a]) = r.gv i l := by
    funext a
    simp only [readAt, h4]
    simp [RtaArrays.args]
  unfold totalWidth
  rw [e4, h3]
  have e1 : readAt f "gamma" [t, i, l] = r.gamma j t i l := by
    simp only [readAt, h1]; simp [RtaArrays.args]
  have e2 : readAt f "gamma_isotope" [i, l] = (r.iso.map fun a => a j i l).getD 0 := by
    simp only [readAt, h2]
    cases hi : r.iso <;> simp [RtaArrays.args, hi]
  rw [e1, e2]
  congr 1
  cases hb : r.boundaryMfp <;> simp [RtaArrays.args, hb]

/-- C180: contributions of modes in a file of a run for all bands are those calculated from its other
datasets with the total linewidth, for every mode that is not below the cutoff frequency and has a
linewidth; the others are zero. -/
theorem C180_recalculate (r : RtaArrays K) (version : List Nat → K)
    (grid : Option ((List Nat → K) × (List Nat → K) × (List Nat → K))) (j : Nat)
    (f : List (String × (List Nat → K))) (h : r.file version grid j = some f) (t i l c : Nat)
    (hi : i < r.numGp) (hl : l < r.numBand) :
    readAt f "mode_kappa" [t, i, l, c] =
      if readAt f "frequency" [i, l] < r.cutoff ∨ totalWidth r.norm r.length r.pi f t i l = 0 then 0
      else recalculated f (totalWidth r.norm r.length r.pi f t i l) t i l c := by
  rw [totalWidth_value r version grid j f h t i l hl]
  obtain ⟨-, -, -, -, h5, h6, h7, h8, -, h10, -⟩ := file_values r version grid j f h
  have e5 : readAt f "kappa_unit_conversion" [] = r.unit / r.volume := by
    simp only [readAt, h5]; simp [RtaArrays.args]
  have e6 : readAt f "heat_capacity" [t, i, l] = r.cv t i l := by
    simp only [readAt, h6]; simp [RtaArrays.args]
  have e7 : readAt f "gv_by_gv" [i, l, c] = r.gvByGv i l (component c) := by
    simp only [readAt, h7]; simp [RtaArrays.args]
  have e8 : readAt f "mode_kappa" [t, i, l, c] =
      modeKappaRTA (r.input j t) (fun _ _ _ => 0) i l (component c) := by
    simp only [readAt, h8]; simp [RtaArrays.args]
  have e10 : readAt f "frequency" [i, l] = r.frequency i l := by
    simp only [readAt, h10]; simp [RtaArrays.args]
  rw [e8, e10, recalculated, e5, e6, e7]
  unfold modeKappaRTA
  rw [if_pos ⟨hi, hl⟩]
  show (if r.frequency i l < r.cutoff then 0 else if r.gSum j t i l * 2 = 0 then 0 else
    r.gvByGv i l (component c) * r.cv t i l / (r.gSum j t i l * 2) * (r.unit / r.volume)) = _
  by_cases hf : r.frequency i l < r.cutoff
  · simp [hf]
  · by_cases hg : r.gSum j t i l = 0
    · simp [hf, hg]
    · have hg2 : ¬ r.gSum j t i l * 2 = 0 := mul_ne_zero hg two_ne_zero
      rw [if_neg hf, if_neg hg2, if_neg (by simp [hf, hg])]
      rw [mul_comm 2 (r.gSum j t i l)]
      ring

/-- C180: without isotope and boundary scattering, the formula of the documentation, with `gamma`
alone, gives the contributions in the file. -/
theorem C180_documented_partial (r : RtaArrays K) (version : List Nat → K)
    (grid : Option ((List Nat → K) × (List Nat → K) × (List Nat → K))) (j : Nat)
    (f : List (String × (List Nat → K))) (h : r.file version grid j = some f)
    (h1 : f.lookup "gamma_isotope" = none) (h2 : f.lookup "boundary_mfp" = none) (t i l c : Nat)
    (hi : i < r.numGp) (hl : l < r.numBand) (hf : r.cutoff ≤ readAt f "frequency" [i, l])
    (hg : readAt f "gamma" [t, i, l] ≠ 0) :
    readAt f "mode_kappa" [t, i, l, c] = recalculated f (readAt f "gamma" [t, i, l]) t i l c := by
  have e : totalWidth r.norm r.length r.pi f t i l = readAt f "gamma" [t, i, l] := by
    unfold totalWidth
    rw [h2]
    simp [readAt, h1]
  rw [C180_recalculate r version grid j f h t i l c hi hl, e, if_neg]
  simp only [not_or, not_lt]
  exact ⟨hf, hg⟩

/-- C180: with other scattering the formula of the documentation is wrong for every mode that
contributes. -/
theorem C180_documented_fails (r : RtaArrays K) (version : List Nat → K)
    (grid : Option ((List Nat → K) × (List Nat → K) × (List Nat → K))) (j : Nat)
    (f : List (String × (List Nat → K))) (h : r.file version grid j = some f) (t i l c : Nat)
    (hi : i < r.numGp) (hl : l < r.numBand) (hm : readAt f "mode_kappa" [t, i, l, c] ≠ 0)
    (hw : totalWidth r.norm r.length r.pi f t i l ≠ readAt f "gamma" [t, i, l]) :
    readAt f "mode_kappa" [t, i, l, c] ≠ recalculated f (readAt f "gamma" [t, i, l]) t i l c := by
  rw [C180_recalculate r version grid j f h t i l c hi hl] at hm ⊢
  split at hm
  · exact absurd rfl hm
  · rename_i hc
    rw [if_neg hc]
    intro he
    rw [not_or] at hc
    unfold recalculated at he hm
    have hnum : readAt f "kappa_unit_conversion" [] * readAt f "heat_capacity" [t, i, l] *
        readAt f "gv_by_gv" [i, l, c] ≠ 0 := fun h0 => hm (by rw [h0, zero_div])
    by_cases hg : readAt f "gamma" [t, i, l] = 0
    · rw [hg, mul_zero, div_zero] at he
      exact hm he
    · rw [div_eq_div_iff (mul_ne_zero two_ne_zero hc.2) (mul_ne_zero two_ne_zero hg)] at he
      exact hw (mul_left_cancel₀ two_ne_zero (mul_left_cancel₀ hnum he)).symm

/-- C180: the conductivity in a file is the sum of its contributions of modes divided by the sum of its
weights, if the number of points sampled is the sum of the weights (C78_total). -/
theorem C180_total (r : RtaArrays K) (version : List Nat → K)
    (grid : Option ((List Nat → K) × (List Nat → K) × (List Nat → K))) (j : Nat)
    (f : List (String × (List Nat → K))) (h : r.file version grid j = some f)
    (hn : r.n = ∑ i ∈ Finset.range r.numGp, r.weight i) (t c : Nat) :
    readAt f "kappa" [t, c] =
      (∑ i ∈ Finset.range r.numGp, ∑ l ∈ Finset.range r.numBand, readAt f "mode_kappa" [t, i, l, c]) /
        ∑ i ∈ Finset.range r.numGp, readAt f "weight" [i] := by
  obtain ⟨-, -, -, -, -, -, -, h8, h9, -, h11⟩ := file_values r version grid j f h
  have e8 : ∀ i l, readAt f "mode_kappa" [t, i, l, c] =
      modeKappaRTA (r.input j t) (fun _ _ _ => 0) i l (component c) := by
    intro i l
    simp only [readAt, h8]; simp [RtaArrays.args]
  have e9 : readAt f "kappa" [t, c] = kappaRTA (r.input j t) (component c) := by
    simp only [readAt, h9]; simp [RtaArrays.args]
  have e11 : ∀ i, readAt f "weight" [i] = r.weight i := by
    intro i
    simp only [readAt, h11]; simp [RtaArrays.args]
  simp only [e8, e9, e11]
  rw [← hn]
  unfold kappaRTA kappaOf
  simp only [sumLoop_eq]
  rw [Finset.sum_comm]
  rfl

end

/-- Two grid points, two bands, isotopes; other numbers are of no importance. -/
def exampleRta : RtaArrays ℚ where
  numGp := 2
  numBand := 2
  temperature := fun t => t * 100
  mesh := fun _ => 2
  frequency := fun i l => i + l
  gv := fun i l _ => i + l
  gvByGv := fun i l _ => (i + l + 1) * 3
  cv := fun t i l => t + i + l + 1
  gamma := fun _ t _ l => t + l + 1
  iso := some fun _ i l => i + l + 1
  boundaryMfp := none
  gammaNU := none
  avePp := none
  qpoint := fun i _ => i
  gridPoint := fun i => i
  weight := fun i => i + 1
  sigma := fun _ => none
  sigmaCutoff := none
  unit := 7
  volume := 2
  cutoff := 1 / 2
  n := 3
  norm := fun v => |v 0|
  length := 1
  pi := 3

example : ∃ f, exampleRta.file (fun _ => 3) none 0 = some f ∧
    readAt f "mode_kappa" [1, 1, 1, 0] ≠ 0 ∧ readAt f "mode_kappa" [1, 0, 0, 0] = 0 ∧
    totalWidth exampleRta.norm exampleRta.length exampleRta.pi f 1 1 1 ≠ readAt f "gamma" [1, 1, 1] ∧
    exampleRta.n = ∑ i ∈ Finset.range exampleRta.numGp, exampleRta.weight i := by
  refine ⟨_, rfl, ?_⟩
  decide +kernel

example : ∃ f, ({ exampleRta with iso := none }).file (fun _ => 3) none 0 = some f ∧
    f.lookup "gamma_isotope" = none ∧ f.lookup "boundary_mfp" = none ∧
    exampleRta.cutoff ≤ readAt f "frequency" [1, 1] ∧ readAt f "gamma" [1, 1, 1] ≠ 0 := by
  refine ⟨_, rfl, ?_⟩
  refine ⟨rfl, rfl, ?_⟩
  decide +kernel

end Phono3py.Props
