/- Files with spectral functions and real parts of self-energies: C99. -/
import Mathlib.Algebra.Order.Field.Rat
import Mathlib.Tactic.Ring
import Verif.Model.SpectralOutput
import Verif.Props.Bands
import Verif.Props.FileName

namespace Phono3py.Props
open Phono3py.Spec

section
variable {K : Type _} [Field K] [LinearOrder K] [IsStrictOrderedRing K]

theorem spf_groups (writeTxt : Bool) (logLevel gp sigma temp : Nat)
    (h : logLevel = 0 ∨ writeTxt = true) (l : List (List Nat × K)) (v : SpfVars K) :
    ∃ v', l.foldlM (spfGroup writeTxt logLevel gp sigma temp) v = some v' ∧
      v'.files = v.files ++ (if writeTxt then l.map fun g => .text gp sigma temp g.1 g.2 else []) ∧
      v'.bi = (match l.getLast? with | none => v.bi | some g => some g.1) ∧
      (logLevel ≠ 0 → l ≠ [] → v'.filename = true) ∧ (v.filename = true → v'.filename = true) := by
  induction l generalizing v with
  | nil => exact ⟨v, rfl, by cases writeTxt <;> simp, rfl, fun _ h => absurd rfl h, id⟩
  | cons g l ih =>
    have hstep : ∃ w, spfGroup writeTxt logLevel gp sigma temp v g = some w ∧
        w.files = v.files ++ (if writeTxt then [.text gp sigma temp g.1 g.2] else []) ∧
        w.bi = some g.1 ∧ (logLevel ≠ 0 → w.filename = true) ∧
        (v.filename = true → w.filename = true) := by
      unfold spfGroup
      cases writeTxt with
      | true => exact ⟨_, by simp; rfl, by simp, rfl, fun _ => rfl, fun _ => rfl⟩
      | false =>
        have : logLevel = 0 := by simpa using h
        exact ⟨{ v with bi := some g.1 }, by simp [this], by simp, rfl, fun h => absurd this h, id⟩
    obtain ⟨w, h1, h2, h3, h4, h5⟩ := hstep
    obtain ⟨v', g1, g2, g3, g4, g5⟩ := ih w
    refine ⟨v', ?_, ?_, ?_, fun hl _ => g5 (h4 hl), fun hv => g5 (h5 hv)⟩
    · rw [List.foldlM_cons]
      exact (congrArg (fun o => Option.bind o _) h1).trans g1
    · rw [g2, h2]
      cases writeTxt <;> simp
    · rw [g3, h3]
      cases l with
      | nil => rfl
      | cons a l =>
        rw [List.getLast?_cons_cons, List.getLast?_eq_getLast_of_ne_nil (List.cons_ne_nil a l)]

theorem spf_temps (writeTxt : Bool) (logLevel gp sigma : Nat) (groups : List (List Nat))
    (h : logLevel = 0 ∨ writeTxt = true) (hg : groups ≠ []) (avg : Nat → List (List Nat × K))
    (havg : ∀ t, (avg t).map Prod.fst = groups) (ts : List Nat) (v : SpfVars K) :
    ∃ v', ts.foldlM (fun v temp => (avg temp).foldlM (spfGroup writeTxt logLevel gp sigma temp) v) v
        = some v' ∧
      v'.files = v.files ++ (if writeTxt then ts.flatMap fun t =>
        (avg t).map fun g => .text gp sigma t g.1 g.2 else []) ∧
      (ts ≠ [] → v'.bi = some (groups.getLast hg)) ∧
      (logLevel ≠ 0 → ts ≠ [] → v'.filename = true) ∧
      (v.filename = true → v'.filename = true) ∧ (ts = [] → v'.bi = v.bi) := by
  induction ts generalizing v with
  | nil =>
    exact ⟨v, rfl, by cases writeTxt <;> simp, fun h => absurd rfl h, fun _ h => absurd rfl h, id,
      fun _ => rfl⟩
  | cons t ts ih =>
    obtain ⟨w, h1, h2, h3, h4, h5⟩ := spf_groups writeTxt logLevel gp sigma t h (avg t) v
    obtain ⟨v', g1, g2, g3, g4, g5, g6⟩ := ih w
    have hne : avg t ≠ [] := by
      intro e
      have := havg t
      rw [e] at this
      exact hg this.symm
    refine ⟨v', ?_, ?_, fun _ => ?_, fun hl _ => g5 (h4 hl hne), fun hv => g5 (h5 hv),
      fun e => absurd e (by simp)⟩
    · rw [List.foldlM_cons]
      exact (congrArg (fun o => Option.bind o _) h1).trans g1
    · rw [g2, h2]
      cases writeTxt <;> simp
    · by_cases hts : ts = []
      · rw [g6 hts, h3]
        have hlast : groups.getLast hg = ((avg t).getLast hne).1 := by
          have := havg t
          subst this
          rw [List.getLast_map]
        rw [hlast, List.getLast?_eq_getLast_of_ne_nil hne]
      · exact g3 hts

/-- The files of one grid point and sigma: text files of every temperature and group, then the
hdf5 file. -/
def spfFiles (writeTxt writeHdf5 : Bool) (groups : List (List Nat)) (numTemp : Nat)
    (value : Nat → Nat → Nat → Nat → K) (bandIndex : List Nat) (gp sigma : Nat) : List (SpfFile K) :=
  (if writeTxt then (List.range numTemp).flatMap fun t => groups.map fun g =>
      .text gp sigma t g ((g.map (value sigma t gp)).sum / (g.length : K)) else []) ++
    (if writeHdf5 then [.hdf5 gp sigma bandIndex ((List.range numTemp).map fun t =>
      groups.flatten.map (value sigma t gp))] else [])

theorem spf_sigma (writeTxt writeHdf5 : Bool) (logLevel gp sigma numTemp : Nat)
    (groups : List (List Nat)) (h : logLevel = 0 ∨ writeTxt = true) (hg : groups ≠ [])
    (ht : 0 < numTemp) (value : Nat → Nat → Nat → Nat → K) (v : SpfVars K) :
    ∃ v', spfSigma writeTxt writeHdf5 logLevel groups numTemp
        (fun s t g => groups.flatten.map (value s t g)) gp v sigma = some v' ∧
      v'.files = v.files ++
        spfFiles writeTxt writeHdf5 groups numTemp value (groups.getLast hg) gp sigma := by
  have havg : ∀ t, (writtenGroups groups (groups.flatten.map (value sigma t gp))) =
      groups.map fun g => (g, (g.map (value sigma t gp)).sum / (g.length : K)) :=
    fun t => C30_group_average groups (value sigma t gp)
  have hne : List.range numTemp ≠ [] := by
    intro e
    have := congrArg List.length e
    simp at this
    omega
  obtain ⟨w, h1, h2, h3, h4, _, _⟩ := spf_temps writeTxt logLevel gp sigma groups h hg
    (fun t => writtenGroups groups (groups.flatten.map (value sigma t gp)))
    (fun t => by rw [havg, List.map_map]; exact List.map_id _) (List.range numTemp) v
  have hfiles : w.files = v.files ++ (if writeTxt then (List.range numTemp).flatMap fun t =>
      groups.map fun g => .text gp sigma t g ((g.map (value sigma t gp)).sum / (g.length : K))
      else []) := by
    rw [h2]
    simp only [havg, List.map_map, Function.comp_def]
  unfold spfSigma
  rw [h1, Option.bind_some]
  cases writeHdf5 with
  | true =>
    simp only [if_true, h3 hne, Option.bind_some]
    refine ⟨_, by simp; rfl, ?_⟩
    simp only [spfFiles, if_true, hfiles, List.append_assoc, List.map_flatten]
  | false =>
    simp only [Bool.false_eq_true, if_false, Option.bind_some]
    rw [if_neg]
    · refine ⟨w, rfl, ?_⟩
      simp only [spfFiles, Bool.false_eq_true, if_false, List.append_nil]
      exact hfiles
    · rintro ⟨hl, hf⟩
      rw [h4 hl hne] at hf
      simp at hf

theorem foldlM_files {β : Type _} (step : SpfVars K → β → Option (SpfVars K))
    (F : β → List (SpfFile K))
    (h : ∀ v b, ∃ v', step v b = some v' ∧ v'.files = v.files ++ F b) (l : List β) (v : SpfVars K) :
    ∃ v', l.foldlM step v = some v' ∧ v'.files = v.files ++ l.flatMap F := by
  induction l generalizing v with
  | nil => exact ⟨v, rfl, by simp⟩
  | cons b l ih =>
    obtain ⟨w, h1, h2⟩ := h v b
    obtain ⟨v', g1, g2⟩ := ih w
    refine ⟨v', ?_, ?_⟩
    · rw [List.foldlM_cons]
      exact (congrArg (fun o => Option.bind o _) h1).trans g1
    · rw [g2, h2, List.flatMap_cons, List.append_assoc]

theorem spf_output (writeTxt writeHdf5 : Bool) (logLevel numGp numSigma numTemp : Nat)
    (groups : List (List Nat)) (h : logLevel = 0 ∨ writeTxt = true) (hg : groups ≠ [])
    (ht : 0 < numTemp) (value : Nat → Nat → Nat → Nat → K) :
    spfOutput writeTxt writeHdf5 logLevel groups numGp numSigma numTemp
        (fun s t g => groups.flatten.map (value s t g)) =
      some ((List.range numGp).flatMap fun gp => (List.range numSigma).flatMap
        (spfFiles writeTxt writeHdf5 groups numTemp value (groups.getLast hg) gp)) := by
  obtain ⟨v', h1, h2⟩ := foldlM_files
    (fun (v : SpfVars K) (gp : Nat) => (List.range numSigma).foldlM
      (spfSigma writeTxt writeHdf5 logLevel groups numTemp
        (fun s t g => groups.flatten.map (value s t g)) gp) v)
    (fun gp => (List.range numSigma).flatMap
      (spfFiles writeTxt writeHdf5 groups numTemp value (groups.getLast hg) gp))
    (fun v gp => foldlM_files _ _ (fun v sg =>
      spf_sigma writeTxt writeHdf5 logLevel gp sg numTemp groups h hg ht value v) _ v)
    (List.range numGp) ⟨false, none, []⟩
  unfold spfOutput
  rw [h1, Option.map_some, h2]
  rfl

/-- C99: with one group of bands, and text output or no logging, the call finishes and writes for
every grid point and sigma one text file per temperature, with the average of the group, and one
hdf5 file with the values of all selected bands at all temperatures, labelled with exactly these
bands. -/
theorem C99_one_group_partial (writeTxt writeHdf5 : Bool) (logLevel numGp numSigma numTemp : Nat)
    (group : List Nat) (h : logLevel = 0 ∨ writeTxt = true) (ht : 0 < numTemp)
    (value : Nat → Nat → Nat → Nat → K) :
    spfOutput writeTxt writeHdf5 logLevel [group] numGp numSigma numTemp
        (fun s t g => group.map (value s t g)) =
      some ((List.range numGp).flatMap fun gp => (List.range numSigma).flatMap fun sigma =>
        (if writeTxt then (List.range numTemp).map fun t =>
          .text gp sigma t group ((group.map (value sigma t gp)).sum / (group.length : K)) else []) ++
        (if writeHdf5 then [.hdf5 gp sigma group ((List.range numTemp).map fun t =>
          group.map (value sigma t gp))] else [])) := by
  have := spf_output writeTxt writeHdf5 logLevel numGp numSigma numTemp [group] h (by simp) ht value
  simp only [List.flatten_cons, List.flatten_nil, List.append_nil] at this
  rw [this]
  congr 2
  funext gp
  congr 1
  funext sigma
  unfold spfFiles
  simp only [List.flatten_cons, List.flatten_nil, List.append_nil, List.getLast_singleton,
    List.map_cons, List.map_nil]
  cases writeTxt
  · simp
  · simp only [if_true]
    congr 1
    exact (List.map_eq_flatMap).symm

/-- C99: with several groups the text files are right as well. -/
theorem C99_text_partial (logLevel numGp numSigma numTemp : Nat) (groups : List (List Nat))
    (hg : groups ≠ []) (ht : 0 < numTemp) (value : Nat → Nat → Nat → Nat → K) :
    spfOutput true false logLevel groups numGp numSigma numTemp
        (fun s t g => groups.flatten.map (value s t g)) =
      some ((List.range numGp).flatMap fun gp => (List.range numSigma).flatMap fun sigma =>
        (List.range numTemp).flatMap fun t => groups.map fun g =>
          .text gp sigma t g ((g.map (value sigma t gp)).sum / (g.length : K))) := by
  rw [spf_output true false logLevel numGp numSigma numTemp groups (Or.inr rfl) hg ht value]
  congr 2
  funext gp
  congr 1
  funext sigma
  simp only [spfFiles, if_true, Bool.false_eq_true, if_false, List.append_nil]

/-- C99 fails for several groups: the hdf5 file holds the values of all selected bands, but is
labelled with the bands of the last group only. -/
theorem C99_last_group (logLevel numTemp : Nat) (groups : List (List Nat))
    (h : logLevel = 0) (hg : groups ≠ []) (ht : 0 < numTemp) (value : Nat → Nat → Nat → Nat → K) :
    spfOutput false true logLevel groups 1 1 numTemp
        (fun s t g => groups.flatten.map (value s t g)) =
      some [.hdf5 0 0 (groups.getLast hg) ((List.range numTemp).map fun t =>
        groups.flatten.map (value 0 t 0))] := by
  rw [spf_output false true logLevel 1 1 numTemp groups (Or.inl h) hg ht value]
  simp [spfFiles]

example : spfOutput false true 0 [[0], [1, 2]] 1 1 1 (fun _ _ _ => [10, 20, (30 : ℚ)]) =
    some [.hdf5 0 0 [1, 2] [[10, 20, 30]]] := by decide +kernel

/-- C99 fails with logging and without text files: after the first grid point has been calculated
the call stops with an exception, because the name of a text file that was not written is
printed. -/
theorem C99_log_without_text (writeHdf5 : Bool) (logLevel numGp numSigma numTemp : Nat)
    (groups : List (List Nat)) (hl : logLevel ≠ 0) (hg : groups ≠ []) (hn : 0 < numGp)
    (hs : 0 < numSigma) (ht : 0 < numTemp) (values : Nat → Nat → Nat → List K) :
    spfOutput false writeHdf5 logLevel groups numGp numSigma numTemp values = none := by
  obtain ⟨ng, rfl⟩ := Nat.exists_eq_succ_of_ne_zero hn.ne'
  obtain ⟨ns, rfl⟩ := Nat.exists_eq_succ_of_ne_zero hs.ne'
  obtain ⟨nt, rfl⟩ := Nat.exists_eq_succ_of_ne_zero ht.ne'
  have hgroup : ∀ (gp sigma temp : Nat) (g : List Nat × K),
      spfGroup false logLevel gp sigma temp (⟨false, none, []⟩ : SpfVars K) g = none := by
    intro gp sigma temp g
    simp [spfGroup, hl]
  have hfold : ∀ (gp sigma temp : Nat), (writtenGroups groups (values sigma temp gp)).foldlM
      (spfGroup false logLevel gp sigma temp) (⟨false, none, []⟩ : SpfVars K) = none := by
    intro gp sigma temp
    cases groups with
    | nil => exact absurd rfl hg
    | cons g groups =>
      unfold writtenGroups
      rw [List.zipIdx_cons, List.map_cons, List.foldlM_cons]
      exact (congrArg (fun o => Option.bind o _) (hgroup gp sigma temp _)).trans rfl
  have hsigma : spfSigma false writeHdf5 logLevel groups (nt + 1) values 0
      (⟨false, none, []⟩ : SpfVars K) 0 = none := by
    unfold spfSigma
    rw [List.range_succ_eq_map, List.foldlM_cons]
    exact (congrArg (fun o => Option.bind (Option.bind o _) _) (hfold 0 0 0)).trans rfl
  unfold spfOutput
  rw [show List.range ng.succ = 0 :: (List.range ng).map Nat.succ from List.range_succ_eq_map,
    show List.range ns.succ = 0 :: (List.range ns).map Nat.succ from List.range_succ_eq_map,
    List.foldlM_cons, List.foldlM_cons]
  exact (congrArg (fun o => Option.map SpfVars.files (Option.bind (Option.bind o _) _))
    hsigma).trans rfl

/-- C99 fails for the files with real parts of self-energies: the user's string is not part of the
name, so a second calculation with another string overwrites the files of the first. -/
theorem C99_name_ignored (mesh : Nat × Nat × Nat) (gp : Nat) (e : ℚ) (expForm : ℚ → List Char)
    (a b : Option (List Char)) : deltasName mesh gp e expForm a = deltasName mesh gp e expForm b :=
  rfl

/-- C99: on one mesh, files with real parts of self-energies of different grid points, or of smearing
widths that differ by more than a millionth, have different names. -/
theorem C99_deltas_names (mesh : Nat × Nat × Nat) (gp gp' : Nat) {e e' : ℚ}
    (expForm : ℚ → List Char) (name name' : Option (List Char)) (he : 1 / 100000 < e)
    (he' : 1 / 100000 < e')
    (h : deltasName mesh gp e expForm name = deltasName mesh gp' e' expForm name') :
    gp = gp' ∧ |e - e'| ≤ 1 / 1000000 := by
  have h0 : 0 ≤ e := le_trans (by norm_num) he.le
  have h0' : 0 ≤ e' := le_trans (by norm_num) he'.le
  unfold deltasName filenameSuffix gridPart bandPart sigmaPart temperaturePart namePart at h
  rw [if_pos he, if_pos he'] at h
  simp only [List.append_assoc, List.append_nil, List.append_cancel_left_eq, List.cons_append,
    List.cons.injEq, true_and] at h
  obtain ⟨h1, h2⟩ := peel (c := '-') h (dash_showNat _) (dash_showNat _) (Or.inr rfl) (Or.inr rfl)
  refine ⟨showNat_inj h1, micro_within h0 h0' (delZeros_inj h0 h0' ?_)⟩
  rw [List.append_cancel_left_eq] at h2
  exact List.append_cancel_right h2

example : 1 / 100000 < (1 / 10 : ℚ) ∧
    deltasName (5, 5, 5) 3 (1 / 10) (fun _ => []) none = "deltas-m555-g3-e0.1.hdf5".toList := by
  refine ⟨by norm_num, ?_⟩
  decide +kernel

end
end Phono3py.Props
