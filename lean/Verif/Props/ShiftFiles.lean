/-
C171: smearing widths and files of `run_real_self_energy`.
-/
import Verif.Spec.ShiftFiles
import Verif.Props.Bands

set_option linter.unusedSectionVars false

namespace Phono3py.Props
open Phono3py Phono3py.Spec

section
variable {K : Type} [Field K] [LinearOrder K] [IsStrictOrderedRing K]

theorem mapM_some_flat {α β : Type} (f : α → Option β) (g : α → β) (l : List α) (h : ∀ x ∈ l, f x = some (g x)) :
    l.mapM f = some (l.map g) := by
  induction l with
  | nil => rfl
  | cons x l ih =>
    rw [List.mapM_cons, h x List.mem_cons_self, ih fun y hy => h y (List.mem_cons_of_mem _ hy)]
    rfl

theorem mapM_none {α β : Type} (f : α → Option β) (l : List α) (x : α) (hx : x ∈ l) (h : f x = none) :
    l.mapM f = none := by
  induction l with
  | nil => cases hx
  | cons y l ih =>
    rw [List.mapM_cons]
    rcases List.mem_cons.1 hx with rfl | hx
    · rw [h]; rfl
    · rw [ih hx]
      cases f y <;> rfl

theorem writtenGroups_nonempty (groups : List (List Nat)) (hg : groups ≠ []) (v : List K) :
    ∃ p, p ∈ writtenGroups groups v := by
  obtain ⟨g, gs, rfl⟩ := List.exists_cons_of_ne_nil hg
  unfold writtenGroups
  rw [List.zipIdx_cons, List.map_cons]
  exact ⟨_, List.mem_cons_self⟩

/-- What is used for the widths asked for. -/
theorem widthsAsked_used {given : Option (List (Option K))} {sigmas : List (Option K)} {l : List K}
    (h : WidthsAsked given sigmas l) : ∃ eps, shiftEpsilons given sigmas = some eps ∧
      usedEpsilons eps = l ∧ eps.getD [some (5 / 100)] = l.map some := by
  cases h with
  | given l sigmas => exact ⟨_, rfl, by simp [usedEpsilons], rfl⟩
  | object x l =>
    refine ⟨some ((x :: l).map some), ?_, by simp [usedEpsilons], rfl⟩
    simp [shiftEpsilons]
  | default => exact ⟨none, rfl, rfl, rfl⟩

/-- C171: with frequency points, and widths that are numbers, the returned array has a part for each width asked for,
and the files are those expected, each with the values of its own grid point, width, temperature and bands. -/
theorem C171_files_partial (given : Option (List (Option K))) (sigmas : List (Option K)) (l : List K)
    (hl : WidthsAsked given sigmas l) (numGp numTemp : Nat) (groups : List (List Nat))
    (writeTxt writeHdf5 : Bool) (shift : K → Nat → Nat → Nat → K) :
    shiftRun given sigmas numGp numTemp groups false writeTxt writeHdf5
        (fun e t gp => groups.flatten.map fun b => shift e t gp b) =
      some (l.map fun e t gp => groups.flatten.map fun b => shift e t gp b,
        (if writeHdf5 then expectedHdf5 l numGp numTemp groups shift else []) ++
          if writeTxt then expectedText l numGp numTemp groups shift else []) := by
  obtain ⟨eps, e1, e2, e3⟩ := widthsAsked_used hl
  have htext : shiftTexts eps numGp numTemp groups false
      (l.map fun e t gp => groups.flatten.map fun b => shift e t gp b) =
      some (expectedText l numGp numTemp groups shift) := by
    unfold shiftTexts
    simp only [e3]
    rw [mapM_some_flat _ (fun x => ShiftFile.text x.1 (x.2.1.getD 0) x.2.2.1 x.2.2.2.1 x.2.2.2.2)]
    · congr 1
      unfold expectedText
      have hz : List.zip (l.map some) (l.map fun e t gp => groups.flatten.map fun b => shift e t gp b) =
          l.map fun e => (some e, fun t gp => groups.flatten.map fun b => shift e t gp b) := by
        rw [List.zip_map', ]
      rw [hz, List.flatMap_map, List.map_flatMap]
      refine congrArg (fun z => l.flatMap z) ?_
      funext e
      rw [List.map_flatMap]
      refine congrArg (fun z => (List.range numTemp).flatMap z) ?_
      funext t
      rw [List.map_flatMap]
      refine congrArg (fun z => (List.range numGp).flatMap z) ?_
      funext gp
      have := C30_group_average groups (fun b => shift e t gp b)
      unfold flattenBands at this
      rw [this, List.map_map, List.map_map]
      rfl
    · intro x hx
      simp only [List.mem_flatMap, List.mem_map] at hx
      obtain ⟨ea, hea, t, -, gp, -, g, -, rfl⟩ := hx
      have := List.of_mem_zip hea
      obtain ⟨e, -, he⟩ := List.mem_map.1 this.1
      simp only [shiftText, ← he, Option.getD_some]
      rfl
  unfold shiftRun
  simp only [e1, bind, Option.bind, e2]
  have hh : shiftHdf5 eps numGp numTemp groups (fun e t gp => groups.flatten.map fun b => shift e t gp b) =
      expectedHdf5 l numGp numTemp groups shift := by
    unfold shiftHdf5 expectedHdf5
    rw [e2]
  cases writeTxt with
  | false => simp only [Bool.false_eq_true, if_false, hh]
  | true => simp only [if_true, htext, hh]

/-- C171: a first width `None` of the object beside others is left out: nothing is calculated for it. -/
theorem C171_first_dropped (rest : List (Option K)) (hrest : rest ≠ []) (numGp numTemp : Nat)
    (groups : List (List Nat)) (atBands writeTxt writeHdf5 : Bool) (value : K → Nat → Nat → List K) :
    shiftRun none (none :: rest) numGp numTemp groups atBands writeTxt writeHdf5 value =
      shiftRun (some rest) [] numGp numTemp groups atBands writeTxt writeHdf5 value := by
  cases rest with
  | nil => exact absurd rfl hrest
  | cons x rest => rfl

/-- C171: a later width `None` is calculated with 0.05, and then the text files fail. -/
theorem C171_later_fails (given : Option (List (Option K))) (sigmas : List (Option K))
    (eps : List (Option K)) (he : shiftEpsilons given sigmas = some (some eps)) (hnone : none ∈ eps)
    (numGp numTemp : Nat) (hgp : 0 < numGp) (ht : 0 < numTemp) (groups : List (List Nat)) (hg : groups ≠ [])
    (atBands writeHdf5 : Bool) (value : K → Nat → Nat → List K) :
    shiftRun given sigmas numGp numTemp groups atBands true writeHdf5 value = none ∧
    ∃ r, shiftRun given sigmas numGp numTemp groups atBands false writeHdf5 value = some r ∧
      r.1 = eps.map fun e => value (e.getD (5 / 100)) := by
  constructor
  · unfold shiftRun
    simp only [he, bind, Option.bind, if_true]
    have : shiftTexts (some eps) numGp numTemp groups atBands ((usedEpsilons (some eps)).map value) =
        none := by
      unfold shiftTexts usedEpsilons
      simp only [Option.getD_some, List.map_map]
      obtain ⟨p, hp⟩ := writtenGroups_nonempty groups hg (value (5 / 100) 0 0)
      refine mapM_none _ _ (0, none, 0, p) ?_ rfl
      simp only [List.mem_flatMap, List.mem_map]
      have hz : List.zip eps (eps.map (value ∘ fun e => e.getD (5 / 100))) =
          eps.map fun e => (e, (value ∘ fun e : Option K => e.getD (5 / 100)) e) := by
        have := List.zip_map' (l := eps) (f := id) (g := value ∘ fun e : Option K => e.getD (5 / 100))
        rwa [List.map_id] at this
      refine ⟨(none, value (5 / 100)), ?_, 0, List.mem_range.2 ht, 0, List.mem_range.2 hgp,
        p, hp, rfl⟩
      rw [hz]
      exact List.mem_map.2 ⟨none, hnone, rfl⟩
    rw [this]
  · unfold shiftRun
    simp only [he, bind, Option.bind, Bool.false_eq_true, if_false]
    exact ⟨_, rfl, by simp [usedEpsilons, Function.comp_def]⟩

/-- C171: at the band frequencies text files always fail. -/
theorem C171_at_bands_fails (given : Option (List (Option K))) (sigmas : List (Option K)) (l : List K)
    (hl : WidthsAsked given sigmas l) (hne : l ≠ []) (numGp numTemp : Nat) (hgp : 0 < numGp)
    (ht : 0 < numTemp) (groups : List (List Nat)) (hg : groups ≠ []) (writeHdf5 : Bool)
    (value : K → Nat → Nat → List K) :
    shiftRun given sigmas numGp numTemp groups true true writeHdf5 value = none := by
  obtain ⟨eps, e1, e2, e3⟩ := widthsAsked_used hl
  unfold shiftRun
  simp only [e1, bind, Option.bind, if_true, e2]
  have : shiftTexts eps numGp numTemp groups true (l.map value) = none := by
    unfold shiftTexts
    simp only [e3]
    obtain ⟨x, xs, rfl⟩ := List.exists_cons_of_ne_nil hne
    obtain ⟨p, hp⟩ := writtenGroups_nonempty groups hg (value x 0 0)
    refine mapM_none _ _ (0, some x, 0, p) ?_ rfl
    simp only [List.mem_flatMap, List.mem_map]
    refine ⟨(some x, value x), ?_, 0, List.mem_range.2 ht, 0, List.mem_range.2 hgp, p, hp, rfl⟩
    rw [List.map_cons, List.map_cons, List.zip_cons_cons]
    exact List.mem_cons_self
  rw [this]

/-- C171: the setter `sigmas` keeps Python numbers and `None` in order and leaves out all else without notice; if
nothing is left there are no widths and the run fails. -/
theorem C171_setter (l : List (SigmaElement K)) :
    ((∀ x ∈ l, x ≠ .other) → (sigmasSetter l).length = l.length) ∧
    ((∀ x ∈ l, x = .other) → ∀ numGp numTemp groups atBands writeTxt writeHdf5 value,
      shiftRun none (sigmasSetter l) numGp numTemp groups atBands writeTxt writeHdf5 value = none) := by
  constructor
  · intro h
    induction l with
    | nil => rfl
    | cons x l ih =>
      have := ih fun y hy => h y (List.mem_cons_of_mem _ hy)
      unfold sigmasSetter at this ⊢
      cases x with
      | number x => simpa using this
      | missing => simpa using this
      | other => exact absurd rfl (h _ List.mem_cons_self)
  · intro h numGp numTemp groups atBands writeTxt writeHdf5 value
    have : sigmasSetter l = [] := by
      unfold sigmasSetter
      rw [List.filterMap_eq_nil_iff]
      intro x hx
      rw [h x hx]
    rw [this]
    rfl

end

section Examples

/-- Two widths of the object, two grid points, one temperature, two groups of bands. -/
example : (shiftRun (K := ℚ) none [some 1, some 2] 2 1 [[0, 1], [3]] false true true
      (fun e t gp => [0, 1, 3].map fun b : Nat => e + 10 * t + 100 * gp + 1000 * b)).map (·.2) =
    some [.hdf5 0 1 [0, 1, 3] [[1, 1001, 3001]], .hdf5 0 2 [0, 1, 3] [[2, 1002, 3002]],
      .hdf5 1 1 [0, 1, 3] [[101, 1101, 3101]], .hdf5 1 2 [0, 1, 3] [[102, 1102, 3102]],
      .text 0 1 0 [0, 1] 501, .text 0 1 0 [3] 3001, .text 1 1 0 [0, 1] 601, .text 1 1 0 [3] 3101,
      .text 0 2 0 [0, 1] 502, .text 0 2 0 [3] 3002, .text 1 2 0 [0, 1] 602, .text 1 2 0 [3] 3102] := by
  decide +kernel

example : WidthsAsked (K := ℚ) none [some 1, some 2] [1, 2] := .object 1 [2]

/-- The hypotheses of C171_later_fails are met by widths `0.1, None`. -/
example : shiftEpsilons (K := ℚ) none [some (1 / 10), none] = some (some [some (1 / 10), none]) := rfl

/-- `numpy.int64` widths are left out. -/
example : sigmasSetter (K := ℚ) [.other, .number 1, .missing] = [some 1, none] := rfl

end Examples
end Phono3py.Props
