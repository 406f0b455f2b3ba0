/- C104: the files of mode Grueneisen parameters. -/
import Verif.Model.GruneisenRun
import Mathlib.Algebra.BigOperators.Group.Finset.Basic
import Mathlib.Algebra.BigOperators.Group.Finset.Defs
import Mathlib.Algebra.Order.Field.Rat
import Mathlib.Data.List.GetD
import Mathlib.Tactic.NormNum

namespace Phono3py.Props
open Finset

section
variable {K R : Type} [Field K] [LinearOrder K]

/-- The direction from which the zone centre is approached at position `i` of a path: from the
previous point, or at the first point towards the next one. -/
def ApproachFrom (path : List (Nat → K)) (i : Nat) : Option (Nat → K) :=
  match path[i - 1]?, path[i]?, path[i + 1]? with
  | some prev, some q, next =>
    if 0 < i then some fun d => q d - prev d else next.map fun n => fun d => n d - q d
  | _, _, _ => none

/-- The polar correction at a wave vector is taken along the wave vector; at the zone centre along
`atGamma`; not at all without a correction. -/
def CorrectionAlong (nac : Bool) (q : Nat → K) (atGamma : Option (Nat → K)) : Option (Nat → K) :=
  if nac then if |q 0| < 1 / 100000 ∧ |q 1| < 1 / 100000 ∧ |q 2| < 1 / 100000 then atGamma else some q else none

theorem nearGamma_iff (q : Nat → K) : nearGamma q = true ↔
    |q 0| < 1 / 100000 ∧ |q 1| < 1 / 100000 ∧ |q 2| < 1 / 100000 := by
  simp [nearGamma, List.range_succ, and_assoc]

theorem foldl_append_map {α β : Type} (f : α → β) (l : List α) (acc : List β) :
    l.foldl (fun rs a => rs ++ [f a]) acc = acc ++ l.map f := by
  induction l generalizing acc with
  | nil => simp
  | cons a l ih => simp [ih]

theorem grunAtQpoints_eq (solve : (Nat → K) → Option (Nat → K) → R) (nac : Bool)
    (nacDir : Option (Nat → K)) (mode : GrunMode) (qs : List (Nat → K)) :
    grunAtQpoints solve nac nacDir mode qs = (List.range qs.length).map fun i =>
      solve (qs.getD i fun _ => 0) (grunDirection nac nacDir mode qs i) := by
  unfold grunAtQpoints
  rw [foldl_append_map, List.nil_append]

theorem grunDirection_points (nac : Bool) (nacDir : Option (Nat → K)) {mode : GrunMode}
    (hm : mode ≠ .band) (qs : List (Nat → K)) (i : Nat) :
    grunDirection nac nacDir mode qs i =
      CorrectionAlong nac (qs.getD i fun _ => 0) nacDir := by
  simp only [grunDirection, CorrectionAlong, if_neg hm, nearGamma_iff]

theorem grunDirection_band (nac : Bool) (nacDir : Option (Nat → K)) (qs : List (Nat → K)) {i : Nat}
    (hi : i < qs.length) :
    grunDirection nac nacDir .band qs i =
      CorrectionAlong nac (qs.getD i fun _ => 0) (ApproachFrom qs i) := by
  simp only [grunDirection, CorrectionAlong, nearGamma_iff, if_true]
  have h1 : qs[i - 1]? = some (qs.getD (i - 1) fun _ => 0) := by
    rw [List.getD_eq_getElem _ _ (by omega)]
    exact List.getElem?_eq_getElem (by omega)
  have h2 : qs[i]? = some (qs.getD i fun _ => 0) := by
    rw [List.getD_eq_getElem _ _ hi]
    exact List.getElem?_eq_getElem hi
  have h3 : ¬0 < i → ApproachFrom qs i =
      if 1 < qs.length then some (fun d => qs.getD (i + 1) (fun _ => 0) d - qs.getD i (fun _ => 0) d)
      else none := by
    intro h0
    unfold ApproachFrom
    rw [h1, h2]
    simp only [if_neg h0]
    have : i = 0 := by omega
    subst this
    by_cases hl : 1 < qs.length
    · rw [if_pos hl, List.getElem?_eq_getElem (by omega),
        List.getD_eq_getElem (n := 0 + 1) _ _ (by omega)]
      rfl
    · rw [if_neg hl, List.getElem?_eq_none (by omega)]
      rfl
  have h4 : 0 < i → ApproachFrom qs i =
      some (fun d => qs.getD i (fun _ => 0) d - qs.getD (i - 1) (fun _ => 0) d) := by
    intro h0
    unfold ApproachFrom
    rw [h1, h2]
    simp only [if_pos h0]
  by_cases h0 : 0 < i
  · rw [h4 h0]
    simp only [if_pos h0]
  · rw [h3 h0]
    simp only [if_neg h0]

theorem range_getD_map {β : Type} (qs : List (Nat → K)) (f : (Nat → K) → β) :
    ((List.range qs.length).map fun i => f (qs.getD i fun _ => 0)) = qs.map f := by
  refine List.ext_getElem (by simp) fun i h1 h2 => ?_
  simp only [List.length_map, List.length_range] at h1
  simp [h1]

/-- C104: after a mesh was set and run, whatever was done with the object before, the hdf5 file
holds the mesh, its wave vectors and multiplicities, and for every wave vector, in this order, what
is computed there. -/
theorem C104_mesh (solve : (Nat → K) → Option (Nat → K) → R) (nac : Bool)
    (nacDir : Option (Nat → K)) (len : (Nat → K) → K) (before : List (GrunCall K))
    (mesh : List Int) (qs : List (Nat → K)) (ws : List Nat) :
    (grunAfter solve nac nacDir len (before ++ [.setMesh mesh qs ws, .run])).write =
      some (some (.mesh mesh
        (qs.map fun q => solve q (CorrectionAlong nac q nacDir)) (some ws) qs)) := by
  unfold grunAfter
  rw [List.foldl_append]
  simp only [List.foldl_cons, List.foldl_nil, GrunCall.apply, GrunState.setMesh, GrunState.run,
    GrunState.write]
  rw [grunAtQpoints_eq]
  simp only [grunDirection_points nac nacDir (mode := .mesh) (by decide),
    range_getD_map qs fun q => solve q (CorrectionAlong nac q nacDir)]

theorem grunDistances_aux (len : (Nat → K) → K) (path : List (Nat → K)) (n : Nat) :
    (List.range n).foldl (fun ds i =>
      ds ++ [len (fun d => (path.getD (i + 1) (fun _ => 0)) d - (path.getD i (fun _ => 0)) d) +
        ds.getLastD 0]) [0] =
    (List.range (n + 1)).map fun i => ∑ j ∈ range i,
      len (fun d => (path.getD (j + 1) (fun _ => 0)) d - (path.getD j (fun _ => 0)) d) := by
  induction n with
  | zero => simp
  | succ n ih =>
    rw [List.range_succ, List.foldl_append, ih, List.range_succ (n := n + 1), List.map_append]
    simp only [List.foldl_cons, List.foldl_nil, List.map_cons, List.map_nil]
    congr 2
    rw [List.range_succ, List.map_append, Finset.sum_range_succ, add_comm]
    congr 1
    simp

theorem zip_range {α β γ : Type} (path : List α) (g : Nat → β) (h : Nat → γ) {n : Nat}
    (hn : path.length ≤ n) :
    (path.zip (((List.range n).map g).zip ((List.range path.length).map h))) =
      path.zipIdx.map fun p => (p.1, g p.2, h p.2) := by
  refine List.ext_getElem (by simp; omega) fun i h1 h2 => ?_
  simp

/-- C104: after paths were set and run, whatever was done before, the yaml file holds for every path
and every point of it the wave vector, the length of the path so far, and what is computed there;
the polar correction at the zone centre is taken along the path. -/
theorem C104_band (solve : (Nat → K) → Option (Nat → K) → R) (nac : Bool)
    (nacDir : Option (Nat → K)) (len : (Nat → K) → K) (before : List (GrunCall K))
    (paths : List (List (Nat → K))) :
    (grunAfter solve nac nacDir len (before ++ [.setBand paths, .run])).write =
      some (some (.band (paths.map fun path => (path.length, path.zipIdx.map fun p =>
        (p.1, ∑ j ∈ range p.2, len (fun d => (path.getD (j + 1) (fun _ => 0)) d -
            (path.getD j (fun _ => 0)) d),
          solve p.1 (CorrectionAlong nac p.1 (ApproachFrom path p.2))))))) := by
  unfold grunAfter
  rw [List.foldl_append]
  simp only [List.foldl_cons, List.foldl_nil, GrunCall.apply, GrunState.setBand, GrunState.run,
    GrunState.write]
  rw [foldl_append_map, List.nil_append]
  congr 3
  rw [List.zip_map', List.zip_map_right]
  have hzip : ∀ (l : List (List (Nat → K))), l.zip l = l.map fun x => (x, x) := by
    intro l
    induction l with
    | nil => rfl
    | cons a l ih => simp [ih]
  rw [hzip, List.map_map, List.map_map]
  refine List.map_congr_left fun path _ => ?_
  simp only [Function.comp, Prod.map, id]
  congr 1
  rw [grunAtQpoints_eq, grunDistances, grunDistances_aux, zip_range _ _ _ (by omega), List.map_map]
  refine List.map_congr_left fun p hp => ?_
  obtain ⟨hlt, hget⟩ := List.mem_zipIdx' hp
  have hD : path.getD p.2 (fun _ => 0) = p.1 := by
    rw [List.getD_eq_getElem _ _ hlt, hget]
  simp only [Function.comp]
  rw [grunDirection_band _ _ _ hlt, hD]

theorem grunEntries_none (qs : List (Nat → K)) (f : (Nat → K) → R) (i : Nat) :
    grunEntries none i qs (qs.map f) = some (qs.map fun q => (q, none, f q)) := by
  induction qs generalizing i with
  | nil => rfl
  | cons q qs ih =>
    simp only [List.map_cons, grunEntries]
    rw [ih]
    rfl

theorem weights_none (solve : (Nat → K) → Option (Nat → K) → R) (nac : Bool)
    (nacDir : Option (Nat → K)) (len : (Nat → K) → K) (calls : List (GrunCall K))
    (hmesh : ∀ m qs ws, GrunCall.setMesh m qs ws ∉ calls) (st : GrunState K R)
    (hst : st.weights = none) :
    (calls.foldl (GrunCall.apply solve nac nacDir len) st).weights = none := by
  induction calls generalizing st with
  | nil => exact hst
  | cons c calls ih =>
    rw [List.foldl_cons]
    refine ih (fun m qs ws h => hmesh m qs ws (List.mem_cons_of_mem _ h)) _ ?_
    cases c with
    | setQpoints qs => exact hst
    | setMesh m qs ws => exact absurd List.mem_cons_self (hmesh m qs ws)
    | setBand paths => exact hst
    | run =>
      simp only [GrunCall.apply, GrunState.run]
      split <;> exact hst

/-- C104: after wave vectors were set and run, the yaml file holds for every wave vector, in this
order, what is computed there, and no multiplicities. Missing: it does so only if no mesh was set on
the object before (`C104_stale_multiplicity`). -/
theorem C104_points_partial (solve : (Nat → K) → Option (Nat → K) → R) (nac : Bool)
    (nacDir : Option (Nat → K)) (len : (Nat → K) → K) (before : List (GrunCall K))
    (hmesh : ∀ m qs ws, GrunCall.setMesh m qs ws ∉ before) (qs : List (Nat → K)) :
    (grunAfter solve nac nacDir len (before ++ [.setQpoints qs, .run])).write =
      some (some (.points qs.length
        (qs.map fun q => (q, none, solve q (CorrectionAlong nac q nacDir))))) := by
  unfold grunAfter
  rw [List.foldl_append]
  simp only [List.foldl_cons, List.foldl_nil, GrunCall.apply, GrunState.setQpoints, GrunState.run,
    GrunState.write]
  rw [weights_none solve nac nacDir len before hmesh {} rfl, grunAtQpoints_eq]
  simp only [grunDirection_points nac nacDir (mode := .qpoints) (by decide),
    range_getD_map qs fun q => solve q (CorrectionAlong nac q nacDir)]
  rw [grunEntries_none]
  rfl

/-- Non-vacuity: a path set and run first. -/
example : (grunAfter (fun q d => (q 0, d.isSome)) true none (fun q => |q 0|)
    [.setBand [[fun _ => 0, fun _ => 1]], .run, .setQpoints [fun _ => (1 : ℚ), fun _ => 0], .run]).write
      = some (some (.points 2 [((fun _ => 1), none, (1, true)), ((fun _ => 0), none, (0, false))])) := by
  rw [show [GrunCall.setBand [[fun _ => (0 : ℚ), fun _ => 1]], .run,
      .setQpoints [fun _ => (1 : ℚ), fun _ => 0], .run] =
    [GrunCall.setBand [[fun _ => (0 : ℚ), fun _ => 1]], .run] ++
      [.setQpoints [fun _ => (1 : ℚ), fun _ => 0], .run] from rfl]
  rw [C104_points_partial _ _ _ _ _ (by intro m qs ws h; simp at h)]
  norm_num [CorrectionAlong]

/-- C104 fails: wave vectors set after a mesh are written with the multiplicities of the mesh; if
there are more of them than mesh points, writing raises an exception. -/
theorem C104_stale_multiplicity (solve : (Nat → K) → Option (Nat → K) → R) (nac : Bool)
    (nacDir : Option (Nat → K)) (len : (Nat → K) → K) (a b p q : Nat → K) (w : Nat) :
    (grunAfter solve nac nacDir len
        [.setMesh [1, 1, 1] [a] [w], .setQpoints [p], .run]).write =
      some (some (.points 1 [(p, some w, solve p (CorrectionAlong nac p nacDir))])) ∧
    (grunAfter solve nac nacDir len
        [.setMesh [1, 1, 1] [a] [w], .setQpoints [p, q], .run]).write = none := by
  constructor
  · simp only [grunAfter, List.foldl_cons, List.foldl_nil, GrunCall.apply, GrunState.setMesh,
      GrunState.setQpoints, GrunState.run, GrunState.write, grunAtQpoints_eq]
    simp only [grunDirection_points nac nacDir (mode := .qpoints) (by decide),
      range_getD_map [p] fun q => solve q (CorrectionAlong nac q nacDir)]
    rfl
  · simp only [grunAfter, List.foldl_cons, List.foldl_nil, GrunCall.apply, GrunState.setMesh,
      GrunState.setQpoints, GrunState.run, GrunState.write, grunAtQpoints_eq]
    simp only [grunDirection_points nac nacDir (mode := .qpoints) (by decide),
      range_getD_map [p, q] fun q => solve q (CorrectionAlong nac q nacDir)]
    rfl

/-- C104 fails: without running again, the results of the earlier wave vectors are written as those
of the new ones. -/
theorem C104_stale_results (solve : (Nat → K) → Option (Nat → K) → R) (nac : Bool)
    (nacDir : Option (Nat → K)) (len : (Nat → K) → K) (p q : Nat → K) :
    (grunAfter solve nac nacDir len [.setQpoints [p], .run, .setQpoints [q]]).write =
      some (some (.points 1 [(q, none, solve p (CorrectionAlong nac p nacDir))])) := by
  simp only [grunAfter, List.foldl_cons, List.foldl_nil, GrunCall.apply,
    GrunState.setQpoints, GrunState.run, GrunState.write, grunAtQpoints_eq]
  simp only [grunDirection_points nac nacDir (mode := .qpoints) (by decide),
    range_getD_map [p] fun q => solve q (CorrectionAlong nac q nacDir)]
  rfl

/-- C104: nothing is written before the first run. -/
theorem C104_not_run (solve : (Nat → K) → Option (Nat → K) → R) (nac : Bool)
    (nacDir : Option (Nat → K)) (len : (Nat → K) → K) (calls : List (GrunCall K))
    (hrun : GrunCall.run ∉ calls) :
    (grunAfter solve nac nacDir len calls).write = some none := by
  have : ∀ st : GrunState K R, st.results = none →
      (calls.foldl (GrunCall.apply solve nac nacDir len) st).results = none := by
    induction calls with
    | nil => exact fun st h => h
    | cons c calls ih =>
      intro st h
      rw [List.foldl_cons]
      refine ih (fun h => hrun (List.mem_cons_of_mem _ h)) _ ?_
      cases c with
      | run => exact absurd List.mem_cons_self hrun
      | _ => exact h
  unfold grunAfter GrunState.write
  rw [this {} rfl]

example : GrunCall.run ∉ [GrunCall.setQpoints [fun _ => (1 : ℚ)]] := by simp

end
end Phono3py.Props
