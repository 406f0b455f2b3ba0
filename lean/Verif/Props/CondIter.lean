/-
C41, C78: the iteration of a conductivity object over grid points.
-/
import Mathlib.Algebra.BigOperators.Group.Finset.Basic
import Mathlib.Algebra.Order.BigOperators.Group.Finset
import Mathlib.Algebra.Order.Field.Rat
import Mathlib.Tactic.Ring
import Mathlib.Tactic.Linarith
import Verif.Model.Conductivity
import Verif.Lemmas.Adds

namespace Phono3py.Props
open Finset

section
variable {K : Type _} [Field K] [LinearOrder K] [IsStrictOrderedRing K]

/-- The grid points yielded in a sequence of calls, in order. -/
def yielded (evs : List CondEvent) : List Nat :=
  evs.filterMap fun | .point i => some i | _ => none

theorem phases_count (e : CondEnv K) (ps : List CondPhase) (s : CondState K) :
    (ps.foldl (fun s p => condPhase e s s.count p) s).count = s.count := by
  induction ps generalizing s with
  | nil => rfl
  | cons p ps ih =>
    rw [List.foldl_cons, ih]
    cases p
    · rfl
    · rfl
    · simp only [condPhase]; split <;> rfl
    · simp only [condPhase]; split <;> rfl

theorem next_count (e : CondEnv K) (c : Option Nat) (s : CondState K) :
    (condNext e c s).1.count =
      if (condNext e c s).2 = .point s.count then s.count + 1 else s.count := by
  unfold condNext
  by_cases h : s.count = e.numGp
  · simp [h]
  · rw [if_neg h]
    cases c with
    | some n => simp [phases_count]
    | none => simp [phases_count]

theorem next_event (e : CondEnv K) (c : Option Nat) (s : CondState K) :
    (condNext e c s).2 = if s.count = e.numGp then .stop
      else if c.isSome then .failed else .point s.count := by
  unfold condNext
  by_cases h : s.count = e.numGp
  · simp [h]
  · rw [if_neg h, if_neg h]
    cases c <;> simp [phases_count]

theorem run_yielded (e : CondEnv K) (cs : List (Option Nat)) (s : CondState K)
    (hs : s.count ≤ e.numGp) :
    s.count ≤ (condRun e s cs).1.count ∧ (condRun e s cs).1.count ≤ e.numGp ∧
      yielded (condRun e s cs).2 =
        List.range' s.count ((condRun e s cs).1.count - s.count) := by
  induction cs generalizing s with
  | nil => simp [condRun, yielded, hs]
  | cons c cs ih =>
    have hc := next_count e c s
    have he := next_event e c s
    have hle : (condNext e c s).1.count ≤ e.numGp := by
      rw [hc]
      by_cases hn : s.count = e.numGp
      · rw [he, if_pos hn, if_neg (by simp)]
        exact hs
      · split <;> omega
    obtain ⟨h1, h2, h3⟩ := ih _ hle
    simp only [condRun]
    rw [he] at hc
    by_cases hn : s.count = e.numGp
    · rw [if_pos hn] at he hc
      have hc' : (condNext e c s).1.count = s.count := by simpa using hc
      rw [hc'] at h1 h3
      refine ⟨h1, h2, ?_⟩
      rw [he]
      exact h3
    · rw [if_neg hn] at he hc
      cases c with
      | some n =>
        have hc' : (condNext e (some n) s).1.count = s.count := by simpa using hc
        rw [hc'] at h1 h3
        refine ⟨h1, h2, ?_⟩
        rw [he]
        exact h3
      | none =>
        have hc' : (condNext e none s).1.count = s.count + 1 := by simpa using hc
        rw [hc'] at h1 h3
        refine ⟨by omega, h2, ?_⟩
        rw [he]
        have : (condRun e (condNext e none s).1 cs).1.count - s.count =
            ((condRun e (condNext e none s).1 cs).1.count - (s.count + 1)) + 1 := by omega
        rw [this, List.range'_succ, ← h3]
        rfl

/-- **C41 (order).** Whatever calls of `next` are made on a conductivity object, and whichever of
them fail at whatever point, the grid points yielded are `0, 1, 2, …` in this order, without
repetition or gap, and never more than there are grid points. -/
theorem C41_order (e : CondEnv K) (gamma : Nat → Nat → Nat → Nat → K) (cs : List (Option Nat)) :
    ∃ m ≤ e.numGp, yielded (condRun e (condInit gamma e) cs).2 = List.range m := by
  obtain ⟨_, h2, h3⟩ := run_yielded e cs (condInit gamma e) (Nat.zero_le _)
  refine ⟨_, h2, ?_⟩
  rw [h3, List.range_eq_range']
  rfl

theorem run_append (e : CondEnv K) (cs ds : List (Option Nat)) (s : CondState K) :
    condRun e s (cs ++ ds) = ((condRun e (condRun e s cs).1 ds).1,
      (condRun e s cs).2 ++ (condRun e (condRun e s cs).1 ds).2) := by
  induction cs generalizing s with
  | nil => rfl
  | cons c cs ih => simp only [List.cons_append, condRun, ih]

/-- **C41 (end).** A call answers with the end of the iteration exactly when all grid points have
been yielded. -/
theorem C41_stop (e : CondEnv K) (gamma : Nat → Nat → Nat → Nat → K) (cs : List (Option Nat))
    (c : Option Nat) :
    (condNext e c (condRun e (condInit gamma e) cs).1).2 = .stop ↔
      yielded (condRun e (condInit gamma e) cs).2 = List.range e.numGp := by
  obtain ⟨_, h2, h3⟩ := run_yielded e cs (condInit gamma e) (Nat.zero_le _)
  have h3' : yielded (condRun e (condInit gamma e) cs).2 =
      List.range (condRun e (condInit gamma e) cs).1.count := by
    rw [h3, List.range_eq_range']
    rfl
  rw [next_event, h3']
  constructor
  · intro h
    split at h
    · rename_i hn
      rw [hn]
    · split at h <;> cases h
  · intro h
    have := congrArg List.length h
    simp only [List.length_range] at this
    rw [if_pos this]

/-- After the end every further call answers with the end and changes nothing. -/
theorem C41_stays_stopped (e : CondEnv K) (s : CondState K) (hs : s.count = e.numGp)
    (cs : List (Option Nat)) :
    condRun e s cs = (s, List.replicate cs.length .stop) := by
  induction cs with
  | nil => rfl
  | cons c cs ih =>
    have : condNext e c s = (s, .stop) := by unfold condNext; rw [if_pos hs]
    simp only [condRun, this, ih, List.length_cons, List.replicate_succ]

/-- The state when a grid point has been dealt with. -/
def afterPoint (e : CondEnv K) (s : CondState K) : CondState K :=
  condPhases.foldl (fun s p => condPhase e s s.count p) s

/-- Results of the object belong to the grid points: those of all points before `n` are the
values calculated for these points. -/
structure Filled (e : CondEnv K) (s : CondState K) (n : Nat) : Prop where
  cv : ∀ k, ∀ i < n, s.cv k i = e.heatCapacity k i
  gv : ∀ i < n, s.gv i = e.velocity i
  gvSum2 : ∀ i < n, ∀ l c,
    s.gvSum2 i l c = gvByGv e i (e.velocity i l) (voigt c).1 (voigt c).2
  gamma : e.readGamma = false → ∀ j k, ∀ i < n, s.gamma j k i = e.linewidth j k i
  gammaIso : e.isIsotope = true → e.readGammaIso = false →
    ∀ j, ∀ i < n, s.gammaIso j i = e.isotopeLinewidth j i

theorem setAt_same {β : Type _} (a : Nat → β) (i : Nat) (x : β) : setAt a i x i = x := by
  simp [setAt]

theorem setAt_other {β : Type _} (a : Nat → β) {i k : Nat} (x : β) (h : k ≠ i) :
    setAt a i x k = a k := by
  simp [setAt, h]

theorem phase_filled (e : CondEnv K) (s : CondState K) (n : Nat) (h : Filled e s n)
    (hn : n ≤ s.count) (p : CondPhase) : Filled e (condPhase e s s.count p) n := by
  have ne : ∀ i < n, i ≠ s.count := fun i hi => by omega
  cases p with
  | cv =>
    exact ⟨fun k i hi => by simp only [condPhase]; rw [setAt_other _ _ (ne i hi)]; exact h.cv k i hi,
      h.gv, h.gvSum2, h.gamma, h.gammaIso⟩
  | velocities =>
    refine ⟨h.cv, fun i hi => ?_, fun i hi l c => ?_, h.gamma, h.gammaIso⟩
    · simp only [condPhase]
      rw [setAt_other _ _ (ne i hi)]
      exact h.gv i hi
    · simp only [condPhase]
      rw [setAt_other _ _ (ne i hi)]
      exact h.gvSum2 i hi l c
  | gamma =>
    simp only [condPhase]
    split
    · exact h
    · exact ⟨h.cv, h.gv, h.gvSum2, fun hr j k i hi => by
        show setAt _ _ _ i = _
        rw [setAt_other _ _ (ne i hi)]
        exact h.gamma hr j k i hi, h.gammaIso⟩
  | isotope =>
    simp only [condPhase]
    split
    · exact ⟨h.cv, h.gv, h.gvSum2, h.gamma, fun hi hr j i hin => by
        show setAt _ _ _ i = _
        rw [setAt_other _ _ (ne i hin)]
        exact h.gammaIso hi hr j i hin⟩
    · exact h

theorem phases_filled (e : CondEnv K) (ps : List CondPhase) (s : CondState K) (n : Nat)
    (h : Filled e s n) (hn : n ≤ s.count) :
    Filled e (ps.foldl (fun s p => condPhase e s s.count p) s) n := by
  induction ps generalizing s with
  | nil => exact h
  | cons p ps ih =>
    rw [List.foldl_cons]
    refine ih _ (phase_filled e s n h hn p) ?_
    have := phases_count e [p] s
    simp only [List.foldl_cons, List.foldl_nil] at this
    rw [this]
    exact hn

theorem next_filled (e : CondEnv K) (c : Option Nat) (s : CondState K) (h : Filled e s s.count) :
    Filled e (condNext e c s).1 (condNext e c s).1.count := by
  unfold condNext
  by_cases hn : s.count = e.numGp
  · rw [if_pos hn]
    exact h
  · rw [if_neg hn]
    cases c with
    | some n =>
      simp only [phases_count]
      exact phases_filled e _ s _ h (le_refl _)
    | none =>
      simp only [phases_count]
      have h' := phases_filled e condPhases s _ h (le_refl _)
      have split : ∀ i, i < s.count + 1 → i < s.count ∨ i = s.count := fun i hi => by omega
      refine ⟨fun k i hi => ?_, fun i hi => ?_, fun i hi l c => ?_, fun hr j k i hi => ?_,
        fun hiso hr j i hi => ?_⟩
      · rcases split i hi with h1 | rfl
        · exact h'.cv k i h1
        · simp only [condPhases, List.foldl_cons, List.foldl_nil, condPhase]
          split <;> split <;> simp [setAt]
      · rcases split i hi with h1 | rfl
        · exact h'.gv i h1
        · simp only [condPhases, List.foldl_cons, List.foldl_nil, condPhase]
          split <;> split <;> simp [setAt]
      · rcases split i hi with h1 | rfl
        · exact h'.gvSum2 i h1 l c
        · simp only [condPhases, List.foldl_cons, List.foldl_nil, condPhase]
          split <;> split <;> simp [setAt]
      · rcases split i hi with h1 | rfl
        · exact h'.gamma hr j k i h1
        · simp only [condPhases, List.foldl_cons, List.foldl_nil, condPhase, hr]
          split <;> simp [setAt]
      · rcases split i hi with h1 | rfl
        · exact h'.gammaIso hiso hr j i h1
        · simp only [condPhases, List.foldl_cons, List.foldl_nil, condPhase, hiso, hr]
          by_cases hg : e.readGamma <;> simp [setAt, hg]

/-- **C41 (results).** After any history of calls, failed ones included, the heat capacities,
velocities, velocity tensors and linewidths stored for each grid point yielded are those of this
grid point. -/
theorem C41_results (e : CondEnv K) (gamma : Nat → Nat → Nat → Nat → K) (cs : List (Option Nat))
    (i : Nat) (hi : i ∈ yielded (condRun e (condInit gamma e) cs).2) :
    Filled e (condRun e (condInit gamma e) cs).1 (i + 1) := by
  have gen : ∀ (cs : List (Option Nat)) (s : CondState K), Filled e s s.count →
      Filled e (condRun e s cs).1 (condRun e s cs).1.count := by
    intro cs
    induction cs with
    | nil => exact fun s h => h
    | cons c cs ih => exact fun s h => ih _ (next_filled e c s h)
  have h0 : Filled e (condInit gamma e) (condInit gamma e).count :=
    ⟨fun _ i h => absurd h (Nat.not_lt_zero i), fun i h => absurd h (Nat.not_lt_zero i),
      fun i h => absurd h (Nat.not_lt_zero i), fun _ _ _ i h => absurd h (Nat.not_lt_zero i),
      fun _ _ _ i h => absurd h (Nat.not_lt_zero i)⟩
  have h := gen cs _ h0
  obtain ⟨_, _, h3⟩ := run_yielded e cs (condInit gamma e) (Nat.zero_le _)
  rw [h3, List.mem_range'_1] at hi
  have hle : i + 1 ≤ (condRun e (condInit gamma e) cs).1.count := by
    have : (condInit gamma e).count = 0 := rfl
    omega
  exact ⟨fun k j hj => h.cv k j (by omega), fun j hj => h.gv j (by omega),
    fun j hj => h.gvSum2 j (by omega), fun hr a b j hj => h.gamma hr a b j (by omega),
    fun hi hr a j hj => h.gammaIso hi hr a j (by omega)⟩

/-! ### C78: number of sampling grid points -/

theorem phases_sampling (e : CondEnv K) (n : Nat) (s : CondState K) :
    ((condPhases.take n).foldl (fun s p => condPhase e s s.count p) s).numSampling =
      s.numSampling + if n ≤ 1 then 0 else kstarOrder e s.count := by
  have : n = 0 ∨ n = 1 ∨ n = 2 ∨ n = 3 ∨ 4 ≤ n := by omega
  rcases this with rfl | rfl | rfl | rfl | h
  · rfl
  · rfl
  · rfl
  · simp only [condPhases, List.take, List.foldl_cons, List.foldl_nil, condPhase]
    split <;> rfl
  · rw [List.take_of_length_le (by simpa [condPhases] using h)]
    have : ¬ n ≤ 1 := by omega
    rw [if_neg this]
    simp only [condPhases, List.foldl_cons, List.foldl_nil, condPhase]
    split <;> split <;> rfl

/-- Number of failed attempts in a history that came past the velocities, per grid point: `i` is
the number of points yielded before. -/
def lateFailures (e : CondEnv K) : Nat → List (Option Nat) → Nat
  | _, [] => 0
  | i, c :: cs =>
    if i = e.numGp then 0
    else match c with
      | none => lateFailures e (i + 1) cs
      | some n => (if n ≤ 1 then 0 else kstarOrder e i) + lateFailures e i cs

theorem run_sampling (e : CondEnv K) (cs : List (Option Nat)) (s : CondState K)
    (hs : s.count ≤ e.numGp) :
    (condRun e s cs).1.numSampling + ∑ i ∈ range s.count, kstarOrder e i =
      s.numSampling + (∑ i ∈ range (condRun e s cs).1.count, kstarOrder e i) +
        lateFailures e s.count cs := by
  induction cs generalizing s with
  | nil => simp [condRun, lateFailures]
  | cons c cs ih =>
    by_cases hn : s.count = e.numGp
    · rw [C41_stays_stopped e s hn]
      simp [lateFailures, hn]
    · simp only [condRun, lateFailures, if_neg hn]
      have hsim : condNext e c s = (match c with
        | some n => ((condPhases.take n).foldl (fun s p => condPhase e s s.count p) s, .failed)
        | none => ({ condPhases.foldl (fun s p => condPhase e s s.count p) s with
            count := (condPhases.foldl (fun s p => condPhase e s s.count p) s).count + 1 },
            .point (condPhases.foldl (fun s p => condPhase e s s.count p) s).count)) := by
        unfold condNext
        rw [if_neg hn]
        cases c <;> rfl
      cases c with
      | some n =>
        have hc : (condNext e (some n) s).1.count = s.count := by
          rw [hsim]
          exact phases_count e _ s
        have hN : (condNext e (some n) s).1.numSampling =
            s.numSampling + if n ≤ 1 then 0 else kstarOrder e s.count := by
          rw [hsim]
          exact phases_sampling e n s
        have := ih (condNext e (some n) s).1 (by rw [hc]; exact hs)
        rw [hc, hN] at this
        dsimp only
        omega
      | none =>
        have hc : (condNext e none s).1.count = s.count + 1 := by
          rw [hsim]
          show (condPhases.foldl (fun s p => condPhase e s s.count p) s).count + 1 = _
          rw [phases_count]
        have hN : (condNext e none s).1.numSampling = s.numSampling + kstarOrder e s.count := by
          rw [hsim]
          have := phases_sampling e 4 s
          simpa [condPhases] using this
        have := ih (condNext e none s).1 (by rw [hc]; omega)
        rw [hc, hN, Finset.sum_range_succ] at this
        dsimp only
        omega

/-- **C78 (partial: histories without late failures).** When all calls succeed, or fail before the
velocities of the grid point are set, the number of sampling points is the sum of the orders of
the stars of the grid points yielded. Missing: histories with failures after this step, for which
the statement is false (`C78_counted_twice`). -/
theorem C78_sampling_partial (e : CondEnv K) (gamma : Nat → Nat → Nat → Nat → K)
    (cs : List (Option Nat)) (h : ∀ n, some n ∈ cs → n ≤ 1) :
    (condRun e (condInit gamma e) cs).1.numSampling =
      ∑ i ∈ range (yielded (condRun e (condInit gamma e) cs).2).length, kstarOrder e i := by
  have hs := run_sampling e cs (condInit gamma e) (Nat.zero_le _)
  obtain ⟨_, _, h3⟩ := run_yielded e cs (condInit gamma e) (Nat.zero_le _)
  have h0 : ∀ (cs : List (Option Nat)) (i : Nat), (∀ n, some n ∈ cs → n ≤ 1) →
      lateFailures e i cs = 0 := by
    intro cs
    induction cs with
    | nil => exact fun _ _ => rfl
    | cons c cs ih =>
      intro i hc
      simp only [lateFailures]
      split
      · rfl
      · cases c with
        | none => exact ih _ fun n hn => hc n (List.mem_cons_of_mem _ hn)
        | some n =>
          dsimp only
          rw [if_pos (hc n List.mem_cons_self), ih _ fun n hn => hc n (List.mem_cons_of_mem _ hn)]
  rw [h0 cs _ h] at hs
  have hz : (condInit gamma e).count = 0 := rfl
  have hz' : (condInit gamma e).numSampling = 0 := rfl
  rw [hz, hz'] at hs
  rw [h3, List.length_range', hz]
  simpa using hs

/-- In general every failure after the velocities adds the order of the star once more. -/
theorem C78_sampling_general (e : CondEnv K) (gamma : Nat → Nat → Nat → Nat → K)
    (cs : List (Option Nat)) :
    (condRun e (condInit gamma e) cs).1.numSampling =
      (∑ i ∈ range (yielded (condRun e (condInit gamma e) cs).2).length, kstarOrder e i) +
        lateFailures e 0 cs := by
  have hs := run_sampling e cs (condInit gamma e) (Nat.zero_le _)
  obtain ⟨_, _, h3⟩ := run_yielded e cs (condInit gamma e) (Nat.zero_le _)
  have hz : (condInit gamma e).count = 0 := rfl
  have hz' : (condInit gamma e).numSampling = 0 := rfl
  rw [hz, hz'] at hs
  rw [h3, List.length_range', hz]
  simpa using hs

end

/-! Two grid points, two operations; the second point is on a mirror plane. -/

/-- The object of the example. -/
def condExample : CondEnv ℚ where
  numGp := 2
  numOps := 2
  numBand := 1
  numSigma := 1
  numTemp := 1
  rotations := fun j a b => if a = b then (if j = 1 ∧ a = 0 then -1 else 1) else 0
  multi := fun i => if i = 0 then 1 else 2
  velocity := fun i _ a => if i = 0 then (if a = 0 then 3 else 4) else (if a = 0 then 0 else 1)
  heatCapacity := fun _ i _ => i + 1
  linewidth := fun _ _ _ _ => 1
  isotopeLinewidth := fun _ _ _ => 1
  isIsotope := true
  readGamma := false
  readGammaIso := false

example : (condRun condExample (condInit (fun _ _ _ _ => 0) condExample)
    [none, some 1, none, none, none]).2 = [.point 0, .failed, .point 1, .stop, .stop] := by
  decide +kernel

example : (condRun condExample (condInit (fun _ _ _ _ => 0) condExample)
    [none, some 1, none]).1.numSampling = 3 := by decide +kernel

example : ∃ cs : List (Option Nat), (∀ n, some n ∈ cs → n ≤ 1) ∧
    yielded (condRun condExample (condInit (fun _ _ _ _ => 0) condExample) cs).2 = [0, 1] :=
  ⟨[none, some 1, none], by simp, by decide +kernel⟩

/-- **C78 (finding).** When the calculation of the collisions of a grid point raises an error and
the iteration is continued, the point is counted twice in the number of sampling points by which
the conductivity is divided, although every point is yielded once. -/
theorem C78_counted_twice :
    ∃ (e : CondEnv ℚ) (cs : List (Option Nat)),
      yielded (condRun e (condInit (fun _ _ _ _ => 0) e) cs).2 = List.range e.numGp ∧
      (condRun e (condInit (fun _ _ _ _ => 0) e) cs).1.numSampling ≠
        ∑ i ∈ range e.numGp, kstarOrder e i := by
  refine ⟨condExample, [some 2, none, none], ?_, ?_⟩
  all_goals decide +kernel

end Phono3py.Props
