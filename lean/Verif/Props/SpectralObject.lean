/-
C170: arrays of a `SpectralFunction` object.
-/
import Verif.Spec.SpectralObject
import Verif.Props.IseRuns
import Verif.Props.IseCode

set_option linter.unusedSectionVars false

namespace Phono3py.Props
open Phono3py Phono3py.Spec

section
variable {P K S G Z A : Type} [Field K] [LinearOrder K]

theorem spfGamma_eq (o : SpfSettings P K) (values : List (List (List (Nat → K)))) (i j : Nat)
    (a : SpfArrays K) : spfGamma o values i j a =
      { a with gammas := fun j' t' i' => if j' = j ∧ t' < o.temperatures.length ∧ i' = i
                 then spfRow values t' else a.gammas j' t' i' } := by
  unfold spfGamma
  generalize o.temperatures.length = n
  induction n with
  | zero => simp
  | succ n ih =>
    rw [List.range_succ, List.foldl_append, ih]
    simp only [List.foldl_cons, List.foldl_nil, SpfArrays.mk.injEq, and_self, and_true]
    funext j' t' i'
    unfold spfStore
    by_cases h : j' = j ∧ t' = n ∧ i' = i
    · obtain ⟨rfl, rfl, rfl⟩ := h
      simp
    · rw [if_neg h]
      refine if_congr ?_ rfl rfl
      constructor
      · rintro ⟨h1, h2, h3⟩; exact ⟨h1, by omega, h3⟩
      · rintro ⟨h1, h2, h3⟩
        refine ⟨h1, ?_, h3⟩
        by_contra h4
        exact h ⟨h1, by omega, h3⟩

theorem spfDelta_eq (o : SpfSettings P K) (i j : Nat) (d : Nat → List (List K)) (n : Nat) :
    ∀ (a : SpfArrays K), (∀ t < n, spfShifts o (a.gammas j t i) = some (d t)) →
    (List.range n).foldlM (fun a t => (spfShifts o (a.gammas j t i)).map fun d =>
        { a with deltas := spfStore a.deltas j t i fun k => d.getD k [] }) a =
      some { a with deltas := fun j' t' i' => if j' = j ∧ t' < n ∧ i' = i
               then fun k => (d t').getD k [] else a.deltas j' t' i' } := by
  induction n with
  | zero => intro a _; simp
  | succ n ih =>
    intro a h
    rw [List.range_succ, List.foldlM_append, ih a fun t ht => h t (by omega)]
    simp only [List.foldlM_cons, List.foldlM_nil, bind, Option.bind, h n (by omega), Option.map_some, pure,
      Option.some.injEq, SpfArrays.mk.injEq, true_and, and_true]
    funext j' t' i'
    unfold spfStore
    by_cases h : j' = j ∧ t' = n ∧ i' = i
    · obtain ⟨rfl, rfl, rfl⟩ := h
      simp
    · rw [if_neg h]
      refine if_congr ?_ rfl rfl
      constructor
      · rintro ⟨h1, h2, h3⟩; exact ⟨h1, by omega, h3⟩
      · rintro ⟨h1, h2, h3⟩
        refine ⟨h1, ?_, h3⟩
        by_contra h4
        exact h ⟨h1, by omega, h3⟩

theorem spfSpectral_eq (o : SpfSettings P K) (p : P) (i j : Nat) (a : SpfArrays K) :
    spfSpectral o p i j a = { a with
      spectral := fun j' t' i' =>
        if j' = j ∧ t' < o.temperatures.length ∧ i' = i then (fun k =>
        spfValues o (o.frequency p k) (a.gammas j t' i k) (a.deltas j t' i k))
        else a.spectral j' t' i' } := by
  unfold spfSpectral
  generalize o.temperatures.length = n
  induction n with
  | zero => simp
  | succ n ih =>
    rw [List.range_succ, List.foldl_append, ih]
    simp only [List.foldl_cons, List.foldl_nil, SpfArrays.mk.injEq, true_and]
    funext j' t' i'
    unfold spfStore
    by_cases h : j' = j ∧ t' = n ∧ i' = i
    · obtain ⟨rfl, rfl, rfl⟩ := h
      simp
    · rw [if_neg h]
      refine if_congr ?_ rfl rfl
      constructor
      · rintro ⟨h1, h2, h3⟩; exact ⟨h1, by omega, h3⟩
      · rintro ⟨h1, h2, h3⟩
        refine ⟨h1, ?_, h3⟩
        by_contra h4
        exact h ⟨h1, by omega, h3⟩

theorem mapM_isSome {α β : Type} (f : α → Option β) (l : List α) (h : ∀ x ∈ l, (f x).isSome) :
    ∃ r, l.mapM f = some r ∧ ∀ (k : Nat) (x : α) (dflt : β), l[k]? = some x → some (r.getD k dflt) = f x := by
  induction l with
  | nil => exact ⟨[], rfl, by simp⟩
  | cons y l ih =>
    obtain ⟨r, hr, h2⟩ := ih fun x hx => h x (List.mem_cons_of_mem _ hx)
    obtain ⟨z, hz⟩ := Option.isSome_iff_exists.1 (h y List.mem_cons_self)
    refine ⟨z :: r, by rw [List.mapM_cons, hz, hr]; rfl, ?_⟩
    intro k x dflt hk
    cases k with
    | zero => simp only [List.getElem?_cons_zero, Option.some.injEq] at hk; subst hk; simp [hz]
    | succ k => simpa using h2 k x dflt (by simpa using hk)

/-- Rows of the computed batches are the linewidths of the specification. -/
theorem spfRow_linewidths (env : IseEnv P K S G Z A (List (Nat → K))) (o : SpfSettings P K) (p : P)
    (sigma : Option K) (ti : Nat) (t : K) (ht : o.temperatures[ti]? = some t) :
    spfRow (o.batches.map fun f => o.temperatures.map fun t => selfEnergyAt env p none (some f) sigma none t)
      ti = linewidthsOf env o p sigma t := by
  funext k
  unfold spfRow linewidthsOf
  rw [List.flatMap_map]
  congr 2
  funext f
  rw [List.getD_eq_getElem?_getD, List.getElem?_map, ht]
  rfl

/-- One smearing width. -/
theorem spfWidth_value (env : IseEnv P K S G Z A (List (Nat → K))) (o : SpfSettings P K) (p : P)
    (sigma : Option K)
    (hex : ∀ t ∈ o.temperatures, ∀ k < o.numBands, (shiftsOf env o p sigma t k).isSome)
    (i j : Nat) (a : SpfArrays K) :
    ∃ a1, spfDelta o i j (spfGamma o (o.batches.map fun f => o.temperatures.map fun t =>
        selfEnergyAt env p none (some f) sigma none t) i j a) = some a1 ∧
      (∀ ti t k, o.temperatures[ti]? = some t → k < o.numBands →
        (spfSpectral o p i j a1).gammas j ti i k = linewidthsOf env o p sigma t k ∧
        some ((spfSpectral o p i j a1).deltas j ti i k) = shiftsOf env o p sigma t k ∧
        some ((spfSpectral o p i j a1).spectral j ti i k) = spectralOf env o p sigma t k) ∧
      ∀ j' ti i', (j' ≠ j ∨ i' ≠ i) →
        (spfSpectral o p i j a1).gammas j' ti i' = a.gammas j' ti i' ∧
        (spfSpectral o p i j a1).deltas j' ti i' = a.deltas j' ti i' ∧
        (spfSpectral o p i j a1).spectral j' ti i' = a.spectral j' ti i' := by
  set values := o.batches.map fun f => o.temperatures.map fun t =>
        selfEnergyAt env p none (some f) sigma none t with hvalues
  have hsh : ∀ ti, ∃ d : List (List K), ∀ t, o.temperatures[ti]? = some t →
      spfShifts o (spfRow values ti) = some d ∧
      ∀ k < o.numBands, some (d.getD k []) = shiftsOf env o p sigma t k := by
    intro ti
    cases ht : o.temperatures[ti]? with
    | none => exact ⟨[], by simp⟩
    | some t =>
      obtain ⟨d, hd, h2⟩ := mapM_isSome (fun k => runDelta o.pi (spfRow values ti k) o.points)
        (List.range o.numBands) (by
          intro k hk
          rw [spfRow_linewidths env o p sigma ti t ht]
          exact hex t (List.mem_of_getElem? ht) k (List.mem_range.1 hk))
      refine ⟨d, ?_⟩
      intro t' ht'
      cases ht'
      refine ⟨hd, fun k hk => ?_⟩
      rw [h2 k k [] (by simp [hk]), spfRow_linewidths env o p sigma ti t ht]
      rfl
  choose d hd using hsh
  rw [spfGamma_eq]
  unfold spfDelta
  rw [spfDelta_eq o i j d o.temperatures.length _ (by
    intro ti hti
    simp only [hti, and_self, if_true]
    exact (hd ti _ (List.getElem?_eq_getElem hti)).1)]
  refine ⟨_, rfl, ?_, ?_⟩
  · intro ti t k ht hk
    have hti : ti < o.temperatures.length := (List.getElem?_eq_some_iff.1 ht).1
    rw [spfSpectral_eq]
    simp only [hti, and_self, if_true]
    have h1 := congrFun (spfRow_linewidths env o p sigma ti t ht) k
    have h2 := (hd ti t ht).2 k hk
    refine ⟨h1, h2, ?_⟩
    unfold spectralOf spectralAtBand
    have h3 : runDelta o.pi (linewidthsOf env o p sigma t k) o.batches.flatten =
        some ((d ti).getD k []) := h2.symm
    rw [h3, Option.map_some]
    rw [hvalues, h1]
    rfl
  · intro j' ti i' hne
    rw [spfSpectral_eq]
    have h : ∀ b : Prop, ¬ (j' = j ∧ b ∧ i' = i) := by
      rintro b ⟨h1, _, h3⟩
      rcases hne with h | h
      · exact h h1
      · exact h h3
    simp only [if_neg (h _), and_self]

/-- All smearing widths at a grid point. -/
theorem spfWidths_value (env : IseEnv P K S G Z A (List (Nat → K))) (o : SpfSettings P K) (p : P)
    (i : Nat) (sigmas : List (Option K)) :
    ∀ (j : Nat) (s : IseObject P K S G Z (List (Nat → K))) (a : SpfArrays K),
    (∀ sigma ∈ sigmas, ∀ t ∈ o.temperatures, ∀ k < o.numBands, (shiftsOf env o p sigma t k).isSome) →
    s.ppTriplets = some p → s.gridPoint = some p → s.triplets = some p →
    ∃ a', spfWidths env o p i j sigmas s a = some a' ∧
      (∀ n sigma ti t k, sigmas[n]? = some sigma → o.temperatures[ti]? = some t → k < o.numBands →
        a'.gammas (j + n) ti i k = linewidthsOf env o p sigma t k ∧
        some (a'.deltas (j + n) ti i k) = shiftsOf env o p sigma t k ∧
        some (a'.spectral (j + n) ti i k) = spectralOf env o p sigma t k) ∧
      ∀ j' ti i', (j' < j ∨ i' ≠ i) →
        a'.gammas j' ti i' = a.gammas j' ti i' ∧ a'.deltas j' ti i' = a.deltas j' ti i' ∧
        a'.spectral j' ti i' = a.spectral j' ti i' := by
  induction sigmas with
  | nil => intro j s a _ _ _ _; exact ⟨a, rfl, by simp, fun _ _ _ _ => ⟨rfl, rfl, rfl⟩⟩
  | cons sigma sigmas ih =>
    intro j s a hex h1 h2 h3
    let s0 : IseObject P K S G Z (List (Nat → K)) := { s with
      sigma := sigma, sigmaCutoff := some none, g := none, gZero := none, strength := none }
    have e0 : iseCall env s (.setSigma sigma none) = some s0 := rfl
    obtain ⟨s1, e1, hr⟩ := batches_value env p sigma none o.temperatures o.batches s0
      ⟨h1, h2, h3, rfl, rfl, Or.inl rfl⟩
    obtain ⟨a1, ea, hv, ho⟩ := spfWidth_value env o p sigma (hex sigma List.mem_cons_self) i j a
    obtain ⟨a', e', hv', ho'⟩ := ih (j + 1) s1 (spfSpectral o p i j a1)
      (fun x hx => hex x (List.mem_cons_of_mem _ hx)) hr.1 hr.2.1 hr.2.2.1
    refine ⟨a', ?_, ?_, ?_⟩
    · rw [spfWidths]
      simp only [e0, e1, ea, bind, Option.bind, e']
    · intro n sg ti t k hn ht hk
      cases n with
      | zero =>
        simp only [List.getElem?_cons_zero, Option.some.injEq] at hn
        subst hn
        obtain ⟨q1, q2, q3⟩ := ho' j ti i (Or.inl (by omega))
        obtain ⟨r1, r2, r3⟩ := hv ti t k ht hk
        rw [Nat.add_zero, q1, q2, q3]
        exact ⟨r1, r2, r3⟩
      | succ n =>
        have := hv' n sg ti t k (by simpa using hn) ht hk
        rw [show j + (n + 1) = j + 1 + n by omega]
        exact this
    · intro j' ti i' hne
      obtain ⟨q1, q2, q3⟩ := ho' j' ti i' (hne.imp (by omega) id)
      obtain ⟨r1, r2, r3⟩ := ho j' ti i' (hne.imp (by omega) id)
      exact ⟨q1.trans r1, q2.trans r2, q3.trans r3⟩

/-- One call of `__next__`. -/
theorem spfNext_value (env : IseEnv P K S G Z A (List (Nat → K))) (o : SpfSettings P K)
    (hex : ShiftsExist env o) (pp : Option P) (n : Nat) (hn : n < o.gridPoints.length) (a : SpfArrays K)
    (ha : HoldsFirst env o n a) :
    ∃ a', spfNext env o pp ⟨some n, some a⟩ = some (⟨some (n + 1), some a'⟩, some o.gridPoints[n]) ∧
      HoldsFirst env o (n + 1) a' := by
  let p := o.gridPoints[n]
  have hp : o.gridPoints[n]? = some p := List.getElem?_eq_getElem hn
  let s0 : IseObject P K S G Z (List (Nat → K)) := { (iseNew pp : IseObject P K S G Z (List (Nat → K))) with
    ppTriplets := some p, triplets := some p, gridPoint := some p, strength := some (env.strengths p none) }
  obtain ⟨a', e, hv, ho⟩ := spfWidths_value env o p n o.sigmas 0 s0 a
    (fun sigma hs t ht k hk => hex p (List.mem_of_getElem? hp) sigma hs t ht k hk) rfl rfl rfl
  refine ⟨a', ?_, ?_, ?_⟩
  · unfold spfNext
    have e' : spfWidths env o p n 0 o.sigmas s0 a = some a' := e
    have e0 : iseCall env (iseNew pp) (.setGridPoint (some p)) = some
        { (iseNew pp : IseObject P K S G Z (List (Nat → K))) with
          ppTriplets := some p, triplets := some p, gridPoint := some p, strength := none } := rfl
    have e1 : iseCall env { (iseNew pp : IseObject P K S G Z (List (Nat → K))) with
          ppTriplets := some p, triplets := some p, gridPoint := some p, strength := none }
        (.runInteraction true) = some s0 := rfl
    simp only [bind, Option.bind, hp, e0, e1, e']
    rfl
  · intro i q j sigma ti t k hi hq hs ht hk
    by_cases hin : i = n
    · subst hin
      have : q = p := Option.some.inj (hq.symm.trans hp)
      subst this
      have := hv j sigma ti t k hs ht hk
      rwa [Nat.zero_add] at this
    · obtain ⟨q1, q2, q3⟩ := ho j ti i (Or.inr hin)
      obtain ⟨r1, r2, r3⟩ := ha.first i q j sigma ti t k (by omega) hq hs ht hk
      rw [q1, q2, q3]
      exact ⟨r1, r2, r3⟩
  · intro i j ti k hi
    obtain ⟨q1, q2, q3⟩ := ho j ti i (Or.inr (by omega))
    rw [q1, q2, q3]
    exact ha.later i j ti k (by omega)

theorem spfNexts_value (env : IseEnv P K S G Z A (List (Nat → K))) (o : SpfSettings P K)
    (hex : ShiftsExist env o) (pps : List (Option P)) : ∀ (n : Nat) (a : SpfArrays K),
    n + pps.length ≤ o.gridPoints.length → HoldsFirst env o n a →
    ∃ a', spfNexts env o pps ⟨some n, some a⟩ = some (⟨some (n + pps.length), some a'⟩,
        ((o.gridPoints.drop n).take pps.length).map some) ∧
      HoldsFirst env o (n + pps.length) a' := by
  induction pps with
  | nil => intro n a _ ha; exact ⟨a, by simp [spfNexts], ha⟩
  | cons pp pps ih =>
    intro n a hn ha
    rw [List.length_cons] at hn
    obtain ⟨a1, e1, h1⟩ := spfNext_value env o hex pp n (by omega) a ha
    obtain ⟨a2, e2, h2⟩ := ih (n + 1) a1 (by omega) h1
    refine ⟨a2, ?_, ?_⟩
    · rw [spfNexts, e1]
      simp only [bind, Option.bind, e2, List.length_cons]
      rw [List.drop_eq_getElem_cons (show n < o.gridPoints.length by omega), List.take_succ_cons,
        List.map_cons, show n + 1 + pps.length = n + (pps.length + 1) by omega]
    · rw [List.length_cons, show n + (pps.length + 1) = n + 1 + pps.length by omega]
      exact h2

/-- C170: begun again from any state, after the first `n` steps of the iteration the grid points returned are the
first `n` ones, and the arrays hold the values of these grid points for all smearing widths, temperatures and bands,
each as calculated alone, and zeros otherwise; whatever the `Interaction` object was used for in between. -/
theorem C170_steps (env : IseEnv P K S G Z A (List (Nat → K))) (o : SpfSettings P K)
    (hex : ShiftsExist env o) (pps : List (Option P)) (hn : pps.length ≤ o.gridPoints.length) :
    ∃ a, spfNexts env o pps (spfPrepare o) = some (⟨some pps.length, some a⟩,
        (o.gridPoints.take pps.length).map some) ∧ HoldsFirst env o pps.length a := by
  have h := spfNexts_value env o hex pps 0
    ⟨fun _ _ _ _ => List.replicate o.points.length 0, fun _ _ _ _ => List.replicate o.points.length 0,
      fun _ _ _ _ => List.replicate o.points.length 0⟩ (by omega)
    ⟨fun i _ _ _ _ _ _ h => absurd h (Nat.not_lt_zero i), fun _ _ _ _ _ => ⟨rfl, rfl, rfl⟩⟩
  rw [Nat.zero_add, List.drop_zero] at h
  exact h

/-- C170: the iteration ends after the last grid point, without a change, as often as it is asked for more. -/
theorem C170_ends (env : IseEnv P K S G Z A (List (Nat → K))) (o : SpfSettings P K) (pps : List (Option P))
    (n : Nat) (hn : o.gridPoints.length ≤ n) (a : SpfArrays K) :
    spfNexts env o pps ⟨some n, some a⟩ = some (⟨some n, some a⟩, pps.map fun _ => none) := by
  induction pps with
  | nil => rfl
  | cons pp pps ih =>
    have e : spfNext env o pp ⟨some n, some a⟩ = some (⟨some n, some a⟩, none) := by
      unfold spfNext
      simp only [bind, Option.bind, List.getElem?_eq_none hn]
    rw [spfNexts, e]
    simp only [bind, Option.bind, ih, List.map_cons]

/-- C170: `run`: all values, for every grid point. -/
theorem C170_run (env : IseEnv P K S G Z A (List (Nat → K))) (o : SpfSettings P K)
    (hex : ShiftsExist env o) (pps : List (Option P)) (hn : pps.length = o.gridPoints.length)
    (last : Option P) :
    ∃ a, spfNexts env o (pps ++ [last]) (spfPrepare o) =
        some (⟨some o.gridPoints.length, some a⟩, o.gridPoints.map some ++ [none]) ∧
      ∀ i p j sigma ti t k, o.gridPoints[i]? = some p → o.sigmas[j]? = some sigma →
        o.temperatures[ti]? = some t → k < o.numBands →
        a.gammas j ti i k = linewidthsOf env o p sigma t k ∧
        some (a.deltas j ti i k) = shiftsOf env o p sigma t k ∧
        some (a.spectral j ti i k) = spectralOf env o p sigma t k := by
  obtain ⟨a, e, h⟩ := C170_steps env o hex pps hn.le
  have happ : ∀ (l r : List (Option P)) (s : SpfObject K), spfNexts env o (l ++ r) s =
      (spfNexts env o l s).bind fun q => (spfNexts env o r q.1).map fun w => (w.1, q.2 ++ w.2) := by
    intro l r
    induction l with
    | nil => intro s; simp [spfNexts]
    | cons x l ih =>
      intro s
      rw [List.cons_append, spfNexts, spfNexts]
      cases spfNext env o x s with
      | none => rfl
      | some u =>
        simp only [bind, Option.bind, ih]
        cases spfNexts env o l u.1 with
        | none => rfl
        | some v =>
          simp only
          cases spfNexts env o r v.1 with
          | none => rfl
          | some w => rfl
  refine ⟨a, ?_, ?_⟩
  · rw [happ, e, Option.bind_some, C170_ends env o [last] _ (by omega) a, hn]
    simp
  · intro i p j sigma ti t k hp hs ht hk
    exact h.first i p j sigma ti t k (by rw [hn]; exact (List.getElem?_eq_some_iff.1 hp).1) hp hs ht hk

/-- C170: without `__iter__` there is an exception. -/
theorem C170_not_begun (env : IseEnv P K S G Z A (List (Nat → K))) (o : SpfSettings P K) (pp : Option P) :
    spfNext env o pp ⟨none, none⟩ = none := rfl

/-- C170: the division into batches does not matter if the self-energy at a frequency point does not depend on the
other points of its batch (C29_each_point, C29_tetrahedron). -/
theorem C170_batches (env : IseEnv P K S G Z A (List (Nat → K))) (o : SpfSettings P K)
    (value : P → Option K → K → K → Nat → K)
    (hpoint : ∀ p f sigma t, selfEnergyAt env p none (some f) sigma none t = f.map (value p sigma t))
    (p : P) (sigma : Option K) (t : K) (k : Nat) :
    linewidthsOf env o p sigma t k = o.points.map fun f => value p sigma t f k := by
  unfold linewidthsOf SpfSettings.points
  simp only [hpoint, List.flatMap_def, List.map_flatten, List.map_map]
  refine congrArg (fun g => (List.map g o.batches).flatten) ?_
  funext f
  simp only [Function.comp_apply, List.map_map]
  rfl

end

section Examples

/-- Routines whose result at a frequency point tells grid point, strengths, width and temperature. -/
def toySpfEnv : IseEnv Nat ℚ ℚ ℚ ℚ ℚ (List (Nat → ℚ)) where
  strengths p _ := 10 * p
  weights _ _ _ sigma _ := (sigma.getD 7, 0)
  eventClass _ g := g
  fromAverages _ a := a
  averages _ v := v
  result p v g _ f t := (f.getD []).map fun x k => x * (p + v + g + 1000 * t + 3 * k)
  degenerate _ v := v

/-- Two grid points, two widths, two temperatures and two bands at three frequency points in two batches. -/
def toySpf : SpfSettings Nat ℚ where
  gridPoints := [4, 5]
  sigmas := [none, some 2]
  temperatures := [3, 8]
  batches := [[0, 1], [2]]
  numBands := 2
  frequency p k := p + k
  pi := 3

/-- The hypotheses of C170_steps and C170_run are met. -/
theorem toySpf_shifts : ShiftsExist toySpfEnv toySpf := by
  unfold ShiftsExist
  decide +kernel

example : ∃ a, spfNexts toySpfEnv toySpf [none, some 9, some 4] (spfPrepare toySpf) =
      some (⟨some 2, some a⟩, [some 4, some 5, none]) ∧
    a.gammas 1 0 1 1 = [0, 3060, 6120] := by
  obtain ⟨a, e, h⟩ := C170_run toySpfEnv toySpf toySpf_shifts [none, some 9] rfl (some 4)
  refine ⟨a, e, ?_⟩
  rw [(h 1 5 1 (some 2) 0 3 1 rfl rfl rfl (by decide)).1]
  decide +kernel

/-- The hypothesis of C170_batches is met. -/
example (p : Nat) (sigma : Option ℚ) (t : ℚ) (k : Nat) :
    linewidthsOf toySpfEnv toySpf p sigma t k =
      [0, 1, 2].map fun x : ℚ => x * (p + 10 * p + sigma.getD 7 + 1000 * t + 3 * k) :=
  C170_batches toySpfEnv toySpf (fun p sigma t x k => x * (p + 10 * p + sigma.getD 7 + 1000 * t + 3 * k))
    (fun _ _ _ _ => rfl) p sigma t k

end Examples
end Phono3py.Props
