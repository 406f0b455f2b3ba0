/-
C146, C147: results of `ImagSelfEnergy` objects after any history of calls, and linewidths of
conductivity runs whatever the way interaction strengths are obtained.
-/
import Verif.Lemmas.IseObject
import Verif.Model.IseRoutines
import Verif.Props.PPCollision
import Verif.Props.Bands

set_option linter.unusedSectionVars false

namespace Phono3py.Props
open Phono3py Phono3py.Spec

section
variable {P K S G Z A V : Type}

/-! ## C146 -/

/-- C146: the history ends with `run`; after the grid point `p` was set, neither this object nor
another one with the same `Interaction` object was given a grid point; the integration weights were
computed (for event class `cls` or both) after the last change of the settings; interaction
strengths that were supplied or calculated in part before that were dropped. Then the result is that of
`p` and of the frequency points, the smearing width and the temperature given last, from all
interaction strengths. -/
theorem C146_current_partial (env : IseEnv P K S G Z A V) (hskip : SkippingHarmless env)
    (pp : Option P) (before middle after : List (IseCall P K S Z A)) (p : P) (cls : Option Nat)
    (hgrid : ∀ c ∈ middle, ¬SetsGridPoint c)
    (hdrop : ∃ a r b, .setGridPoint (some p) :: middle = a ++ r :: b ∧ DropsStrengths r ∧
      ∀ c ∈ b, ¬BringsStrengths c)
    (hafter : ∀ c ∈ after, OnlyCalculates c)
    (s : IseObject P K S G Z V)
    (h : iseCalls env (iseNew pp) (before ++ .setGridPoint (some p) :: middle ++
      .runIntegrationWeights cls :: after ++ [.run]) = some s) :
    let calls := before ++ .setGridPoint (some p) :: middle ++
      .runIntegrationWeights cls :: after ++ [.run]
    ∃ sigma cutoff t, lastGiven sigmaGiven calls = some (sigma, cutoff) ∧
      lastGiven temperatureGiven calls = some (some t) ∧
      iseValue env s = some (selfEnergyAt env p cls ((lastGiven pointsGiven calls).getD none)
        sigma cutoff t) := by
  intro calls
  have hset := iseCalls_settings h
  rw [iseCalls_append, iseCalls_append, iseCalls_append] at h
  cases h1 : iseCalls env (iseNew pp) before with
  | none => rw [h1] at h; cases h
  | some s1 =>
  rw [h1, Option.bind_some] at h
  cases h2 : iseCalls env s1 (.setGridPoint (some p) :: middle) with
  | none => rw [h2] at h; cases h
  | some s2 =>
  rw [h2, Option.bind_some, iseCalls_cons] at h
  cases h3 : iseCall env s2 (.runIntegrationWeights cls) with
  | none => rw [h3] at h; cases h
  | some s3 =>
  rw [h3, Option.bind_some] at h
  cases h4 : iseCalls env s3 after with
  | none => rw [h4] at h; cases h
  | some s4 =>
  rw [h4, Option.bind_some, iseCalls_cons] at h
  cases h5 : iseCall env s4 .run with
  | none => rw [h5] at h; cases h
  | some s5 =>
  rw [h5, Option.bind_some] at h
  cases h
  -- grid points
  have grid : ∀ (l : List (IseCall P K S Z A)) {u : IseObject P K S G Z V},
      (∀ c ∈ l, ¬SetsGridPoint c) →
      iseCalls env s1 (.setGridPoint (some p) :: l) = some u →
      u.ppTriplets = some p ∧ u.gridPoint = some p ∧ u.triplets = some p := by
    intro l u hl hu
    rw [iseCalls_cons] at hu
    exact iseCalls_grid hl hu
  obtain ⟨gp, gg, gt⟩ := grid middle hgrid h2
  -- strengths before the weights are computed
  have hstr : NoneOrFull env p s2 := by
    obtain ⟨a, r, b, he, hr, hb⟩ := hdrop
    rw [he, iseCalls_append] at h2
    cases ha : iseCalls env s1 a with
    | none => rw [ha] at h2; cases h2
    | some ua =>
    rw [ha, Option.bind_some, iseCalls_cons] at h2
    cases hc : iseCall env ua r with
    | none => rw [hc] at h2; cases h2
    | some ur =>
    rw [hc, Option.bind_some] at h2
    have hnone := dropped hr hc
    cases a with
    | nil =>
      rw [List.nil_append] at he
      obtain ⟨rfl, rfl⟩ := List.cons.inj he
      cases hc
      exact noneOrFull_calls hgrid hb rfl (Or.inl hnone) h2
    | cons d a =>
      rw [List.cons_append] at he
      obtain ⟨rfl, hm⟩ := List.cons.inj he
      have hga : ∀ c ∈ a, ¬SetsGridPoint c := fun c hc => hgrid c (by rw [hm]; simp [hc])
      have hgr : ¬SetsGridPoint r := hgrid r (by rw [hm]; simp)
      have hgb : ∀ c ∈ b, ¬SetsGridPoint c := fun c hc => hgrid c (by rw [hm]; simp [hc])
      have gua := grid a hga ha
      have gur := (iseCall_grid hgr hc).1.trans gua.1
      exact noneOrFull_calls hgb hb gur (Or.inl hnone) h2
  -- weights
  obtain ⟨q, c, q', hq, hcut, hq', hs3⟩ := iseRunWeights_eq h3
  rw [gp] at hq; cases hq
  have hqp : q' = p := by
    unfold iseBandsOf at hq'
    rw [gg, ite_self] at hq'; exact (Option.some.inj hq').symm
  subst hqp
  have hus : Usable env q' s3 := Or.inl (by subst hs3; exact hstr)
  have hpp3 : s3.ppTriplets = some q' := by subst hs3; exact gp
  have hz3 : s3.gZero = some (env.weights q' q' s2.points s2.sigma c).2 := by subst hs3; rfl
  obtain ⟨hu4, hg4, hz4⟩ := onlyCalculates_calls hafter hpp3 hz3 hus h4
  have gr4 := iseCalls_grid (fun c hc => onlyCalculates_grid (hafter c hc)) h4
  have set4 := iseCalls_settings h4
  have nop : lastGiven pointsGiven after = none ∧ lastGiven sigmaGiven after = none := by
    unfold lastGiven
    constructor <;> rw [List.findSome?_eq_none_iff] <;> intro x hx <;>
      have := hafter x (List.mem_reverse.1 hx) <;> cases x <;> first | rfl | exact absurd this id
  rw [nop.1, nop.2] at set4
  obtain ⟨v, g, pr, t, eg, ep, et, ev, rfl⟩ := iseRun_eq h5
  have ep3 : s3.triplets = some q' := by subst hs3; exact gt
  have ep4 : s4.triplets = some q' := gr4.2.2.trans ep3
  rw [ep4] at ep; cases ep
  have eg3 : s3.g = some (iseEventClass env cls (env.weights q' q' s2.points s2.sigma c).1) := by
    subst hs3; rfl
  rw [hg4, eg3] at eg; cases eg
  have pts4 : s4.points = s2.points := by
    have : s3.points = s2.points := by subst hs3; rfl
    exact set4.1.trans this
  have sig4 : s4.sigma = s2.sigma ∧ s4.sigmaCutoff = some c := by
    have a : s3.sigma = s2.sigma ∧ s3.sigmaCutoff = some c := by subst hs3; exact ⟨rfl, hcut⟩
    exact ⟨set4.2.2.1.trans a.1, set4.2.2.2.trans a.2⟩
  obtain ⟨t1, t2, t3, t4⟩ := hset
  simp only at t1 t2 t3 t4
  have hsig : lastGiven sigmaGiven calls = some (s2.sigma, c) := by
    change _ = ((lastGiven sigmaGiven calls).map fun x => some x.2).getD none at t4
    change _ = ((lastGiven sigmaGiven calls).map Prod.fst).getD none at t3
    rw [sig4.2] at t4
    rw [sig4.1] at t3
    cases hl : lastGiven sigmaGiven calls with
    | none => rw [hl] at t4; cases t4
    | some x =>
      rw [hl] at t3 t4
      simp only [Option.map_some, Option.getD_some, Option.some.injEq] at t3 t4
      rw [t3, t4]
  refine ⟨s2.sigma, c, t, hsig, ?_, ?_⟩
  · change s4.temperature = (lastGiven temperatureGiven calls).getD none at t2
    rw [et] at t2
    cases hl : lastGiven temperatureGiven calls with
    | none => rw [hl] at t2; cases t2
    | some x => rw [hl] at t2; rw [show x = some t from t2.symm]
  · change s4.points = (lastGiven pointsGiven calls).getD none at t1
    have eg4 : s4.gridPoint = some q' := by
      have : s3.gridPoint = some q' := by subst hs3; exact gg
      exact gr4.2.1.trans this
    unfold iseValue
    simp only [eg4, bind, Option.bind]
    unfold selfEnergyAt selfEnergyWith
    rw [← t1, pts4, hz4, hz3]
    congr 2
    rcases ev with ev | ⟨_, q, hq, rfl⟩
    · rcases hu4 with (hs | hs) | ⟨hpt, z', hz', hs⟩
      · rw [hs] at ev; cases ev
      · rw [hs] at ev; cases ev; rfl
      · rw [hs] at ev; cases ev
        rw [hz4, hz3] at hz'; cases hz'
        rw [pts4] at hpt
        rw [hpt]
        exact hskip q' s2.sigma c cls t
    · rw [gr4.1, hpp3] at hq; cases hq; rfl

/-- C146 (the restriction on `middle` matters): after `set_grid_point` the integration weights of the
former grid point are used without a complaint. -/
theorem C146_stale_weights (env : IseEnv P K S G Z A V) (pp : Option P) (p q : P)
    (sigma cutoff : Option K) (t : K) :
    (iseCalls env (iseNew pp) [.setGridPoint (some p), .setSigma sigma cutoff,
      .runIntegrationWeights none, .setTemperature (some t), .run, .setGridPoint (some q),
      .run]).bind (iseValue env) =
    let w := env.weights p p none sigma cutoff
    some (env.degenerate q (env.result q (env.strengths q none) w.1 (some w.2) none t)) := rfl

/-- C146: so they are after new frequency points are given. -/
theorem C146_stale_points (env : IseEnv P K S G Z A V) (pp : Option P) (p : P)
    (sigma cutoff : Option K) (t : K) (f f' : List K) :
    (iseCalls env (iseNew pp) [.setGridPoint (some p), .setSigma sigma cutoff,
      .setFrequencyPoints (some f), .runIntegrationWeights none, .setTemperature (some t),
      .setFrequencyPoints (some f'), .run]).bind (iseValue env) =
    let w := env.weights p p (some f) sigma cutoff
    some (env.degenerate p (env.result p (env.strengths p none) w.1 (some w.2) (some f') t)) := rfl

/-- C146: interaction strengths calculated in part after `set_grid_point` leave out what the flags of
the former grid point say; they stay when the weights of the new one are computed. -/
theorem C146_stale_flags (env : IseEnv P K S G Z A V) (pp : Option P) (p q : P)
    (sigma cutoff : Option K) (t : K) :
    (iseCalls env (iseNew pp) [.setGridPoint (some p), .setSigma sigma cutoff,
      .runIntegrationWeights none, .setGridPoint (some q), .runInteraction false,
      .runIntegrationWeights none, .setTemperature (some t), .run]).bind (iseValue env) =
    some (selfEnergyWith env (env.strengths q (some (env.weights p p none sigma cutoff).2)) q none
      none sigma cutoff t) := rfl

/-- C146: interaction strengths calculated in part for the band frequencies are used for frequency
points given later. -/
theorem C146_partial_strengths (env : IseEnv P K S G Z A V) (pp : Option P) (p : P)
    (sigma cutoff : Option K) (t : K) (f : List K) :
    (iseCalls env (iseNew pp) [.setGridPoint (some p), .setSigma sigma cutoff,
      .runIntegrationWeights none, .runInteraction false, .setFrequencyPoints (some f),
      .runIntegrationWeights none, .setTemperature (some t), .run]).bind (iseValue env) =
    some (selfEnergyWith env (env.strengths p (some (env.weights p p none sigma cutoff).2)) p none
      (some f) sigma cutoff t) := rfl

/-- C146: two objects with one `Interaction` object: when the other one was given the grid point `q`
last, strengths and weights of `q` are combined with the triplets of `p`. -/
theorem C146_shared (env : IseEnv P K S G Z A V) (pp : Option P) (p q : P)
    (sigma cutoff : Option K) (t : K) :
    (iseCalls env (iseNew pp) [.setGridPoint (some p), .otherObject q, .setSigma sigma cutoff,
      .runIntegrationWeights none, .setTemperature (some t), .run]).bind (iseValue env) =
    let w := env.weights q p none sigma cutoff
    some (env.degenerate p (env.result p (env.strengths q none) w.1 (some w.2) none t)) := rfl

/-- C146: the value shown after `set_grid_point` is the former one, averaged over the degenerate bands
of the new grid point. -/
theorem C146_stale_value (env : IseEnv P K S G Z A V) (s : IseObject P K S G Z V) (p : P) (v : V)
    (hv : s.value = some v) :
    (iseCalls env s [.setGridPoint (some p)]).bind (iseValue env) = some (env.degenerate p v) := by
  change iseValue env _ = _
  simp only [iseValue, hv, bind, Option.bind]

/-- C146: no result without integration weights: whatever came before, `set_sigma` and
`delete_integration_weights` make `run` fail until the weights are computed again. -/
theorem C146_needs_weights (env : IseEnv P K S G Z A V) (s : IseObject P K S G Z V)
    (d : IseCall P K S Z A) (hd : (∃ a b, d = .setSigma a b) ∨ d = .deleteWeights)
    (h : List (IseCall P K S Z A)) (hh : ∀ c ∈ h, ∀ k, c ≠ .runIntegrationWeights k) :
    iseCalls env s (d :: h ++ [.run]) = none := by
  have key : ∀ (h : List (IseCall P K S Z A)) (u u' : IseObject P K S G Z V),
      (∀ c ∈ h, ∀ k, c ≠ .runIntegrationWeights k) → u.g = none →
      iseCalls env u h = some u' → u'.g = none := by
    intro h
    induction h with
    | nil => intro u u' _ hg e; cases e; exact hg
    | cons c h ih =>
      intro u u' hn hg e
      rw [iseCalls_cons] at e
      cases hc : iseCall env u c with
      | none => rw [hc] at e; cases e
      | some w =>
        rw [hc] at e
        refine ih w u' (fun d hd => hn d (List.mem_cons_of_mem _ hd)) ?_ e
        cases c with
        | setGridPoint p => cases p <;> (cases hc; exact hg)
        | setSigma σ c => cases hc; rfl
        | setFrequencyPoints f => cases hc; exact hg
        | setTemperature t => cases hc; exact hg
        | runInteraction b => obtain ⟨p, _, rfl⟩ := iseRunInteraction_eq hc; exact hg
        | runIntegrationWeights b => exact absurd rfl (hn _ List.mem_cons_self b)
        | setAveraged a =>
          cases ht : u.triplets with
          | none => simp only [iseCall, ht] at hc; cases hc
          | some p => simp only [iseCall, ht] at hc; cases hc; exact hg
        | setStrength v z => cases hc; exact hg
        | deleteWeights => cases hc; rfl
        | run => obtain ⟨v, g, p, t, hg', _⟩ := iseRun_eq hc; rw [hg] at hg'; cases hg'
        | otherObject p => cases hc; exact hg
  rw [List.cons_append, iseCalls_cons]
  have hd' : ∃ u, iseCall env s d = some u ∧ u.g = none := by
    rcases hd with ⟨a, b, rfl⟩ | rfl
    · exact ⟨_, rfl, rfl⟩
    · exact ⟨_, rfl, rfl⟩
  obtain ⟨u, hu, hg⟩ := hd'
  rw [hu, Option.bind_some, iseCalls_append]
  cases he : iseCalls env u h with
  | none => rfl
  | some u' =>
    have := key h u u' hh hg he
    rw [Option.bind_some, iseCalls_cons]
    cases hr : iseCall env u' .run with
    | none => rfl
    | some w => obtain ⟨v, g, p, t, hg', _⟩ := iseRun_eq hr; rw [this] at hg'; cases hg'

/-! ## C147 -/

/-- The object stands at grid point `p` and computes at band frequencies. -/
def StandsAt (p : P) (s : IseObject P K S G Z V) : Prop :=
  s.ppTriplets = some p ∧ s.gridPoint = some p ∧ s.triplets = some p ∧ s.points = none

/-- `run` finds the weights `g`, the flags `z` and the strengths `v`. -/
def Finds (env : IseEnv P K S G Z A V) (p : P) (g : G) (z : Z) (v : S)
    (s : IseObject P K S G Z V) : Prop :=
  StandsAt p s ∧ s.g = some g ∧ s.gZero = some z ∧
    (s.strength = some v ∨ s.strength = none ∧ v = env.strengths p none)

theorem gammaTemperatures_value (env : IseEnv P K S G Z A V) (p : P) (g : G) (z : Z) (v : S)
    (ts : List K) : ∀ s : IseObject P K S G Z V, Finds env p g z v s →
    ∃ s', gammaTemperatures env ts s =
      some (s', ts.map fun t => env.degenerate p (env.result p v g (some z) none t)) ∧
      Finds env p g z v s' := by
  induction ts with
  | nil => intro s h; exact ⟨s, rfl, h⟩
  | cons t ts ih =>
    rintro ⟨a1, a2, a3, a4, a5, a6, a7, a8, a9, a10, a11⟩ ⟨⟨h1, h2, h3, h4⟩, hg, hz, hv⟩
    simp only at h1 h2 h3 h4 hg hz hv
    subst h1 h2 h3 h4 hg hz
    let s : IseObject P K S G Z V := ⟨some p, some p, some p, a4, a5, none, a7, a8, some g, some z, a11⟩
    let s2 : IseObject P K S G Z V := { s with
      temperature := some t, strength := some v, value := some (env.result p v g (some z) none t) }
    have hrun : iseRun env { s with temperature := some t } = some s2 := by
      rcases hv with rfl | ⟨rfl, rfl⟩ <;> rfl
    have hval : iseValue env s2 = some (env.degenerate p (env.result p v g (some z) none t)) := rfl
    obtain ⟨s', e, hf⟩ := ih s2 ⟨⟨rfl, rfl, rfl, rfl⟩, rfl, rfl, Or.inl rfl⟩
    refine ⟨s', ?_, hf⟩
    unfold gammaTemperatures
    change ((iseRun env { s with temperature := some t }).bind fun s => _) = _
    rw [hrun]
    change ((iseValue env s2).bind fun v => _) = _
    rw [hval]
    change ((gammaTemperatures env ts s2).bind fun r => _) = _
    rw [e]
    rfl

/-- The object after `set_sigma` and `run_integration_weights`. -/
theorem sigma_weights (env : IseEnv P K S G Z A V) {p : P} {s : IseObject P K S G Z V}
    (h : StandsAt p s) (sigma cutoff : Option K) :
    ∃ s1 s2, iseCall env s (.setSigma sigma cutoff) = some s1 ∧
      iseCall env s1 (.runIntegrationWeights none) = some s2 ∧ StandsAt p s2 ∧
      s2.strength = none ∧ s2.g = some (env.weights p p none sigma cutoff).1 ∧
      s2.gZero = some (env.weights p p none sigma cutoff).2 := by
  obtain ⟨a1, a2, a3, a4, a5, a6, a7, a8, a9, a10, a11⟩ := s
  obtain ⟨h1, h2, h3, h4⟩ := h
  simp only at h1 h2 h3 h4
  subst h1 h2 h3 h4
  let s : IseObject P K S G Z V := ⟨some p, some p, some p, a4, a5, none, a7, a8, a9, a10, a11⟩
  let w := env.weights p p none sigma cutoff
  exact ⟨_, { s with sigma := sigma, sigmaCutoff := some cutoff, strength := none, g := some w.1,
                     gZero := some w.2 }, rfl, rfl, ⟨rfl, rfl, rfl, rfl⟩, rfl, rfl, rfl⟩

/-- Strengths for a smearing width that are good enough: all of them, or those that the flags of
the weights do not leave out. -/
def GoodStrengths (env : IseEnv P K S G Z A V) (p : P) (sigma cutoff : Option K) (v : S) : Prop :=
  v = env.strengths p none ∨
    v = env.strengths p (some (env.weights p p none sigma cutoff).2)

theorem goodStrengths_value {env : IseEnv P K S G Z A V} (hskip : SkippingHarmless env) {p : P}
    {sigma cutoff : Option K} {v : S} (h : GoodStrengths env p sigma cutoff v) (t : K) :
    env.degenerate p (env.result p v (env.weights p p none sigma cutoff).1
      (some (env.weights p p none sigma cutoff).2) none t) =
    selfEnergyAt env p none none sigma cutoff t := by
  rcases h with rfl | rfl
  · rfl
  · exact congrArg (env.degenerate p) (hskip p sigma cutoff none t)

/-- What a run gives for smearing widths and temperatures. -/
def gammasOf (env : IseEnv P K S G Z A V) (o : GammaOptions P K S Z A) (p : P) (v : S)
    (sigmas : List (Option K)) : List (List V) :=
  sigmas.map fun sigma => o.temperatures.map fun t =>
    selfEnergyWith env v p none none sigma o.sigmaCutoff t

variable [DecidableEq Z]

theorem rtaSigmas_value {env : IseEnv P K S G Z A V} (o : GammaOptions P K S Z A) (p : P)
    (value : Option K → K → V) (keep : Nat → A → A)
    (H : ∀ (j : Nat) (sigma : Option K) (ave : A) (s : IseObject P K S G Z V), sigma ∈ o.sigmas →
      StandsAt p s → s.strength = none →
      s.g = some (env.weights p p none sigma o.sigmaCutoff).1 →
      s.gZero = some (env.weights p p none sigma o.sigmaCutoff).2 →
      ∃ s' v, rtaStrengths env o p j sigma s ave = some (s', keep j ave) ∧
        Finds env p (env.weights p p none sigma o.sigmaCutoff).1
          (env.weights p p none sigma o.sigmaCutoff).2 v s' ∧
        ∀ t, env.degenerate p (env.result p v (env.weights p p none sigma o.sigmaCutoff).1
          (some (env.weights p p none sigma o.sigmaCutoff).2) none t) = value sigma t)
    (sigmas : List (Option K)) (hsub : ∀ x ∈ sigmas, x ∈ o.sigmas) :
    ∀ (j : Nat) (ave : A) (s : IseObject P K S G Z V), StandsAt p s →
    ∃ s', rtaSigmas env o p j sigmas s ave =
      some (s', (List.range' j sigmas.length).foldl (fun a i => keep i a) ave,
        sigmas.map fun sigma => o.temperatures.map (value sigma)) ∧ StandsAt p s' := by
  induction sigmas with
  | nil => intro j ave s h; exact ⟨s, rfl, h⟩
  | cons sigma sigmas ih =>
    intro j ave s h
    obtain ⟨s1, s2, e1, e2, hat, hn, hg, hz⟩ := sigma_weights env h sigma o.sigmaCutoff
    obtain ⟨s3, v, e3, hf, hv⟩ := H j sigma ave s2 (hsub _ List.mem_cons_self) hat hn hg hz
    obtain ⟨s4, e4, hf4⟩ := gammaTemperatures_value env p _ _ v o.temperatures s3 hf
    obtain ⟨s5, e5, h5⟩ := ih (fun x hx => hsub x (List.mem_cons_of_mem _ hx)) (j + 1) (keep j ave)
      s4 hf4.1
    refine ⟨s5, ?_, h5⟩
    rw [rtaSigmas]
    simp only [e1, e2, e3, e4, e5, bind, Option.bind, List.map_cons, List.length_cons,
      List.range'_succ, List.foldl_cons, hv]

theorem foldl_const {A : Type} (a : A) (n : Nat) :
    ∀ j, (List.range' j n).foldl (fun x _ => x) a = a := by
  induction n with
  | zero => intro j; rfl
  | succ n ih => intro j; rw [List.range'_succ, List.foldl_cons]; exact ih (j + 1)

theorem foldl_first {A : Type} (a b : A) (n : Nat) :
    ∀ j, 0 < j → (List.range' j n).foldl (fun x i => if i = 0 then b else x) a = a := by
  induction n with
  | zero => intro j _; rfl
  | succ n ih =>
    intro j hj
    rw [List.range'_succ, List.foldl_cons, if_neg (by omega)]; exact ih (j + 1) (by omega)

/-- C147: from any state of the object, the linewidths of grid point `p` in the relaxation time
approximation are those of `p`, of each smearing width with the cutoff and of each temperature from
all interaction strengths, whether or not all strengths are calculated (`is_full_pp`) and whatever
the other smearing widths are. The averaged strengths are stored when all are calculated. -/
theorem C147_gamma (env : IseEnv P K S G Z A V) (hskip : SkippingHarmless env)
    (o : GammaOptions P K S Z A) (hread : o.readPP = false) (have_ : o.useAverages = false)
    (hconst : o.constant = false) (p : P) (s : IseObject P K S G Z V) (hs : s.points = none)
    (ave : A) :
    ∃ s', rtaGridPoint env o p s ave = some (s',
      if o.isFullPP = true ∧ o.sigmas ≠ [] then env.averages p (env.strengths p none) else ave,
      o.sigmas.map fun sigma => o.temperatures.map fun t =>
        selfEnergyAt env p none none sigma o.sigmaCutoff t) ∧ s'.points = none := by
  have H : ∀ (j : Nat) (sigma : Option K) (ave : A) (s : IseObject P K S G Z V), sigma ∈ o.sigmas →
      StandsAt p s → s.strength = none →
      s.g = some (env.weights p p none sigma o.sigmaCutoff).1 →
      s.gZero = some (env.weights p p none sigma o.sigmaCutoff).2 →
      ∃ s' v, rtaStrengths env o p j sigma s ave = some (s',
          if o.isFullPP = true ∧ j = 0 then env.averages p (env.strengths p none) else ave) ∧
        Finds env p (env.weights p p none sigma o.sigmaCutoff).1
          (env.weights p p none sigma o.sigmaCutoff).2 v s' ∧
        ∀ t, env.degenerate p (env.result p v (env.weights p p none sigma o.sigmaCutoff).1
          (some (env.weights p p none sigma o.sigmaCutoff).2) none t) =
          selfEnergyAt env p none none sigma o.sigmaCutoff t := by
    intro j sigma ave s _ hat hn hg hz
    have hat' := hat
    obtain ⟨h1, h2, h3, h4⟩ := hat
    unfold rtaStrengths
    simp only [hread, have_, hconst, Bool.false_eq_true, if_false]
    by_cases hj : (decide (j ≠ 0) && (o.isFullPP || o.sigmaCutoff.isNone)) = true
    · rw [if_pos hj]
      have hj0 : j ≠ 0 := by
        rw [Bool.and_eq_true, decide_eq_true_eq] at hj; exact hj.1
      refine ⟨s, env.strengths p none, ?_, ⟨hat', hg, hz, Or.inr ⟨hn, rfl⟩⟩, fun t => rfl⟩
      rw [if_neg (fun h => hj0 h.2)]
    · rw [if_neg hj]
      cases hfull : o.isFullPP with
      | true =>
        have hj0 : j = 0 := by
          by_contra hne
          exact hj (by simp [hne, hfull])
        refine ⟨{ s with strength := some (env.strengths p none) }, env.strengths p none, ?_,
          ⟨⟨h1, h2, h3, h4⟩, hg, hz, Or.inl rfl⟩, fun t => rfl⟩
        simp only [iseCall, iseRunInteraction, h1, bind, Option.bind, Bool.true_or, if_true, hj0,
          and_self]
      | false =>
        refine ⟨{ s with strength := some (env.strengths p
            (some (env.weights p p none sigma o.sigmaCutoff).2)) }, _, ?_,
          ⟨⟨h1, h2, h3, h4⟩, hg, hz, Or.inl rfl⟩,
          fun t => goodStrengths_value hskip (Or.inr rfl) t⟩
        simp only [iseCall, iseRunInteraction, h1, bind, Option.bind, h4, hz, Option.isSome_none,
          Bool.or_false, Bool.false_eq_true, if_false, false_and]
  obtain ⟨s', e, h'⟩ := rtaSigmas_value (env := env) o p
    (fun sigma t => selfEnergyAt env p none none sigma o.sigmaCutoff t)
    (fun j ave => if o.isFullPP = true ∧ j = 0 then env.averages p (env.strengths p none) else ave)
    H o.sigmas (fun _ h => h) 0 ave
    { s with ppTriplets := some p, strength := none, triplets := some p, gridPoint := some p }
    ⟨rfl, rfl, rfl, hs⟩
  refine ⟨s', ?_, h'.2.2.2⟩
  unfold rtaGridPoint
  simp only [iseCall, bind, Option.bind, e]
  congr 2
  rw [Prod.mk.injEq]
  refine ⟨?_, rfl⟩
  cases hfull : o.isFullPP with
  | false => simp only [Bool.false_eq_true, false_and, if_false]; exact foldl_const _ _ _
  | true =>
    cases o.sigmas with
    | nil => simp
    | cons x xs =>
      simp only [true_and, List.length_cons, List.range'_succ, List.foldl_cons, if_true, ne_eq,
        reduceCtorEq, not_false_eq_true]
      exact foldl_first _ _ _ _ (by decide)

/-- C147: the same for all grid points one after the other with one object. -/
theorem C147_run (env : IseEnv P K S G Z A V) (hskip : SkippingHarmless env)
    (o : GammaOptions P K S Z A) (hread : o.readPP = false) (have_ : o.useAverages = false)
    (hconst : o.constant = false) (ps : List (P × A)) :
    ∀ (s : IseObject P K S G Z V), s.points = none →
    ∃ s', rtaGridPoints env o ps s = some (s', ps.map fun p =>
      (if o.isFullPP = true ∧ o.sigmas ≠ [] then env.averages p.1 (env.strengths p.1 none) else p.2,
      o.sigmas.map fun sigma => o.temperatures.map fun t =>
        selfEnergyAt env p.1 none none sigma o.sigmaCutoff t)) ∧ s'.points = none := by
  induction ps with
  | nil => intro s hs; exact ⟨s, rfl, hs⟩
  | cons p ps ih =>
    intro s hs
    obtain ⟨s1, e1, h1⟩ := C147_gamma env hskip o hread have_ hconst p.1 s hs p.2
    obtain ⟨s2, e2, h2⟩ := ih s1 h1
    refine ⟨s2, ?_, h2⟩
    rw [rtaGridPoints]
    simp only [e1, e2, bind, Option.bind, List.map_cons]

/-- C147: strengths read from files that a run wrote for the same smearing width (all of them without
flags, or those left by the flags with the flags) give the same linewidths. -/
theorem C147_file (env : IseEnv P K S G Z A V) (hskip : SkippingHarmless env)
    (o : GammaOptions P K S Z A) (hread : o.readPP = true) (p : P)
    (hfile : ∀ sigma ∈ o.sigmas, ∃ v z, o.file p sigma o.sigmaCutoff = some (v, z) ∧
      GoodStrengths env p sigma o.sigmaCutoff v ∧
      (z = none ∨ z = some (env.weights p p none sigma o.sigmaCutoff).2))
    (s : IseObject P K S G Z V) (hs : s.points = none) (ave : A) :
    ∃ s', rtaGridPoint env o p s ave = some (s', ave,
      o.sigmas.map fun sigma => o.temperatures.map fun t =>
        selfEnergyAt env p none none sigma o.sigmaCutoff t) ∧ s'.points = none := by
  have H : ∀ (j : Nat) (sigma : Option K) (ave : A) (s : IseObject P K S G Z V), sigma ∈ o.sigmas →
      StandsAt p s → s.strength = none →
      s.g = some (env.weights p p none sigma o.sigmaCutoff).1 →
      s.gZero = some (env.weights p p none sigma o.sigmaCutoff).2 →
      ∃ s' v, rtaStrengths env o p j sigma s ave = some (s', ave) ∧
        Finds env p (env.weights p p none sigma o.sigmaCutoff).1
          (env.weights p p none sigma o.sigmaCutoff).2 v s' ∧
        ∀ t, env.degenerate p (env.result p v (env.weights p p none sigma o.sigmaCutoff).1
          (some (env.weights p p none sigma o.sigmaCutoff).2) none t) =
          selfEnergyAt env p none none sigma o.sigmaCutoff t := by
    intro j sigma ave s hmem ⟨h1, h2, h3, h4⟩ hn hg hz
    obtain ⟨v, z, hf, hgood, hzz⟩ := hfile sigma hmem
    refine ⟨{ s with strength := some v }, v, ?_, ⟨⟨h1, h2, h3, h4⟩, hg, hz, Or.inl rfl⟩,
      goodStrengths_value hskip hgood⟩
    unfold rtaStrengths
    simp only [hread, if_true, hf, bind, Option.bind]
    have hcond : (z.isSome && decide (z ≠ s.gZero)) = false := by
      rcases hzz with rfl | rfl
      · rfl
      · rw [hz]; simp
    rw [hcond]
    simp [iseCall]
  obtain ⟨s', e, h'⟩ := rtaSigmas_value (env := env) o p
    (fun sigma t => selfEnergyAt env p none none sigma o.sigmaCutoff t) (fun _ ave => ave)
    H o.sigmas (fun _ h => h) 0 ave
    { s with ppTriplets := some p, strength := none, triplets := some p, gridPoint := some p }
    ⟨rfl, rfl, rfl, hs⟩
  refine ⟨s', ?_, h'.2.2.2⟩
  unfold rtaGridPoint
  simp only [iseCall, bind, Option.bind, e]
  rw [foldl_const]

/-- C147: a file whose flags are not those of the weights is refused. -/
theorem C147_file_refused (env : IseEnv P K S G Z A V) (o : GammaOptions P K S Z A)
    (hread : o.readPP = true) (p : P) (sigma : Option K) (rest : List (Option K))
    (hsig : o.sigmas = sigma :: rest) (v : S) (z : Z)
    (hf : o.file p sigma o.sigmaCutoff = some (v, some z))
    (hz : z ≠ (env.weights p p none sigma o.sigmaCutoff).2)
    (s : IseObject P K S G Z V) (hs : s.points = none) (ave : A) :
    rtaGridPoint env o p s ave = none := by
  obtain ⟨s1, s2, e1, e2, hat, hn, hg, hz2⟩ := sigma_weights env (p := p)
    (s := { s with ppTriplets := some p, strength := none, triplets := some p, gridPoint := some p })
    ⟨rfl, rfl, rfl, hs⟩ sigma o.sigmaCutoff
  unfold rtaGridPoint
  rw [hsig]
  simp only [iseCall, bind, Option.bind, rtaSigmas] at e1 e2 ⊢
  cases e1
  simp only [e2]
  unfold rtaStrengths
  simp only [hread, if_true, hf, bind, Option.bind, Option.isSome_some, Bool.true_and, hz2]
  rw [if_pos (by simpa using hz)]

/-- C147: with averaged strengths every smearing width and temperature is computed from them. -/
theorem C147_averages (env : IseEnv P K S G Z A V) (o : GammaOptions P K S Z A)
    (hread : o.readPP = false) (have_ : o.useAverages = true) (p : P)
    (s : IseObject P K S G Z V) (hs : s.points = none) (ave : A) :
    ∃ s', rtaGridPoint env o p s ave = some (s', ave,
      gammasOf env o p (env.fromAverages p ave) o.sigmas) ∧ s'.points = none := by
  have H : ∀ (sigmas : List (Option K)) (j : Nat) (s : IseObject P K S G Z V), StandsAt p s →
      ∃ s', rtaSigmas env o p j sigmas s ave =
        some (s', ave, gammasOf env o p (env.fromAverages p ave) sigmas) ∧ StandsAt p s' := by
    intro sigmas
    induction sigmas with
    | nil => intro j s h; exact ⟨s, rfl, h⟩
    | cons sigma sigmas ih =>
      intro j s h
      obtain ⟨s1, s2, e1, e2, hat, hn, hg, hz⟩ := sigma_weights env h sigma o.sigmaCutoff
      obtain ⟨h1, h2, h3, h4⟩ := hat
      have e3 : rtaStrengths env o p j sigma s2 ave =
          some ({ s2 with strength := some (env.fromAverages p ave) }, ave) := by
        unfold rtaStrengths
        simp only [hread, have_, Bool.false_eq_true, if_false, if_true, iseCall, h3, Option.map_some,
          bind, Option.bind]
      obtain ⟨s4, e4, hf4⟩ := gammaTemperatures_value env p _ _ (env.fromAverages p ave)
        o.temperatures { s2 with strength := some (env.fromAverages p ave) }
        ⟨⟨h1, h2, h3, h4⟩, hg, hz, Or.inl rfl⟩
      obtain ⟨s5, e5, h5⟩ := ih (j + 1) s4 hf4.1
      refine ⟨s5, ?_, h5⟩
      rw [rtaSigmas]
      simp only [e1, e2, e3, e4, e5, bind, Option.bind, gammasOf, List.map_cons]
      rfl
  obtain ⟨s', e, h'⟩ := H o.sigmas 0
    { s with ppTriplets := some p, strength := none, triplets := some p, gridPoint := some p }
    ⟨rfl, rfl, rfl, hs⟩
  refine ⟨s', ?_, h'.2.2.2⟩
  unfold rtaGridPoint
  simp only [iseCall, bind, Option.bind, e]

end

/-! ### The routines of the code -/

section
variable {K : Type} [Field K] [LinearOrder K] [IsStrictOrderedRing K]

theorem selectClass_zero (cls : Option Nat) (n : Nat) (g : Int → K) (q : Int) (h : g q = 0) :
    selectClass cls n g q = 0 := by
  unfold selectClass
  split
  · beta_reduce; split <;> [rfl; exact h]
  · beta_reduce; split <;> [rfl; exact h]
  · exact h

theorem eventClass_snd (c : IseCode K) (cls : Option Nat) (g : Nat × (Int → K)) (q : Int)
    (h : g.2 q = 0) : (iseEventClass c.env cls g).2 q = 0 := by
  unfold iseEventClass
  split
  · exact selectClass_zero (some 1) g.1 g.2 q h
  · split
    · exact selectClass_zero (some 2) g.1 g.2 q h
    · exact h

theorem weightsAt_flag (c : IseCode K) (p q : Int) (f : Option (List K)) (sigma cutoff : Option K)
    (i j k l : Nat) (hi : i < c.numTriplets p) (hj : j < c.numPoints f)
    (hk : k < c.o.crystal.numBand) (hl : l < c.o.crystal.numBand)
    (h : (c.weightsAt p q f sigma cutoff).2
      (at4 (c.numPoints f) c.o.crystal.numBand c.o.crystal.numBand i j k l : Nat) = true) (x : Nat)
    (hx : x < 2) :
    (c.weightsAt p q f sigma cutoff).1.2 (at5 (c.numTriplets p) (c.numPoints f) c.o.crystal.numBand
      c.o.crystal.numBand x i j k l : Nat) = 0 := by
  unfold IseCode.weightsAt at h ⊢
  by_cases hs : sigma.getD 0 = 0
  · simp only [if_pos hs] at h ⊢
    exact (C23_weights c.eps c.g0 (c.points q f) (c.numPoints f) c.relative (c.triplets p)
      (c.numTriplets p) c.bz c.o.D c.dense c.o.frequencies c.o.crystal.numBand c.o.frequencies
      c.o.crystal.numBand 2 (fun _ => 0) (fun _ => false) (Or.inl rfl) i j k l hi hj hk hl).2.2 h x hx
  · simp only [if_neg hs] at h ⊢
    exact (C24_flag c.gaussian (sigma.getD 0) (cutoff.getD (-1)) (c.points q f) (c.numPoints f)
      (c.triplets p) (c.numTriplets p) c.o.frequencies c.o.crystal.numBand 2 (fun _ => 0)
      (fun _ => false) (Or.inl rfl) i j k l hi hj hk hl).2.1 h x hx

theorem strengths_skip (c : IseCode K) (p : Int) (z : Int → Bool) (i b k l : Nat)
    (hb : b < c.o.numBand0) (hk : k < c.o.crystal.numBand) (hl : l < c.o.crystal.numBand)
    (hz : z (at4 c.o.numBand0 c.o.crystal.numBand c.o.crystal.numBand i b k l : Nat) = false) :
    c.strengths p (some z) (at4 c.o.numBand0 c.o.crystal.numBand c.o.crystal.numBand i b k l : Nat) =
    c.strengths p none
      (at4 c.o.numBand0 c.o.crystal.numBand c.o.crystal.numBand i b k l : Nat) := by
  set nb := c.o.crystal.numBand with hnb
  set n0 := c.o.numBand0 with hn0
  have hlt : at3 nb nb b k l < n0 * nb * nb := by
    unfold at3
    have h1 : b * nb + k < n0 * nb := by nlinarith
    nlinarith
  have e4 : at4 n0 nb nb i b k l = i * (n0 * nb * nb) + at3 nb nb b k l := by
    unfold at4 at3; ring
  have ebl : c.block = n0 * nb * nb := rfl
  have hdiv : (((at4 n0 nb nb i b k l : Nat) : Int) / (c.block : Int)).toNat = i := by
    rw [e4, ebl]
    have : (i * (n0 * nb * nb) + at3 nb nb b k l) / (n0 * nb * nb) = i := by
      rw [Nat.mul_comm, Nat.mul_add_div (by omega), Nat.div_eq_of_lt hlt, Nat.add_zero]
    exact_mod_cast congrArg (fun n : Nat => n) this
  have hmod : ((at4 n0 nb nb i b k l : Nat) : Int) % (c.block : Int) = (at3 nb nb b k l : Nat) := by
    rw [e4, ebl]
    have : (i * (n0 * nb * nb) + at3 nb nb b k l) % (n0 * nb * nb) = at3 nb nb b k l := by
      rw [Nat.mul_comm, Nat.mul_add_mod, Nat.mod_eq_of_lt hlt]
    exact_mod_cast this
  unfold IseCode.strengths
  simp only [hdiv, hmod]
  cases c.o.constant with
  | some x => rfl
  | none =>
    unfold interactionRunC
    simp only [Option.map_some, Option.map_none]
    cases hsym : c.o.symmetrize with
    | true => simp only [if_true]
    | false =>
      simp only [Bool.false_eq_true, if_false]
      rw [C40_value _ _ _ _ _ _ _ _ _ _ _ _ _ hb hk hl, C40_value _ _ _ _ _ _ _ _ _ _ _ _ _ hb hk hl]
      have : z ((i : Int) * (c.block : Int) + ((at3 nb nb b k l : Nat) : Int)) = false := by
        rw [← hz, e4, ebl]; push_cast; rfl
      rw [← hnb, this]

theorem cIse_skip (bose : K → K → K) (nt n0 nb : Nat) (v v' frequencies : Int → K)
    (triplets : Nat → Fin 3 → Int) (weights : Nat → Int) (g : Int → K) (z : Int → Bool)
    (t cutoff unit : K) (b : Nat)
    (hv : ∀ i < nt, ∀ j < n0, ∀ k < nb, ∀ l < nb, z (at4 n0 nb nb i j k l : Nat) = false →
      v (at4 n0 nb nb i j k l : Nat) = v' (at4 n0 nb nb i j k l : Nat)) :
    cIse bose nt n0 nb v frequencies triplets weights g (some z) t cutoff unit b =
    cIse bose nt n0 nb v' frequencies triplets weights g (some z) t cutoff unit b := by
  unfold cIse
  rw [Option.getD_some]
  congr 1
  unfold iseWithG
  simp only [show decide ((-1 : Int) < 0) = true from rfl, Bool.not_true, Bool.false_eq_true,
    if_false]
  congr 1
  refine loop_congr fun i hi => ?_
  have key : iseAtTriplet bose n0 nb (shiftBy v (i * (n0 * nb * nb))) frequencies (triplets i)
      (weights i) (shiftBy g (i * (n0 * nb * nb) + 0)) (shiftBy g ((i + nt) * (n0 * nb * nb) + 0))
      (setGPos n0 nb (shiftBy z (i * (n0 * nb * nb)))) (fun _ => t) 1 cutoff false =
      iseAtTriplet bose n0 nb (shiftBy v' (i * (n0 * nb * nb))) frequencies (triplets i)
      (weights i) (shiftBy g (i * (n0 * nb * nb) + 0)) (shiftBy g ((i + nt) * (n0 * nb * nb) + 0))
      (setGPos n0 nb (shiftBy z (i * (n0 * nb * nb)))) (fun _ => t) 1 cutoff false := by
    unfold iseAtTriplet
    congr 1
    refine List.flatMap_congr fun p hp => ?_
    rw [setGPos_eq] at hp
    unfold loop at hp
    simp only [List.mem_flatMap, List.mem_range] at hp
    obtain ⟨j, hj, k, hk, l, hl, hp⟩ := hp
    cases hz : shiftBy z (i * (n0 * nb * nb)) (at3 nb nb j k l : Nat) with
    | true => rw [hz] at hp; simp at hp
    | false =>
      rw [hz] at hp
      simp only [Bool.false_eq_true, if_false, List.mem_singleton] at hp
      subst hp
      have e : ((i * (n0 * nb * nb) : Nat) : Int) + ((at3 nb nb j k l : Nat) : Int) =
          (at4 n0 nb nb i j k l : Nat) := by unfold at3 at4; push_cast; ring
      unfold shiftBy at hz
      rw [e] at hz
      refine loop_congr fun m _ => ?_
      unfold iseAtGPos shiftBy
      simp only [Bool.false_eq_true, if_false, e, hv i hi j hj k hk l hl hz]
  refine loop_congr fun j _ => ?_
  rw [key]

/-- C146: the routines of the code meet `SkippingHarmless`: strengths left out because of the zero
flags are not read. That the sum leaves out nothing but zeros is C25. -/
theorem C146_skipping (c : IseCode K) : SkippingHarmless c.env := by
  intro p sigma cutoff cls t
  change c.resultAt p (c.strengths p (some (c.weightsAt p p none sigma cutoff).2))
    (iseEventClass c.env cls (c.weightsAt p p none sigma cutoff).1)
    (some (c.weightsAt p p none sigma cutoff).2) none t =
    c.resultAt p (c.strengths p none) (iseEventClass c.env cls (c.weightsAt p p none sigma cutoff).1)
    (some (c.weightsAt p p none sigma cutoff).2) none t
  have hstr := strengths_skip c p (c.weightsAt p p none sigma cutoff).2
  generalize iseEventClass c.env cls (c.weightsAt p p none sigma cutoff).1 = g
  generalize (c.weightsAt p p none sigma cutoff).2 = z at hstr ⊢
  funext x b
  unfold IseCode.resultAt
  by_cases hb : b < c.o.numBand0
  · rw [if_pos hb, if_pos hb]
    by_cases hx : x = 0
    · simp only [if_pos hx]
      exact cIse_skip _ _ _ _ _ _ _ _ _ _ _ _ _ _ b
        (fun i _ j hj k hk l hl h => hstr i j k l hj hk hl h)
    · simp only [if_neg hx]
  · rw [if_neg hb, if_neg hb]

end
end Phono3py.Props
