/-
C169: interaction strengths written by one run and read by another.
-/
import Verif.Model.PpRuns
import Verif.Props.IseCode

set_option linter.unusedSectionVars false

namespace Phono3py.Props
open Phono3py Phono3py.Spec

section
variable {P K S G Z A V : Type} [DecidableEq P] [DecidableEq K] [DecidableEq Z]

/-- The run with attributes is the run of C147. -/
theorem ppSigmas_same (env : IseEnv P K S G Z A V) (o : GammaOptions P K S Z A) (p : P)
    (sigmas : List (Option K)) : ∀ (j : Nat) (s : IseObject P K S G Z V) (ave : A) (a : PpAttributes S Z),
    (ppSigmas env o p j sigmas s ave a).map (fun r => (r.1, r.2.1, r.2.2.1)) =
      rtaSigmas env o p j sigmas s ave := by
  induction sigmas with
  | nil => intro j s ave a; rfl
  | cons sigma sigmas ih =>
    intro j s ave a
    rw [ppSigmas, rtaSigmas]
    cases h1 : iseCall env s (.setSigma sigma o.sigmaCutoff) with
    | none => rfl
    | some s1 =>
      simp only [bind, Option.bind]
      cases h2 : iseCall env s1 (.runIntegrationWeights none) with
      | none => rfl
      | some s2 =>
        simp only
        cases h3 : rtaStrengths env o p j sigma s2 ave with
        | none => rfl
        | some q =>
          simp only
          cases h4 : gammaTemperatures env o.temperatures q.1 with
          | none => rfl
          | some v =>
            simp only
            rw [← ih (j + 1) v.1 q.2
              (ppTemperatures env o.constant p o.temperatures q.1 (ppStrengths env o p j sigma s2 a))]
            cases ppSigmas env o p (j + 1) sigmas v.1 q.2
              (ppTemperatures env o.constant p o.temperatures q.1 (ppStrengths env o p j sigma s2 a)) with
            | none => rfl
            | some r => rfl

/-- The attributes hold strengths that are good for a width, and no flags or those of the width. -/
def GoodAttributes (env : IseEnv P K S G Z A V) (p : P) (sigma cutoff : Option K)
    (a : PpAttributes S Z) : Prop :=
  ∃ v, a.strength = some v ∧ GoodStrengths env p sigma cutoff v ∧
    (a.zero = none ∨ a.zero = some (env.weights p p none sigma cutoff).2)

/-- After the loop over widths the attributes belong to the last one. -/
theorem ppSigmas_attributes (env : IseEnv P K S G Z A V)
    (o : GammaOptions P K S Z A) (hread : o.readPP = false) (have_ : o.useAverages = false)
    (hconst : o.constant = false) (hts : o.temperatures ≠ []) (p : P) (last : Option K)
    (sigmas : List (Option K)) : ∀ (j : Nat) (s : IseObject P K S G Z V) (ave : A)
      (a : PpAttributes S Z) r, StandsAt p s →
    ppSigmas env o p j (sigmas ++ [last]) s ave a = some r →
    GoodAttributes env p last o.sigmaCutoff r.2.2.2 := by
  have step : ∀ (j : Nat) (sigma : Option K) (s : IseObject P K S G Z V) (ave : A)
      (a : PpAttributes S Z), StandsAt p s → s.strength = none →
      s.g = some (env.weights p p none sigma o.sigmaCutoff).1 →
      s.gZero = some (env.weights p p none sigma o.sigmaCutoff).2 →
      ∃ q v, rtaStrengths env o p j sigma s ave = some q ∧
        Finds env p (env.weights p p none sigma o.sigmaCutoff).1
          (env.weights p p none sigma o.sigmaCutoff).2 v q.1 ∧
        GoodAttributes env p sigma o.sigmaCutoff
          (ppTemperatures env o.constant p o.temperatures q.1 (ppStrengths env o p j sigma s a)) := by
    intro j sigma s ave a hat hn hg hz
    have hat' := hat
    obtain ⟨h1, h2, h3, h4⟩ := hat
    have hne : o.temperatures.isEmpty = false := by
      cases h : o.temperatures with
      | nil => exact absurd h hts
      | cons x l => rfl
    unfold rtaStrengths ppStrengths ppTemperatures
    simp only [hread, have_, hconst, Bool.false_eq_true, if_false, hne, Bool.false_or]
    by_cases hj : (decide (j ≠ 0) && (o.isFullPP || o.sigmaCutoff.isNone)) = true
    · rw [if_pos hj, if_pos hj]
      refine ⟨_, env.strengths p none, rfl, ⟨hat', hg, hz, Or.inr ⟨hn, rfl⟩⟩, ?_⟩
      simp only [hn, Option.isSome_none, Bool.false_eq_true, if_false]
      exact ⟨_, rfl, Or.inl rfl, Or.inl rfl⟩
    · rw [if_neg hj, if_neg hj]
      cases hfull : o.isFullPP with
      | true =>
        refine ⟨({ s with strength := some (env.strengths p none) }, env.averages p (env.strengths p none)),
          env.strengths p none, ?_, ⟨⟨h1, h2, h3, h4⟩, hg, hz, Or.inl rfl⟩, ?_⟩
        · simp only [iseCall, iseRunInteraction, h1, bind, Option.bind, Bool.true_or, if_true]
        · simp only [Option.isSome_some, if_true]
          exact ⟨_, rfl, Or.inl rfl, Or.inl rfl⟩
      | false =>
        refine ⟨({ s with strength := some (env.strengths p
            (some (env.weights p p none sigma o.sigmaCutoff).2)) }, ave), _, ?_,
          ⟨⟨h1, h2, h3, h4⟩, hg, hz, Or.inl rfl⟩, ?_⟩
        · simp only [iseCall, iseRunInteraction, h1, bind, Option.bind, h4, hz, Option.isSome_none,
            Bool.or_false, Bool.false_eq_true, if_false]
        · simp only [Option.isSome_some, if_true, Bool.false_eq_true, if_false, hz]
          exact ⟨_, rfl, Or.inr rfl, Or.inr rfl⟩
  induction sigmas with
  | nil =>
    intro j s ave a r hat e
    obtain ⟨s1, s2, e1, e2, hat2, hn, hg, hz⟩ := sigma_weights env hat last o.sigmaCutoff
    obtain ⟨q, v, e3, hf, hgood⟩ := step j last s2 ave a hat2 hn hg hz
    obtain ⟨s4, e4, hf4⟩ := gammaTemperatures_value env p _ _ v o.temperatures q.1 hf
    rw [List.nil_append, ppSigmas] at e
    simp only [e1, e2, e3, e4, bind, Option.bind, ppSigmas] at e
    cases e
    exact hgood
  | cons sigma sigmas ih =>
    intro j s ave a r hat e
    obtain ⟨s1, s2, e1, e2, hat2, hn, hg, hz⟩ := sigma_weights env hat sigma o.sigmaCutoff
    obtain ⟨q, v, e3, hf, hgood⟩ := step j sigma s2 ave a hat2 hn hg hz
    obtain ⟨s4, e4, hf4⟩ := gammaTemperatures_value env p _ _ v o.temperatures q.1 hf
    rw [List.cons_append, ppSigmas] at e
    simp only [e1, e2, e3, e4, bind, Option.bind] at e
    cases h5 : ppSigmas env o p (j + 1) (sigmas ++ [last]) s4 q.2
        (ppTemperatures env o.constant p o.temperatures q.1 (ppStrengths env o p j sigma s2 a)) with
    | none => rw [h5] at e; cases e
    | some w =>
      rw [h5] at e
      cases e
      have h6 := ih _ _ _ _ w hf4.1 h5
      exact h6

/-- C169: after a run with `write_pp` the directory has, for every grid point of the run, a file for the last
smearing width whose strengths are all of them, or those that the flags of this width leave, with these flags or
none. Other files are as before. The linewidths are those of a run without the option. -/
theorem C169_written (env : IseEnv P K S G Z A V) (hskip : SkippingHarmless env)
    (o : GammaOptions P K S Z A) (hread : o.readPP = false) (have_ : o.useAverages = false)
    (hconst : o.constant = false) (hts : o.temperatures ≠ []) (before : List (Option K))
    (last : Option K) (hlast : o.sigmas = before ++ [last]) (ps : List (P × A)) :
    ∀ (s : IseObject P K S G Z V) (a : PpAttributes S Z) (d : PpFiles P K S Z), s.points = none →
    ∃ d', ppWriteRun env o false ps s a d = some
        (ps.map fun p => o.sigmas.map fun sigma => o.temperatures.map fun t =>
          selfEnergyAt env p.1 none none sigma o.sigmaCutoff t, d') ∧
      (∀ p ∈ ps, ∃ v z, d' p.1 last o.sigmaCutoff = some (some (v, z)) ∧
        GoodStrengths env p.1 last o.sigmaCutoff v ∧
        (z = none ∨ z = some (env.weights p.1 p.1 none last o.sigmaCutoff).2)) ∧
      ∀ p sigma cutoff, (sigma ≠ last ∨ cutoff ≠ o.sigmaCutoff ∨ ∀ x ∈ ps, x.1 ≠ p) →
        d' p sigma cutoff = d p sigma cutoff := by
  induction ps with
  | nil => intro s a d _; exact ⟨d, rfl, by simp, fun _ _ _ _ => rfl⟩
  | cons p ps ih =>
    intro s a d hs
    obtain ⟨s', e, h⟩ := C147_gamma env hskip o hread have_ hconst p.1 s hs p.2
    let s0 : IseObject P K S G Z V :=
      { s with ppTriplets := some p.1, strength := none, triplets := some p.1, gridPoint := some p.1 }
    have hs0 : iseCall env s (.setGridPoint (some p.1)) = some s0 := rfl
    have e' : rtaSigmas env o p.1 0 o.sigmas s0 p.2 = _ := e
    rw [← ppSigmas_same env o p.1 o.sigmas 0 s0 p.2 a, Option.map_eq_some_iff] at e'
    obtain ⟨r, er, hr⟩ := e'
    have hgood := ppSigmas_attributes env o hread have_ hconst hts p.1 last before 0 s0 p.2 a r
      ⟨rfl, rfl, rfl, hs⟩ (hlast ▸ er)
    obtain ⟨v, hv, hgv, hz⟩ := hgood
    have hr1 : r.1 = s' := congrArg Prod.fst hr
    have hr3 : r.2.2.1 = _ := congrArg (fun x => x.2.2) hr
    let d1 : PpFiles P K S Z := fun p' sigma cutoff =>
      if p' = p.1 ∧ sigma = last ∧ cutoff = o.sigmaCutoff then some (some (v, r.2.2.2.zero))
      else d p' sigma cutoff
    have hw : ppWrite o p.1 r.2.2.2 d = some d1 := by
      unfold ppWrite
      rw [hlast, List.getLast?_concat, hv]
      rfl
    obtain ⟨d', e2, hfiles, hother⟩ := ih r.1 r.2.2.2 d1 (by rw [hr1]; exact h)
    refine ⟨d', ?_, ?_, ?_⟩
    · rw [ppWriteRun, if_neg (by simp), hs0]
      simp only [bind, Option.bind, er, hw, e2, List.map_cons, hr3]
    · intro x hx
      rcases List.mem_cons.1 hx with rfl | hx
      · by_cases hmem : ∃ y ∈ ps, y.1 = x.1
        · obtain ⟨y, hy, hyx⟩ := hmem
          have := hfiles y hy
          rw [hyx] at this
          exact this
        · refine ⟨v, r.2.2.2.zero, ?_, hgv, hz⟩
          rw [hother _ _ _ (Or.inr (Or.inr fun y hy h => hmem ⟨y, hy, h⟩))]
          exact if_pos ⟨rfl, rfl, rfl⟩
      · exact hfiles x hx
    · intro p' sigma cutoff hc
      have hc' : sigma ≠ last ∨ cutoff ≠ o.sigmaCutoff ∨ ∀ x ∈ ps, x.1 ≠ p' := by
        rcases hc with h | h | h
        · exact Or.inl h
        · exact Or.inr (Or.inl h)
        · exact Or.inr (Or.inr fun x hx => h x (List.mem_cons_of_mem _ hx))
      rw [hother _ _ _ hc']
      refine if_neg ?_
      rintro ⟨rfl, rfl, rfl⟩
      rcases hc with h | h | h
      · exact h rfl
      · exact h rfl
      · exact h p List.mem_cons_self rfl

/-- C169: a later run with `read_pp` at the last width of the run that wrote, for any of its grid points and any
temperatures, gives the linewidths of a run that calculates the strengths itself. -/
theorem C169_round_partial (env : IseEnv P K S G Z A V) (hskip : SkippingHarmless env)
    (o : GammaOptions P K S Z A) (hread : o.readPP = false) (have_ : o.useAverages = false)
    (hconst : o.constant = false) (hts : o.temperatures ≠ []) (before : List (Option K))
    (last : Option K) (hlast : o.sigmas = before ++ [last]) (ps : List (P × A))
    (s : IseObject P K S G Z V) (a : PpAttributes S Z) (d : PpFiles P K S Z) (hs : s.points = none)
    (later : GammaOptions P K S Z A) (hsig : later.sigmas = [last])
    (hcut : later.sigmaCutoff = o.sigmaCutoff) (q : P × A) (hq : q ∈ ps)
    (s2 : IseObject P K S G Z V) (hs2 : s2.points = none) (ave : A) :
    ∃ gammas d', ppWriteRun env o false ps s a d = some (gammas, d') ∧
      ∃ s', rtaGridPoint env (readsFrom later d') q.1 s2 ave = some (s', ave,
        [later.temperatures.map fun t => selfEnergyAt env q.1 none none last o.sigmaCutoff t]) := by
  obtain ⟨d', e, hfiles, _⟩ := C169_written env hskip o hread have_ hconst hts before last hlast ps s a d hs
  obtain ⟨v, z, hv, hgood, hz⟩ := hfiles q hq
  obtain ⟨s', e2, _⟩ := C147_file env hskip (readsFrom later d') rfl q.1 (by
    intro sigma hmem
    have hsigma : sigma = last := by
      have : sigma ∈ later.sigmas := hmem
      rw [hsig] at this
      exact List.mem_singleton.1 this
    subst hsigma
    refine ⟨v, z, ?_, ?_, ?_⟩
    · change (d' q.1 sigma later.sigmaCutoff).bind id = _
      rw [hcut, hv]; rfl
    · change GoodStrengths env q.1 sigma later.sigmaCutoff v
      rw [hcut]; exact hgood
    · change z = none ∨ z = some (env.weights q.1 q.1 none sigma later.sigmaCutoff).2
      rw [hcut]; exact hz) s2 hs2 ave
  refine ⟨_, d', e, s', e2.trans ?_⟩
  change some (s', ave, later.sigmas.map fun sigma => later.temperatures.map fun t =>
    selfEnergyAt env q.1 none none sigma later.sigmaCutoff t) = _
  rw [hsig, hcut]
  rfl

/-- C169: a later run with another width, cutoff or grid point for which there was no file fails: it never uses a
file of other values. -/
theorem C169_missing (env : IseEnv P K S G Z A V) (later : GammaOptions P K S Z A) (d : PpFiles P K S Z)
    (sigma : Option K) (rest : List (Option K)) (hsig : later.sigmas = sigma :: rest) (p : P)
    (hd : (d p sigma later.sigmaCutoff).bind id = none) (s : IseObject P K S G Z V)
    (hs : s.points = none) (ave : A) : rtaGridPoint env (readsFrom later d) p s ave = none := by
  obtain ⟨s1, s2, e1, e2, -⟩ := sigma_weights env (p := p)
    (s := { s with ppTriplets := some p, strength := none, triplets := some p, gridPoint := some p })
    ⟨rfl, rfl, rfl, hs⟩ sigma later.sigmaCutoff
  unfold rtaGridPoint
  have h1 : (readsFrom later d).sigmas = sigma :: rest := hsig
  rw [h1]
  simp only [iseCall, bind, Option.bind, rtaSigmas] at e1 e2 ⊢
  cases e1
  have h2 : (readsFrom later d).sigmaCutoff = later.sigmaCutoff := rfl
  simp only [h2, e2]
  unfold rtaStrengths
  have h3 : (readsFrom later d).file p sigma later.sigmaCutoff = none := hd
  simp only [show (readsFrom later d).readPP = true from rfl, if_true, h2, h3, bind, Option.bind]

/-- What a run with `read_pp` computes from a file with strengths `v` without flags. -/
theorem read_strengths (env : IseEnv P K S G Z A V) (later : GammaOptions P K S Z A)
    (d : PpFiles P K S Z) (sigma : Option K) (hsig : later.sigmas = [sigma]) (p : P) (v : S)
    (z : Option Z) (hz : z = none ∨ z = some (env.weights p p none sigma later.sigmaCutoff).2)
    (hd : d p sigma later.sigmaCutoff = some (some (v, z))) (s : IseObject P K S G Z V)
    (hs : s.points = none) (ave : A) :
    ∃ s', rtaGridPoint env (readsFrom later d) p s ave = some (s', ave,
      [later.temperatures.map fun t => selfEnergyWith env v p none none sigma later.sigmaCutoff t]) := by
  obtain ⟨s1, s2, e1, e2, hat, hn, hg, hz2⟩ := sigma_weights env (p := p)
    (s := { s with ppTriplets := some p, strength := none, triplets := some p, gridPoint := some p })
    ⟨rfl, rfl, rfl, hs⟩ sigma later.sigmaCutoff
  have e3 : rtaStrengths env (readsFrom later d) p 0 sigma s2 ave =
      some ({ s2 with strength := some v }, ave) := by
    unfold rtaStrengths
    have h3 : (readsFrom later d).file p sigma (readsFrom later d).sigmaCutoff = some (v, z) := by
      change (d p sigma later.sigmaCutoff).bind id = _
      rw [hd]; rfl
    simp only [show (readsFrom later d).readPP = true from rfl, if_true, h3, bind, Option.bind]
    have hcond : (z.isSome && decide (z ≠ s2.gZero)) = false := by
      rcases hz with rfl | rfl
      · rfl
      · rw [hz2]; simp
    rw [hcond]
    simp [iseCall]
  obtain ⟨s4, e4, -⟩ := gammaTemperatures_value env p _ _ v later.temperatures
    { s2 with strength := some v } ⟨⟨hat.1, hat.2.1, hat.2.2.1, hat.2.2.2⟩, hg, hz2, Or.inl rfl⟩
  refine ⟨s4, ?_⟩
  unfold rtaGridPoint
  have h1 : (readsFrom later d).sigmas = [sigma] := hsig
  have h2 : (readsFrom later d).sigmaCutoff = later.sigmaCutoff := rfl
  have h4 : (readsFrom later d).temperatures = later.temperatures := rfl
  have e0 : iseCall env s (.setGridPoint (some p)) = some
      { s with ppTriplets := some p, strength := none, triplets := some p, gridPoint := some p } := rfl
  rw [h1]
  simp only [rtaSigmas, e0, bind, Option.bind, h2, e1, e2, e3, h4, e4]
  rfl

/-- C169: the names do not tell the selection of bands. With the routines `env` for one selection and `env'` for
another one whose arrays have the same shape, a file of all strengths is accepted whatever the flags, and the
linewidths of the second selection are computed from the strengths of the first. -/
theorem C169_bands (env env' : IseEnv P K S G Z A V) (hskip : SkippingHarmless env)
    (o : GammaOptions P K S Z A) (hread : o.readPP = false) (have_ : o.useAverages = false)
    (hconst : o.constant = false) (hts : o.temperatures ≠ []) (hfull : o.isFullPP = true)
    (sigma : Option K) (hone : o.sigmas = [sigma]) (p : P × A) (s : IseObject P K S G Z V)
    (a : PpAttributes S Z) (d : PpFiles P K S Z) (hs : s.points = none)
    (later : GammaOptions P K S Z A) (hsig : later.sigmas = [sigma])
    (hcut : later.sigmaCutoff = o.sigmaCutoff) (s2 : IseObject P K S G Z V) (hs2 : s2.points = none)
    (ave : A) :
    ∃ gammas d', ppWriteRun env o false [p] s a d = some (gammas, d') ∧
      ∃ s', rtaGridPoint env' (readsFrom later d') p.1 s2 ave = some (s', ave,
        [later.temperatures.map fun t =>
          selfEnergyWith env' (env.strengths p.1 none) p.1 none none sigma o.sigmaCutoff t]) := by
  obtain ⟨d', e, -⟩ := C169_written env hskip o hread have_ hconst hts [] sigma (by rw [hone]; rfl) [p] s a d hs
  have e' := e
  obtain ⟨s1, s3, e1, e2, hat, hn, hg, hz2⟩ := sigma_weights env (p := p.1)
    (s := { s with ppTriplets := some p.1, strength := none, triplets := some p.1, gridPoint := some p.1 })
    ⟨rfl, rfl, rfl, hs⟩ sigma o.sigmaCutoff
  have e0 : iseCall env s (.setGridPoint (some p.1)) = some
      { s with ppTriplets := some p.1, strength := none, triplets := some p.1, gridPoint := some p.1 } := rfl
  have e3 : rtaStrengths env o p.1 0 sigma s3 p.2 =
      some ({ s3 with strength := some (env.strengths p.1 none) },
        env.averages p.1 (env.strengths p.1 none)) := by
    unfold rtaStrengths
    simp only [hread, have_, hconst, hfull, Bool.false_eq_true, if_false, ne_eq, not_true_eq_false,
      decide_false, Bool.false_and, iseCall, iseRunInteraction, hat.1, bind, Option.bind, Bool.true_or,
      if_true]
  obtain ⟨s4, e4, -⟩ := gammaTemperatures_value env p.1 _ _ (env.strengths p.1 none) o.temperatures
    { s3 with strength := some (env.strengths p.1 none) }
    ⟨⟨hat.1, hat.2.1, hat.2.2.1, hat.2.2.2⟩, hg, hz2, Or.inl rfl⟩
  have ha : ppTemperatures env o.constant p.1 o.temperatures
      { s3 with strength := some (env.strengths p.1 none) } (ppStrengths env o p.1 0 sigma s3 a) =
      ⟨some (env.strengths p.1 none), none⟩ := by
    unfold ppTemperatures ppStrengths ppRun
    simp [hread, have_, hconst, hfull]
  have hd : d' p.1 sigma later.sigmaCutoff = some (some (env.strengths p.1 none, none)) := by
    rw [ppWriteRun, if_neg (by simp), e0] at e'
    simp only [bind, Option.bind, hone, ppSigmas, e1, e2, e3, e4, ha, ppWrite, List.getLast?_singleton,
      Option.map_some, ppWriteRun] at e'
    have h := congrArg (fun x : Option (List (List (List V)) × PpFiles P K S Z) =>
      x.map fun y => y.2 p.1 sigma later.sigmaCutoff) e'
    simp only [Option.map_some, Option.some.injEq, hcut, and_self, if_true] at h
    rw [hcut]
    exact h.symm
  obtain ⟨s', h'⟩ := read_strengths env' later d' sigma hsig p.1 _ none (Or.inl rfl) hd s2 hs2 ave
  rw [hcut] at h'
  exact ⟨_, d', e, s', h'⟩

/-- C169: with linewidths read from files, `write_pp` on a fresh `Interaction` object replaces the file of each grid
point by one without strengths. -/
theorem C169_erased (env : IseEnv P K S G Z A V) (o : GammaOptions P K S Z A)
    (have_ : o.useAverages = false) (before : List (Option K)) (last : Option K)
    (hlast : o.sigmas = before ++ [last]) (ps : List (P × A)) (s : IseObject P K S G Z V) :
    ∀ d : PpFiles P K S Z, ∃ gammas d', ppWriteRun env o true ps s ⟨none, none⟩ d = some (gammas, d') ∧
      ∀ p, ((∃ x ∈ ps, x.1 = p) ∨ d p last o.sigmaCutoff = some none) →
        d' p last o.sigmaCutoff = some none := by
  induction ps with
  | nil => intro d; exact ⟨[], d, rfl, by rintro p (⟨x, hx, -⟩ | h); cases hx; exact h⟩
  | cons p ps ih =>
    intro d
    have hw : ∃ d1, ppWrite o p.1 (⟨none, none⟩ : PpAttributes S Z) d = some d1 ∧
        ∀ x, (x = p.1 ∨ d x last o.sigmaCutoff = some none) → d1 x last o.sigmaCutoff = some none := by
      unfold ppWrite
      rw [hlast, List.getLast?_concat]
      refine ⟨_, rfl, ?_⟩
      intro x hx
      by_cases hxp : x = p.1
      · simp [hxp]
      · rcases hx with h | h
        · exact absurd h hxp
        · simp [hxp, h]
    obtain ⟨d1, e1, h1⟩ := hw
    obtain ⟨g, d', e2, h2⟩ := ih d1
    refine ⟨[] :: g, d', ?_, ?_⟩
    · rw [ppWriteRun, have_]
      simp only [Bool.not_false, Bool.and_true, if_true, e1, bind, Option.bind, e2]
    · rintro x (⟨y, hy, rfl⟩ | h)
      · rcases List.mem_cons.1 hy with rfl | hy
        · exact h2 _ (Or.inr (h1 _ (Or.inl rfl)))
        · exact h2 _ (Or.inl ⟨y, hy, rfl⟩)
      · exact h2 _ (Or.inr (h1 _ (Or.inr h)))

/-- C169: with averaged strengths nothing is given to the `Interaction` object, and the file is written without
strengths or with those of an earlier calculation. -/
theorem C169_averages_written (env : IseEnv P K S G Z A V) (o : GammaOptions P K S Z A)
    (hread : o.readPP = false) (have_ : o.useAverages = true) (p : P) (j : Nat) (sigma : Option K)
    (s : IseObject P K S G Z V) (a : PpAttributes S Z) : ppStrengths env o p j sigma s a = a := by
  simp [ppStrengths, hread, have_]

end

section Examples

/-- Two grid points, two widths and a cutoff, so that the strengths are calculated in part: a run with files for the
second width, and a later run at this width and other temperatures (C169_written, C169_round_partial). -/
example : ((ppWriteRun toyFlagEnv
      ⟨[3, 4], [none, some 2], some 9, false, false, fun _ _ _ => none, false, 0, false⟩ false
      [(1, 0), (2, 0)] (iseNew none) ⟨none, none⟩ (fun _ _ _ => none)).bind fun r =>
        (rtaGridPoint toyFlagEnv (readsFrom
          ⟨[5], [some 2], some 9, false, false, fun _ _ _ => none, false, 0, false⟩ r.2) 2
          (iseNew none) 0).map fun q => (q.2.2, r.2 2 (some 2) (some 9), r.2 2 none (some 9))) =
    some ([[selfEnergyAt toyFlagEnv 2 none none (some 2) (some 9) 5]],
      some (some (200, some 3)), none) := rfl

/-- The hypotheses of C169_round_partial are met by the routines of the code for any crystal. -/
example {F : Type} [Field F] [LinearOrder F] [IsStrictOrderedRing F] (c : IseCode F) : SkippingHarmless c.env := C146_skipping c

/-- Routines for another selection of bands. -/
def toyOtherBands : IseEnv Int Int Int Int Int Int Int :=
  { toyEnv with strengths := fun p z => 100 * p + 7 + z.getD 0 }

/-- C169: a run for one selection of bands, then one for another selection that reads: the linewidths are not those
of the second selection. -/
theorem C169_bands_wrong :
    ((ppWriteRun toyEnv ⟨[3], [some 2], none, true, false, fun _ _ _ => none, false, 0, false⟩ false
      [(1, 0)] (iseNew none) ⟨none, none⟩ (fun _ _ _ => none)).bind fun r =>
        (rtaGridPoint toyOtherBands (readsFrom
          ⟨[3], [some 2], none, true, false, fun _ _ _ => none, false, 0, false⟩ r.2) 1
          (iseNew none) 0).map (·.2.2)) =
      some [[selfEnergyWith toyOtherBands 100 1 none none (some 2) none 3]] ∧
    selfEnergyWith toyOtherBands 100 1 none none (some 2) none 3 ≠
      selfEnergyAt toyOtherBands 1 none none (some 2) none 3 := by decide +kernel

/-- A good file is replaced by one without strengths (C169_erased). -/
example : (ppWriteRun toyEnv ⟨[3], [some 2], none, true, false, fun _ _ _ => none, false, 0, false⟩ true
      [(1, 0)] (iseNew none) ⟨none, none⟩
      (fun p sigma _ => if p = 1 ∧ sigma = some 2 then some (some (100, none)) else none)).map
        (fun r => r.2 1 (some 2) none) = some (some none) := by decide +kernel

/-- A second width that was not written is not found (C169_missing). -/
example : rtaGridPoint toyEnv (readsFrom
      ⟨[3], [none], none, true, false, fun _ _ _ => none, false, 0, false⟩
      (fun p sigma _ => if p = 1 ∧ sigma = some 2 then some (some (100, none)) else none)) 1
      (iseNew none) 0 = none := by decide +kernel

end Examples
end Phono3py.Props
