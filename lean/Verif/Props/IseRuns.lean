/-
C147, C148: further ways to obtain interaction strengths, `get_imag_self_energy`, and the stored
contributions of triplets.
-/
import Verif.Props.IseObject
import Verif.Model.IseRuns
import Verif.Model.Collision
import Mathlib.Tactic.FieldSimp

set_option linter.unusedSectionVars false

namespace Phono3py.Props
open Phono3py Phono3py.Spec

section
variable {P K S G Z A V : Type}

/-! ## C147, continued -/

section
variable [DecidableEq Z]

/-- The grid point is set and the object stands there. -/
theorem stands_setGridPoint (s : IseObject P K S G Z V) (hs : s.points = none) (p : P) :
    StandsAt p ({ s with
      ppTriplets := some p, strength := none, triplets := some p, gridPoint := some p } :
        IseObject P K S G Z V) :=
  ⟨rfl, rfl, rfl, hs⟩

theorem lbteSigmas_value {env : IseEnv P K S G Z A V} (o : GammaOptions P K S Z A) (p : P)
    (value : Option K → K → V)
    (H : ∀ (j : Nat) (sigma : Option K) (s : IseObject P K S G Z V), sigma ∈ o.sigmas →
      StandsAt p s → s.strength = none →
      s.g = some (env.weights p p none sigma o.sigmaCutoff).1 →
      s.gZero = some (env.weights p p none sigma o.sigmaCutoff).2 →
      ∃ s' v z, lbteStrengths env o p j sigma s = some s' ∧
        Finds env p (env.weights p p none sigma o.sigmaCutoff).1 z v s' ∧
        ∀ t, env.degenerate p (env.result p v (env.weights p p none sigma o.sigmaCutoff).1
          (some z) none t) = value sigma t)
    (sigmas : List (Option K)) (hsub : ∀ x ∈ sigmas, x ∈ o.sigmas) :
    ∀ (j : Nat) (s : IseObject P K S G Z V), StandsAt p s →
    ∃ s', lbteSigmas env o p j sigmas s =
      some (s', sigmas.map fun sigma => o.temperatures.map (value sigma)) ∧ StandsAt p s' := by
  induction sigmas with
  | nil => intro j s h; exact ⟨s, rfl, h⟩
  | cons sigma sigmas ih =>
    intro j s h
    obtain ⟨s1, s2, e1, e2, hat, hn, hg, hz⟩ := sigma_weights env h sigma o.sigmaCutoff
    obtain ⟨s3, v, z, e3, hf, hv⟩ := H j sigma s2 (hsub _ List.mem_cons_self) hat hn hg hz
    obtain ⟨s4, e4, hf4⟩ := gammaTemperatures_value env p _ _ v o.temperatures s3 hf
    obtain ⟨s5, e5, h5⟩ := ih (fun x hx => hsub x (List.mem_cons_of_mem _ hx)) (j + 1) s4 hf4.1
    refine ⟨s5, ?_, h5⟩
    rw [lbteSigmas]
    simp only [e1, e2, e3, e4, e5, bind, Option.bind, List.map_cons, hv]

/-- C147: in the direct solution too, linewidths and collision matrices are those of each smearing
width and temperature from all interaction strengths, whether or not all strengths are
calculated. -/
theorem C147_lbte (env : IseEnv P K S G Z A V) (hskip : SkippingHarmless env)
    (o : GammaOptions P K S Z A) (hread : o.readPP = false) (p : P)
    (s : IseObject P K S G Z V) (hs : s.points = none) :
    ∃ s', lbteGridPoint env o p s = some (s',
      o.sigmas.map fun sigma => o.temperatures.map fun t =>
        selfEnergyAt env p none none sigma o.sigmaCutoff t) ∧ s'.points = none := by
  obtain ⟨s', e, h'⟩ := lbteSigmas_value (env := env) o p
    (fun sigma t => selfEnergyAt env p none none sigma o.sigmaCutoff t) (by
      intro j sigma s _ hat hn hg hz
      have hat' := hat
      obtain ⟨h1, h2, h3, h4⟩ := hat
      unfold lbteStrengths
      simp only [hread, Bool.false_eq_true, if_false]
      by_cases hj : (decide (j ≠ 0) && (o.isFullPP || o.sigmaCutoff.isNone)) = true
      · rw [if_pos hj]
        exact ⟨s, env.strengths p none, _, rfl, ⟨hat', hg, hz, Or.inr ⟨hn, rfl⟩⟩, fun t => rfl⟩
      · rw [if_neg hj]
        cases hfull : o.isFullPP with
        | true =>
          refine ⟨{ s with strength := some (env.strengths p none) }, env.strengths p none, _, ?_,
            ⟨⟨h1, h2, h3, h4⟩, hg, hz, Or.inl rfl⟩, fun t => rfl⟩
          simp only [iseCall, iseRunInteraction, h1, bind, Option.bind, Bool.true_or, if_true]
        | false =>
          refine ⟨{ s with strength := some (env.strengths p
              (some (env.weights p p none sigma o.sigmaCutoff).2)) }, _, _, ?_,
            ⟨⟨h1, h2, h3, h4⟩, hg, hz, Or.inl rfl⟩,
            fun t => goodStrengths_value hskip (Or.inr rfl) t⟩
          simp only [iseCall, iseRunInteraction, h1, bind, Option.bind, h4, hz, Option.isSome_none,
            Bool.or_false, Bool.false_eq_true, if_false])
    o.sigmas (fun _ h => h) 0 _ (stands_setGridPoint s hs p)
  refine ⟨s', ?_, h'.2.2.2⟩
  unfold lbteGridPoint
  simp only [iseCall, bind, Option.bind, e]

/-- C147: in the direct solution strengths read from files are used as they are; flags in the file
take the place of those of the weights. -/
theorem C147_lbte_file (env : IseEnv P K S G Z A V) (o : GammaOptions P K S Z A)
    (hread : o.readPP = true) (p : P) (v : Option K → S) (z : Option K → Option Z)
    (hfile : ∀ sigma ∈ o.sigmas, o.file p sigma o.sigmaCutoff = some (v sigma, z sigma))
    (s : IseObject P K S G Z V) (hs : s.points = none) :
    ∃ s', lbteGridPoint env o p s = some (s',
      o.sigmas.map fun sigma => o.temperatures.map fun t =>
        env.degenerate p (env.result p (v sigma) (env.weights p p none sigma o.sigmaCutoff).1
          (some ((z sigma).getD (env.weights p p none sigma o.sigmaCutoff).2)) none t)) ∧
      s'.points = none := by
  obtain ⟨s', e, h'⟩ := lbteSigmas_value (env := env) o p
    (fun sigma t => env.degenerate p (env.result p (v sigma)
      (env.weights p p none sigma o.sigmaCutoff).1
      (some ((z sigma).getD (env.weights p p none sigma o.sigmaCutoff).2)) none t)) (by
      intro j sigma s hmem ⟨h1, h2, h3, h4⟩ hn hg hz
      refine ⟨{ s with strength := some (v sigma),
                       gZero := some ((z sigma).getD (env.weights p p none sigma o.sigmaCutoff).2) },
        v sigma, _, ?_, ⟨⟨h1, h2, h3, h4⟩, hg, rfl, Or.inl rfl⟩, fun t => rfl⟩
      unfold lbteStrengths
      simp only [hread, if_true, hfile sigma hmem, bind, Option.bind, hz]
      cases hzs : z sigma with
      | none => simp [iseCall, hz]
      | some x =>
        by_cases hx : x = (env.weights p p none sigma o.sigmaCutoff).2
        · simp [iseCall, hz, hx]
        · rw [if_pos (by simpa using hx)]; simp [iseCall])
    o.sigmas (fun _ h => h) 0 _ (stands_setGridPoint s hs p)
  refine ⟨s', ?_, h'.2.2.2⟩
  unfold lbteGridPoint
  simp only [iseCall, bind, Option.bind, e]

/-- C147: so files that a run wrote for the same smearing widths give the same results. -/
theorem C147_lbte_file_same (env : IseEnv P K S G Z A V) (hskip : SkippingHarmless env)
    (o : GammaOptions P K S Z A) (hread : o.readPP = true) (p : P) (v : Option K → S)
    (z : Option K → Option Z)
    (hfile : ∀ sigma ∈ o.sigmas, o.file p sigma o.sigmaCutoff = some (v sigma, z sigma) ∧
      GoodStrengths env p sigma o.sigmaCutoff (v sigma) ∧
      (z sigma = none ∨ z sigma = some (env.weights p p none sigma o.sigmaCutoff).2))
    (s : IseObject P K S G Z V) (hs : s.points = none) :
    ∃ s', lbteGridPoint env o p s = some (s',
      o.sigmas.map fun sigma => o.temperatures.map fun t =>
        selfEnergyAt env p none none sigma o.sigmaCutoff t) ∧ s'.points = none := by
  obtain ⟨s', e, h⟩ := C147_lbte_file env o hread p v z (fun x hx => (hfile x hx).1) s hs
  refine ⟨s', ?_, h⟩
  rw [e]
  congr 2
  refine List.map_congr_left fun sigma hsig => List.map_congr_left fun t _ => ?_
  obtain ⟨_, hg, hz⟩ := hfile sigma hsig
  rw [← goodStrengths_value hskip hg t]
  rcases hz with hz | hz <;> rw [hz] <;> rfl

/-- C147: with constant interaction strengths all widths are computed from these, and their averages
are stored. -/
theorem C147_constant (env : IseEnv P K S G Z A V) (o : GammaOptions P K S Z A)
    (hread : o.readPP = false) (have_ : o.useAverages = false) (hconst : o.constant = true) (p : P)
    (s : IseObject P K S G Z V) (hs : s.points = none) (ave : A) :
    ∃ s', rtaGridPoint env o p s ave = some (s',
      if o.sigmas ≠ [] then env.averages p (env.strengths p none) else ave,
      o.sigmas.map fun sigma => o.temperatures.map fun t =>
        selfEnergyAt env p none none sigma o.sigmaCutoff t) ∧ s'.points = none := by
  obtain ⟨s', e, h'⟩ := rtaSigmas_value (env := env) o p
    (fun sigma t => selfEnergyAt env p none none sigma o.sigmaCutoff t)
    (fun _ _ => env.averages p (env.strengths p none)) (by
      intro j sigma ave s _ ⟨h1, h2, h3, h4⟩ hn hg hz
      refine ⟨{ s with strength := some (env.strengths p none) }, env.strengths p none, ?_,
        ⟨⟨h1, h2, h3, h4⟩, hg, hz, Or.inl rfl⟩, fun t => rfl⟩
      unfold rtaStrengths
      simp only [hread, have_, hconst, Bool.false_eq_true, if_false, if_true, iseCall,
        iseRunInteraction, h1, bind, Option.bind, Bool.true_or])
    o.sigmas (fun _ h => h) 0 ave _ (stands_setGridPoint s hs p)
  refine ⟨s', ?_, h'.2.2.2⟩
  unfold rtaGridPoint
  simp only [iseCall, bind, Option.bind, e]
  congr 2
  rw [Prod.mk.injEq]
  refine ⟨?_, rfl⟩
  have key : ∀ (b : A) (n j : Nat) (a : A), (List.range' j n).foldl (fun _ _ => b) a =
      if n = 0 then a else b := by
    intro b n
    induction n with
    | zero => intro j a; rfl
    | succ n ih => intro j a; rw [List.range'_succ, List.foldl_cons, ih]; simp
  rw [key]
  cases o.sigmas <;> simp

end

/-! ## C148 -/

theorem iseWeights_at (env : IseEnv P K S G Z A V) {p : P} {s : IseObject P K S G Z V}
    (h1 : s.ppTriplets = some p) (h2 : s.gridPoint = some p) {cutoff : Option K}
    (hc : s.sigmaCutoff = some cutoff) (cls : Option Nat) :
    iseCall env s (.runIntegrationWeights cls) = some { s with
      g := some (iseEventClass env cls (env.weights p p s.points s.sigma cutoff).1),
      gZero := some (env.weights p p s.points s.sigma cutoff).2 } := by
  simp only [iseCall, iseRunWeights, h1, hc, bind, Option.bind]
  have : iseBandsOf s p = some p := by unfold iseBandsOf; rw [h2, ite_self]
  rw [this]

/-- The object is at grid point `p` with smearing width `sigma` and holds no strengths, or all. -/
def ReadyAt (env : IseEnv P K S G Z A V) (p : P) (sigma : Option K)
    (s : IseObject P K S G Z V) : Prop :=
  s.ppTriplets = some p ∧ s.gridPoint = some p ∧ s.triplets = some p ∧ s.sigma = sigma ∧
    s.sigmaCutoff = some none ∧ (s.strength = none ∨ s.strength = some (env.strengths p none))

theorem temperatures_value (env : IseEnv P K S G Z A V) (p : P) (sigma : Option K)
    (cls : Option Nat) (f : Option (List K)) (ts : List K) :
    ∀ s : IseObject P K S G Z V, ReadyAt env p sigma s → s.points = f →
      s.g = some (iseEventClass env cls (env.weights p p f sigma none).1) →
      s.gZero = some (env.weights p p f sigma none).2 →
    ∃ s', gammaTemperatures env ts s =
      some (s', ts.map fun t => selfEnergyAt env p cls f sigma none t) ∧
      ReadyAt env p sigma s' ∧ s'.points = f := by
  induction ts with
  | nil => intro s h hf _ _; exact ⟨s, rfl, h, hf⟩
  | cons t ts ih =>
    rintro ⟨a1, a2, a3, a4, a5, a6, a7, a8, a9, a10, a11⟩ ⟨h1, h2, h3, h4, h5, h6⟩ hf hg hz
    simp only at h1 h2 h3 h4 h5 h6 hf hg hz
    subst h1 h2 h3 h4 h5 hf hg hz
    let w := env.weights p p a6 a4 none
    let s : IseObject P K S G Z V := ⟨some p, some p, some p, a4, some none, a6, a7, a8,
      some (iseEventClass env cls w.1), some w.2, a11⟩
    let s2 : IseObject P K S G Z V := { s with
      temperature := some t, strength := some (env.strengths p none),
      value := some (env.result p (env.strengths p none) (iseEventClass env cls w.1) (some w.2) a6 t) }
    have hrun : iseRun env { s with temperature := some t } = some s2 := by
      rcases h6 with rfl | rfl <;> rfl
    have hval : iseValue env s2 = some (selfEnergyAt env p cls a6 a4 none t) := rfl
    obtain ⟨s', e, hr, hf⟩ := ih s2 ⟨rfl, rfl, rfl, rfl, rfl, Or.inr rfl⟩ rfl rfl rfl
    refine ⟨s', ?_, hr, hf⟩
    unfold gammaTemperatures
    change ((iseRun env { s with temperature := some t }).bind fun s => _) = _
    rw [hrun]
    change ((iseValue env s2).bind fun v => _) = _
    rw [hval]
    change ((gammaTemperatures env ts s2).bind fun r => _) = _
    rw [e]
    rfl

theorem batches_value (env : IseEnv P K S G Z A V) (p : P) (sigma : Option K) (cls : Option Nat)
    (ts : List K) (batches : List (List K)) :
    ∀ s : IseObject P K S G Z V, ReadyAt env p sigma s →
    ∃ s', iseBatches env cls ts batches s =
      some (s', batches.map fun f => ts.map fun t => selfEnergyAt env p cls (some f) sigma none t) ∧
      ReadyAt env p sigma s' := by
  induction batches with
  | nil => intro s h; exact ⟨s, rfl, h⟩
  | cons f batches ih =>
    intro s h
    obtain ⟨h1, h2, h3, h4, h5, h6⟩ := h
    subst h4
    have e2 := iseWeights_at env (p := p) (s := { s with points := some f }) h1 h2 h5 cls
    simp only at e2
    obtain ⟨s3, e3, hr, _⟩ := temperatures_value env p s.sigma cls (some f) ts
      { s with points := some f,
               g := some (iseEventClass env cls (env.weights p p (some f) s.sigma none).1),
               gZero := some (env.weights p p (some f) s.sigma none).2 }
      ⟨h1, h2, h3, rfl, h5, h6⟩ rfl rfl rfl
    obtain ⟨s4, e4, h4'⟩ := ih s3 hr
    refine ⟨s4, ?_, h4'⟩
    rw [iseBatches]
    have e1 : iseCall env s (.setFrequencyPoints (some f)) = some { s with points := some f } := rfl
    simp only [e1, bind, Option.bind, e2, e3, e4, List.map_cons]

/-- What `get_imag_self_energy` computes for the batches of frequency points, or at the band
frequencies. -/
def iseValuesOf (env : IseEnv P K S G Z A V) (cls : Option Nat) (ts : List K)
    (batches : Option (List (List K))) (p : P) (sigma : Option K) : List (List V) :=
  match batches with
  | none => [ts.map fun t => selfEnergyAt env p cls none sigma none t]
  | some batches => batches.map fun f => ts.map fun t => selfEnergyAt env p cls (some f) sigma none t

/-- C148: `get_imag_self_energy` gives, for each grid point, smearing width, batch of frequency points
(or the band frequencies) and temperature, the self-energy of exactly these settings from all
interaction strengths, for any other grid points, widths, batches and temperatures. -/
theorem C148_values (env : IseEnv P K S G Z A V) (cls : Option Nat) (ts : List K)
    (batches : Option (List (List K))) (sigmas : List (Option K)) (ps : List P) :
    ∀ s : IseObject P K S G Z V, (batches = none → s.points = none) →
    ∃ s', iseAtGridPoints env cls ts batches sigmas ps s =
      some (s', ps.map fun p => sigmas.map fun sigma => iseValuesOf env cls ts batches p sigma) ∧
      (batches = none → s'.points = none) := by
  have atSigma : ∀ (p : P) (sigma : Option K) (s : IseObject P K S G Z V),
      (batches = none → s.points = none) → ReadyAt env p sigma s →
      ∃ s', iseAtSigma env cls ts batches s = some (s', iseValuesOf env cls ts batches p sigma) ∧
        ReadyAt env p sigma s' ∧ (batches = none → s'.points = none) := by
    intro p sigma s hb h
    cases batches with
    | none =>
      obtain ⟨h1, h2, h3, h4, h5, h6⟩ := h
      subst h4
      have hf := hb rfl
      have e2 := iseWeights_at env (p := p) (s := s) h1 h2 h5 cls
      rw [hf] at e2
      obtain ⟨s3, e3, hr, hf3⟩ := temperatures_value env p s.sigma cls none ts
        { s with g := some (iseEventClass env cls (env.weights p p none s.sigma none).1),
                 gZero := some (env.weights p p none s.sigma none).2 }
        ⟨h1, h2, h3, rfl, h5, h6⟩ hf rfl rfl
      rw [hf] at e3
      refine ⟨s3, ?_, hr, fun _ => hf3⟩
      unfold iseAtSigma
      simp only [e2, e3, bind, Option.bind]
      rfl
    | some b =>
      obtain ⟨s', e, h'⟩ := batches_value env p sigma cls ts b s h
      exact ⟨s', e, h', fun h => by cases h⟩
  have sigmasV : ∀ (p : P) (sigmas : List (Option K)) (s : IseObject P K S G Z V),
      (batches = none → s.points = none) → s.ppTriplets = some p → s.gridPoint = some p →
      s.triplets = some p →
      ∃ s', iseAtSigmas env cls ts batches sigmas s =
        some (s', sigmas.map fun sigma => iseValuesOf env cls ts batches p sigma) ∧
        (batches = none → s'.points = none) := by
    intro p sigmas
    induction sigmas with
    | nil => intro s hb _ _ _; exact ⟨s, rfl, hb⟩
    | cons sigma sigmas ih =>
      intro s hb h1 h2 h3
      obtain ⟨s1, e1, hr, hb1⟩ := atSigma p sigma
        { s with sigma := sigma, sigmaCutoff := some none, g := none, gZero := none,
                 strength := none } hb ⟨h1, h2, h3, rfl, rfl, Or.inl rfl⟩
      obtain ⟨s2, e2, hb2⟩ := ih s1 hb1 hr.1 hr.2.1 hr.2.2.1
      refine ⟨s2, ?_, hb2⟩
      rw [iseAtSigmas]
      have e0 : iseCall env s (.setSigma sigma none) = some { s with
        sigma := sigma, sigmaCutoff := some none, g := none, gZero := none, strength := none } := rfl
      simp only [e0, e1, e2, bind, Option.bind, List.map_cons]
  induction ps with
  | nil => intro s hb; exact ⟨s, rfl, hb⟩
  | cons p ps ih =>
    intro s hb
    obtain ⟨s1, e1, hb1⟩ := sigmasV p sigmas { s with
      ppTriplets := some p, triplets := some p, gridPoint := some p,
      strength := some (env.strengths p none) } hb rfl rfl rfl
    obtain ⟨s2, e2, hb2⟩ := ih s1 hb1
    refine ⟨s2, ?_, hb2⟩
    rw [iseAtGridPoints]
    have e0 : iseCall env s (.setGridPoint (some p)) = some { s with
      ppTriplets := some p, strength := none, triplets := some p, gridPoint := some p } := rfl
    have e0' : iseCall env { s with
        ppTriplets := some p, strength := none, triplets := some p, gridPoint := some p }
        (.runInteraction true) = some { s with
        ppTriplets := some p, triplets := some p, gridPoint := some p,
        strength := some (env.strengths p none) } := rfl
    simp only [e0, e0', e1, e2, bind, Option.bind, List.map_cons]

end

/-! ### Contributions of triplets -/

section
variable {D : Type}

theorem storeAtBands_value (n m : Nat) (d : Nat → Nat → D) (j : Nat) (a : Nat → Nat → D)
    (h : m ≤ n) :
    storeAtBands n m d j a = some fun i t => if i < m then d j i else a i t := by
  unfold storeAtBands
  induction m with
  | zero => simp
  | succ m ih =>
    rw [List.range_succ, List.foldlM_append, ih (by omega)]
    simp only [List.foldlM_cons, List.foldlM_nil, bind, Option.bind, storeRow]
    rw [if_pos (by omega)]
    simp only [pure, Option.some.injEq]
    funext i t
    by_cases h1 : i = m
    · subst h1; simp
    · rw [if_neg h1]
      by_cases h2 : i < m
      · rw [if_pos h2, if_pos (by omega)]
      · rw [if_neg h2, if_neg (by omega)]

theorem storeAtBands_fails (n m : Nat) (d : Nat → Nat → D) (j : Nat) (a : Nat → Nat → D)
    (h : n < m) : storeAtBands n m d j a = none := by
  obtain ⟨k, rfl⟩ := Nat.exists_eq_add_of_lt h
  have e := storeAtBands_value n n d j a (le_refl _)
  unfold storeAtBands at e ⊢
  rw [show n + k + 1 = n + (k + 1) by ring, List.range_add, List.foldlM_append, e]
  simp only [List.range_succ_eq_map, List.map_cons, List.foldlM_cons, bind, Option.bind, storeRow,
    Nat.add_zero, lt_irrefl, if_false]

/-- C148: with more temperatures than smearing widths, asking for the contributions of triplets at
band frequencies fails. -/
theorem C148_fails (n m : Nat) (hn : 0 < n) (h : n < m) (zero : D) (d : Nat → Nat → D)
    (ds : List (Nat → Nat → D)) : storeGridPoints true n m zero (d :: ds) = none := by
  obtain ⟨n, rfl⟩ := Nat.exists_eq_succ_of_ne_zero hn.ne'
  rw [storeGridPoints, List.range_succ_eq_map, storeSigmas]
  simp only [storeDetail, if_true, storeAtBands_fails _ m d 0 _ h, bind, Option.bind]

theorem storeSigmas_bands (n m : Nat) (h : m ≤ n) (d : Nat → Nat → D) (js : List Nat) :
    ∀ a : Nat → Nat → D, storeSigmas true n m d js a =
      some (fun i t => if i < m then (js.getLast?.map fun j => d j i).getD (a i t) else a i t,
        js.map fun j t => if j < m then d j j else a j t) := by
  induction js with
  | nil => intro a; simp [storeSigmas]
  | cons j js ih =>
    intro a
    rw [storeSigmas]
    simp only [storeDetail, if_true, storeAtBands_value n m d j a h, bind, Option.bind, ih]
    congr 2
    · funext i t
      cases js with
      | nil => simp
      | cons x xs =>
        by_cases hi : i < m
        · simp [hi, List.getLast?_cons_cons]
          cases hl : (x :: xs).getLast? with
          | none => simp at hl
          | some y => rfl
        · simp [hi]
    · simp only [List.map_cons, List.cons.injEq, true_and]
      refine List.map_congr_left fun k _ => ?_
      funext t
      by_cases hk : k < m <;> simp [hk]

/-- C148: with `m ≤ n` temperatures and `n` smearing widths, at band frequencies, the file of width
number `j` holds for every temperature the contributions at temperature number `j` (zeros if there is no
such temperature), and what is returned holds, at place `[i, t]`, those of the last width at
temperature number `i`; there are `n` such arrays for each grid point. -/
theorem C148_at_bands (n m : Nat) (hn : 0 < n) (h : m ≤ n) (zero : D) (ds : List (Nat → Nat → D)) :
    storeGridPoints true n m zero ds = some (
      ds.flatMap fun d => List.replicate n fun i _ => if i < m then d (n - 1) i else zero,
      ds.map fun d => (List.range n).map fun j _ => if j < m then d j j else zero) := by
  induction ds with
  | nil => rfl
  | cons d ds ih =>
    rw [storeGridPoints, storeSigmas_bands n m h d]
    simp only [bind, Option.bind, ih, List.flatMap_cons, List.map_cons]
    congr 3
    congr 1
    funext i t
    obtain ⟨n, rfl⟩ := Nat.exists_eq_succ_of_ne_zero hn.ne'
    rw [List.range_succ, List.getLast?_append]
    simp

/-- C148: with one smearing width and one temperature files and returned arrays are right, one array
for each grid point. -/
theorem C148_single_partial (zero : D) (ds : List (Nat → Nat → D)) :
    ∃ r f, storeGridPoints true 1 1 zero ds = some (r, f) ∧ r.length = ds.length ∧
      f.length = ds.length ∧ ∀ (x : Nat) (hx : x < ds.length),
        (∃ a, r[x]? = some a ∧ a 0 0 = ds[x] 0 0) ∧ (∃ b, f[x]? = some [b] ∧ b 0 = ds[x] 0 0) := by
  have e := C148_at_bands 1 1 Nat.one_pos (le_refl _) zero ds
  have hr : (ds.flatMap fun d => List.replicate 1 fun i (_ : Nat) =>
      if i < 1 then d (1 - 1) i else zero) = ds.map fun d i _ => if i < 1 then d 0 i else zero := by
    simp [List.flatMap_singleton', ← List.map_eq_flatMap]
  rw [hr] at e
  refine ⟨_, _, e, by simp, by simp, fun x hx =>
    ⟨⟨fun i _ => if i < 1 then ds[x] 0 i else zero, by simp [hx], by simp⟩,
      ⟨fun _ => ds[x] 0 0, by simp [hx], rfl⟩⟩⟩

/-- C148: for sampled frequency points the files are right: the file of width number `j` holds at every
temperature the contributions of this width and temperature. The returned array is complete, but it
is returned once for each width. -/
theorem C148_at_points (n m : Nat) (zero : D) (ds : List (Nat → Nat → D)) :
    storeGridPoints false n m zero ds = some (
      ds.flatMap fun d => List.replicate n fun i t => if i < n ∧ t < m then d i t else zero,
      ds.map fun d => (List.range n).map fun j t => if t < m then d j t else zero) := by
  have key : ∀ (d : Nat → Nat → D) (js : List Nat) (a : Nat → Nat → D), js.Nodup →
      (∀ j ∈ js, ∀ t, a j t = zero) →
      storeSigmas false n m d js a =
        some (fun i t => if i ∈ js ∧ t < m then d i t else a i t,
          js.map fun j t => if t < m then d j t else zero) := by
    intro d js
    induction js with
    | nil => intro a _ _; simp [storeSigmas]
    | cons j js ih =>
      intro a hnd ha
      rw [List.nodup_cons] at hnd
      rw [storeSigmas]
      simp only [storeDetail, Bool.false_eq_true, if_false, bind, Option.bind]
      rw [ih _ hnd.2 (by
        intro k hk t
        unfold storeAtPoints
        rw [if_neg (by rintro ⟨rfl, _⟩; exact hnd.1 hk)]
        exact ha k (List.mem_cons_of_mem _ hk) t)]
      simp only [List.map_cons, storeAtPoints, true_and]
      congr 3
      · funext i t
        by_cases hi : i ∈ js <;> by_cases ht : t < m <;> by_cases hij : i = j <;>
          simp [hi, ht, hij]
      · funext t
        by_cases ht : t < m <;> simp [storeAtPoints, ht, ha j List.mem_cons_self]
  induction ds with
  | nil => rfl
  | cons d ds ih =>
    rw [storeGridPoints, key d (List.range n) _ List.nodup_range (fun _ _ _ => rfl)]
    simp only [bind, Option.bind, ih, List.flatMap_cons, List.map_cons, List.mem_range]

end
end Phono3py.Props
