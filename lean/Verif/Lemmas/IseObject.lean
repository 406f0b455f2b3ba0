import Verif.Spec.IseObject

namespace Phono3py
open Phono3py.Spec

section
variable {P K S G Z A V : Type}

theorem lastGiven_cons {C α : Type} (f : C → Option α) (c : C) (h : List C) :
    lastGiven f (c :: h) = (lastGiven f h).or (f c) := by
  unfold lastGiven
  rw [List.reverse_cons, List.findSome?_append]
  cases h' : f c <;> simp [h']

theorem lastGiven_append {C α : Type} (f : C → Option α) (h h' : List C) :
    lastGiven f (h ++ h') = (lastGiven f h').or (lastGiven f h) := by
  unfold lastGiven
  rw [List.reverse_append, List.findSome?_append]

theorem iseCalls_cons (env : IseEnv P K S G Z A V) (s : IseObject P K S G Z V)
    (c : IseCall P K S Z A) (h : List (IseCall P K S Z A)) :
    iseCalls env s (c :: h) = (iseCall env s c).bind fun s' => iseCalls env s' h := rfl

theorem iseCalls_append (env : IseEnv P K S G Z A V) (s : IseObject P K S G Z V)
    (h h' : List (IseCall P K S Z A)) :
    iseCalls env s (h ++ h') = (iseCalls env s h).bind fun s' => iseCalls env s' h' := by
  unfold iseCalls
  rw [List.foldlM_append]; rfl

theorem iseRunInteraction_eq {env : IseEnv P K S G Z A V} {full : Bool}
    {s s' : IseObject P K S G Z V} (h : iseRunInteraction env full s = some s') :
    ∃ p, s.ppTriplets = some p ∧ s' = { s with
      strength := some (env.strengths p (if full || s.points.isSome then none else s.gZero)) } := by
  unfold iseRunInteraction at h
  cases hp : s.ppTriplets with
  | none => rw [hp] at h; cases h
  | some p => rw [hp] at h; cases h; exact ⟨p, rfl, rfl⟩

theorem iseRunWeights_eq {env : IseEnv P K S G Z A V} {cls : Option Nat}
    {s s' : IseObject P K S G Z V} (h : iseRunWeights env cls s = some s') :
    ∃ p c q, s.ppTriplets = some p ∧ s.sigmaCutoff = some c ∧
      iseBandsOf s p = some q ∧
      s' = { s with
        g := some (iseEventClass env cls (env.weights p q s.points s.sigma c).1)
        gZero := some (env.weights p q s.points s.sigma c).2 } := by
  unfold iseRunWeights at h
  cases hp : s.ppTriplets with
  | none => rw [hp] at h; cases h
  | some p =>
    cases hc : s.sigmaCutoff with
    | none => rw [hp, hc] at h; cases h
    | some c =>
      rw [hp, hc] at h
      cases hq : iseBandsOf s p with
      | none =>
        simp only [bind, Option.bind, hq] at h; cases h
      | some q =>
        simp only [bind, Option.bind, hq] at h; cases h
        exact ⟨p, c, q, rfl, rfl, hq, rfl⟩

/-- The strengths used by `run`. -/
theorem iseRun_eq {env : IseEnv P K S G Z A V} {s s' : IseObject P K S G Z V}
    (h : iseRun env s = some s') :
    ∃ v g p t, s.g = some g ∧ s.triplets = some p ∧ s.temperature = some t ∧
      (s.strength = some v ∨
        s.strength = none ∧ ∃ q, s.ppTriplets = some q ∧ v = env.strengths q none) ∧
      s' = { s with strength := some v, value := some (env.result p v g s.gZero s.points t) } := by
  unfold iseRun at h
  cases hv : s.strength with
  | some v =>
    rw [hv] at h
    simp only [Option.isSome_some, if_true, bind, Option.bind, hv] at h
    cases hg : s.g with
    | none => simp only [hg] at h; cases h
    | some g =>
      cases hp : s.triplets with
      | none => simp only [hg, hp] at h; cases h
      | some p =>
        cases ht : s.temperature with
        | none => simp only [hg, hp, ht] at h; cases h
        | some t =>
          simp only [hg, hp, ht] at h
          cases h
          refine ⟨v, g, p, t, rfl, rfl, rfl, Or.inl rfl, ?_⟩
          cases s; cases hv; rfl
  | none =>
    simp only [hv, Option.isSome_none, Bool.false_eq_true, if_false, bind, Option.bind] at h
    cases hi : iseRunInteraction env true s with
    | none => rw [hi] at h; cases h
    | some u =>
      rw [hi] at h
      obtain ⟨q, hq, rfl⟩ := iseRunInteraction_eq hi
      simp only [Bool.true_or, if_true] at h
      cases hg : s.g with
      | none => simp only [hg] at h; cases h
      | some g =>
        cases hp : s.triplets with
        | none => simp only [hg, hp] at h; cases h
        | some p =>
          cases ht : s.temperature with
          | none => simp only [hg, hp, ht] at h; cases h
          | some t =>
            simp only [hg, hp, ht] at h
            cases h
            exact ⟨_, g, p, t, rfl, rfl, rfl, Or.inr ⟨rfl, q, hq, rfl⟩, rfl⟩

/-- Settings shown by the object after one call. -/
theorem iseCall_settings {env : IseEnv P K S G Z A V} {s s' : IseObject P K S G Z V}
    {c : IseCall P K S Z A} (h : iseCall env s c = some s') :
    s'.points = (pointsGiven c).getD s.points ∧
    s'.temperature = (temperatureGiven c).getD s.temperature ∧
    s'.sigma = ((sigmaGiven c).map Prod.fst).getD s.sigma ∧
    s'.sigmaCutoff = ((sigmaGiven c).map fun x => some x.2).getD s.sigmaCutoff := by
  cases c with
  | setGridPoint p => cases p <;> (cases h; exact ⟨rfl, rfl, rfl, rfl⟩)
  | setSigma σ c => cases h; exact ⟨rfl, rfl, rfl, rfl⟩
  | setFrequencyPoints f => cases h; exact ⟨rfl, rfl, rfl, rfl⟩
  | setTemperature t => cases h; exact ⟨rfl, rfl, rfl, rfl⟩
  | runInteraction b =>
    obtain ⟨p, _, rfl⟩ := iseRunInteraction_eq h; exact ⟨rfl, rfl, rfl, rfl⟩
  | runIntegrationWeights b =>
    obtain ⟨p, c, q, _, _, _, rfl⟩ := iseRunWeights_eq h; exact ⟨rfl, rfl, rfl, rfl⟩
  | setAveraged a =>
    cases ht : s.triplets with
    | none => simp only [iseCall, ht] at h; cases h
    | some p => simp only [iseCall, ht] at h; cases h; exact ⟨rfl, rfl, rfl, rfl⟩
  | setStrength v z => cases h; exact ⟨rfl, rfl, rfl, rfl⟩
  | deleteWeights => cases h; exact ⟨rfl, rfl, rfl, rfl⟩
  | run => obtain ⟨v, g, p, t, _, _, _, _, rfl⟩ := iseRun_eq h; exact ⟨rfl, rfl, rfl, rfl⟩
  | otherObject p => cases h; exact ⟨rfl, rfl, rfl, rfl⟩

theorem iseCalls_settings {env : IseEnv P K S G Z A V} {h : List (IseCall P K S Z A)} :
    ∀ {s s' : IseObject P K S G Z V}, iseCalls env s h = some s' →
    s'.points = (lastGiven pointsGiven h).getD s.points ∧
    s'.temperature = (lastGiven temperatureGiven h).getD s.temperature ∧
    s'.sigma = ((lastGiven sigmaGiven h).map Prod.fst).getD s.sigma ∧
    s'.sigmaCutoff = ((lastGiven sigmaGiven h).map fun x => some x.2).getD s.sigmaCutoff := by
  induction h with
  | nil => intro s s' e; cases e; exact ⟨rfl, rfl, rfl, rfl⟩
  | cons c h ih =>
    intro s s' e
    rw [iseCalls_cons] at e
    cases hc : iseCall env s c with
    | none => rw [hc] at e; cases e
    | some u =>
      rw [hc] at e
      obtain ⟨a1, a2, a3, a4⟩ := ih (s := u) e
      obtain ⟨b1, b2, b3, b4⟩ := iseCall_settings hc
      rw [b1] at a1; rw [b2] at a2; rw [b3] at a3; rw [b4] at a4
      rw [lastGiven_cons, lastGiven_cons, lastGiven_cons]
      refine ⟨a1.trans ?_, a2.trans ?_, a3.trans ?_, a4.trans ?_⟩
      · cases lastGiven pointsGiven h <;> rfl
      · cases lastGiven temperatureGiven h <;> rfl
      · cases lastGiven sigmaGiven h <;> rfl
      · cases lastGiven sigmaGiven h <;> rfl

/-- Grid points after calls that set none. -/
theorem iseCall_grid {env : IseEnv P K S G Z A V} {s s' : IseObject P K S G Z V}
    {c : IseCall P K S Z A} (hc : ¬SetsGridPoint c) (h : iseCall env s c = some s') :
    s'.ppTriplets = s.ppTriplets ∧ s'.gridPoint = s.gridPoint ∧ s'.triplets = s.triplets := by
  cases c with
  | setGridPoint p => exact absurd trivial hc
  | setSigma σ c => cases h; exact ⟨rfl, rfl, rfl⟩
  | setFrequencyPoints f => cases h; exact ⟨rfl, rfl, rfl⟩
  | setTemperature t => cases h; exact ⟨rfl, rfl, rfl⟩
  | runInteraction b =>
    obtain ⟨p, _, rfl⟩ := iseRunInteraction_eq h; exact ⟨rfl, rfl, rfl⟩
  | runIntegrationWeights b =>
    obtain ⟨p, c, q, _, _, _, rfl⟩ := iseRunWeights_eq h; exact ⟨rfl, rfl, rfl⟩
  | setAveraged a =>
    cases ht : s.triplets with
    | none => simp only [iseCall, ht] at h; cases h
    | some p => simp only [iseCall, ht] at h; cases h; exact ⟨rfl, rfl, rfl⟩
  | setStrength v z => cases h; exact ⟨rfl, rfl, rfl⟩
  | deleteWeights => cases h; exact ⟨rfl, rfl, rfl⟩
  | run => obtain ⟨v, g, p, t, _, _, _, _, rfl⟩ := iseRun_eq h; exact ⟨rfl, rfl, rfl⟩
  | otherObject p => exact absurd trivial hc

theorem iseCalls_grid {env : IseEnv P K S G Z A V} {h : List (IseCall P K S Z A)} :
    ∀ {s s' : IseObject P K S G Z V}, (∀ c ∈ h, ¬SetsGridPoint c) → iseCalls env s h = some s' →
    s'.ppTriplets = s.ppTriplets ∧ s'.gridPoint = s.gridPoint ∧ s'.triplets = s.triplets := by
  induction h with
  | nil => intro s s' _ e; cases e; exact ⟨rfl, rfl, rfl⟩
  | cons c h ih =>
    intro s s' hn e
    rw [iseCalls_cons] at e
    cases hc : iseCall env s c with
    | none => rw [hc] at e; cases e
    | some u =>
      rw [hc] at e
      obtain ⟨a1, a2, a3⟩ := ih (s := u) (fun d hd => hn d (List.mem_cons_of_mem _ hd)) e
      obtain ⟨b1, b2, b3⟩ := iseCall_grid (hn c List.mem_cons_self) hc
      exact ⟨a1.trans b1, a2.trans b2, a3.trans b3⟩

/-- The object holds no strengths or those of all pairs of bands at `p`. -/
def NoneOrFull (env : IseEnv P K S G Z A V) (p : P) (s : IseObject P K S G Z V) : Prop :=
  s.strength = none ∨ s.strength = some (env.strengths p none)

theorem dropped {env : IseEnv P K S G Z A V} {s s' : IseObject P K S G Z V}
    {c : IseCall P K S Z A} (hc : DropsStrengths c) (h : iseCall env s c = some s') :
    s'.strength = none := by
  cases c with
  | setGridPoint p => cases p with
    | none => exact absurd hc id
    | some p => cases h; rfl
  | setSigma σ c => cases h; rfl
  | deleteWeights => cases h; rfl
  | setFrequencyPoints f => exact absurd hc id
  | setTemperature t => exact absurd hc id
  | runInteraction b => exact absurd hc id
  | runIntegrationWeights b => exact absurd hc id
  | setAveraged a => exact absurd hc id
  | setStrength v z => exact absurd hc id
  | run => exact absurd hc id
  | otherObject p => exact absurd hc id

theorem noneOrFull_call {env : IseEnv P K S G Z A V} {p : P} {s s' : IseObject P K S G Z V}
    {c : IseCall P K S Z A} (hg : ¬SetsGridPoint c) (hb : ¬BringsStrengths c)
    (hp : s.ppTriplets = some p) (hs : NoneOrFull env p s) (h : iseCall env s c = some s') :
    NoneOrFull env p s' := by
  cases c with
  | setGridPoint p => exact absurd trivial hg
  | setSigma σ c => cases h; exact Or.inl rfl
  | setFrequencyPoints f => cases h; exact hs
  | setTemperature t => cases h; exact hs
  | runInteraction b =>
    cases b with
    | false => exact absurd trivial hb
    | true =>
      obtain ⟨q, hq, rfl⟩ := iseRunInteraction_eq h
      rw [hp] at hq; cases hq
      exact Or.inr (by simp)
  | runIntegrationWeights b =>
    obtain ⟨p, c, q, _, _, _, rfl⟩ := iseRunWeights_eq h; exact hs
  | setAveraged a => exact absurd trivial hb
  | setStrength v z => exact absurd trivial hb
  | deleteWeights => cases h; exact Or.inl rfl
  | run =>
    obtain ⟨v, g, q, t, _, _, _, hv, rfl⟩ := iseRun_eq h
    rcases hv with hv | ⟨_, q', hq', rfl⟩
    · rcases hs with hs | hs
      · rw [hs] at hv; cases hv
      · exact Or.inr (hv ▸ hs)
    · rw [hp] at hq'; cases hq'; exact Or.inr rfl
  | otherObject p => exact absurd trivial hg

theorem noneOrFull_calls {env : IseEnv P K S G Z A V} {p : P} {h : List (IseCall P K S Z A)} :
    ∀ {s s' : IseObject P K S G Z V}, (∀ c ∈ h, ¬SetsGridPoint c) → (∀ c ∈ h, ¬BringsStrengths c) →
    s.ppTriplets = some p → NoneOrFull env p s → iseCalls env s h = some s' →
    NoneOrFull env p s' := by
  induction h with
  | nil => intro s s' _ _ _ hs e; cases e; exact hs
  | cons c h ih =>
    intro s s' hg hb hp hs e
    rw [iseCalls_cons] at e
    cases hc : iseCall env s c with
    | none => rw [hc] at e; cases e
    | some u =>
      rw [hc] at e
      have hu := noneOrFull_call (hg c List.mem_cons_self) (hb c List.mem_cons_self) hp hs hc
      have hq := (iseCall_grid (hg c List.mem_cons_self) hc).1
      exact ih (s := u) (fun d hd => hg d (List.mem_cons_of_mem _ hd))
        (fun d hd => hb d (List.mem_cons_of_mem _ hd)) (hq.trans hp) hu e

/-- Strengths that `run` may find once the weights for the settings are there. -/
def Usable (env : IseEnv P K S G Z A V) (p : P) (s : IseObject P K S G Z V) : Prop :=
  NoneOrFull env p s ∨
    s.points = none ∧ ∃ z, s.gZero = some z ∧ s.strength = some (env.strengths p (some z))

theorem onlyCalculates_call {env : IseEnv P K S G Z A V} {p : P} {z : Z}
    {s s' : IseObject P K S G Z V} {c : IseCall P K S Z A} (ho : OnlyCalculates c)
    (hp : s.ppTriplets = some p) (hz : s.gZero = some z) (hs : Usable env p s)
    (h : iseCall env s c = some s') :
    Usable env p s' ∧ s'.g = s.g ∧ s'.gZero = s.gZero := by
  cases c with
  | setTemperature t => cases h; exact ⟨hs, rfl, rfl⟩
  | runInteraction b =>
    obtain ⟨q, hq, rfl⟩ := iseRunInteraction_eq h
    rw [hp] at hq; cases hq
    refine ⟨?_, rfl, rfl⟩
    cases b with
    | true => exact Or.inl (Or.inr (by simp))
    | false =>
      cases hpt : s.points with
      | some f => exact Or.inl (Or.inr (by simp))
      | none =>
        refine Or.inr ⟨rfl, z, hz, ?_⟩
        simp [hz]
  | run =>
    obtain ⟨v, g, q, t, _, _, _, hv, rfl⟩ := iseRun_eq h
    refine ⟨?_, rfl, rfl⟩
    rcases hv with hv | ⟨_, q', hq', rfl⟩
    · rcases hs with (hs | hs) | ⟨hpt, z', hz', hs⟩
      · rw [hs] at hv; cases hv
      · exact Or.inl (Or.inr (hv ▸ hs))
      · exact Or.inr ⟨hpt, z', hz', hv ▸ hs⟩
    · rw [hp] at hq'; cases hq'; exact Or.inl (Or.inr rfl)
  | setGridPoint p => exact absurd ho id
  | setSigma σ c => exact absurd ho id
  | setFrequencyPoints f => exact absurd ho id
  | runIntegrationWeights b => exact absurd ho id
  | setAveraged a => exact absurd ho id
  | setStrength v z => exact absurd ho id
  | deleteWeights => exact absurd ho id
  | otherObject p => exact absurd ho id

theorem onlyCalculates_grid {c : IseCall P K S Z A} (h : OnlyCalculates c) : ¬SetsGridPoint c := by
  cases c <;> first | exact id | exact absurd h id

theorem onlyCalculates_calls {env : IseEnv P K S G Z A V} {p : P} {h : List (IseCall P K S Z A)} :
    ∀ {z : Z} {s s' : IseObject P K S G Z V}, (∀ c ∈ h, OnlyCalculates c) →
    s.ppTriplets = some p → s.gZero = some z → Usable env p s → iseCalls env s h = some s' →
    Usable env p s' ∧ s'.g = s.g ∧ s'.gZero = s.gZero := by
  induction h with
  | nil => intro z s s' _ _ _ hs e; cases e; exact ⟨hs, rfl, rfl⟩
  | cons c h ih =>
    intro z s s' ho hp hz hs e
    rw [iseCalls_cons] at e
    cases hc : iseCall env s c with
    | none => rw [hc] at e; cases e
    | some u =>
      rw [hc] at e
      obtain ⟨h1, h2, h3⟩ := onlyCalculates_call (ho c List.mem_cons_self) hp hz hs hc
      have hq := (iseCall_grid (onlyCalculates_grid (ho c List.mem_cons_self)) hc).1
      obtain ⟨k1, k2, k3⟩ := ih (s := u) (fun d hd => ho d (List.mem_cons_of_mem _ hd))
        (hq.trans hp) (h3.trans hz) h1 e
      exact ⟨k1, k2.trans h2, k3.trans h3⟩

end
end Phono3py
