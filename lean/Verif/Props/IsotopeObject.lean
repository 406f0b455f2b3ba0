import Verif.Model.IsotopeObject

/-!
# C164: isotope linewidths after any history of calls
-/

namespace Phono3py.Props

open Phono3py

variable {D V P S G R : Type}

/-! ### Specification -/

/-- The linewidths that belong to a dynamical matrix, a direction, a grid point and a smearing
width. -/
def isotopeWidths (e : IsotopeEnv D V P S G R) (d : D) (v : Option V) (gp : G) (x : Option S) : R :=
  e.strength (e.phonon d v) gp x

/-- A call that does not change the crystal or the direction. -/
def KeepsCrystal : IsotopeCall D V P S G → Prop
  | .gridPoint _ => True
  | .sigma _ => True
  | .run => True
  | _ => False

/-! ### The invariant -/

/-- Solved points hold the phonons of the dynamical matrix and the direction. -/
def IsoGood (e : IsotopeEnv D V P S G R) (d : D) (v : Option V) (s : IsotopeState D V P S G R) :
    Prop :=
  s.dm = some d ∧ s.direction = v ∧ ∀ a, s.phonons = some a → ∀ g, a.2 g = true →
    a.1 g = e.phonon d v g

theorem isoSolve_good (e : IsotopeEnv D V P S G R) (d : D) (v : Option V)
    (a : (G → P) × (G → Bool)) (h : ∀ g, a.2 g = true → a.1 g = e.phonon d v g) :
    isoSolve e d v a = (e.phonon d v, fun _ => true) := by
  unfold isoSolve
  congr 1
  funext g
  split
  · rename_i hg; exact h g hg
  · rfl

theorem isoRun_good (e : IsotopeEnv D V P S G R) (d : D) (v : Option V)
    (s s' : IsotopeState D V P S G R) (h : IsoGood e d v s) (hr : isoRun e s = some s') :
    IsoGood e d v s' ∧ ∃ gp, s.gridPoint = some gp ∧
      s'.gamma = some (isotopeWidths e d v gp s.sigma) ∧ s'.phonons.isSome ∧
      s'.gridPoint = s.gridPoint ∧ s'.sigma = s.sigma := by
  obtain ⟨h1, h2, h3⟩ := h
  unfold isoRun at hr
  split at hr
  · rename_i gp a d' hg ha hd
    rw [h1, Option.some.injEq] at hd
    subst hd
    have hs := isoSolve_good e d v a (h3 a ha)
    rw [h2, hs, Option.some.injEq] at hr
    subst hr
    refine ⟨⟨h1, rfl, ?_⟩, gp, hg, rfl, rfl, rfl, rfl⟩
    intro b hb g _
    rw [Option.some.injEq] at hb
    subst hb
    rfl
  · cases hr

theorem isoSetGridPoint_good (e : IsotopeEnv D V P S G R) (d : D) (v : Option V) (gp : G)
    (s : IsotopeState D V P S G R) (h : IsoGood e d v s) : IsoGood e d v (isoSetGridPoint e gp s) := by
  refine ⟨h.1, h.2.1, fun a ha g hg => ?_⟩
  simp only [isoSetGridPoint, Option.some.injEq] at ha
  cases hs : s.phonons with
  | none => rw [hs] at ha; subst ha; simp at hg
  | some b => rw [hs] at ha; subst ha; exact h.2.2 b hs g hg

theorem isoRun_some (e : IsotopeEnv D V P S G R) (d : D) (v : Option V) (gp : G)
    (s : IsotopeState D V P S G R) (h : IsoGood e d v s) (hg : s.gridPoint = some gp)
    (hp : s.phonons.isSome) : ∃ s', isoRun e s = some s' := by
  obtain ⟨a, ha⟩ := Option.isSome_iff_exists.1 hp
  exact ⟨_, by simp only [isoRun, hg, ha, h.1]; rfl⟩

theorem keeps_good (e : IsotopeEnv D V P S G R) (d : D) (v : Option V)
    (cs : List (IsotopeCall D V P S G)) (hk : ∀ c ∈ cs, KeepsCrystal c)
    (s s' : IsotopeState D V P S G R) (h : IsoGood e d v s) (hc : isoCalls e cs s = some s') :
    IsoGood e d v s' := by
  induction cs generalizing s with
  | nil => simp only [isoCalls, Option.some.injEq] at hc; rw [← hc]; exact h
  | cons c cs ih =>
    simp only [isoCalls, Option.bind_eq_some_iff] at hc
    obtain ⟨s1, h1, h2⟩ := hc
    refine ih (fun x hx => hk x (by simp [hx])) s1 ?_ h2
    have hkc := hk c (by simp)
    cases c with
    | gridPoint gp =>
      simp only [isoCall, Option.some.injEq] at h1
      rw [← h1]
      exact isoSetGridPoint_good e d v gp s h
    | sigma x =>
      simp only [isoCall, Option.some.injEq] at h1
      rw [← h1]
      exact h
    | dynamicalMatrix d' => exact hkc.elim
    | direction v' => exact hkc.elim
    | phonons p done dm => exact hkc.elim
    | run => exact (isoRun_good e d v s s1 h h1).1

theorem new_good (e : IsotopeEnv D V P S G R) (d : D) (v : Option V) :
    IsoGood e d v (isoSetDirection v (isoInitDm d ({} : IsotopeState D V P S G R))) := by
  cases v with
  | none => exact ⟨rfl, rfl, by intro a ha; cases ha⟩
  | some v => exact ⟨rfl, rfl, by intro a ha; cases ha⟩

/-- **C164**. A new object gets a dynamical matrix and possibly a direction. After any calls that set
grid points and smearing widths and run, a run gives the linewidths of that dynamical matrix and
direction at the grid point and width set last. Earlier runs leave no trace. (Not so when the matrix
or the direction is changed after a run, see `C164_new_matrix` and `C164_new_direction`.) -/
theorem C164_history_partial (e : IsotopeEnv D V P S G R) (d : D) (v : Option V)
    (cs : List (IsotopeCall D V P S G)) (hk : ∀ c ∈ cs, KeepsCrystal c)
    (s s' : IsotopeState D V P S G R)
    (hc : isoCalls e (.dynamicalMatrix d :: .direction v :: cs) {} = some s)
    (hr : isoRun e s = some s') :
    ∃ gp, s.gridPoint = some gp ∧ s'.gamma = some (isotopeWidths e d v gp s.sigma) := by
  have h0 := new_good (P := P) (S := S) (R := R) e d v
  have hs : isoCalls e cs (isoSetDirection v (isoInitDm d {})) = some s := hc
  obtain ⟨-, gp, h1, h2, -⟩ := isoRun_good e d v s s' (keeps_good e d v cs hk _ s h0 hs) hr
  exact ⟨gp, h1, h2⟩

theorem isoSigmas_good (e : IsotopeEnv D V P S G R) (d : D) (v : Option V) (gp : G)
    (xs : List (Option S)) (s : IsotopeState D V P S G R) (h : IsoGood e d v s)
    (hg : s.gridPoint = some gp) (hp : s.phonons.isSome) :
    ∃ s', isoSigmas e xs s = some (xs.map (isotopeWidths e d v gp), s') ∧ IsoGood e d v s' := by
  induction xs generalizing s with
  | nil => exact ⟨s, rfl, h⟩
  | cons x xs ih =>
    have hx : IsoGood e d v (isoSetSigma x s) := h
    obtain ⟨s1, h1⟩ := isoRun_some e d v gp (isoSetSigma x s) hx hg hp
    obtain ⟨g1, gp', g2, g3, g4, g5, -⟩ := isoRun_good e d v _ s1 hx h1
    have : gp' = gp := by
      have : (isoSetSigma x s).gridPoint = some gp := hg
      rw [this, Option.some.injEq] at g2
      exact g2.symm
    subst this
    obtain ⟨s', e1, e2⟩ := ih s1 g1 (g5.trans hg) g4
    refine ⟨s', ?_, e2⟩
    simp only [isoSigmas, h1, Option.bind_some, g3, e1, Option.map_some, List.map_cons]
    rfl

theorem apiIsotopeRun_good (e : IsotopeEnv D V P S G R) (d : D) (v : Option V)
    (xs : List (Option S)) (gps : List G) (s : IsotopeState D V P S G R) (h : IsoGood e d v s) :
    ∃ s', apiIsotopeRun e xs gps s =
        some (gps.map (fun gp => xs.map (isotopeWidths e d v gp)), s') ∧ IsoGood e d v s' := by
  induction gps generalizing s with
  | nil => exact ⟨s, rfl, h⟩
  | cons gp gps ih =>
    obtain ⟨s1, h1, h2⟩ := isoSigmas_good e d v gp xs (isoSetGridPoint e gp s)
      (isoSetGridPoint_good e d v gp s h) rfl rfl
    obtain ⟨s', h3, h4⟩ := ih s1 h2
    exact ⟨s', by simp only [apiIsotopeRun, h1, Option.bind_some, h3, Option.map_some,
      List.map_cons], h4⟩

/-- Several calls of `Phono3pyIsotope.run`, each with its grid points; the last result. -/
def isotopeRuns (e : IsotopeEnv D V P S G R) (xs : List (Option S)) :
    List (List G) → List G → IsotopeState D V P S G R →
      Option (List (List R) × IsotopeState D V P S G R)
  | [], last, s => apiIsotopeRun e xs last s
  | gps :: rest, last, s => (apiIsotopeRun e xs gps s).bind fun r => isotopeRuns e xs rest last r.2

/-- **C164**. `Phono3pyIsotope` with one dynamical matrix: whatever runs were made before, a run gives
for every grid point and smearing width the linewidths of these. -/
theorem C164_runs (e : IsotopeEnv D V P S G R) (d : D) (xs : List (Option S))
    (before : List (List G)) (gps : List G) :
    ∃ s', isotopeRuns e xs before gps (isoInitDm d {}) =
      some (gps.map (fun gp => xs.map (isotopeWidths e d none gp)), s') := by
  have : ∀ s : IsotopeState D V P S G R, IsoGood e d none s → ∃ s', isotopeRuns e xs before gps s =
      some (gps.map (fun gp => xs.map (isotopeWidths e d none gp)), s') := by
    induction before with
    | nil =>
      intro s h
      obtain ⟨s', h1, -⟩ := apiIsotopeRun_good e d none xs gps s h
      exact ⟨s', h1⟩
    | cons b before ih =>
      intro s h
      obtain ⟨s1, h1, h2⟩ := apiIsotopeRun_good e d none xs b s h
      obtain ⟨s', h3⟩ := ih s1 h2
      exact ⟨s', by simp only [isotopeRuns, h1, Option.bind_some, h3]⟩
  exact this _ ⟨rfl, rfl, by intro a ha; cases ha⟩

/-- **C164**. In a conductivity calculation the linewidths are those of the phonons of the phonon-
phonon interaction, in whatever state the isotope object is. -/
theorem C164_conductivity (e : IsotopeEnv D V P S G R) (p : G → P) (done : G → Bool) (d : D) (gp : G)
    (xs : List (Option S)) (s : IsotopeState D V P S G R) (hdone : ∀ g, done g = true) :
    ∃ s', conductivityIsotope e p done d gp xs s = some (xs.map (e.strength p gp), s') := by
  induction xs generalizing s with
  | nil => exact ⟨s, rfl⟩
  | cons x xs ih =>
    have hs : ∀ v, isoSolve e d v (p, done) = (p, fun _ => true) := by
      intro v
      simp only [isoSolve, hdone, if_true]
    have hr : isoRun e (isoSetGridPoint e gp (isoSetPhonons p done (some d) (isoSetSigma x s))) =
        some { isoSetGridPoint e gp (isoSetPhonons p done (some d) (isoSetSigma x s)) with
          phonons := some (p, fun _ => true)
          gamma := some (e.strength p gp x) } := by
      simp only [isoRun, isoSetGridPoint, isoSetPhonons, isoSetSigma, Option.getD_some, hs]
    obtain ⟨s', h⟩ := ih { isoSetGridPoint e gp (isoSetPhonons p done (some d) (isoSetSigma x s)) with
          phonons := some (p, fun _ => true)
          gamma := some (e.strength p gp x) }
    refine ⟨s', ?_⟩
    simp only [conductivityIsotope, hr, Option.bind_some, h, Option.map_some, List.map_cons]

/-- **C164**, what fails. After a run a new dynamical matrix has no effect: every later run gives the
linewidths of the old one. -/
theorem C164_new_matrix (e : IsotopeEnv D V P S G R) (d d' : D) (xs : List (Option S))
    (before gps : List G) (gp : G) (x : Option S) :
    ∃ r s1 s2, apiIsotopeRun e (x :: xs) (gp :: before) (isoInitDm d {}) = some (r, s1) ∧
      apiIsotopeRun e (x :: xs) gps (isoInitDm d' s1) =
        some (gps.map (fun g => (x :: xs).map (isotopeWidths e d none g)), s2) := by
  have h0 : IsoGood e d none (isoInitDm d ({} : IsotopeState D V P S G R)) :=
    ⟨rfl, rfl, by intro a ha; cases ha⟩
  have hfull : ∀ (ys : List (Option S)) (s t : IsotopeState D V P S G R) (l : List R),
      s.phonons = some (e.phonon d none, fun _ => true) → isoSigmas e ys s = some (l, t) →
      t.phonons = some (e.phonon d none, fun _ => true) := by
    intro ys
    induction ys with
    | nil =>
      intro s t l hs ht
      simp only [isoSigmas, Option.some.injEq, Prod.mk.injEq] at ht
      rw [← ht.2]; exact hs
    | cons y ys ih =>
      intro s t l hs ht
      simp only [isoSigmas, Option.bind_eq_some_iff, Option.map_eq_some_iff] at ht
      obtain ⟨s1, h1, g, -, r, hr, he⟩ := ht
      rw [Prod.mk.injEq] at he
      refine ih s1 t r.1 ?_ (by rw [hr, ← he.2])
      unfold isoRun at h1
      split at h1
      · rename_i gp a d1 hg ha hd
        have ha' : s.phonons = some a := ha
        rw [hs, Option.some.injEq] at ha'
        subst ha'
        rw [Option.some.injEq] at h1
        rw [← h1]
        simp [isoSolve]
      · cases h1
  have hfirst : ∀ (s t : IsotopeState D V P S G R) (l : List R), IsoGood e d none s →
      isoSigmas e (x :: xs) s = some (l, t) →
      t.phonons = some (e.phonon d none, fun _ => true) := by
    intro s t l hs ht
    simp only [isoSigmas, Option.bind_eq_some_iff, Option.map_eq_some_iff] at ht
    obtain ⟨s1, h1, g, -, r, hr, he⟩ := ht
    rw [Prod.mk.injEq] at he
    refine hfull xs s1 t r.1 ?_ (by rw [hr, ← he.2])
    unfold isoRun at h1
    split at h1
    · rename_i gp a d1 hg ha hd
      have hd' : s.dm = some d1 := hd
      rw [hs.1, Option.some.injEq] at hd'
      subst hd'
      have hv : (isoSetSigma x s).direction = none := hs.2.1
      rw [hv, isoSolve_good e d none a (hs.2.2 a ha), Option.some.injEq] at h1
      rw [← h1]
    · cases h1
  have hall : ∀ (l : List G) (s t : IsotopeState D V P S G R) (r : List (List R)),
      s.phonons = some (e.phonon d none, fun _ => true) →
      apiIsotopeRun e (x :: xs) l s = some (r, t) →
      t.phonons = some (e.phonon d none, fun _ => true) := by
    intro l
    induction l with
    | nil =>
      intro s t r hs ht
      simp only [apiIsotopeRun, Option.some.injEq, Prod.mk.injEq] at ht
      rw [← ht.2]; exact hs
    | cons g l ih =>
      intro s t r hs ht
      simp only [apiIsotopeRun, Option.bind_eq_some_iff, Option.map_eq_some_iff] at ht
      obtain ⟨u, hu, w, hw, he⟩ := ht
      rw [Prod.mk.injEq] at he
      exact ih u.2 t w.1 (hfull _ _ u.2 u.1 (by simp [isoSetGridPoint, hs]) hu)
        (by rw [hw, ← he.2])
  obtain ⟨s1, hr, hgood⟩ := apiIsotopeRun_good e d none (x :: xs) (gp :: before) _ h0
  have hsolved : s1.phonons = some (e.phonon d none, fun _ => true) := by
    have hr' := hr
    simp only [apiIsotopeRun, Option.bind_eq_some_iff, Option.map_eq_some_iff] at hr'
    obtain ⟨u, hu, w, hw, he⟩ := hr'
    rw [Prod.mk.injEq] at he
    exact hall before u.2 s1 w.1
      (hfirst _ u.2 u.1 (isoSetGridPoint_good e d none gp _ h0) hu) (by rw [hw, ← he.2])
  let e' : IsotopeEnv D V P S G R := { e with phonon := fun _ v g => e.phonon d v g }
  have hsame : ∀ s : IsotopeState D V P S G R, s.phonons = some (e.phonon d none, fun _ => true) →
      isoRun e s = isoRun e' s := by
    intro s hs
    unfold isoRun
    rw [hs]
    split
    · rename_i gp a d1 hg ha hd
      rw [Option.some.injEq] at ha
      subst ha
      simp [isoSolve, e']
    · rfl
  have hsig : ∀ (ys : List (Option S)) (s : IsotopeState D V P S G R),
      s.phonons = some (e.phonon d none, fun _ => true) → isoSigmas e ys s = isoSigmas e' ys s := by
    intro ys
    induction ys with
    | nil => intro s _; rfl
    | cons y ys ih =>
      intro s hs
      have hy : (isoSetSigma y s).phonons = some (e.phonon d none, fun _ => true) := hs
      simp only [isoSigmas, ← hsame _ hy]
      cases hc : isoRun e (isoSetSigma y s) with
      | none => rfl
      | some s2 =>
        simp only [Option.bind_some]
        rw [ih s2]
        unfold isoRun at hc
        split at hc
        · rename_i gp a d1 hg ha hd
          rw [hy, Option.some.injEq] at ha
          subst ha
          rw [Option.some.injEq] at hc
          rw [← hc]
          simp [isoSolve]
        · cases hc
  have hapi : ∀ (l : List G) (s : IsotopeState D V P S G R),
      s.phonons = some (e.phonon d none, fun _ => true) →
      apiIsotopeRun e (x :: xs) l s = apiIsotopeRun e' (x :: xs) l s := by
    intro l
    induction l with
    | nil => intro s _; rfl
    | cons g l ih =>
      intro s hs
      have hg : (isoSetGridPoint e g s).phonons = some (e.phonon d none, fun _ => true) := by
        simp [isoSetGridPoint, hs]
      simp only [apiIsotopeRun]
      rw [show isoSetGridPoint e' g s = isoSetGridPoint e g s from rfl, ← hsig _ _ hg]
      cases hc : isoSigmas e (x :: xs) (isoSetGridPoint e g s) with
      | none => rfl
      | some u =>
        simp only [Option.bind_some]
        rw [ih u.2 (hfull _ _ u.2 u.1 hg hc)]
  obtain ⟨s2, h2, -⟩ := apiIsotopeRun_good e' d' none (x :: xs) gps (isoInitDm d' s1)
    ⟨rfl, hgood.2.1, by
      intro a ha g _
      have : s1.phonons = some a := ha
      rw [hsolved, Option.some.injEq] at this
      subst this
      rfl⟩
  exact ⟨_, s1, s2, hr, by rw [hapi gps (isoInitDm d' s1) hsolved]; exact h2⟩

/-- **C164**, what fails. A direction set after a run has no effect on the next, and a direction
cannot be taken back. -/
theorem C164_new_direction (e : IsotopeEnv D V P S G R) (d : D) (v v' : Option V) (gp : G)
    (x : Option S) (cs : List (IsotopeCall D V P S G)) (hk : ∀ c ∈ cs, KeepsCrystal c)
    (s s1 s2 : IsotopeState D V P S G R)
    (hc : isoCalls e (.dynamicalMatrix d :: .direction v :: cs) {} = some s)
    (h1 : isoCalls e [.gridPoint gp, .sigma x, .run] s = some s1)
    (h2 : isoCalls e [.direction v', .run] s1 = some s2) :
    s2.gamma = some (isotopeWidths e d v gp x) ∧
      (isoSetDirection none s1).direction = s1.direction := by
  replace h1 : isoRun e (isoSetSigma x (isoSetGridPoint e gp s)) = some s1 := by
    simpa [isoCalls, isoCall] using h1
  replace h2 : isoRun e (isoSetDirection v' s1) = some s2 := by
    simpa [isoCalls, isoCall] using h2
  have hs : IsoGood e d v s := keeps_good e d v cs hk _ s (new_good e d v) hc
  refine ⟨?_, rfl⟩
  have hg : IsoGood e d v (isoSetSigma x (isoSetGridPoint e gp s)) :=
    isoSetGridPoint_good e d v gp s hs
  unfold isoRun at h1
  split at h1
  · rename_i gp' a d1 hgp ha hd
    rw [hg.1, Option.some.injEq] at hd
    subst hd
    rw [hg.2.1, isoSolve_good e d v a (hg.2.2 a ha), Option.some.injEq] at h1
    have hgp' : gp' = gp := by
      have : (isoSetSigma x (isoSetGridPoint e gp s)).gridPoint = some gp := rfl
      rw [this, Option.some.injEq] at hgp
      exact hgp.symm
    subst hgp'
    subst h1
    cases v' with
    | none =>
      simp only [isoRun, isoSetDirection, hgp, hg.1, Option.some.injEq] at h2
      rw [← h2]
      simp [isoSolve, isotopeWidths, isoSetSigma]
    | some w =>
      simp only [isoRun, isoSetDirection, hgp, hg.1, Option.some.injEq] at h2
      rw [← h2]
      simp [isoSolve, isotopeWidths, isoSetSigma]
  · cases h1

/-! ## A concrete case -/

/-- Two grid points; the phonon at a point is the matrix plus the point plus ten times the
direction, and the linewidth sums over the points. -/
def sumIsotope : IsotopeEnv Nat Nat Nat Nat Bool Nat where
  phonon d v g := d + (if g then 1 else 0) + 10 * v.getD 0
  blank := 0
  strength p g x := p g * (p true + p false) + x.getD 0

/-- The hypotheses of `C164_history_partial` are met, and the old matrix stays in use. -/
example : ((isoCalls sumIsotope [.dynamicalMatrix 1, .direction (some 2), .gridPoint false, .run,
      .sigma (some 5), .gridPoint true, .run] {}).bind (fun s => s.gamma)) = some 951 ∧
    ((isoCalls sumIsotope [.dynamicalMatrix 1, .gridPoint true, .run, .dynamicalMatrix 7, .run] {}).bind
      (fun s => s.gamma)) = some 6 ∧
    ((isoCalls sumIsotope [.dynamicalMatrix 7, .gridPoint true, .run] {}).bind
      (fun s => s.gamma)) = some 120 := ⟨rfl, rfl, rfl⟩

end Phono3py.Props
