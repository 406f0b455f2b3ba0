/-
C151: runs of the joint density of states give the values of their settings whatever was run before.
-/
import Verif.Model.JdosObject
import Verif.Props.PhononSolver
import Verif.Props.Bands

namespace Phono3py.Props

section
variable {V K F E J : Type}

/-! ### Specification -/

/-- Frequencies on the grid: those of the direction `d` at Γ, and without direction elsewhere. There
is nothing beyond the last grid point. -/
def freqWith (e : NacEnv V F E) (d : Option V) (gp : Nat) : F :=
  if gp < e.solver.numPhonons then (phononOf e.solver (if gp = e.gamma then d else none) gp).1
  else e.zeroF

/-- The rows of the spectrum are computed point by point, at the temperatures in `valid`. -/
def SpectrumRows (e : JdosEnv V K F E J) (valid : Option K → Prop)
    (row : Nat → (Nat → F) → Option K → Option K → K → J) : Prop :=
  ∀ gp f sigma t pts, valid t → e.spectrum gp f sigma t pts = pts.map (row gp f sigma t)

/-- A sequence of runs, each with its settings and grid points. -/
def jdosHistory [Inhabited K] [Inhabited J] (e : JdosEnv V K F E J) :
    List (JdosSetup V K × List Nat) → JdosObject V K F E J → JdosObject V K F E J
  | [], s => s
  | r :: rest, s => jdosHistory e rest (apiJdosRun e r.1 e.nac.solver.isGamma r.2 s).1

/-! ### Helpers -/

/-- States between the steps of a run. -/
structure JdosReady (e : JdosEnv V K F E J) (d : Option V) (s : JdosObject V K F E J) : Prop where
  done : ∀ k < e.nac.solver.numPhonons, s.arrays.done k = true
  freq : s.arrays.freq = freqWith e.nac s.dir
  flag : s.dir = none ∧ s.doneNac = false ∨ s.dir = d ∧ d.isSome = true ∧ s.doneNac = true

/-- A new object, or one after runs. -/
def JdosInv (e : JdosEnv V K F E J) (d : Option V) (s : JdosObject V K F E J) : Prop :=
  (s.dir = none ∧ s.doneNac = false ∧ (∀ k, s.arrays.done k = false) ∧
    s.arrays.freq = fun _ => e.nac.zeroF) ∨ JdosReady e d s

theorem solve_value (e : JdosEnv V K F E J) (gps : List Nat)
    (hg : ∀ gp ∈ gps, gp < e.nac.solver.numPhonons) (s : JdosObject V K F E J) (k : Nat) :
    (s.arrays.done k = true → (jdosSolve e gps s).arrays.done k = true ∧
      (jdosSolve e gps s).arrays.freq k = s.arrays.freq k) ∧
    (s.arrays.done k = false → k ∈ gps → (jdosSolve e gps s).arrays.done k = true ∧
      (jdosSolve e gps s).arrays.freq k = (phononOf e.nac.solver s.dir k).1) := by
  obtain ⟨h1, h2, -⟩ := C52_request e.nac.solver e.nac.lapacke s.dir id id schedule_id schedule_id gps
    hg s.arrays k
  exact ⟨fun h => ⟨(h1 h).1, (h1 h).2.1⟩, fun h hm => ⟨(h2 h hm).1, congrArg Prod.fst (h2 h hm).2⟩⟩

theorem solve_beyond (e : JdosEnv V K F E J) (gps : List Nat)
    (hg : ∀ gp ∈ gps, gp < e.nac.solver.numPhonons) (s : JdosObject V K F E J) (k : Nat)
    (hk : ¬k < e.nac.solver.numPhonons) :
    (jdosSolve e gps s).arrays.freq k = s.arrays.freq k := by
  obtain ⟨c1, c2, -⟩ := collect_spec gps s.arrays.done
  unfold jdosSolve runPhononSolverC
  dsimp only
  cases e.nac.lapacke
  · refine (diagLoop_value _ _ (List.nodup_range.filter _) _ k).1.trans (if_neg fun h => ?_)
    exact hk (List.mem_range.1 (List.mem_filter.1 h).1)
  · exact (diagLoop_value _ _ c1 _ k).1.trans (if_neg fun h => hk (hg k ((c2 k).1 h).1))

theorem freqWith_other (e : NacEnv V F E) (d d' : Option V) {k : Nat} (h : k ≠ e.gamma) :
    freqWith e d k = freqWith e d' k := by
  unfold freqWith; rw [if_neg h, if_neg h]

theorem freqWith_gamma (e : NacEnv V F E) (hg : GammaPoint e) (d : Option V) :
    freqWith e d e.gamma = (phononOf e.solver d e.gamma).1 := by
  unfold freqWith; rw [if_pos hg.mem, if_pos rfl]

theorem freqWith_beyond (e : NacEnv V F E) (d d' : Option V) {k : Nat}
    (h : ¬k < e.solver.numPhonons) : freqWith e d k = freqWith e d' k := by
  unfold freqWith; rw [if_neg h, if_neg h]

/-- Solving Γ again, with the direction of the state, on a grid that is solved elsewhere. -/
theorem gamma_again (e : JdosEnv V K F E J) (hG : GammaPoint e.nac) (gps : List Nat)
    (hg : ∀ gp ∈ gps, gp < e.nac.solver.numPhonons) (hm : e.nac.gamma ∈ gps)
    (s : JdosObject V K F E J) (d : Option V)
    (hd : ∀ k < e.nac.solver.numPhonons, s.arrays.done k = true)
    (hf : s.arrays.freq = freqWith e.nac d) :
    (∀ k < e.nac.solver.numPhonons,
      (jdosSolve e gps (jdosForgetGamma e s)).arrays.done k = true) ∧
    (jdosSolve e gps (jdosForgetGamma e s)).arrays.freq = freqWith e.nac s.dir := by
  have key : ∀ k, (k < e.nac.solver.numPhonons →
      (jdosSolve e gps (jdosForgetGamma e s)).arrays.done k = true) ∧
      (jdosSolve e gps (jdosForgetGamma e s)).arrays.freq k = freqWith e.nac s.dir k := by
    intro k
    obtain ⟨h1, h2⟩ := solve_value e gps hg (jdosForgetGamma e s) k
    by_cases h : k = e.nac.gamma
    · subst h
      have h0 : (jdosForgetGamma e s).arrays.done e.nac.gamma = false := by simp [jdosForgetGamma]
      refine ⟨fun _ => (h2 h0 hm).1, (h2 h0 hm).2.trans ?_⟩
      rw [freqWith_gamma e.nac hG]; rfl
    · by_cases hk : k < e.nac.solver.numPhonons
      · have h0 : (jdosForgetGamma e s).arrays.done k = true := by
          simp [jdosForgetGamma, h, hd k hk]
        exact ⟨fun _ => (h1 h0).1,
          (h1 h0).2.trans ((congrFun hf k).trans (freqWith_other _ _ _ h))⟩
      · exact ⟨fun hc => absurd hc hk, (solve_beyond e gps hg (jdosForgetGamma e s) k hk).trans
          ((congrFun hf k).trans (freqWith_other _ _ _ h))⟩
  exact ⟨fun k hk => (key k).1 hk, funext fun k => (key k).2⟩

/-- Requests on a solved grid change nothing. -/
theorem solve_ready (e : JdosEnv V K F E J) (d : Option V) (gps : List Nat)
    (hg : ∀ gp ∈ gps, gp < e.nac.solver.numPhonons) (s : JdosObject V K F E J)
    (h : JdosReady e d s) : JdosReady e d (jdosSolve e gps s) := by
  refine ⟨fun k hk => ((solve_value e gps hg s k).1 (h.done k hk)).1, funext fun k => ?_, h.flag⟩
  by_cases hk : k < e.nac.solver.numPhonons
  · exact ((solve_value e gps hg s k).1 (h.done k hk)).2.trans (congrFun h.freq k)
  · exact (solve_beyond e gps hg s k hk).trans (congrFun h.freq k)

theorem range_lt (n : Nat) : ∀ gp ∈ List.range n, gp < n := fun _ h => List.mem_range.1 h

/-- The steps before the loop over grid points. -/
theorem prepare_ready (e : JdosEnv V K F E J) (hg : GammaPoint e.nac) (d : Option V)
    (s : JdosObject V K F E J) (h : JdosInv e d s) :
    let s1 := jdosAtGamma e false (jdosSolve e (List.range e.nac.solver.numPhonons) s)
    s1.arrays.freq = freqWith e.nac none ∧ JdosReady e d (jdosAtGamma e true s1) := by
  have hgam : ∀ gp ∈ [e.nac.gamma], gp < e.nac.solver.numPhonons := by simpa using hg.mem
  have hs0 : JdosReady e d (jdosSolve e (List.range e.nac.solver.numPhonons) s) := by
    rcases h with ⟨h1, h2, h3, h4⟩ | h
    · refine ⟨fun k hk => ?_, funext fun k => ?_, Or.inl ⟨h1, h2⟩⟩
      · exact ((solve_value e _ (range_lt _) s k).2 (h3 k) (List.mem_range.2 hk)).1
      · change _ = freqWith e.nac s.dir k
        unfold freqWith
        by_cases hk : k < e.nac.solver.numPhonons
        · rw [((solve_value e _ (range_lt _) s k).2 (h3 k) (List.mem_range.2 hk)).2, if_pos hk, h1,
            ite_self]
        · rw [solve_beyond e _ (range_lt _) s k hk, h4, if_neg hk]
    · exact solve_ready e d _ (range_lt _) s h
  generalize jdosSolve e (List.range e.nac.solver.numPhonons) s = s0 at hs0 ⊢
  intro s1
  have a := gamma_again e hg [e.nac.gamma] hgam (by simp) { s0 with dir := none } s0.dir hs0.done
    hs0.freq
  have ha1 : ∀ k < e.nac.solver.numPhonons, s1.arrays.done k = true := a.1
  have ha2 : s1.arrays.freq = freqWith e.nac none := a.2
  have b := gamma_again e hg [e.nac.gamma] hgam (by simp) s1 none ha1 ha2
  exact ⟨ha2, b.1, b.2, hs0.flag⟩

/-- Selecting a grid point as `Phono3pyJointDos.run` does. -/
theorem select_ready (e : JdosEnv V K F E J) (hg : GammaPoint e.nac) (d : Option V) (gp : Nat)
    (hgp : gp < e.nac.solver.numPhonons) (s : JdosObject V K F E J) (h : JdosReady e d s) :
    ∃ s', jdosSetGridPoint e gp
        { s with dir := if e.nac.solver.isGamma gp then d else none } = some s' ∧
      JdosReady e d s' ∧ s'.gridPoint = some gp ∧
      s'.dir = if gp = e.nac.gamma then d else none := by
  have hreq : ∀ k ∈ [e.nac.gamma, gp], k < e.nac.solver.numPhonons := by
    intro k hk
    rcases List.mem_cons.1 hk with rfl | hk
    · exact hg.mem
    · rw [List.mem_singleton.1 hk]; exact hgp
  by_cases hG : gp = e.nac.gamma
  · have hi : e.nac.solver.isGamma gp = true := (hg.unique gp).2 hG
    cases d with
    | some v =>
      refine ⟨jdosSolve e [e.nac.gamma, gp] (jdosForgetGamma e
        { s with gridPoint := some gp, value := none, dir := some v, doneNac := true }), ?_, ?_,
        rfl, ?_⟩
      · unfold jdosSetGridPoint; simp [hi]
      · have a := gamma_again e hg [e.nac.gamma, gp] hreq (by simp)
          { s with gridPoint := some gp, value := none, dir := some v, doneNac := true } s.dir
          h.done h.freq
        exact ⟨a.1, a.2, Or.inr ⟨rfl, rfl, rfl⟩⟩
      · rw [if_pos hG]; rfl
    | none =>
      have hdir : s.dir = none ∧ s.doneNac = false := by
        rcases h.flag with h | ⟨-, h, -⟩
        · exact h
        · cases h
      refine ⟨jdosSolve e [e.nac.gamma, gp]
        { s with gridPoint := some gp, value := none, dir := none }, ?_, ?_, rfl, ?_⟩
      · unfold jdosSetGridPoint; simp [hi]
      · refine solve_ready e none _ hreq _ ⟨h.done, ?_, Or.inl ⟨rfl, hdir.2⟩⟩
        exact h.freq.trans (by rw [hdir.1])
      · rw [ite_self]; rfl
  · have hi : e.nac.solver.isGamma gp = false :=
      Bool.eq_false_iff.2 fun hc => hG ((hg.unique gp).1 hc)
    rcases h.flag with ⟨h1, h2⟩ | ⟨h1, h2, h3⟩
    · refine ⟨jdosSolve e [e.nac.gamma, gp]
        { s with gridPoint := some gp, value := none, dir := none }, ?_, ?_, rfl, ?_⟩
      · unfold jdosSetGridPoint; simp [hi, h2]
      · refine solve_ready e d _ hreq _ ⟨h.done, ?_, Or.inl ⟨rfl, h2⟩⟩
        exact h.freq.trans (by rw [h1])
      · rw [if_neg hG]; rfl
    · refine ⟨jdosSolve e [e.nac.gamma, gp] (jdosForgetGamma e
        { s with gridPoint := some gp, value := none, dir := none, doneNac := false }), ?_, ?_,
        rfl, ?_⟩
      · unfold jdosSetGridPoint; simp [hi, h3]
      · have a := gamma_again e hg [e.nac.gamma, gp] hreq (by simp)
          { s with gridPoint := some gp, value := none, dir := none, doneNac := false } s.dir
          h.done h.freq
        exact ⟨a.1, a.2, Or.inl ⟨rfl, rfl⟩⟩
      · rw [if_neg hG]; rfl

variable {valid : Option K → Prop} {row : Nat → (Nat → F) → Option K → Option K → K → J}

/-- One run. -/
theorem run_ready (e : JdosEnv V K F E J) (hrow : SpectrumRows e valid row) (d : Option V) (gp : Nat)
    (s : JdosObject V K F E J) (h : JdosReady e d s) (hv : valid s.temperature)
    (h1 : s.gridPoint = some gp) (pts : List K) (h2 : s.points = some pts) :
    ∃ s', jdosRun e s = some s' ∧ JdosReady e d s' ∧ s'.gridPoint = some gp ∧ s'.dir = s.dir ∧
      s'.sigma = s.sigma ∧ s'.temperature = s.temperature ∧
      s'.value = some (pts.map (row gp (freqWith e.nac s.dir) s.sigma s.temperature)) := by
  have hr := solve_ready e d _ (range_lt _) s h
  refine ⟨{ jdosSolve e (List.range e.nac.solver.numPhonons) s with
    value := some (e.spectrum gp (jdosSolve e (List.range e.nac.solver.numPhonons) s).arrays.freq
      s.sigma s.temperature pts) }, ?_, ⟨hr.done, hr.freq, hr.flag⟩, h1, rfl, rfl, rfl, ?_⟩
  · unfold jdosRun
    have a : (jdosSolve e (List.range e.nac.solver.numPhonons) s).gridPoint = some gp := h1
    have b : (jdosSolve e (List.range e.nac.solver.numPhonons) s).points = some pts := h2
    dsimp only
    rw [a, b]
    rfl
  · dsimp only
    rw [hrow _ _ _ _ _ hv, hr.freq]
    rfl

theorem store_value (f : Int → J) (batch : List Int) (a : Int → J) (k : Int) :
    jdosStore batch (batch.map f) a k = if k ∈ batch then f k else a k := by
  unfold jdosStore
  induction batch generalizing a with
  | nil => simp
  | cons b rest ih =>
    rw [List.map_cons, List.zip_cons_cons, List.foldl_cons, ih]
    by_cases h : k ∈ rest
    · simp [h]
    · by_cases h2 : k = b
      · subst h2; simp
      · simp [h, h2]

variable [Inhabited K]

theorem batches_ready (e : JdosEnv V K F E J) (hrow : SpectrumRows e valid row) (d : Option V) (gp : Nat)
    (pts : List K) (batches : List (List Int))
    (s : JdosObject V K F E J) (h : JdosReady e d s) (hv : valid s.temperature)
    (h1 : s.gridPoint = some gp) (a : Int → J) :
    ∃ s' a', jdosBatches e pts batches s a = some (s', a') ∧ JdosReady e d s' ∧
      s'.gridPoint = some gp ∧ s'.dir = s.dir ∧ s'.sigma = s.sigma ∧
      ∀ k, a' k = if k ∈ batches.flatten then
        row gp (freqWith e.nac s.dir) s.sigma s.temperature (pts.getD k.toNat default) else a k := by
  induction batches generalizing s a with
  | nil => exact ⟨s, a, rfl, h, h1, rfl, rfl, fun k => by simp⟩
  | cons b rest ih =>
    obtain ⟨s1, r1, r2, r3, r4, r5, r6, r7⟩ := run_ready e hrow d gp
      { s with points := some (b.map fun k => pts.getD k.toNat default) } ⟨h.done, h.freq, h.flag⟩ hv
      h1 _ rfl
    rw [List.map_map] at r7
    dsimp only at r4 r5 r6 r7
    obtain ⟨s', a', q1, q2, q3, q4, q5, q6⟩ := ih s1 r2 (by rw [r6]; exact hv) r3
      (jdosStore b (b.map (row gp (freqWith e.nac s.dir) s.sigma s.temperature ∘
        fun k => pts.getD k.toNat default)) a)
    refine ⟨s', a', ?_, q2, q3, q4.trans r4, q5.trans r5, fun k => ?_⟩
    · unfold jdosBatches
      rw [r1, Option.bind_eq_bind, Option.bind_some, r7, Option.bind_eq_bind, Option.bind_some]
      exact q1
    · rw [q6, store_value, r4, r5, r6, List.flatten_cons]
      by_cases hk : k ∈ rest.flatten
      · simp [hk]
      · by_cases hb : k ∈ b
        · simp [hb, hk]
        · simp [hb, hk]

variable [Inhabited J]

/-- A row of the array: the value of the settings at every point of the batches. -/
def PointValues (pts : List K) (batches : List (List Int)) (v : K → J) (C : Int → J) : Prop :=
  ∀ k ∈ batches.flatten, C k = v (pts.getD k.toNat default)

theorem temps_ready (e : JdosEnv V K F E J) (hrow : SpectrumRows e valid row) (d : Option V) (gp : Nat)
    (pts : List K) (batches : List (List Int))
    (temps : List (Option K)) (hv : ∀ t ∈ temps, valid t) (s : JdosObject V K F E J)
    (h : JdosReady e d s)
    (h1 : s.gridPoint = some gp) (a : List (Int → J)) :
    ∃ s' a', jdosTemps e pts batches temps s a = some (s', a') ∧ JdosReady e d s' ∧
      s'.gridPoint = some gp ∧ s'.dir = s.dir ∧
      List.Forall₂ (fun t C => PointValues pts batches
        (row gp (freqWith e.nac s.dir) s.sigma t) C) temps a' := by
  induction temps generalizing s a with
  | nil => exact ⟨s, [], rfl, h, h1, rfl, List.Forall₂.nil⟩
  | cons t rest ih =>
    obtain ⟨s1, a1, q1, q2, q3, q4, q5, q6⟩ := batches_ready e hrow d gp pts batches
      { s with temperature := t } ⟨h.done, h.freq, h.flag⟩ (hv t (by simp)) h1
      (a.headD fun _ => default)
    dsimp only at q4 q5 q6
    obtain ⟨s', a', p1, p2, p3, p4, p5⟩ := ih (fun t' ht' => hv t' (List.mem_cons_of_mem _ ht')) s1 q2 q3
      a.tail
    rw [q4, q5] at p5
    refine ⟨s', a1 :: a', ?_, p2, p3, p4.trans q4, List.Forall₂.cons (fun k hk => ?_) p5⟩
    · unfold jdosTemps
      rw [q1, Option.bind_eq_bind, Option.bind_some, p1, Option.bind_eq_bind, Option.bind_some]
    · rw [q6, if_pos hk]

theorem sigmas_ready (e : JdosEnv V K F E J) (hrow : SpectrumRows e valid row) (d : Option V) (gp : Nat)
    (pts : List K) (batches : List (List Int))
    (temps sigmas : List (Option K)) (hv : ∀ t ∈ temps, valid t) (s : JdosObject V K F E J) (h : JdosReady e d s)
    (h1 : s.gridPoint = some gp) (a : List (List (Int → J))) :
    ∃ s' a', jdosSigmas e pts batches temps sigmas s a = some (s', a') ∧ JdosReady e d s' ∧
      List.Forall₂ (fun sigma B => List.Forall₂ (fun t C => PointValues pts batches
        (row gp (freqWith e.nac s.dir) sigma t) C) temps B) sigmas a' := by
  induction sigmas generalizing s a with
  | nil => exact ⟨s, [], rfl, h, List.Forall₂.nil⟩
  | cons sigma rest ih =>
    obtain ⟨s1, a1, q1, q2, q3, q4, q5⟩ := temps_ready e hrow d gp pts batches temps hv
      { s with sigma := sigma } ⟨h.done, h.freq, h.flag⟩ h1 (a.headD [])
    dsimp only at q4 q5
    obtain ⟨s', a', p1, p2, p3⟩ := ih s1 q2 q3 a.tail
    rw [q4] at p3
    refine ⟨s', a1 :: a', ?_, p2, List.Forall₂.cons q5 p3⟩
    unfold jdosSigmas
    rw [q1, Option.bind_eq_bind, Option.bind_some, p1, Option.bind_eq_bind, Option.bind_some]

/-- The loop over grid points. -/
theorem gridPoints_ready (e : JdosEnv V K F E J) (hg : GammaPoint e.nac) (hrow : SpectrumRows e valid row)
    (o : JdosSetup V K) (hv : ∀ t ∈ o.temps, valid t) (pts : List K) (batches : List (List Int)) (gps : List Nat)
    (hgps : ∀ gp ∈ gps, gp < e.nac.solver.numPhonons) (s : JdosObject V K F E J)
    (h : JdosReady e o.dir s) (a : List (List (Int → J))) :
    JdosReady e o.dir (jdosGridPoints e o e.nac.solver.isGamma pts batches gps s a).1 ∧
    (o.sigmas ≠ [] → ∃ l,
      (jdosGridPoints e o e.nac.solver.isGamma pts batches gps s a).2 = some l ∧
      List.Forall₂ (fun gp A => List.Forall₂ (fun sigma B => List.Forall₂ (fun t C =>
        PointValues pts batches (row gp (freqWith e.nac (if gp = e.nac.gamma then o.dir else none))
          sigma t) C) o.temps B) o.sigmas A) gps l) := by
  induction gps generalizing s a with
  | nil => exact ⟨h, fun _ => ⟨[], rfl, List.Forall₂.nil⟩⟩
  | cons gp rest ih =>
    obtain ⟨s2, q1, q2, q3, q4⟩ := select_ready e hg o.dir gp (hgps gp (by simp)) s h
    unfold jdosGridPoints
    dsimp only
    rw [q1]
    dsimp only
    by_cases he : o.sigmas = []
    · rw [he]
      exact ⟨q2, fun hc => absurd rfl hc⟩
    · have hne : o.sigmas.isEmpty = false := by
        cases hs : o.sigmas with
        | nil => exact absurd hs he
        | cons _ _ => rfl
      obtain ⟨s3, a3, p1, p2, p3⟩ := sigmas_ready e hrow o.dir gp pts batches
        o.temps o.sigmas hv s2 q2 q3 a
      obtain ⟨r1, r2⟩ := ih (fun g hgm => hgps g (List.mem_cons_of_mem _ hgm)) s3 p2 a3
      rw [hne, p1]
      simp only [Bool.false_eq_true, if_false]
      refine ⟨r1, fun hc => ?_⟩
      obtain ⟨l, l1, l2⟩ := r2 hc
      rw [q4] at p3
      exact ⟨a3 :: l, by rw [l1]; rfl, List.Forall₂.cons p3 l2⟩

theorem run_inv (e : JdosEnv V K F E J) (hg : GammaPoint e.nac) (hrow : SpectrumRows e valid row)
    (o : JdosSetup V K) (hv : ∀ t ∈ o.temps, valid t) (gps : List Nat) (hgps : ∀ gp ∈ gps, gp < e.nac.solver.numPhonons)
    (s : JdosObject V K F E J) (h : JdosInv e o.dir s) :
    JdosReady e o.dir (apiJdosRun e o e.nac.solver.isGamma gps s).1 := by
  obtain ⟨-, h2⟩ := prepare_ready e hg o.dir s h
  unfold apiJdosRun
  dsimp only
  cases freqPointsBatches _ o.batchSize with
  | none => exact h2
  | some batches => exact (gridPoints_ready e hg hrow o hv _ batches gps hgps _ h2 _).1

/-! ### C151 -/

theorem history_inv (e : JdosEnv V K F E J) (hg : GammaPoint e.nac) (hrow : SpectrumRows e valid row)
    (d : Option V) (history : List (JdosSetup V K × List Nat))
    (hh : ∀ r ∈ history, r.1.dir = d ∧ (∀ t ∈ r.1.temps, valid t) ∧
      ∀ gp ∈ r.2, gp < e.nac.solver.numPhonons)
    (s : JdosObject V K F E J) (h : JdosInv e d s) : JdosInv e d (jdosHistory e history s) := by
  induction history generalizing s with
  | nil => exact h
  | cons r rest ih =>
    obtain ⟨h1, hv, h2⟩ := hh r (by simp)
    refine ih (fun r' hr' => hh r' (List.mem_cons_of_mem _ hr')) _ (Or.inr ?_)
    have := run_inv e hg hrow r.1 hv r.2 h2 s (by rw [h1]; exact h)
    rw [h1] at this
    exact this

/-- **C151.** After any sequence of runs of a new object, with whatever widths, temperatures, batch
sizes and grid points, whether they succeeded or raised, a run gives the values of its settings: the
frequency points are those of the phonons without direction, and for each grid point, width and
temperature every frequency point has the value computed from the phonons of the grid, with the
direction at Γ if and only if the grid point is Γ. Batches have no effect. -/
theorem C151_run (e : JdosEnv V K F E J) (hg : GammaPoint e.nac) (hrow : SpectrumRows e valid row)
    (d : Option V) (history : List (JdosSetup V K × List Nat))
    (hh : ∀ r ∈ history, r.1.dir = d ∧ (∀ t ∈ r.1.temps, valid t) ∧
      ∀ gp ∈ r.2, gp < e.nac.solver.numPhonons)
    (o : JdosSetup V K) (ho : o.dir = d) (hv : ∀ t ∈ o.temps, valid t) (gps : List Nat)
    (hgps : ∀ gp ∈ gps, gp < e.nac.solver.numPhonons)
    (hs : o.sigmas ≠ []) (hb : 0 < o.batchSize.getD 10) :
    let pts := e.points (freqWith e.nac none)
    ∃ l, (apiJdosRun e o e.nac.solver.isGamma gps (jdosHistory e history (jdosNew e))).2 =
        some (pts, l) ∧
      List.Forall₂ (fun gp A => List.Forall₂ (fun sigma B => List.Forall₂ (fun t C =>
        ∀ k (hk : k < pts.length), C k =
          row gp (freqWith e.nac (if gp = e.nac.gamma then d else none)) sigma t pts[k])
        o.temps B) o.sigmas A) gps l := by
  intro pts
  have h := history_inv e hg hrow d history hh (jdosNew e) (Or.inl ⟨rfl, rfl, fun _ => rfl, rfl⟩)
  generalize jdosHistory e history (jdosNew e) = s at h ⊢
  subst ho
  obtain ⟨h1, h2⟩ := prepare_ready e hg o.dir s h
  obtain ⟨bs, b1, b2, -⟩ := C29_batches pts.length o.batchSize hb
  unfold apiJdosRun
  dsimp only
  rw [h1, b1]
  dsimp only
  obtain ⟨l, l1, l2⟩ := (gridPoints_ready e hg hrow o hv pts bs gps hgps _ h2
    (o.sigmas.map fun _ => o.temps.map fun _ => fun _ => (default : J))).2 hs
  rw [l1]
  refine ⟨l, rfl, l2.imp fun gp A hA => hA.imp fun sigma B hB => hB.imp fun t C hC k hk => ?_⟩
  rw [hC k (by rw [b2]; exact List.mem_map.2 ⟨k, List.mem_range.2 hk, rfl⟩)]
  simp [List.getD, hk]

/-- **C151 (attribute).** The array of the object after a run is that of the last grid point only. -/
theorem C151_last_only (e : JdosEnv V K F E J) (hg : GammaPoint e.nac) (hrow : SpectrumRows e valid row)
    (o : JdosSetup V K) (hv : ∀ t ∈ o.temps, valid t) (before : List Nat) (gp : Nat)
    (hgps : ∀ g ∈ before ++ [gp], g < e.nac.solver.numPhonons)
    (hs : o.sigmas ≠ []) (hb : 0 < o.batchSize.getD 10) :
    let pts := e.points (freqWith e.nac none)
    ∃ l A, (apiJdosRun e o e.nac.solver.isGamma (before ++ [gp]) (jdosNew e)).2 = some (pts, l) ∧
      l.getLast? = some A ∧
      List.Forall₂ (fun sigma B => List.Forall₂ (fun t C =>
        ∀ k (hk : k < pts.length), C k =
          row gp (freqWith e.nac (if gp = e.nac.gamma then o.dir else none)) sigma t pts[k])
        o.temps B) o.sigmas A := by
  intro pts
  obtain ⟨l, h1, h2⟩ := C151_run e hg hrow o.dir [] (by simp) o rfl hv _ hgps hs hb
  have h3 := List.forall₂_reverse_iff.2 h2
  rw [List.reverse_append] at h3
  cases hl : l.reverse with
  | nil => rw [hl] at h3; cases h3
  | cons A rest =>
    rw [hl] at h3
    cases h3 with
    | cons ha hn => exact ⟨l, A, h1, by rw [← List.head?_reverse, hl]; rfl, ha⟩

/-! ### The grid of the outer object -/

/-- **C151, failure: no mesh at first.** An object created without mesh numbers cannot be initialized:
the method that takes the mesh numbers raises. -/
theorem C151_initialize_raises {M : Type} (env : M → JdosEnv V K F E J) (m : M) :
    (ApiJdos.new env none).bind (fun x => x.initialize env m) = none := rfl

/-- **C151, failure: another mesh.** An object created with the mesh `m` and initialized with the mesh
`m'` reports `m'`, and runs on the grid of `m`; Γ is looked up in the grid of `m'`. -/
theorem C151_initialize_old_grid {M : Type} (env : M → JdosEnv V K F E J) (m m' : M)
    (o : JdosSetup V K) (gps : List Nat) :
    ∃ x, (ApiJdos.new env (some m)).bind (fun x => x.initialize env m') = some x ∧
      x.mesh = some m' ∧
      (x.run env o gps).2 =
        (apiJdosRun (env m) o (env m').nac.solver.isGamma gps (jdosNew (env m))).2 :=
  ⟨_, rfl, rfl, rfl⟩

/-- **C151, failure: another mesh by the setter.** The same for the attribute `mesh_numbers`. -/
theorem C151_setter_old_grid {M : Type} (env : M → JdosEnv V K F E J) (m m' : M)
    (o : JdosSetup V K) (gps : List Nat) :
    ∃ x, (ApiJdos.new env (some m)).map (fun x => x.setMesh m') = some x ∧
      x.mesh = some m' ∧
      (x.run env o gps).2 =
        (apiJdosRun (env m) o (env m').nac.solver.isGamma gps (jdosNew (env m))).2 :=
  ⟨_, rfl, rfl, rfl⟩

/-- **C151 (one mesh).** Without a change of the mesh the outer object runs as `C151_run` says. -/
theorem C151_same_mesh {M : Type} (env : M → JdosEnv V K F E J) (m : M) :
    ∃ x, ApiJdos.new env (some m) = some x ∧ x.mesh = some m ∧
      ∀ (history : List (JdosSetup V K × List Nat)) (o : JdosSetup V K) (gps : List Nat),
        ((history.foldl (fun x r => (x.run env r.1 r.2).1) x).run env o gps).2 =
          (apiJdosRun (env m) o (env m).nac.solver.isGamma gps
            (jdosHistory (env m) history (jdosNew (env m)))).2 := by
  refine ⟨_, rfl, rfl, fun history o gps => ?_⟩
  have key : ∀ s : JdosObject V K F E J,
      history.foldl (fun x r => (ApiJdos.run env r.1 r.2 x).1)
          ({ mesh := some m, jdos := some (m, s) } : ApiJdos M V K F E J) =
        { mesh := some m, jdos := some (m, jdosHistory (env m) history s) } := by
    induction history with
    | nil => exact fun _ => rfl
    | cons r rest ih => exact fun s => ih _
  have := key (jdosNew (env m))
  exact congrArg (fun x => (ApiJdos.run env o gps x).2) this

end

/-! ### Examples -/

/-- The grid of `exampleSolver`. A row tells grid point, phonons at Γ and at point 1, settings and
frequency point. -/
def exampleJdos : JdosEnv Nat Nat (Nat × Option Nat) (Nat × Option Nat)
    (Nat × Option Nat × Option Nat × Option Nat × Option Nat × Nat) where
  nac := exampleNac true true
  spectrum := fun gp f sigma t pts => pts.map fun p => (gp, (f 0).2, (f 1).2, sigma, t, p)
  points := fun f => if (f 0).2 = none then [10, 20, 30] else [10, 21]

/-- The example meets the hypotheses of `C151_run`. -/
example : GammaPoint exampleJdos.nac ∧
    SpectrumRows exampleJdos (fun _ => True)
      (fun gp f sigma t p => (gp, (f 0).2, (f 1).2, sigma, t, p)) :=
  ⟨exampleNac_gamma _ _, fun _ _ _ _ _ _ => rfl⟩

/-- Γ with the direction 7 first, a run that raises, and a run at point 1 and Γ, in batches of two. -/
example :
    let o : JdosSetup Nat Nat :=
      { sigmas := [none, some 5], temperatures := some [300], dir := some 7, batchSize := some 2 }
    let s := jdosHistory exampleJdos [(o, [0]), ({ o with batchSize := some 0 }, [2])]
      (jdosNew exampleJdos)
    ((apiJdosRun exampleJdos o exampleJdos.nac.solver.isGamma [1, 0] s).2.map fun r =>
      (r.1, r.2.map fun A => A.map fun B => B.map fun C => C 2)) =
      some ([10, 20, 30],
        [[[(1, none, some 101, none, some 300, 30)], [(1, none, some 101, some 5, some 300, 30)]],
          [[(0, some 7, some 101, none, some 300, 30)],
            [(0, some 7, some 101, some 5, some 300, 30)]]]) :=
  rfl

/-- **C151, failure: direction removed.** With the object `JointDos` itself: Γ is selected with a
direction, the direction is removed and Γ is selected again. Nothing is refused, and the phonons at Γ
are still those of the direction. -/
theorem C151_direction_kept :
    let e := exampleJdos
    let s0 := jdosSolve e (List.range 3) (jdosNew e)
    (((jdosSetGridPoint e 0 { s0 with dir := some 7 }).bind fun s1 =>
      jdosSetGridPoint e 0 { s1 with dir := none }).map fun s => (s.dir, s.arrays.freq 0)) =
      some (none, (0, some 7)) ∧
    freqWith e.nac none 0 = (0, none) := by
  decide +kernel

end Phono3py.Props
