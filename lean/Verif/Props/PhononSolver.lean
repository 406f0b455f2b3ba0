/-
C51, C52, C53: phonons on the grid, the non-analytical term at Γ, externally supplied phonons.
-/
import Verif.Model.PhononSolver
import Mathlib.Data.List.Nodup
import Mathlib.Data.List.Perm.Basic
import Mathlib.Data.List.Perm.Subperm
import Mathlib.Data.List.Range
import Mathlib.Tactic.Ring

namespace Phono3py.Props

section
variable {V F E : Type _}

/-! ### Helpers -/

theorem collect_spec (gps : List Nat) (done : Nat → Bool) :
    (collectUndone done gps).1.Nodup ∧
    (∀ gp, gp ∈ (collectUndone done gps).1 ↔ gp ∈ gps ∧ done gp = false) ∧
    ∀ gp, (collectUndone done gps).2 gp = (done gp || decide (gp ∈ gps)) := by
  induction gps generalizing done with
  | nil => simp [collectUndone]
  | cons g rest ih =>
    unfold collectUndone
    split
    · rename_i h
      obtain ⟨h1, h2, h3⟩ := ih done
      refine ⟨h1, fun gp => ?_, fun gp => ?_⟩
      · rw [h2, List.mem_cons]
        constructor
        · exact fun ⟨a, b⟩ => ⟨Or.inr a, b⟩
        · rintro ⟨rfl | a, b⟩
          · rw [h] at b; exact absurd b (by decide)
          · exact ⟨a, b⟩
      · rw [h3]
        by_cases e : gp = g
        · subst e; simp [h]
        · simp [e]
    · rename_i h
      obtain ⟨h1, h2, h3⟩ := ih (fun k => if k = g then true else done k)
      have hg : done g = false := by simpa using h
      refine ⟨List.nodup_cons.2 ⟨fun hm => ?_, h1⟩, fun gp => ?_, fun gp => ?_⟩
      · have := ((h2 g).1 hm).2
        simp at this
      · rw [List.mem_cons, h2, List.mem_cons]
        by_cases e : gp = g
        · subst e; simp [hg]
        · simp [e]
      · dsimp only
        rw [h3]
        by_cases e : gp = g
        · subst e; simp
        · simp [e]

theorem dynLoop_value (e : SolverEnv V F E) (dir : Option V) (order : List Nat) (eig : Nat → E)
    (k : Nat) : dynLoop e dir order eig k =
      if k ∈ order then e.dyn k (nacVector e dir k) else eig k := by
  unfold dynLoop
  induction order generalizing eig with
  | nil => simp
  | cons g rest ih =>
    rw [List.foldl_cons, ih]
    by_cases h1 : k ∈ rest
    · simp [h1]
    · by_cases h2 : k = g
      · subst h2; simp
      · simp [h1, h2]

theorem diagLoop_value (e : SolverEnv V F E) (order : List Nat) (hn : order.Nodup)
    (s : (Nat → F) × (Nat → E)) (k : Nat) :
    (diagLoop e order s).1 k = (if k ∈ order then (e.solve (s.2 k)).1 else s.1 k) ∧
    (diagLoop e order s).2 k = if k ∈ order then (e.solve (s.2 k)).2 else s.2 k := by
  unfold diagLoop
  induction order generalizing s with
  | nil => simp
  | cons g rest ih =>
    rw [List.foldl_cons]
    obtain ⟨hg, hr⟩ := List.nodup_cons.1 hn
    obtain ⟨h1, h2⟩ := ih hr (fun j => if j = g then (e.solve (s.2 g)).1 else s.1 j,
      fun j => if j = g then (e.solve (s.2 g)).2 else s.2 j)
    dsimp only at h1 h2 ⊢
    rw [h1, h2]
    by_cases e1 : k = g
    · subst e1
      simp [hg]
    · simp [e1]

/-- Phonons of one grid point: frequencies and eigenvectors of its dynamical matrix, with the vector
the code uses in the non-analytical term. -/
def phononOf (e : SolverEnv V F E) (dir : Option V) (gp : Nat) : F × E :=
  e.solve (e.dyn gp (nacVector e dir gp))

/-- Permutations chosen by the scheduler. -/
def Schedule (o : List Nat → List Nat) : Prop := ∀ l, (o l).Perm l

/-! ### C52 -/

/-- **C52 (one request).** A request leaves the phonons of all points solved before as they are,
solves every requested point that was not, and marks exactly these. This holds for every order in
which the threads run, for repeated points in the request, and with or without LAPACKE. -/
theorem C52_request (e : SolverEnv V F E) (lapacke : Bool) (dir : Option V)
    (o1 o2 : List Nat → List Nat) (h1 : Schedule o1) (h2 : Schedule o2) (gps : List Nat)
    (hg : ∀ gp ∈ gps, gp < e.numPhonons) (a : PhononArrays F E) (gp : Nat) :
    let r := runPhononSolverC e lapacke dir o1 o2 gps a
    (a.done gp = true → r.done gp = true ∧ r.freq gp = a.freq gp ∧ r.eig gp = a.eig gp) ∧
    (a.done gp = false → gp ∈ gps →
      r.done gp = true ∧ (r.freq gp, r.eig gp) = phononOf e dir gp) ∧
    (a.done gp = false → gp ∉ gps → r.done gp = false) := by
  obtain ⟨c1, c2, c3⟩ := collect_spec gps a.done
  have key : ∀ lap : Bool, lap = lapacke →
      (runPhononSolverC e lap dir o1 o2 gps a).done gp = (a.done gp || decide (gp ∈ gps)) := by
    intro lap _
    unfold runPhononSolverC phononsC phononsNoLapack
    cases lap <;> exact c3 gp
  have hd := key lapacke rfl
  have hm1 : gp ∈ o1 (collectUndone a.done gps).1 ↔ gp ∈ gps ∧ a.done gp = false :=
    (h1 _).mem_iff.trans (c2 gp)
  have hv : ∃ order : List Nat, order.Nodup ∧
      (gp ∈ order → a.done gp = false) ∧ (gp ∈ gps → a.done gp = false → gp ∈ order) ∧
      (runPhononSolverC e lapacke dir o1 o2 gps a).freq =
        (diagLoop e order (a.freq, dynLoop e dir (o1 (collectUndone a.done gps).1) a.eig)).1 ∧
      (runPhononSolverC e lapacke dir o1 o2 gps a).eig =
        (diagLoop e order (a.freq, dynLoop e dir (o1 (collectUndone a.done gps).1) a.eig)).2 := by
    cases lapacke
    · refine ⟨(List.range e.numPhonons).filter fun gp => !a.done gp, List.nodup_range.filter _,
        fun h => ?_, fun h h' => ?_, rfl, rfl⟩
      · simpa using (List.mem_filter.1 h).2
      · exact List.mem_filter.2 ⟨List.mem_range.2 (hg gp h), by simp [h']⟩
    · refine ⟨o2 (collectUndone a.done gps).1, (h2 _).nodup_iff.2 c1, fun h => ?_, fun h h' => ?_,
        rfl, rfl⟩
      · exact ((c2 gp).1 ((h2 _).mem_iff.1 h)).2
      · exact (h2 _).mem_iff.2 ((c2 gp).2 ⟨h, h'⟩)
  obtain ⟨order, hn, ho1, ho2, hf, he⟩ := hv
  obtain ⟨d1, d2⟩ := diagLoop_value e order hn
    (a.freq, dynLoop e dir (o1 (collectUndone a.done gps).1) a.eig) gp
  dsimp only at d1 d2
  rw [dynLoop_value] at d1 d2
  refine ⟨fun h => ?_, fun h hm => ?_, fun h hm => ?_⟩
  · have hno : gp ∉ order := fun hc => by rw [ho1 hc] at h; exact absurd h (by decide)
    have hno1 : ¬ gp ∈ o1 (collectUndone a.done gps).1 := fun hc => by
      rw [(hm1.1 hc).2] at h; exact absurd h (by decide)
    rw [if_neg hno] at d1 d2
    rw [if_neg hno1] at d2
    exact ⟨by rw [hd, h]; rfl, by rw [hf, d1], by rw [he, d2]⟩
  · rw [if_pos (ho2 hm h), if_pos (hm1.2 ⟨hm, h⟩)] at d1 d2
    refine ⟨by rw [hd]; simp [hm], ?_⟩
    rw [hf, he, d1, d2]
    rfl
  · rw [hd, h]
    simp [hm]

/-- A sequence of requests, each with its own direction and thread orders. -/
structure Request (V : Type _) where
  dir : Option V
  gps : List Nat
  o1 : List Nat → List Nat
  o2 : List Nat → List Nat

def runRequests (e : SolverEnv V F E) (lapacke : Bool) (a : PhononArrays F E) :
    List (Request V) → PhononArrays F E
  | [] => a
  | r :: rest => runRequests e lapacke (runPhononSolverC e lapacke r.dir r.o1 r.o2 r.gps a) rest

/-- The first request that contains a point. -/
def firstRequest (gp : Nat) : List (Request V) → Option (Request V)
  | [] => none
  | r :: rest => if gp ∈ r.gps then some r else firstRequest gp rest

/-- **C52 (history).** After any sequence of requests starting from unsolved phonons, the phonons of
a point are those of the first request that contains it; points never requested stay unsolved. -/
theorem C52_first_request (e : SolverEnv V F E) (lapacke : Bool) (a : PhononArrays F E)
    (ha : ∀ gp, a.done gp = false) (rs : List (Request V))
    (hs : ∀ r ∈ rs, Schedule r.o1 ∧ Schedule r.o2 ∧ ∀ gp ∈ r.gps, gp < e.numPhonons) (gp : Nat) :
    match firstRequest gp rs with
    | some r => (runRequests e lapacke a rs).done gp = true ∧
        ((runRequests e lapacke a rs).freq gp, (runRequests e lapacke a rs).eig gp)
          = phononOf e r.dir gp
    | none => (runRequests e lapacke a rs).done gp = false := by
  have keep : ∀ (rs : List (Request V)) (a : PhononArrays F E), a.done gp = true →
      (∀ r ∈ rs, Schedule r.o1 ∧ Schedule r.o2 ∧ ∀ gp ∈ r.gps, gp < e.numPhonons) →
      (runRequests e lapacke a rs).done gp = true ∧
        (runRequests e lapacke a rs).freq gp = a.freq gp ∧
        (runRequests e lapacke a rs).eig gp = a.eig gp := by
    intro rs
    induction rs with
    | nil => intro a h _; exact ⟨h, rfl, rfl⟩
    | cons r rest ih =>
      intro a h hs
      obtain ⟨s1, s2, s3⟩ := hs r List.mem_cons_self
      obtain ⟨k1, k2, k3⟩ := (C52_request e lapacke r.dir r.o1 r.o2 s1 s2 r.gps s3 a gp).1 h
      obtain ⟨l1, l2, l3⟩ := ih _ k1 fun r' h' => hs r' (List.mem_cons_of_mem _ h')
      exact ⟨l1, l2.trans k2, l3.trans k3⟩
  have main : ∀ (rs : List (Request V)) (a : PhononArrays F E), a.done gp = false →
      (∀ r ∈ rs, Schedule r.o1 ∧ Schedule r.o2 ∧ ∀ gp ∈ r.gps, gp < e.numPhonons) →
      match firstRequest gp rs with
      | some r => (runRequests e lapacke a rs).done gp = true ∧
          ((runRequests e lapacke a rs).freq gp, (runRequests e lapacke a rs).eig gp)
            = phononOf e r.dir gp
      | none => (runRequests e lapacke a rs).done gp = false := by
    intro rs
    induction rs with
    | nil => intro a h _; exact h
    | cons r rest ih =>
      intro a h hs
      obtain ⟨s1, s2, s3⟩ := hs r List.mem_cons_self
      obtain ⟨-, k2, k3⟩ := C52_request e lapacke r.dir r.o1 r.o2 s1 s2 r.gps s3 a gp
      have hs' := fun r' h' => hs r' (List.mem_cons_of_mem _ h')
      unfold firstRequest
      by_cases hm : gp ∈ r.gps
      · rw [if_pos hm]
        obtain ⟨d, v⟩ := k2 h hm
        obtain ⟨l1, l2, l3⟩ := keep rest _ d hs'
        refine ⟨l1, ?_⟩
        rw [← v]
        exact Prod.ext l2 l3
      · rw [if_neg hm]
        exact ih _ (k3 h hm) hs'
  exact main rs a (ha gp) hs

/-- **C52 (each point once).** The points collected by a request are distinct, were not solved before,
and are at most as many as the buffer of `num_phonons` entries holds. -/
theorem C52_collected (e : SolverEnv V F E) (done : Nat → Bool) (gps : List Nat)
    (hg : ∀ gp ∈ gps, gp < e.numPhonons) :
    (collectUndone done gps).1.Nodup ∧
    (∀ gp, gp ∈ (collectUndone done gps).1 ↔ gp ∈ gps ∧ done gp = false) ∧
    (collectUndone done gps).1.length ≤ e.numPhonons := by
  obtain ⟨c1, c2, -⟩ := collect_spec gps done
  refine ⟨c1, c2, ?_⟩
  have : (collectUndone done gps).1 ⊆ List.range e.numPhonons := fun gp h =>
    List.mem_range.2 (hg gp ((c2 gp).1 h).1)
  simpa using (c1.subperm this).length_le

/-! ### C51 -/

/-- The phonons at Γ without direction. -/
def gammaPlain (e : NacEnv V F E) : F × E := phononOf e.solver none e.gamma

/-- Γ is one of the grid points, and the only one with address zero. -/
structure GammaPoint (e : NacEnv V F E) : Prop where
  mem : e.gamma < e.solver.numPhonons
  unique : ∀ gp, e.solver.isGamma gp = true ↔ gp = e.gamma

theorem schedule_id : Schedule id := fun _ => List.Perm.refl _

theorem solve_gamma (e : NacEnv V F E) (hg : GammaPoint e) (s : NacState V F E)
    (hd : s.arrays.done e.gamma = false) :
    (runPhononSolver e [e.gamma] s).arrays.done e.gamma = true ∧
    ((runPhononSolver e [e.gamma] s).arrays.freq e.gamma,
      (runPhononSolver e [e.gamma] s).arrays.eig e.gamma) = phononOf e.solver s.dir e.gamma :=
  (C52_request e.solver e.lapacke s.dir id id schedule_id schedule_id [e.gamma]
    (by simpa using hg.mem) s.arrays e.gamma).2.1 hd (by simp)

theorem solve_other (e : NacEnv V F E) (hg : GammaPoint e) (s : NacState V F E) (gp : Nat)
    (h : gp ≠ e.gamma) :
    (runPhononSolver e [e.gamma] s).arrays.done gp = s.arrays.done gp ∧
    (s.arrays.done gp = true →
      (runPhononSolver e [e.gamma] s).arrays.freq gp = s.arrays.freq gp ∧
      (runPhononSolver e [e.gamma] s).arrays.eig gp = s.arrays.eig gp) := by
  have := C52_request e.solver e.lapacke s.dir id id schedule_id schedule_id [e.gamma]
    (by simpa using hg.mem) s.arrays gp
  obtain ⟨h1, -, h3⟩ := this
  cases hd : s.arrays.done gp
  · exact ⟨h3 hd (by simpa using h), fun hc => absurd hc (by decide)⟩
  · exact ⟨(h1 hd).1, fun _ => (h1 hd).2⟩

/-- Phonons have been solved at all grid points. -/
def Solved (e : NacEnv V F E) (s : NacState V F E) : Prop :=
  ∀ gp < e.solver.numPhonons, s.arrays.done gp = true

/-- **C51 (Γ selected).** Selecting Γ never fails, and afterwards the phonons at Γ are those of the
direction in force, from whatever state of the object. -/
theorem C51_gamma (e : NacEnv V F E) (hg : GammaPoint e) (hm : e.meshSymmetry = true)
    (s : NacState V F E) : ∃ s', setGridPoint e e.gamma s = some s' ∧ s'.dir = s.dir ∧
      (s'.arrays.freq e.gamma, s'.arrays.eig e.gamma) = phononOf e.solver s.dir e.gamma ∧
      s'.arrays.done e.gamma = true ∧
      ∀ gp ≠ e.gamma, s.arrays.done gp = true → s'.arrays.done gp = true ∧
        s'.arrays.freq gp = s.arrays.freq gp ∧ s'.arrays.eig gp = s.arrays.eig gp := by
  have hi : e.solver.isGamma e.gamma = true := (hg.unique _).2 rfl
  have hstep : setGridPoint e e.gamma s = some (runAtGamma e true s) := by
    unfold setGridPoint
    simp [hm, hi]
  refine ⟨_, hstep, ?_⟩
  unfold runAtGamma
  simp only [if_true]
  generalize hs1 : ({ s with doneNac := true, arrays := { s.arrays with
      done := fun k => if k = e.gamma then false else s.arrays.done k } } : NacState V F E) = s1
  have hd : s1.arrays.done e.gamma = false := by rw [← hs1]; simp
  have hdir : s1.dir = s.dir := by rw [← hs1]
  obtain ⟨a1, a2⟩ := solve_gamma e hg s1 hd
  refine ⟨hdir, ?_, a1, fun gp hne hdone => ?_⟩
  · rw [a2, hdir]
  · have hsd : s1.arrays.done gp = true := by rw [← hs1]; simp [hne, hdone]
    obtain ⟨b1, b2⟩ := solve_other e hg s1 gp hne
    have hf : s1.arrays.freq = s.arrays.freq ∧ s1.arrays.eig = s.arrays.eig := by
      rw [← hs1]; exact ⟨rfl, rfl⟩
    refine ⟨b1.trans hsd, ?_, ?_⟩
    · rw [(b2 hsd).1, hf.1]
    · rw [(b2 hsd).2, hf.2]

/-- What holds of the object once all phonons have been solved without direction. -/
structure NacInv (e : NacEnv V F E) (s : NacState V F E) : Prop where
  solved : Solved e s
  stored : s.atGamma = some (gammaPlain e)
  plain : s.doneNac = false → (s.arrays.freq e.gamma, s.arrays.eig e.gamma) = gammaPlain e

theorem runInteraction_solved (e : NacEnv V F E) (s : NacState V F E) (h : Solved e s) :
    runInteraction e s = s := by
  unfold runInteraction
  rw [if_neg]
  intro hc
  obtain ⟨gp, hgp, hd⟩ := List.any_eq_true.1 hc
  rw [h gp (List.mem_range.1 hgp)] at hd
  exact absurd hd (by decide)

theorem nacInv_solver (e : NacEnv V F E) (s : NacState V F E) (h : NacInv e s)
    (hg : GammaPoint e) (gps : List Nat) (hgps : ∀ gp ∈ gps, gp < e.solver.numPhonons) :
    NacInv e (runPhononSolver e gps s) := by
  have key : ∀ gp < e.solver.numPhonons, (runPhononSolver e gps s).arrays.done gp = true ∧
      (runPhononSolver e gps s).arrays.freq gp = s.arrays.freq gp ∧
      (runPhononSolver e gps s).arrays.eig gp = s.arrays.eig gp := fun gp hgp =>
    (C52_request e.solver e.lapacke s.dir id id schedule_id schedule_id gps hgps s.arrays gp).1
      (h.solved gp hgp)
  refine ⟨fun gp hgp => (key gp hgp).1, h.stored, fun hd => ?_⟩
  rw [(key _ hg.mem).2.1, (key _ hg.mem).2.2]
  exact h.plain hd

theorem nacInv_step (e : NacEnv V F E) (hg : GammaPoint e) (hm : e.meshSymmetry = true)
    (s s' : NacState V F E) (h : NacInv e s) (op : NacOp V)
    (hop : ∀ gps, op = .runSolver gps → ∀ gp ∈ gps, gp < e.solver.numPhonons)
    (hs : nacStep e s op = some s') : NacInv e s' := by
  cases op with
  | setDirection d =>
    simp only [nacStep, Option.some.injEq] at hs
    subst hs
    exact ⟨h.solved, h.stored, h.plain⟩
  | runSolver gps =>
    simp only [nacStep, Option.some.injEq] at hs
    subst hs
    exact nacInv_solver e s h hg gps (hop gps rfl)
  | run =>
    simp only [nacStep, Option.some.injEq] at hs
    subst hs
    rw [runInteraction_solved e s h.solved]
    exact h
  | setGridPoint gp =>
    simp only [nacStep] at hs
    by_cases hgp : gp = e.gamma
    · subst hgp
      obtain ⟨s1, e1, e2, e3, e4, e5⟩ := C51_gamma e hg hm s
      rw [e1, Option.some.injEq] at hs
      subst hs
      have hdn : s1.doneNac = true ∧ s1.atGamma = s.atGamma := by
        have hi : e.solver.isGamma e.gamma = true := (hg.unique _).2 rfl
        have : setGridPoint e e.gamma s = some (runAtGamma e true s) := by
          unfold setGridPoint
          simp [hm, hi]
        rw [this, Option.some.injEq] at e1
        subst e1
        exact ⟨rfl, rfl⟩
      refine ⟨fun k hk => ?_, hdn.2.trans h.stored, fun hc => ?_⟩
      · by_cases hkg : k = e.gamma
        · subst hkg; exact e4
        · exact (e5 k hkg (h.solved k hk)).1
      · rw [hdn.1] at hc; exact absurd hc (by decide)
    · have hi : e.solver.isGamma gp = false := by
        cases hc : e.solver.isGamma gp
        · rfl
        · exact absurd ((hg.unique gp).1 hc) hgp
      unfold setGridPoint at hs
      simp only [hm, hi, Bool.not_true, Bool.false_eq_true, if_false] at hs
      split at hs
      · split at hs
        · simp only [Option.some.injEq] at hs
          subst hs
          have hr : runAtGamma e false s = { s with arrays := { s.arrays with
              freq := fun k => if k = e.gamma then (gammaPlain e).1 else s.arrays.freq k
              eig := fun k => if k = e.gamma then (gammaPlain e).2 else s.arrays.eig k } } := by
            unfold runAtGamma
            rw [h.stored]
          rw [hr]
          exact ⟨fun k hk => h.solved k hk, h.stored, fun _ => by simp⟩
        · exact absurd hs (by simp)
      · simp only [Option.some.injEq] at hs
        subst hs
        exact h

/-- All points named in a history are grid points. -/
def InRange (e : NacEnv V F E) (ops : List (NacOp V)) : Prop :=
  ∀ gps, NacOp.runSolver gps ∈ ops → ∀ gp ∈ gps, gp < e.solver.numPhonons

theorem nacInv_run (e : NacEnv V F E) (hg : GammaPoint e) (hm : e.meshSymmetry = true)
    (ops : List (NacOp V)) (hr : InRange e ops) (s : NacState V F E) (h : NacInv e s) :
    NacInv e (nacRun e s ops) := by
  induction ops generalizing s with
  | nil => exact h
  | cons op rest ih =>
    unfold nacRun
    refine ih (fun gps hm' => hr gps (List.mem_cons_of_mem _ hm')) _ ?_
    cases hs : nacStep e s op with
    | none => exact h
    | some s' =>
      exact nacInv_step e hg hm s s' h op (fun gps he => hr gps (he ▸ List.mem_cons_self)) hs

/-- **C51 (history, partial).** After any sequence of calls on an object whose phonons have all been
solved before a direction was given: selecting Γ gives at Γ the phonons of the direction in force,
selecting another point either gives the phonons without direction or is refused, and `run` changes
nothing. Missing: histories in which a direction is given before all phonons are solved
(`C51_silent_direction`, `C51_wang_direction`), meshes without symmetry
(`C51_no_symmetry`), and that no valid sequence is refused (`C51_refused_plain`,
`C51_refused_restored`). -/
theorem C51_history_partial (e : NacEnv V F E) (hg : GammaPoint e) (hm : e.meshSymmetry = true)
    (s : NacState V F E) (h : NacInv e s) (ops : List (NacOp V)) (hr : InRange e ops) :
    (∀ s', setGridPoint e e.gamma (nacRun e s ops) = some s' →
      (s'.arrays.freq e.gamma, s'.arrays.eig e.gamma)
        = phononOf e.solver (nacRun e s ops).dir e.gamma ∧ runInteraction e s' = s') ∧
    ∀ gp ≠ e.gamma, ∀ s', setGridPoint e gp (nacRun e s ops) = some s' →
      (s'.arrays.freq e.gamma, s'.arrays.eig e.gamma) = phononOf e.solver none e.gamma ∧
        runInteraction e s' = s' := by
  have hi := nacInv_run e hg hm ops hr s h
  generalize nacRun e s ops = t at hi
  refine ⟨fun s' hs => ?_, fun gp hgp s' hs => ?_⟩
  · obtain ⟨s1, e1, -, e3, -⟩ := C51_gamma e hg hm t
    rw [e1, Option.some.injEq] at hs
    subst hs
    exact ⟨e3, runInteraction_solved e _
      (nacInv_step e hg hm t s1 hi (.setGridPoint e.gamma) (by simp) e1).solved⟩
  · have hinv := nacInv_step e hg hm t s' hi (.setGridPoint gp) (by simp) hs
    refine ⟨?_, runInteraction_solved e _ hinv.solved⟩
    have hig : e.solver.isGamma gp = false := by
      cases hc : e.solver.isGamma gp
      · rfl
      · exact absurd ((hg.unique gp).1 hc) hgp
    unfold setGridPoint at hs
    simp only [hm, hig, Bool.not_true, Bool.false_eq_true, if_false] at hs
    split at hs
    · split at hs
      · simp only [Option.some.injEq] at hs
        subst hs
        unfold runAtGamma
        rw [hi.stored]
        simp [gammaPlain]
      · exact absurd hs (by simp)
    · rename_i hf
      simp only [Option.some.injEq] at hs
      subst hs
      exact hi.plain (by simpa using hf)

/-- The usual start of a calculation: `init_dynamical_matrix` and `run_phonon_solver` without
direction. -/
def solvedStart (e : NacEnv V F E) : NacState V F E :=
  runPhononSolver e (List.range e.solver.numPhonons) (allocatePhonon e (newNacState e))

/-- **C51 (initialisation).** Whatever direction was set before `init_dynamical_matrix`, the phonons
kept for Γ are those without direction, the direction stays set and no point counts as solved. -/
theorem C51_init (e : NacEnv V F E) (hg : GammaPoint e) (d : Option V) :
    (allocatePhonon e { newNacState e with dir := d }).dir = d ∧
      (∀ k, (allocatePhonon e { newNacState e with dir := d }).arrays.done k = false) ∧
      (allocatePhonon e { newNacState e with dir := d }).atGamma = some (gammaPlain e) := by
  unfold allocatePhonon runAtGamma newNacState
  simp only [Bool.false_eq_true, if_false]
  generalize hs1 : ({ doneNac := false, dir := none, atGamma := none, arrays :=
      { done := fun k => if k = e.gamma then false else false, freq := fun _ => e.zeroF,
        eig := fun _ => e.zeroE } } : NacState V F E) = s1
  have hd : s1.arrays.done e.gamma = false := by rw [← hs1]; simp
  have hdir : s1.dir = none := by rw [← hs1]
  obtain ⟨a1, a2⟩ := solve_gamma e hg s1 hd
  refine ⟨trivial, fun k => ?_, ?_⟩
  · by_cases hk : k = e.gamma
    · simp [hk]
    · rw [if_neg hk, (solve_other e hg s1 k hk).1, ← hs1]
      simp
  · rw [a2, hdir]; rfl

/-- **C51 (start).** The condition of `C51_history_partial` holds after the usual start of a
calculation. -/
theorem C51_start (e : NacEnv V F E) (hg : GammaPoint e) : NacInv e (solvedStart e) := by
  have halloc := C51_init e hg none
  rw [show ({ newNacState e with dir := none } : NacState V F E) = newNacState e from rfl] at halloc
  obtain ⟨h1, h2, h3⟩ := halloc
  unfold solvedStart
  generalize allocatePhonon e (newNacState e) = s at h1 h2 h3
  have key : ∀ gp < e.solver.numPhonons,
      (runPhononSolver e (List.range e.solver.numPhonons) s).arrays.done gp = true ∧
      ((runPhononSolver e (List.range e.solver.numPhonons) s).arrays.freq gp,
        (runPhononSolver e (List.range e.solver.numPhonons) s).arrays.eig gp)
        = phononOf e.solver s.dir gp := fun gp hgp =>
    (C52_request e.solver e.lapacke s.dir id id schedule_id schedule_id _
      (fun k hk => List.mem_range.1 hk) s.arrays gp).2.1 (h2 gp) (List.mem_range.2 hgp)
  refine ⟨fun gp hgp => (key gp hgp).1, h3, fun _ => ?_⟩
  rw [(key _ hg.mem).2, h1]
  rfl

/-- **C51 (vector of the non-analytical term).** Without Born charges no vector enters. With them, at
Γ it is the direction in force (none without direction). At the other points it is the q-point of
that point: whatever the direction with the method of Gonze, and without direction with the method
of Wang (with a direction that is false, `C51_wang_direction`). -/
theorem C51_vector (e : SolverEnv V F E) (dir : Option V) (gp : Nat) :
    (e.born = false → phononOf e dir gp = e.solve (e.dyn gp none)) ∧
    (e.born = true → e.isGamma gp = true → phononOf e dir gp = e.solve (e.dyn gp dir)) ∧
    (e.born = true → e.isGamma gp = false → (e.gonze = true ∨ dir = none) →
      phononOf e dir gp = e.solve (e.dyn gp (some (e.q gp)))) := by
  unfold phononOf nacVector needsNac chargeSumVector
  refine ⟨fun h => ?_, fun h hg => ?_, fun h hg hm => ?_⟩
  · simp [h]
  · cases dir <;> simp [h, hg]
  · rcases hm with hm | rfl
    · simp [h, hg, hm]
    · simp [h, hg]

/-! ### C53 -/

/-- **C53 (partial).** Supplied phonons are refused exactly when the number of addresses differs or
every component of every address differs; when they are taken, all points are marked as solved and
hold the supplied phonons. Missing: refusal of addresses that differ only in part
(`C53_other_grid_accepted`). -/
theorem C53_refused_partial (e : NacEnv V F E) (own given : List Int) (freq : Nat → F)
    (eig : Nat → E) (s : NacState V F E) :
    (setPhononData e own given freq eig s = none ↔
      given.length ≠ own.length ∨
        (given.length = own.length ∧ ∀ i (h : i < own.length) (h' : i < given.length),
          own[i] ≠ given[i])) ∧
    ∀ s', setPhononData e own given freq eig s = some s' →
      (∀ gp, s'.arrays.done gp = true ∧ s'.arrays.freq gp = freq gp ∧ s'.arrays.eig gp = eig gp) ∧
      s'.atGamma = some (freq e.gamma, eig e.gamma) ∧ s'.dir = s.dir := by
  constructor
  · unfold setPhononData
    by_cases hl : given.length ≠ own.length
    · simp [hl]
    · rw [if_neg hl]
      have hl' : given.length = own.length := not_not.1 hl
      split
      · rename_i hall
        simp only [true_iff]
        refine Or.inr ⟨hl', fun i h h' e => ?_⟩
        have := List.all_eq_true.1 hall (own[i] - given[i])
          (List.mem_iff_getElem.2 ⟨i, by simp; omega, by simp⟩)
        rw [e] at this
        simp at this
      · rename_i hall
        simp only [reduceCtorEq, false_iff, not_or, not_and]
        refine ⟨hl, fun _ hc => hall (List.all_eq_true.2 fun d hd => ?_)⟩
        obtain ⟨i, hi, rfl⟩ := List.mem_iff_getElem.1 hd
        simp only [List.length_zipWith] at hi
        have := hc i (by omega) (by omega)
        simp only [List.getElem_zipWith, bne_iff_ne, ne_eq]
        omega
  · intro s' hs
    unfold setPhononData at hs
    split at hs
    · exact absurd hs (by simp)
    · split at hs
      · exact absurd hs (by simp)
      · simp only [Option.some.injEq] at hs
        subst hs
        exact ⟨fun _ => ⟨rfl, rfl, rfl⟩, rfl, rfl⟩

/-- **C53 (same grid).** Phonons supplied with the addresses of the grid are taken. -/
theorem C53_same_grid (e : NacEnv V F E) (own : List Int) (h : own ≠ []) (freq : Nat → F)
    (eig : Nat → E) (s : NacState V F E) : (setPhononData e own own freq eig s).isSome := by
  rw [Option.isSome_iff_ne_none]
  intro hc
  rcases (C53_refused_partial e own own freq eig s).1.1 hc with h1 | ⟨-, h1⟩
  · exact h1 rfl
  · have : 0 < own.length := List.length_pos_iff.2 h
    exact h1 0 this this rfl

end

/-! ### Examples and disagreements -/

/-- Three grid points, Γ is point 0; a dynamical matrix is represented by the grid point and the
vector of the non-analytical term, its solution by the same data. -/
def exampleSolver (gonze : Bool) : SolverEnv Nat (Nat × Option Nat) (Nat × Option Nat) where
  numPhonons := 3
  isGamma := fun gp => gp = 0
  q := fun gp => 100 + gp
  born := true
  gonze := gonze
  dyn := fun gp v => (gp, v)
  solve := fun m => (m, m)

def exampleNac (gonze sym : Bool) : NacEnv Nat (Nat × Option Nat) (Nat × Option Nat) where
  solver := exampleSolver gonze
  lapacke := true
  gamma := 0
  meshSymmetry := sym
  zeroF := (0, none)
  zeroE := (0, none)

theorem exampleNac_gamma (gonze sym : Bool) : GammaPoint (exampleNac gonze sym) :=
  ⟨by change 0 < 3; decide, fun gp => by simp [exampleNac, exampleSolver]⟩

/-- A history in the range of `C51_history_partial`: the direction 7 is used at Γ, and removed for
another point. -/
example : NacInv (exampleNac true true) (solvedStart (exampleNac true true)) ∧
    ((setGridPoint (exampleNac true true) 0 (nacRun (exampleNac true true)
      (solvedStart (exampleNac true true)) [.setDirection (some 7)])).map fun s => s.arrays.freq 0)
      = some (0, some 7) ∧
    ((setGridPoint (exampleNac true true) 1 (nacRun (exampleNac true true)
      (solvedStart (exampleNac true true))
        [.setDirection (some 7), .setGridPoint 0, .setDirection none])).map fun s =>
          s.arrays.freq 0) = some (0, none) :=
  ⟨C51_start _ (exampleNac_gamma _ _), by decide +kernel, by decide +kernel⟩

/-- Points requested twice, within and across requests. -/
example : Schedule List.reverse ∧
    (collectUndone (fun gp => gp == 2) [1, 2, 1, 0, 1]).1 = [1, 0] ∧
    (runRequests (exampleSolver true) false
      { done := fun _ => false, freq := fun _ => (9, none), eig := fun _ => (9, none) }
      [⟨none, [1, 1], List.reverse, id⟩, ⟨some 7, [0, 1], id, id⟩]).freq 1 = (1, some 101) ∧
    (runRequests (exampleSolver true) false
      { done := fun _ => false, freq := fun _ => (9, none), eig := fun _ => (9, none) }
      [⟨none, [1, 1], List.reverse, id⟩, ⟨some 7, [0, 1], id, id⟩]).freq 0 = (0, some 7) :=
  ⟨fun l => List.reverse_perm l, by decide, by decide, by decide⟩

/-- **C51, failure: silent direction.** A direction given after `init_dynamical_matrix`, another point
selected and `run` called: nothing is refused, and Γ is solved with the direction. -/
theorem C51_silent_direction :
    let e := exampleNac true true
    let s := nacRun e (allocatePhonon e (newNacState e)) [.setDirection (some 7)]
    (setGridPoint e 1 s).map (fun s => ((runInteraction e s).arrays.freq 0, s.dir))
      = some ((0, some 7), some 7) ∧ gammaPlain e = ((0, none), (0, none)) := by
  decide +kernel

/-- **C51, failure: all points (method of Wang).** In the same history with the method of Wang the
phonons of the other points are also solved with the direction in place of their q-points. -/
theorem C51_wang_direction :
    let e := exampleNac false true
    let s := nacRun e (allocatePhonon e (newNacState e)) [.setDirection (some 7)]
    (setGridPoint e 1 s).map (fun s => (runInteraction e s).arrays.freq 1) = some (1, some 7) ∧
    phononOf e.solver none 1 = ((1, some 101), (1, some 101)) := by
  decide +kernel

/-- **C51, failure: valid sequence refused.** Γ is selected without direction, so its phonons are
those without direction; then a direction is given and another point selected: refused, although the
same calls without selecting Γ are accepted. -/
theorem C51_refused_plain :
    let e := exampleNac true true
    let s := nacRun e (solvedStart e) [.setGridPoint 0, .setDirection (some 7)]
    (s.arrays.freq 0, s.arrays.eig 0) = gammaPlain e ∧ (setGridPoint e 1 s).isNone ∧
      (setGridPoint e 1 (nacRun e (solvedStart e) [.setDirection (some 7)])).isSome := by
  decide +kernel

/-- **C51, failure: valid sequence refused after restoring.** The phonons without direction have been
restored at Γ, but the flag stays set, and a later call with a direction is refused. -/
theorem C51_refused_restored :
    let e := exampleNac true true
    let s := nacRun e (solvedStart e) [.setDirection (some 7), .setGridPoint 0, .setDirection none,
      .setGridPoint 1, .setDirection (some 7)]
    (s.arrays.freq 0, s.arrays.eig 0) = gammaPlain e ∧ (setGridPoint e 1 s).isNone := by
  decide +kernel

/-- **C51, failure: no mesh symmetry.** Without mesh symmetry selecting Γ with a direction keeps the
phonons without direction. -/
theorem C51_no_symmetry :
    let e := exampleNac true false
    (setGridPoint e 0 (nacRun e (solvedStart e) [.setDirection (some 7)])).map
      (fun s => ((runInteraction e s).arrays.freq 0, s.dir)) = some ((0, none), some 7) := by
  decide +kernel

/-- **C51, failure: stale phonons.** When `init_dynamical_matrix` is called again with other force
constants (here another `dyn`), the phonons stored for Γ stay those of the first call and are put
back when the direction is removed. -/
theorem C51_stale_gamma :
    let e := exampleNac true true
    let e' : NacEnv Nat (Nat × Option Nat) (Nat × Option Nat) :=
      { e with solver := { e.solver with dyn := fun gp v => (gp + 50, v) } }
    let s := runPhononSolver e' [0, 1, 2] (allocatePhonon e' (solvedStart e))
    s.arrays.freq 0 = (50, none) ∧
      (nacRun e' s [.setDirection (some 7), .setGridPoint 0, .setDirection none,
        .setGridPoint 1]).arrays.freq 0 = (0, none) := by
  decide +kernel

/-- **C53, failure.** Phonons supplied with the addresses of another grid are taken if a single
component agrees. -/
theorem C53_other_grid_accepted :
    (setPhononData (exampleNac true true) [0, 0, 0, 1, 0, 0, 2, 0, 0] [0, 5, 5, 5, 5, 5, 5, 5, 5]
      (fun gp => (gp, none)) (fun gp => (gp, none)) (solvedStart (exampleNac true true))).isSome := by
  decide +kernel

end Phono3py.Props
