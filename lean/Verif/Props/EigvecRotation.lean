/-
Property theorems C127: phonons of a grid from those at irreducible grid points.
-/
import Verif.Props.PhononRotation
import Verif.Props.PhononSolver
import Verif.Props.GridIndex
import Verif.Props.BZRotation
import Verif.Model.PhononRotation
import Mathlib.Tactic.IntervalCases
import Mathlib.Tactic.NormNum
import Mathlib.Algebra.Order.Field.Rat

namespace Phono3py.Props
open Phono3py Phono3py.Spec Finset

section
variable {K : Type} [Field K] [LinearOrder K] [IsStrictOrderedRing K]

/-- A matrix indexed by natural numbers. -/
def natRM (a : RM K) : Nat → Nat → K := fun i j => a (Fin.ofNat 3 i) (Fin.ofNat 3 j)

/-! ### One set of eigenvectors -/

theorem rotateEigvecs_value (n : Nat) (R : RM K) (perm : Nat → Nat) (z : Cplx K) (v : Int → Cplx K)
    {j l b : Nat} (hl : l < 3) (hb : b < 3 * n) :
    rotateEigvecs n (transposeRM R) perm z v (((j * 3 + l) * (3 * n) + b : Nat)) =
      ∑ a ∈ range 3, (v (((perm j * 3 + a) * (3 * n) + b : Nat)) * z).scale (natRM R a l) := by
  have h0 : 0 < 3 * n := by omega
  have h1 : ((j * 3 + l) * (3 * n) + b) / (3 * n) = j * 3 + l := by
    rw [mul_comm (j * 3 + l), Nat.mul_add_div h0, Nat.div_eq_of_lt hb, add_zero]
  have h2 : ((j * 3 + l) * (3 * n) + b) % (3 * n) = b := by
    rw [mul_comm (j * 3 + l), Nat.mul_add_mod, Nat.mod_eq_of_lt hb]
  have h3 : (j * 3 + l) / 3 = j := by omega
  have h4 : (j * 3 + l) % 3 = l := by omega
  unfold rotateEigvecs
  simp only [Int.toNat_natCast, h1, h2, h3, h4, Finset.sum_range_succ, Finset.sum_range_zero, zero_add]
  rfl

theorem modes_turn (sqrt : K → K) (expi : K → Cplx K) {c : Fc2Cell K} {W : Nat → Nat → K} {R : RM K}
    {g : Nat → Nat} (h : IsSymmetry c W (natRM R) g) (nac : Option (NacParams K))
    (recip : Nat → Nat → K) (hn : ∀ p, nac = some p → IsNacSymmetry c p recip W (natRM R) g)
    (q : Nat → K) (mem mem' : Int → Cplx K) (lam : K → K) (f : Nat → K) (v : Int → Cplx K)
    (z : Cplx K) (hz : conj z * z = 1)
    (hm : Modes c.numPatom lam (wangMatrix sqrt expi c nac recip q none mem) f v) :
    Modes c.numPatom lam (wangMatrix sqrt expi c nac recip (turnedQ W q) none mem') f
      (rotateEigvecs c.numPatom (transposeRM R) g z v) := by
  refine ⟨fun b hb => ?_, fun b hb b' hb' => ?_⟩
  · have := C126_eigenvector sqrt expi h nac recip hn q mem mem' (lam (f b)) _ z (hm.solves b hb)
    intro i hi k hk
    have := this i hi k hk
    dsimp only at this ⊢
    rw [rotateEigvecs_value _ _ _ _ _ hk hb, ← this]
    refine Finset.sum_congr rfl fun j _ => Finset.sum_congr rfl fun l hl => ?_
    rw [rotateEigvecs_value _ _ _ _ _ (Finset.mem_range.1 hl) hb]
  · have e1 : ∀ j ∈ range c.numPatom, ∑ l ∈ range 3,
        conj (rotateEigvecs c.numPatom (transposeRM R) g z v
          (((j * 3 + l) * (3 * c.numPatom) + b : Nat))) *
        rotateEigvecs c.numPatom (transposeRM R) g z v
          (((j * 3 + l) * (3 * c.numPatom) + b' : Nat)) =
        ∑ a ∈ range 3, conj (v (((g j * 3 + a) * (3 * c.numPatom) + b : Nat))) *
          v (((g j * 3 + a) * (3 * c.numPatom) + b' : Nat)) := by
      intro j _
      have e2 : ∀ l ∈ range 3, conj (rotateEigvecs c.numPatom (transposeRM R) g z v
          (((j * 3 + l) * (3 * c.numPatom) + b : Nat))) *
          rotateEigvecs c.numPatom (transposeRM R) g z v
            (((j * 3 + l) * (3 * c.numPatom) + b' : Nat)) =
          ∑ a ∈ range 3, ∑ d ∈ range 3, (conj (v (((g j * 3 + a) * (3 * c.numPatom) + b : Nat))) *
            v (((g j * 3 + d) * (3 * c.numPatom) + b' : Nat))).scale
              (natRM R a l * natRM R d l) := by
        intro l hl
        rw [rotateEigvecs_value _ _ _ _ _ (Finset.mem_range.1 hl) hb,
          rotateEigvecs_value _ _ _ _ _ (Finset.mem_range.1 hl) hb', conj_sum, Finset.sum_mul]
        refine Finset.sum_congr rfl fun a _ => ?_
        rw [Finset.mul_sum]
        refine Finset.sum_congr rfl fun d _ => ?_
        generalize v (((g j * 3 + a) * (3 * c.numPatom) + b : Nat)) = x
        generalize v (((g j * 3 + d) * (3 * c.numPatom) + b' : Nat)) = y
        have hre : z.re * z.re + z.im * z.im = 1 := by
          have := congrArg Cplx.re hz
          simp [conj] at this
          linarith
        ext
        · simp [conj, Cplx.scale]
          linear_combination (x.re * y.re + x.im * y.im) * natRM R a l * natRM R d l * hre
        · simp [conj, Cplx.scale]
          linear_combination (x.re * y.im - x.im * y.re) * natRM R a l * natRM R d l * hre
      rw [Finset.sum_congr rfl e2, Finset.sum_comm]
      refine Finset.sum_congr rfl fun a ha => ?_
      rw [Finset.sum_comm]
      have e3 : ∀ d ∈ range 3, ∑ l ∈ range 3,
          (conj (v (((g j * 3 + a) * (3 * c.numPatom) + b : Nat))) *
            v (((g j * 3 + d) * (3 * c.numPatom) + b' : Nat))).scale
              (natRM R a l * natRM R d l) = if a = d then
          conj (v (((g j * 3 + a) * (3 * c.numPatom) + b : Nat))) *
            v (((g j * 3 + d) * (3 * c.numPatom) + b' : Nat)) else 0 := by
        intro d hd
        rw [← scale_sum_right, rows_orthogonal h.orthogonal (Finset.mem_range.1 ha)
          (Finset.mem_range.1 hd)]
        split
        · ext <;> simp [Cplx.scale]
        · ext <;> simp [Cplx.scale]
      rw [Finset.sum_congr rfl e3, Finset.sum_ite_eq, if_pos ha]
    rw [Finset.sum_congr rfl e1, sum_permuted h.atoms (fun j => ∑ a ∈ range 3,
      conj (v (((j * 3 + a) * (3 * c.numPatom) + b : Nat))) *
          v (((j * 3 + a) * (3 * c.numPatom) + b' : Nat)))]
    exact hm.orthonormal b hb b' hb'

theorem modes_conj (sqrt : K → K) (expi : K → Cplx K) (hneg : ∀ x, expi (-x) = conj (expi x))
    (c : Fc2Cell K) (nac : Option (NacParams K)) (recip : Nat → Nat → K) (q : Nat → K)
    (mem mem' : Int → Cplx K) (lam : K → K) (f : Nat → K) (v : Int → Cplx K)
    (hm : Modes c.numPatom lam (wangMatrix sqrt expi c nac recip q none mem) f v) :
    Modes c.numPatom lam (wangMatrix sqrt expi c nac recip (fun d => -q d) none mem') f
      (fun x => conj (v x)) := by
  refine ⟨fun b hb => C87_spectrum sqrt expi hneg c nac recip q none mem mem' _ _ (hm.solves b hb),
    fun b hb b' hb' => ?_⟩
  have := congrArg conj (hm.orthonormal b hb b' hb')
  rw [conj_sum] at this
  have e : conj (if b = b' then (1 : Cplx K) else 0) = if b = b' then 1 else 0 := by
    split <;> (ext <;> simp [conj])
  rw [e] at this
  rw [← this]
  refine Finset.sum_congr rfl fun j _ => ?_
  rw [conj_sum]
  exact Finset.sum_congr rfl fun l _ => by rw [conj_mul]

/-! ### The loops -/

/-- The phonons stored for all points marked as done are right. -/
def AllRight (N : Nat) (Good : Nat → (Nat → K) → (Int → Cplx K) → Prop)
    (s : NacState (Nat → K) (Nat → K) (Int → Cplx K)) : Prop :=
  s.dir = none ∧ ∀ gp < N, s.arrays.done gp = true → Good gp (s.arrays.freq gp) (s.arrays.eig gp)

variable {Good : Nat → (Nat → K) → (Int → Cplx K) → Prop} {N : Nat}

theorem allRight_solver (e : NacEnv (Nat → K) (Nat → K) (Int → Cplx K)) (hN : e.solver.numPhonons = N)
    (hs : ∀ gp < N, Good gp (phononOf e.solver none gp).1 (phononOf e.solver none gp).2)
    (gps : List Nat) (hg : ∀ gp ∈ gps, gp < N) (s : NacState (Nat → K) (Nat → K) (Int → Cplx K))
    (h : AllRight N Good s) : AllRight N Good (runPhononSolver e gps s) ∧
      (∀ gp ∈ gps, (runPhononSolver e gps s).arrays.done gp = true) ∧
      ∀ gp, s.arrays.done gp = true → (runPhononSolver e gps s).arrays.done gp = true := by
  have key := fun gp => C52_request e.solver e.lapacke s.dir id id schedule_id schedule_id gps
    (by rw [hN]; exact hg) s.arrays gp
  refine ⟨⟨h.1, fun gp hgp hd => ?_⟩, fun gp hm => ?_, fun gp hd => ((key gp).1 hd).1⟩
  · obtain ⟨k1, k2, k3⟩ := key gp
    cases hdone : s.arrays.done gp with
    | true =>
      obtain ⟨-, e1, e2⟩ := k1 hdone
      show Good gp ((runPhononSolverC e.solver e.lapacke s.dir id id gps s.arrays).freq gp)
        ((runPhononSolverC e.solver e.lapacke s.dir id id gps s.arrays).eig gp)
      rw [e1, e2]
      exact h.2 gp hgp hdone
    | false =>
      by_cases hm : gp ∈ gps
      · obtain ⟨-, e1⟩ := k2 hdone hm
        show Good gp ((runPhononSolverC e.solver e.lapacke s.dir id id gps s.arrays).freq gp)
          ((runPhononSolverC e.solver e.lapacke s.dir id id gps s.arrays).eig gp)
        have := hs gp hgp
        rw [h.1] at e1 ⊢
        rw [← e1] at this
        exact this
      · have := k3 hdone hm
        exact absurd (hd.symm.trans this) (by decide)
  · obtain ⟨k1, k2, -⟩ := key gp
    cases hdone : s.arrays.done gp with
    | true => exact (k1 hdone).1
    | false => exact (k2 hdone hm).1

theorem allRight_store {s : NacState (Nat → K) (Nat → K) (Int → Cplx K)} (h : AllRight N Good s)
    (gp : Nat) (f : Nat → K) (v : Int → Cplx K) (hg : Good gp f v) :
    AllRight N Good (storePhonon s gp f v) := by
  refine ⟨h.1, fun k hk hd => ?_⟩
  unfold storePhonon at hd ⊢
  simp only at hd ⊢
  by_cases e : k = gp
  · subst e; simpa using hg
  · simp only [if_neg e] at hd ⊢
    exact h.2 k hk hd

theorem store_done (s : NacState (Nat → K) (Nat → K) (Int → Cplx K)) (gp : Nat) (f : Nat → K)
    (v : Int → Cplx K) (k : Nat) (h : s.arrays.done k = true ∨ k = gp) :
    (storePhonon s gp f v).arrays.done k = true := by
  unfold storePhonon
  by_cases e : k = gp
  · simp [e]
  · simpa [e] using h.resolve_right e

/-- What the double loop needs: rotation number `d`, number `ri` of the reciprocal operations, is
right for all irreducible points. -/
def RotationRight (e : RotationEnv K) (N : Nat) (Good : Nat → (Nat → K) → (Int → Cplx K) → Prop)
    (d ri : Nat) : Prop :=
  ∀ irgp ∈ e.irPoints, ∀ f v, Good irgp f v →
    let gp := rotatedPoint e irgp (e.grid.rotations.getD ri M3.one)
    let rq := qPoint e.grid.gm (e.grid.bz.addresses gp)
    let tau := e.translations d
    Good gp f (rotateEigvecs e.numPatom ((rotationsCartesian e.recLattice e.grid.recOps).getD ri
      fun _ _ => 0) (e.perms d) (e.expi (-(rq 0 * tau 0 + rq 1 * tau 1 + rq 2 * tau 2))) v)

theorem allRight_rotations (e : RotationEnv K) (hir : ∀ gp ∈ e.irPoints, gp < N) (d2r : List Nat)
    (hd : ∀ p ∈ d2r.zipIdx, RotationRight e N Good p.2 p.1)
    (s : NacState (Nat → K) (Nat → K) (Int → Cplx K)) (h : AllRight N Good s)
    (hdone : ∀ gp ∈ e.irPoints, s.arrays.done gp = true) :
    AllRight N Good (rotationLoop e d2r s) ∧
      ∀ gp, s.arrays.done gp = true → (rotationLoop e d2r s).arrays.done gp = true := by
  unfold rotationLoop
  generalize d2r.zipIdx = l at hd
  induction l generalizing s with
  | nil => exact ⟨h, fun _ h => h⟩
  | cons p rest ih =>
    have inner : ∀ (l : List Nat), (∀ gp ∈ l, gp ∈ e.irPoints) →
        ∀ s, AllRight N Good s → (∀ gp ∈ e.irPoints, s.arrays.done gp = true) →
        AllRight N Good (l.foldl (rotationStep e p.2 p.1) s) ∧
          ∀ gp, s.arrays.done gp = true →
            (l.foldl (rotationStep e p.2 p.1) s).arrays.done gp = true := by
      intro l
      induction l with
      | nil => exact fun _ s h _ => ⟨h, fun _ h => h⟩
      | cons irgp l ih2 =>
        intro hl s h hdone
        have step : AllRight N Good (rotationStep e p.2 p.1 s irgp) ∧
            ∀ gp, s.arrays.done gp = true → (rotationStep e p.2 p.1 s irgp).arrays.done gp = true := by
          unfold rotationStep
          simp only
          split
          · exact ⟨h, fun _ h => h⟩
          · have hi := hl irgp (List.mem_cons_self ..)
            refine ⟨allRight_store h _ _ _ ?_, fun gp hgp => store_done _ _ _ _ _ (Or.inl hgp)⟩
            exact hd p (List.mem_cons_self ..) irgp hi _ _ (h.2 irgp (hir irgp hi) (hdone irgp hi))
        obtain ⟨a1, a2⟩ := ih2 (fun gp hgp => hl gp (List.mem_cons_of_mem _ hgp)) _ step.1
          (fun gp hgp => step.2 gp (hdone gp hgp))
        exact ⟨a1, fun gp hgp => a2 gp (step.2 gp hgp)⟩
    obtain ⟨b1, b2⟩ := inner e.irPoints (fun _ h => h) s h hdone
    obtain ⟨c1, c2⟩ := ih _ b1 (fun gp hgp => b2 gp (hdone gp hgp))
      (fun q hq => hd q (List.mem_cons_of_mem _ hq))
    exact ⟨c1, fun gp hgp => c2 gp (b2 gp hgp)⟩

/-- What the second loop needs. -/
def MinusRight (e : RotationEnv K) (N : Nat) (Good : Nat → (Nat → K) → (Int → Cplx K) → Prop) : Prop :=
  ∀ gp < N, rotatedPoint e gp M3.negOne < N ∧ ∀ f v, Good (rotatedPoint e gp M3.negOne) f v →
    Good gp f fun x => conj (v x)

theorem allRight_minus (e : RotationEnv K) (hN : e.nac.solver.numPhonons = N)
    (hs : ∀ gp < N, Good gp (phononOf e.nac.solver none gp).1 (phononOf e.nac.solver none gp).2)
    (hm : MinusRight e N Good) (l : List Nat) (hl : ∀ gp ∈ l, gp < N)
    (s : NacState (Nat → K) (Nat → K) (Int → Cplx K) × List Nat) (h : AllRight N Good s.1) :
    AllRight N Good (l.foldl (minusStep e) s).1 ∧
      ∀ gp, s.1.arrays.done gp = true ∨ gp ∈ l →
        (l.foldl (minusStep e) s).1.arrays.done gp = true := by
  induction l generalizing s with
  | nil => exact ⟨h, fun gp hgp => hgp.resolve_right (by simp)⟩
  | cons gp l ih =>
    have hgp := hl gp (List.mem_cons_self ..)
    have step : AllRight N Good (minusStep e s gp).1 ∧
        ∀ k, s.1.arrays.done k = true ∨ k = gp → (minusStep e s gp).1.arrays.done k = true := by
      unfold minusStep
      simp only
      split
      · rename_i hd
        exact ⟨h, fun k hk => hk.elim id (fun e => e ▸ hd)⟩
      · obtain ⟨m1, m2⟩ := hm gp hgp
        have sub : ∀ s' : NacState (Nat → K) (Nat → K) (Int → Cplx K) × List Nat,
            s' = (if s.1.arrays.done (rotatedPoint e gp M3.negOne) = true then s
              else (runPhononSolver e.nac [rotatedPoint e gp M3.negOne] s.1,
                s.2 ++ [rotatedPoint e gp M3.negOne])) →
            AllRight N Good s'.1 ∧ s'.1.arrays.done (rotatedPoint e gp M3.negOne) = true ∧
              ∀ k, s.1.arrays.done k = true → s'.1.arrays.done k = true := by
          rintro s' rfl
          split
          · rename_i hd
            exact ⟨h, hd, fun _ h => h⟩
          · obtain ⟨r1, r2, r3⟩ := allRight_solver e.nac hN hs [rotatedPoint e gp M3.negOne]
              (by simpa using m1) s.1 h
            exact ⟨r1, r2 _ (by simp), r3⟩
        obtain ⟨t1, t2, t3⟩ := sub _ rfl
        refine ⟨allRight_store t1 _ _ _ (m2 _ _ (t1.2 _ m1 t2)), fun k hk => ?_⟩
        exact store_done _ _ _ _ _ (hk.imp (t3 k) id)
    obtain ⟨a1, a2⟩ := ih (fun k hk => hl k (List.mem_cons_of_mem _ hk)) _ step.1
    refine ⟨a1, fun k hk => a2 k ?_⟩
    rcases hk with hk | hk
    · exact Or.inl (step.2 k (Or.inl hk))
    · rcases List.mem_cons.1 hk with rfl | hk
      · exact Or.inl (step.2 _ (Or.inr rfl))
      · exact Or.inr hk

theorem runWithRotation_right (e : RotationEnv K) (hN : e.nac.solver.numPhonons = N)
    (hs : ∀ gp < N, Good gp (phononOf e.nac.solver none gp).1 (phononOf e.nac.solver none gp).2)
    (hir : ∀ gp ∈ e.irPoints, gp < N) (hm : MinusRight e N Good) (d2r : List Nat)
    (hd2r : matchOperations e.grid.recOps e.symRots = some d2r)
    (hd : ∀ p ∈ d2r.zipIdx, RotationRight e N Good p.2 p.1)
    (s : NacState (Nat → K) (Nat → K) (Int → Cplx K)) (hdir : s.dir = none) :
    ∃ r, runWithRotation e s = some r ∧ ∀ gp < N, r.1.arrays.done gp = true ∧
      Good gp (r.1.arrays.freq gp) (r.1.arrays.eig gp) := by
  unfold runWithRotation
  simp only [hd2r]
  have h0 : AllRight N Good { s with arrays := { s.arrays with done := fun _ => false } } :=
    ⟨hdir, fun _ _ h => (Bool.false_ne_true h).elim⟩
  obtain ⟨a1, a2, -⟩ := allRight_solver e.nac hN hs e.irPoints hir _ h0
  obtain ⟨b1, -⟩ := allRight_rotations e hir d2r hd _ a1 a2
  obtain ⟨c1, c2⟩ := allRight_minus e hN hs hm (List.range e.nac.solver.numPhonons)
    (fun gp h => hN ▸ List.mem_range.1 h) (_, []) b1
  have hall : ∀ gp < N, _ := fun gp h => c2 gp (Or.inr (List.mem_range.2 (hN.symm ▸ h)))
  refine ⟨_, if_pos ?_, fun gp h => ⟨hall gp h, c1.2 gp h (hall gp h)⟩⟩
  rw [List.all_eq_true]
  exact fun gp h => hall gp (hN ▸ List.mem_range.1 h)

/-! ### Matching operations -/

theorem matchOperations_some (recOps rots : List M3) (h : ∀ r ∈ rots, r.transpose ∈ recOps) :
    ∃ m, matchOperations recOps rots = some m ∧ ∀ p ∈ m.zipIdx, ∃ r, rots[p.2]? = some r ∧
      recOps[p.1]? = some r.transpose := by
  have hf : ∀ r ∈ rots, ∃ i, (recOps.findIdx? fun o => o.transpose == r) = some i ∧
      recOps[i]? = some r.transpose := by
    intro r hr
    obtain ⟨i, hi⟩ : ∃ i, (recOps.findIdx? fun o => o.transpose == r) = some i := by
      rw [← Option.isSome_iff_exists, List.findIdx?_isSome, List.any_eq_true]
      exact ⟨_, h r hr, by simp [M3.transpose_transpose]⟩
    refine ⟨i, hi, ?_⟩
    rw [List.findIdx?_eq_some_iff_getElem] at hi
    obtain ⟨hlt, h1, -⟩ := hi
    rw [List.getElem?_eq_getElem hlt]
    congr 1
    have := (beq_iff_eq).1 h1
    rw [← this, M3.transpose_transpose]
  have key : ∀ (l : List M3), (∀ r ∈ l, r ∈ rots) → ∃ m : List Nat,
      (l.filterMap fun r => recOps.findIdx? fun o => o.transpose == r) = m ∧ m.length = l.length ∧
      ∀ i ri : Nat, m[i]? = some ri → ∃ r : M3, l[i]? = some r ∧ recOps[ri]? = some r.transpose := by
    intro l
    induction l with
    | nil => exact fun _ => ⟨[], rfl, rfl, by simp⟩
    | cons r l ih =>
      intro hl
      obtain ⟨m, e1, e2, e3⟩ := ih fun r hr => hl r (List.mem_cons_of_mem _ hr)
      obtain ⟨i, hi, hri⟩ := hf r (hl r (List.mem_cons_self ..))
      refine ⟨i :: m, by rw [List.filterMap_cons, hi, e1], by simp [e2], ?_⟩
      intro j rj hj
      cases j with
      | zero =>
        simp only [List.getElem?_cons_zero, Option.some.injEq] at hj
        exact ⟨r, rfl, hj ▸ hri⟩
      | succ j =>
        simp only [List.getElem?_cons_succ] at hj ⊢
        exact e3 j rj hj
  obtain ⟨m, e1, e2, e3⟩ := key rots fun _ h => h
  refine ⟨m, ?_, fun p hp => ?_⟩
  · unfold matchOperations
    simp only [e1, e2, if_true]
  · obtain ⟨ri, d⟩ := p
    exact e3 d ri (List.mem_zipIdx_iff_getElem?.1 hp)

/-! ### Geometry -/

theorem detRM_mul (a b : RM K) : detRM (mulRM a b) = detRM a * detRM b := by
  simp only [detRM, mulRM]; ring

theorem detRM_castM (t : M3) : detRM (castM t : RM K) = (t.det : K) := by
  simp only [detRM, castM, M3.det, M3.e]
  push_cast
  rfl

/-- `R` is the matrix, in Cartesian coordinates, of the operation with matrix `W` in the basis
`lattice` (basis vectors in rows): `R Lᵀ = Lᵀ W`. -/
def CartesianOf (lattice : RM K) (W : M3) (R : RM K) : Prop :=
  mulRM R (transposeRM lattice) = mulRM (transposeRM lattice) (castM W)

theorem castM_transpose (W : M3) : (castM W.transpose : RM K) = transposeRM (castM W) := by
  funext i j
  fin_cases i <;> fin_cases j <;> rfl

theorem transposeRM_transposeRM (a : RM K) : transposeRM (transposeRM a) = a := rfl

theorem cartesian_turn {lattice : RM K} (hdet : detRM lattice ≠ 0) {W : M3} {R : RM K}
    (h : CartesianOf lattice W R) :
    mulRM (cofactorRM lattice) (castM W.transpose) = mulRM (transposeRM R) (cofactorRM lattice) := by
  have h1 := congrArg transposeRM h
  rw [transposeRM_mul, transposeRM_mul, transposeRM_transposeRM, ← castM_transpose] at h1
  -- lattice Rᵀ = Wᵀ lattice
  have h2 := congrArg (fun m => mulRM (cofactorRM lattice) (mulRM m (cofactorRM lattice))) h1
  rw [mulRM_assoc lattice, ← mulRM_assoc (cofactorRM lattice), cofactorRM_mul _ hdet, one_mulRM,
    mulRM_assoc (castM W.transpose), mul_cofactorRM _ hdet, mulRM_one] at h2
  exact h2.symm

theorem cartesian_of_rec {lattice : RM K} (hdet : detRM lattice ≠ 0) {W : M3} {R : RM K}
    (h : CartesianOf lattice W R) :
    mulRM (cofactorRM lattice) (mulRM (castM W.transpose) (cofactorRM (cofactorRM lattice))) =
      transposeRM R := by
  rw [← mulRM_assoc, cartesian_turn hdet h, mulRM_assoc, mul_cofactorRM _ (detRM_cofactor hdet),
    mulRM_one]

theorem orthogonal_rows {R : RM K}
    (ho : ∀ a < 3, ∀ b < 3, ∑ k ∈ range 3, natRM R k a * natRM R k b = if a = b then 1 else 0)
    (i j : Fin 3) : R i 0 * R j 0 + R i 1 * R j 1 + R i 2 * R j 2 = if i = j then 1 else 0 := by
  have := rows_orthogonal ho i.isLt j.isLt
  simp only [Finset.sum_range_succ, Finset.sum_range_zero, zero_add, natRM] at this
  have e : ∀ k : Fin 3, Fin.ofNat 3 (k : Nat) = k := by decide
  rw [e, e] at this
  have h2 : (if (i : Nat) = j then (1 : K) else 0) = if i = j then 1 else 0 := by
    simp only [Fin.ext_iff]
  rw [h2] at this
  exact this

theorem orthogonal_norm {R : RM K}
    (ho : ∀ a < 3, ∀ b < 3, ∑ k ∈ range 3, natRM R k a * natRM R k b = if a = b then 1 else 0)
    (x : Fin 3 → K) : normSquared (mulVecD3 (transposeRM R) x) = normSquared x := by
  have h := orthogonal_rows ho
  have h00 := h 0 0; have h01 := h 0 1; have h02 := h 0 2; have h11 := h 1 1; have h12 := h 1 2
  have h22 := h 2 2
  simp only [Fin.reduceEq, if_true, if_false] at h00 h01 h02 h11 h12 h22
  simp only [normSquared, mulVecD3, transposeRM]
  linear_combination x 0 * x 0 * h00 + x 1 * x 1 * h11 + x 2 * x 2 * h22 + 2 * x 0 * x 1 * h01 +
    2 * x 0 * x 2 * h02 + 2 * x 1 * x 2 * h12

theorem orthogonal_det {R : RM K}
    (ho : ∀ a < 3, ∀ b < 3, ∑ k ∈ range 3, natRM R k a * natRM R k b = if a = b then 1 else 0) :
    detRM R * detRM R = 1 := by
  have h := orthogonal_rows ho
  have : mulRM R (transposeRM R) = castM M3.one := by
    funext i j
    have := h i j
    simp only [mulRM, transposeRM]
    rw [this]
    fin_cases i <;> fin_cases j <;> simp [castM, M3.one, M3.e]
  have h2 := congrArg detRM this
  rw [detRM_mul, detRM_transpose, detRM_castM] at h2
  rw [h2]
  simp [M3.one, M3.det]

theorem operation_det {lattice : RM K} (hdet : detRM lattice ≠ 0) {W : M3} {R : RM K}
    (h : CartesianOf lattice W R)
    (ho : ∀ a < 3, ∀ b < 3, ∑ k ∈ range 3, natRM R k a * natRM R k b = if a = b then 1 else 0) :
    W.det.natAbs = 1 := by
  have h1 := congrArg detRM h
  rw [detRM_mul, detRM_mul, detRM_transpose, detRM_castM, mul_comm] at h1
  have h2 := mul_left_cancel₀ hdet h1
  have h3 := orthogonal_det ho
  rw [h2] at h3
  have h4 : W.det * W.det = 1 := by exact_mod_cast h3
  rcases Int.isUnit_iff.1 (IsUnit.of_mul_eq_one _ h4) with e | e <;> rw [e] <;> rfl

/-- The q-point of the solver is that of the documentation, without shift. -/
theorem qPoint_eq (gm : GridMatrixOut) (L : RM K) (a : V3) (d : Nat) :
    qPoint gm a d = qCoord (⟨gm.D, ⟨0, 0, 0⟩, gm.Q, L⟩ : BZInput K) a (Fin.ofNat 3 d) := by
  have z : ∀ j : Fin 3, (((⟨0, 0, 0⟩ : V3).e j : Int) : K) / 2 = 0 := fun j => by
    fin_cases j <;> exact (by norm_num : ((0 : Int) : K) / 2 = 0)
  simp only [qPoint, qCoord, z, add_zero]
  ring

theorem turnedQ_eq (W : M3) (x : Fin 3 → K) :
    turnedQ (natRM (castM W)) (fun d => x (Fin.ofNat 3 d)) =
      fun d => intApply W.transpose x (Fin.ofNat 3 d) := by
  funext d
  have e : ∀ k : Fin 3, Fin.ofNat 3 (k : Nat) = k := by decide
  simp only [turnedQ, natRM, Finset.sum_range_succ, Finset.sum_range_zero, zero_add, intApply]
  generalize Fin.ofNat 3 d = j
  show (castM W) 0 j * x 0 + (castM W) 1 j * x 1 + (castM W) 2 j * x 2 = _
  fin_cases j <;> rfl

variable [FloorRing K]

/-- A grid rotation acts on q-points as the reciprocal operation. -/
theorem transforms_q {gm : GridMatrixOut} (F : Factorised gm) {R t : M3} (h : TransformsTo gm R t)
    (L : RM K) (a : V3) :
    qCoord (⟨gm.D, ⟨0, 0, 0⟩, gm.Q, L⟩ : BZInput K) (t.mulVec a) =
      intApply R (qCoord ⟨gm.D, ⟨0, 0, 0⟩, gm.Q, L⟩ a) := by
  have z : ∀ j : Fin 3, (((⟨0, 0, 0⟩ : V3).e j : Int) : K) / 2 = 0 := fun j => by
    fin_cases j <;> exact (by norm_num : ((0 : Int) : K) / 2 = 0)
  have hd (i : Fin 3) : (gm.D.e i : K) ≠ 0 := by exact_mod_cast (V3.e_pos F.pos i).ne'
  obtain ⟨-, q2⟩ := M3.cofactorsDiv_mul gm.Q (unimodular_det F.detQ)
  set X := (gm.Q.cofactorsDiv gm.Q.det).mul (R.mul gm.Q) with hX
  have hQX : gm.Q.mul X = R.mul gm.Q := by
    rw [hX, ← M3.mul_assoc, q2, M3.one_mul]
  have e1 : (fun i => (((t.mulVec a).e i : Int) : K) / (gm.D.e i : K)) =
      intApply X fun i => (a.e i : K) / (gm.D.e i : K) := by
    funext i
    rw [div_eq_iff (hd i)]
    have hi : ∀ j, (gm.D.e i : K) * (X.e i j : K) = (t.e i j : K) * (gm.D.e j : K) := fun j => by
      have := h i j
      have h2 : ((t.e i j * gm.D.e j : Int) : K) = ((gm.D.e i * X.e i j : Int) : K) := by
        rw [this]
      push_cast at h2
      exact h2.symm
    have e2 : (((t.mulVec a).e i : Int) : K) =
        (t.e i 0 : K) * (a.e 0 : K) + (t.e i 1 : K) * (a.e 1 : K) + (t.e i 2 : K) * (a.e 2 : K) := by
      fin_cases i <;> simp [M3.mulVec, M3.e, V3.e]
    have e3 : intApply X (fun i => (a.e i : K) / (gm.D.e i : K)) i * (gm.D.e i : K) =
        ((gm.D.e i : K) * (X.e i 0 : K)) * ((a.e 0 : K) / (gm.D.e 0 : K)) +
        ((gm.D.e i : K) * (X.e i 1 : K)) * ((a.e 1 : K) / (gm.D.e 1 : K)) +
        ((gm.D.e i : K) * (X.e i 2 : K)) * ((a.e 2 : K) / (gm.D.e 2 : K)) := by
      simp only [intApply]; ring
    rw [e3, hi, hi, hi, e2]
    have := hd 0; have := hd 1; have := hd 2
    field_simp
  have e4 : ∀ a : V3, qCoord (⟨gm.D, ⟨0, 0, 0⟩, gm.Q, L⟩ : BZInput K) a =
      intApply gm.Q fun i => (a.e i : K) / (gm.D.e i : K) := by
    intro a
    simp only [qCoord, z, add_zero]
    rfl
  rw [e4, e4, e1, ← intApply_mul, hQX, intApply_mul]

theorem transforms_compat {gm : GridMatrixOut} (F : Factorised gm) {R t : M3}
    (h : TransformsTo gm R t) : MeshCompat gm.D t ∧ t.det = R.det := by
  have hm := transformsTo_mul R t h
  constructor
  · rintro v ⟨⟨x, hx⟩, ⟨y, hy⟩, ⟨z, hz⟩⟩
    have hv : v = (M3.diag gm.D).mulVec ⟨x, y, z⟩ := by
      ext <;> simp [M3.diag, M3.mulVec, hx, hy, hz]
    rw [hv, ← M3.mul_mulVec, hm, M3.mul_mulVec]
    generalize ((gm.Q.cofactorsDiv gm.Q.det).mul (R.mul gm.Q)).mulVec _ = w
    refine ⟨⟨w.x, ?_⟩, ⟨w.y, ?_⟩, ⟨w.z, ?_⟩⟩ <;> simp [M3.diag, M3.mulVec]
  · have hd := congrArg M3.det hm
    obtain ⟨q1, -⟩ := M3.cofactorsDiv_mul gm.Q (unimodular_det F.detQ)
    have hq := congrArg M3.det q1
    rw [M3.det_mul] at hd hq
    simp only [M3.det_mul] at hd
    have h1 : M3.one.det = 1 := by decide
    rw [h1] at hq
    have hD : (M3.diag gm.D).det ≠ 0 := by
      have : (M3.diag gm.D).det = gm.D.x * gm.D.y * gm.D.z := by simp [M3.diag, M3.det]; ring
      rw [this]
      have := F.pos
      exact (mul_pos (mul_pos this.1 this.2.1) this.2.2).ne'
    refine mul_left_cancel₀ hD ?_
    linear_combination hd + (M3.diag gm.D).det * R.det * hq

theorem qNorm_eq (b : BZInput K) (a : V3) :
    qNorm b a = normSquared (mulVecD3 b.reclat (qCoord b a)) := rfl

theorem iso_of_cartesian {lattice : RM K} (hdet : detRM lattice ≠ 0) {W : M3} {R : RM K}
    (h : CartesianOf lattice W R)
    (ho : ∀ a < 3, ∀ b < 3, ∑ k ∈ range 3, natRM R k a * natRM R k b = if a = b then 1 else 0)
    {gm : GridMatrixOut} (F : Factorised gm) {t : M3} (ht : TransformsTo gm W.transpose t) (a : V3) :
    qNorm (⟨gm.D, ⟨0, 0, 0⟩, gm.Q, cofactorRM lattice⟩ : BZInput K) (t.mulVec a) =
      qNorm ⟨gm.D, ⟨0, 0, 0⟩, gm.Q, cofactorRM lattice⟩ a := by
  rw [qNorm_eq, qNorm_eq, transforms_q F ht]
  generalize qCoord (⟨gm.D, ⟨0, 0, 0⟩, gm.Q, cofactorRM lattice⟩ : BZInput K) a = x
  have e : mulVecD3 (cofactorRM lattice) (intApply W.transpose x) =
      mulVecD3 (transposeRM R) (mulVecD3 (cofactorRM lattice) x) := by
    have h1 : mulVecD3 (cofactorRM lattice) (intApply W.transpose x) =
        mulVecD3 (mulRM (cofactorRM lattice) (castM W.transpose)) x := by
      funext i; simp only [mulVecD3, intApply, mulRM, castM]; ring
    rw [h1, cartesian_turn hdet h]
    funext i; simp only [mulVecD3, mulRM]; ring
  show normSquared (mulVecD3 (cofactorRM lattice) _) = _
  rw [e, orthogonal_norm ho]

/-! ### C127 -/

/-- The rotations of a grid object belong to its reciprocal operations, in the same order. -/
theorem rotations_transform (env : GridEnv K) (reduce : RM K → RM K) (mesh : MeshArg K)
    (lattice : RM K) (ds : Option (SymDataset K)) (tmat : Option (RM K)) (tr useGrg force : Bool)
    (c : SnfCoordinates) (dense : Bool) (init : BZGridOut) (o : GridObject K)
    (h : bzGridInit env reduce mesh lattice ds tmat none tr useGrg force c dense init = some o)
    (hD : PosMesh o.gm.D) (hlt : ∀ i, o.gm.D.e i < 100000) :
    o.recOps = (reciprocalPointGroup ((ds.map (·.rotations)).getD [M3.one]) tr true).getD [] ∧
    List.Forall₂ (fun R t => TransformsTo o.gm R t) o.recOps o.rotations := by
  obtain ⟨hm, ho⟩ := bzGridInit_some h
  have F := setMeshNumbers_factorised env mesh lattice ds tmat useGrg force c o.gm hm hD
  obtain ⟨-, -, -, hs, -⟩ := bzGridObject_some ho
  unfold setRotations at hs
  simp only at hs
  split at hs
  · simp at hs
  rename_i rs hrs
  simp only [Option.some.injEq, Prod.mk.injEq] at hs
  obtain ⟨e1, e2⟩ := hs
  refine ⟨e1.symm, ?_⟩
  rw [e1, e2] at hrs
  exact (transformRotations_some _ _ _ _ hrs).imp fun R t ht => (transform_iff F hlt _ _).1 ht

/-- The matrix whose eigenvectors are the phonons of grid point `gp`: without correction at Γ. -/
def matrixOfPoint (e : RotationEnv K) (sqrt : K → K) (c : Fc2Cell K) (nac : Option (NacParams K))
    (gp : Nat) : Int → Cplx K :=
  wangMatrix sqrt e.expi c (if e.grid.bz.addresses gp = ⟨0, 0, 0⟩ then none else nac)
    (natRM e.recLattice) (qPoint e.grid.gm (e.grid.bz.addresses gp)) none fun _ => 0

/-- The phonon solver of the procedure is that of the crystal: its dynamical matrices are those of
`c`, with the correction of Wang if there are Born charges, no correction being made at Γ, and its
eigenvalue solver finds all modes of these matrices, which are Hermitian by C86. -/
structure SolverOf (e : RotationEnv K) (sqrt : K → K) (c : Fc2Cell K) (nac : Option (NacParams K))
    (lam : K → K) : Prop where
  atoms : e.numPatom = c.numPatom
  points : (e.nac.solver.numPhonons : Int) = e.grid.bz.size
  gonze : e.nac.solver.gonze = false
  born : e.nac.solver.born = nac.isSome
  gamma : ∀ gp : Nat, e.nac.solver.isGamma gp = decide (e.grid.bz.addresses gp = ⟨0, 0, 0⟩)
  q : ∀ gp : Nat, e.nac.solver.q gp = qPoint e.grid.gm (e.grid.bz.addresses gp)
  dyn : ∀ (gp : Nat) (v : Option (Nat → K)), e.nac.solver.dyn gp v =
    wangMatrix sqrt e.expi c (v.bind fun _ => nac) (natRM e.recLattice)
      (qPoint e.grid.gm (e.grid.bz.addresses gp)) v fun _ => 0
  solve : ∀ gp, Modes c.numPatom lam (matrixOfPoint e sqrt c nac gp)
    (e.nac.solver.solve (matrixOfPoint e sqrt c nac gp)).1
    (e.nac.solver.solve (matrixOfPoint e sqrt c nac gp)).2

theorem solver_modes {e : RotationEnv K} {sqrt : K → K} {c : Fc2Cell K} {nac : Option (NacParams K)}
    {lam : K → K} (h : SolverOf e sqrt c nac lam) (gp : Nat) :
    Modes c.numPatom lam (matrixOfPoint e sqrt c nac gp) (phononOf e.nac.solver none gp).1
      (phononOf e.nac.solver none gp).2 := by
  have hd : e.nac.solver.dyn gp (Phono3py.nacVector e.nac.solver none gp) =
      matrixOfPoint e sqrt c nac gp := by
    unfold Phono3py.nacVector needsNac chargeSumVector matrixOfPoint
    rw [h.gonze, h.born, h.gamma, h.dyn, h.q]
    cases nac with
    | none => simp
    | some p =>
      by_cases hg : e.grid.bz.addresses gp = ⟨0, 0, 0⟩
      · simp [hg]
      · simp only [hg]
        rfl
  unfold phononOf
  rw [hd]
  exact h.solve gp

/-- **C127**. On a grid object without shift whose rotations are those of a crystal, whose reduced
basis is reduced and with no translate in the range of the tolerance: the procedure that solves
irreducible points only and rotates never fails, and leaves at every grid point the complete phonons
of that point's own wave vector, whatever the list of irreducible points and the state before. -/
theorem C127_rotated (env : GridEnv K) (hrint : ∀ n : Int, env.rint (n : K) = n)
    (reduce : RM K → RM K) (mesh : MeshArg K) (lattice : RM K) (hdet : detRM lattice ≠ 0)
    (ds : SymDataset K) (tmat : Option (RM K)) (tr useGrg force : Bool) (co : SnfCoordinates)
    (dense : Bool) (init : BZGridOut) (o : GridObject K)
    (h : bzGridInit env reduce mesh lattice (some ds) tmat none tr useGrg force co dense init = some o)
    (hD : PosMesh o.gm.D) (hlt : ∀ i, o.gm.D.e i < 100000)
    (h48 : ds.rotations.dedup.length ≤ 48)
    (h24 : tr = true → M3.negOne ∉ ds.rotations → ds.rotations.dedup.length ≤ 24)
    (hsame : SameLattice (cofactorRM lattice) (reduce (cofactorRM lattice)))
    (eps : K) (heps : 0 ≤ eps) (hred : MinkowskiReduced eps (reduce (cofactorRM lattice)))
    (hsmall : 100 * eps ≤ colDot (reduce (cofactorRM lattice)) 0 0)
    (hsep : SurfaceSeparated (⟨o.gm.D, ⟨0, 0, 0⟩, o.gm.Q, cofactorRM lattice⟩ : BZInput K))
    (sqrt : K → K) (c : Fc2Cell K) (nac : Option (NacParams K)) (lam : K → K) (e : RotationEnv K)
    (hgrid : e.grid = o) (hdense : e.dense = dense) (hrec : e.recLattice = cofactorRM lattice)
    (hrots : e.symRots = ds.rotations) (hphase : IsPhase e.expi) (hsol : SolverOf e sqrt c nac lam)
    (hsym : ∀ d W, ds.rotations[d]? = some W → ∃ R, CartesianOf lattice W R ∧
      IsSymmetry c (natRM (castM W)) (natRM R) (e.perms d) ∧
      ∀ p, nac = some p → IsNacSymmetry c p (natRM (cofactorRM lattice)) (natRM (castM W)) (natRM R)
        (e.perms d))
    (hir : ∀ gp ∈ e.irPoints, (gp : Int) < o.bz.size)
    (s : NacState (Nat → K) (Nat → K) (Int → Cplx K)) (hdir : s.dir = none) :
    ∃ r, runWithRotation e s = some r ∧ ∀ gp : Nat, (gp : Int) < o.bz.size →
      r.1.arrays.done gp = true ∧
      Modes c.numPatom lam (matrixOfPoint e sqrt c nac gp) (r.1.arrays.freq gp)
        (r.1.arrays.eig gp) := by
  obtain ⟨hm, hobj⟩ := bzGridInit_some h
  have F := setMeshNumbers_factorised env mesh lattice (some ds) tmat useGrg force co o.gm hm hD
  obtain ⟨-, hPS, hbz, -, -⟩ := bzGridObject_some hobj
  obtain ⟨hops, hfor⟩ := rotations_transform env reduce mesh lattice (some ds) tmat tr useGrg force co
    dense init o h hD hlt
  have hPS0 : o.PS = ⟨0, 0, 0⟩ := by rw [hPS]; simp [M3.mulVec]
  have hvol : cellVolume (cofactorRM lattice) ≠ 0 := by
    rw [cellVolume_eq]; exact detRM_cofactor hdet
  -- the grid holds the nearest translates
  obtain ⟨out, ho1, -, ho3⟩ := C117_python env.rint hrint (reduce (cofactorRM lattice))
    (cofactorRM lattice) o.gm.D o.gm.Q o.PS hD hvol hsame dense init
  rw [hbz] at ho1
  have hnear := ho3 o.bz (Option.some.inj ho1).symm eps heps hred hsmall
  rw [hPS0] at hnear
  obtain ⟨Q', hb⟩ := relocate_some hbz
  have hrne : ∃ i j, (reduce (cofactorRM lattice)) i j ≠ 0 := by
    obtain ⟨-, -, -, hv, -⟩ := relocate_eq env.rint hrint (reduce (cofactorRM lattice))
      (cofactorRM lattice) o.gm.D o.gm.Q o.PS hvol hsame dense init
    exact reclat_ne hv
  have exact_rot : ∀ t : M3, MeshCompat o.gm.D t → t.det.natAbs = 1 →
      (∀ a, qNorm (⟨o.gm.D, ⟨0, 0, 0⟩, o.gm.Q, cofactorRM lattice⟩ : BZInput K) (t.mulVec a) =
        qNorm ⟨o.gm.D, ⟨0, 0, 0⟩, o.gm.Q, cofactorRM lattice⟩ a) →
      ∀ gp : Nat, (gp : Int) < o.bz.size → ((rotatedPoint e gp t : Nat) : Int) < o.bz.size ∧
        o.bz.addresses (rotatedPoint e gp t : Nat) = t.mulVec (o.bz.addresses gp) := by
    intro t ht hdt hiso gp hgp
    obtain ⟨l0, l1, l2⟩ := C14_rotation_exact _ hD hrne dense init o.bz hb hPS0
      ⟨o.gm.D, ⟨0, 0, 0⟩, o.gm.Q, cofactorRM lattice⟩ rfl hnear hsep t ht
      hdt hiso gp (Int.natCast_nonneg gp) hgp
    unfold rotatedPoint
    rw [hgrid, hdense, Int.toNat_of_nonneg l0]
    exact ⟨l1, l2⟩
  -- matching of operations
  obtain ⟨m, hm1, hm2⟩ := matchOperations_some o.recOps ds.rotations (by
    intro r hr
    rw [hops]
    cases hL : reciprocalPointGroup ds.rotations tr true with
    | none =>
      rcases (C06_failure_iff _ _ _).1 hL with h1 | ⟨h1, h2, h3⟩
      · omega
      · have := h24 h1 h2; omega
    | some L =>
      have hmem := C06_members ds.rotations L tr true hL
      simp only [if_true] at hmem
      show r.transpose ∈ (reciprocalPointGroup ds.rotations tr true).getD []
      rw [hL]
      exact (hmem _).2 (Or.inl ⟨r, hr, rfl⟩))
  have hN : e.nac.solver.numPhonons = o.bz.size.toNat := by
    have := hsol.points
    rw [hgrid] at this
    omega
  have hlt' : ∀ gp : Nat, gp < o.bz.size.toNat ↔ (gp : Int) < o.bz.size := fun gp => by omega
  have hminus : MinusRight e o.bz.size.toNat fun gp f v =>
      Modes c.numPatom lam (matrixOfPoint e sqrt c nac gp) f v := by
    intro gp hgp
    obtain ⟨r1, r2⟩ := exact_rot M3.negOne (by
        rintro v ⟨⟨x, hx⟩, ⟨y, hy⟩, ⟨z, hz⟩⟩
        exact ⟨⟨-x, by simp [M3.negOne, M3.mulVec, hx]⟩, ⟨-y, by simp [M3.negOne, M3.mulVec, hy]⟩,
          ⟨-z, by simp [M3.negOne, M3.mulVec, hz]⟩⟩) (by decide) (by
        intro a
        have : qCoord (⟨o.gm.D, ⟨0, 0, 0⟩, o.gm.Q, cofactorRM lattice⟩ : BZInput K)
            (M3.negOne.mulVec a) = fun i => -qCoord ⟨o.gm.D, ⟨0, 0, 0⟩, o.gm.Q, cofactorRM lattice⟩ a i := by
          funext i
          simp [qCoord, M3.negOne, M3.mulVec, V3.e]
          ring
        rw [qNorm_eq, qNorm_eq, this]
        simp only [normSquared, mulVecD3]
        ring) gp ((hlt' gp).1 hgp)
    refine ⟨(hlt' _).2 r1, fun f v hv => ?_⟩
    unfold matrixOfPoint at hv ⊢
    rw [hgrid] at hv ⊢
    rw [r2] at hv
    have hz : M3.negOne.mulVec (o.bz.addresses gp) = ⟨0, 0, 0⟩ ↔ o.bz.addresses gp = ⟨0, 0, 0⟩ := by
      simp [M3.negOne, M3.mulVec, V3.ext_iff]
    simp only [hz] at hv
    have hq : qPoint o.gm (o.bz.addresses gp) =
        fun d => -(qPoint o.gm (M3.negOne.mulVec (o.bz.addresses gp)) d : K) := by
      funext d
      simp [qPoint, M3.negOne, M3.mulVec, V3.e]
      ring
    rw [hq]
    exact modes_conj sqrt e.expi hphase.neg c _ _ _ _ _ lam f v hv
  have hturn : ∀ p ∈ m.zipIdx, RotationRight e o.bz.size.toNat (fun gp f v =>
      Modes c.numPatom lam (matrixOfPoint e sqrt c nac gp) f v) p.2 p.1 := by
    intro p hp irgp hirgp f v hv
    obtain ⟨W, hW, hrW⟩ := hm2 p hp
    obtain ⟨R, hR, hS, hSn⟩ := hsym _ _ hW
    have hget : ∃ t, o.rotations[p.1]? = some t ∧ TransformsTo o.gm W.transpose t := by
      obtain ⟨hlen, hall⟩ := List.forall₂_iff_get.1 hfor
      obtain ⟨hi, hgi⟩ := List.getElem?_eq_some_iff.1 hrW
      refine ⟨o.rotations[p.1]'(hlen ▸ hi), List.getElem?_eq_getElem _, ?_⟩
      have := hall p.1 hi (hlen ▸ hi)
      simp only [List.get_eq_getElem] at this
      rwa [hgi] at this
    obtain ⟨t, ht, htr⟩ := hget
    obtain ⟨hcompat, hdt⟩ := transforms_compat F htr
    obtain ⟨r1, r2⟩ := exact_rot t hcompat (by
      rw [hdt, M3.det_transpose]; exact operation_det hdet hR hS.orthogonal)
      (iso_of_cartesian hdet hR hS.orthogonal F htr) irgp (hir irgp hirgp)
    have htD : e.grid.rotations.getD p.1 M3.one = t := by
      rw [hgrid, List.getD_eq_getElem?_getD, ht]; rfl
    have hcart : (rotationsCartesian e.recLattice e.grid.recOps).getD p.1 (fun _ _ => 0) =
        transposeRM R := by
      rw [hgrid, hrec, List.getD_eq_getElem?_getD, rotationsCartesian, List.getElem?_map, hrW]
      exact cartesian_of_rec hdet hR
    simp only [htD, hcart]
    unfold matrixOfPoint at hv ⊢
    rw [hgrid] at hv ⊢
    rw [r2]
    have hz : t.mulVec (o.bz.addresses irgp) = ⟨0, 0, 0⟩ ↔ o.bz.addresses irgp = ⟨0, 0, 0⟩ := by
      constructor
      · intro h0
        have hu : t.det.natAbs = 1 := by
          rw [hdt, M3.det_transpose]; exact operation_det hdet hR hS.orthogonal
        obtain ⟨c1, -⟩ := M3.cofactorsDiv_mul t hu
        have := congrArg ((t.cofactorsDiv t.det).mulVec) h0
        rw [← M3.mul_mulVec, c1] at this
        simpa [M3.mulVec, M3.one, V3.ext_iff] using this
      · intro h0
        rw [h0]; simp [M3.mulVec]
    simp only [hz]
    have hq : (qPoint o.gm (t.mulVec (o.bz.addresses irgp)) : Nat → K) =
        turnedQ (natRM (castM W)) (qPoint o.gm (o.bz.addresses irgp)) := by
      have e1 : (qPoint o.gm (o.bz.addresses irgp) : Nat → K) = fun d => qCoord
          (⟨o.gm.D, ⟨0, 0, 0⟩, o.gm.Q, cofactorRM lattice⟩ : BZInput K) (o.bz.addresses irgp)
            (Fin.ofNat 3 d) := funext fun d => qPoint_eq _ _ _ _
      rw [e1, turnedQ_eq]
      funext d
      rw [qPoint_eq _ (cofactorRM lattice), transforms_q F htr]
    rw [hq, hsol.atoms]
    refine modes_turn sqrt e.expi hS _ _ ?_ _ _ _ lam f v _ ?_ hv
    · intro p' hp'
      rw [hrec]
      refine hSn p' ?_
      split at hp'
      · simp at hp'
      · exact hp'
    · generalize -(_ : K) = x
      have h1 := hphase.neg x
      have h2 := hphase.add (-x) x
      rw [neg_add_cancel, hphase.zero, h1] at h2
      exact h2.symm
  obtain ⟨r, hr, hgood⟩ := runWithRotation_right e hN (fun gp _ => solver_modes hsol gp)
    (fun gp hgp => (hlt' gp).2 (hir gp hgp)) hminus m (by rw [hgrid, hrots]; exact hm1) hturn s hdir
  exact ⟨r, hr, fun gp hgp => hgood gp ((hlt' gp).2 hgp)⟩

end
/-! ### A concrete case -/

/-- One atom in a harmonic well, on the lattice of unit cubes. -/
def pointCell : Fc2Cell ℚ where
  numPatom := 1
  numSatom := 1
  fc2 := fun x => if x = 0 ∨ x = 4 ∨ x = 8 then 2 else 0
  svecs := fun _ _ => 0
  multi := fun _ => (1, 0)
  mass := fun _ => 1
  p2s := fun _ => 0
  s2p := fun _ => 0

/-- Its modes: three of squared frequency 2. -/
def pointModes : (Nat → ℚ) × (Int → Cplx ℚ) :=
  (fun _ => 2, fun x => if x = 0 ∨ x = 4 ∨ x = 8 then 1 else 0)

theorem point_matrix (nac : Option (NacParams ℚ)) (hn : nac = none) (recip : Nat → Nat → ℚ)
    (q : Nat → ℚ) (mem : Int → Cplx ℚ) {k l : Nat} (hk : k < 3) (hl : l < 3) :
    dynBlock 1 (wangMatrix id (fun _ => 1) pointCell nac recip q none mem) 0 k 0 l =
      if k = l then ⟨2, 0⟩ else 0 := by
  have := C86_formula id (fun _ => (1 : Cplx ℚ)) pointCell nac recip q none mem
    (i := 0) (k := k) (j := 0) (l := l) (by decide) hk (by decide) hl
  have hn1 : pointCell.numPatom = 1 := rfl
  rw [hn1] at this
  rw [this, hn]
  simp only [fourierBlock, extraTerm, meanPhaseN, pointCell, fc2At]
  interval_cases k <;> interval_cases l <;>
    (ext <;> norm_num [Finset.sum_range_succ, Cplx.scale, conj])

theorem point_modes (nac : Option (NacParams ℚ)) (hn : nac = none) (recip : Nat → Nat → ℚ)
    (q : Nat → ℚ) (mem : Int → Cplx ℚ) :
    Modes 1 id (wangMatrix id (fun _ => 1) pointCell nac recip q none mem) pointModes.1
      pointModes.2 := by
  refine ⟨fun b hb i hi k hk => ?_, fun b hb b' hb' => ?_⟩
  · obtain rfl : i = 0 := by omega
    have h := fun l (hl : l < 3) => point_matrix nac hn recip q mem hk hl
    simp only [Finset.sum_range_succ, Finset.sum_range_zero, zero_add]
    rw [h 0 (by decide), h 1 (by decide), h 2 (by decide)]
    have hb : b < 3 := hb
    interval_cases k <;> interval_cases b <;>
      (ext <;> norm_num [pointModes, Cplx.scale])
  · have hb : b < 3 := hb
    have hb' : b' < 3 := hb'
    simp only [Finset.sum_range_succ, Finset.sum_range_zero, zero_add]
    interval_cases b <;> interval_cases b' <;>
      (ext <;> norm_num [pointModes, conj])

theorem unit_reduced : MinkowskiReduced 0 (cofactorRM unitLattice) := by
  refine ⟨by decide +kernel, by decide +kernel, by decide +kernel, by decide +kernel,
    by decide +kernel, ?_⟩
  intro s t hs ht
  rcases hs with rfl | rfl <;> rcases ht with rfl | rfl <;> decide +kernel

/-- The grid with 2 x 2 x 2 points for it. -/
def cubeGrid : Option (GridObject ℚ) :=
  bzGridInit sampleEnv id (.numbers ⟨2, 2, 2⟩) unitLattice (some fourfold) none none true true false
    .reciprocal true exampleInit

/-- The data of the procedure. -/
def cubeRotation (o : GridObject ℚ) : RotationEnv ℚ where
  nac :=
    { solver :=
        { numPhonons := o.bz.size.toNat
          isGamma := fun gp => decide (o.bz.addresses gp = ⟨0, 0, 0⟩)
          q := fun gp => qPoint o.gm (o.bz.addresses gp)
          born := false
          gonze := false
          dyn := fun gp v => wangMatrix id (fun _ => 1) pointCell (v.bind fun _ => none)
            (natRM (cofactorRM unitLattice)) (qPoint o.gm (o.bz.addresses gp)) v fun _ => 0
          solve := fun _ => pointModes }
      lapacke := true
      gamma := 0
      meshSymmetry := true
      zeroF := fun _ => 0
      zeroE := fun _ => 0 }
  grid := o
  dense := true
  recLattice := cofactorRM unitLattice
  symRots := fourfold.rotations
  translations := fun _ _ => 0
  perms := fun _ => id
  numPatom := 1
  irPoints := [0, 1]
  expi := fun _ => 1

theorem point_symmetry {W : M3} (hW : W ∈ fourfold.rotations) :
    CartesianOf unitLattice W (castM W) ∧
      IsSymmetry pointCell (natRM (castM W)) (natRM (castM W)) id := by
  have hW4 : W = M3.one ∨ W = ⟨0, -1, 0, 1, 0, 0, 0, 0, 1⟩ ∨ W = ⟨-1, 0, 0, 0, -1, 0, 0, 0, 1⟩ ∨
      W = ⟨0, 1, 0, -1, 0, 0, 0, 0, 1⟩ := by
    simpa [fourfold] using hW
  constructor
  · unfold CartesianOf
    rcases hW4 with rfl | rfl | rfl | rfl <;> decide +kernel
  · have hid : ∀ n, PermutesBelow n id := fun n => ⟨fun _ h => h, fun _ _ _ _ h => h⟩
    refine ⟨?_, hid _, fun _ _ => rfl, fun i hi => ⟨id, hid _, fun _ _ _ _ => Iff.rfl, ?_, ?_⟩⟩
    · intro a ha b hb
      rcases hW4 with rfl | rfl | rfl | rfl <;> interval_cases a <;> interval_cases b <;>
        decide +kernel
    · intro s hs a ha b hb
      have hi : i < 1 := hi
      have hs : s < 1 := hs
      obtain rfl : i = 0 := by omega
      obtain rfl : s = 0 := by omega
      rcases hW4 with rfl | rfl | rfl | rfl <;> interval_cases a <;> interval_cases b <;>
        decide +kernel
    · intro s _
      refine ⟨rfl, id, hid _, fun x _ d _ => ?_⟩
      simp [pointCell]

/-- C127: the hypotheses are met, for a grid of 27 points of which two are solved. -/
example : ∃ o, cubeGrid = some o ∧ o.bz.size = 27 ∧
    ∀ s, s.dir = none → ∃ r, runWithRotation (cubeRotation o) s = some r ∧
      ∀ gp : Nat, (gp : Int) < 27 → r.1.arrays.done gp = true ∧
        Modes 1 id (matrixOfPoint (cubeRotation o) id pointCell none gp) (r.1.arrays.freq gp)
          (r.1.arrays.eig gp) := by
  have hsome : (cubeGrid.map fun o => (o.bz.size, o.gm.D, o.gm.Q)) =
      some (27, ⟨2, 2, 2⟩, M3.one) := by decide +kernel
  obtain ⟨o, ho, hval⟩ := Option.map_eq_some_iff.1 hsome
  simp only [Prod.mk.injEq] at hval
  obtain ⟨h27, hD, hQ⟩ := hval
  refine ⟨o, ho, h27, fun s hs => ?_⟩
  have hcof : cofactorRM unitLattice = unitLattice := by decide +kernel
  have := C127_rotated sampleEnv (fun n => by
      show nint ((n : Int) : ℚ) = n
      exact nint_int n) id (.numbers ⟨2, 2, 2⟩) unitLattice (by decide +kernel) fourfold none
    true true false .reciprocal true exampleInit o ho (by rw [hD]; decide)
    (by rw [hD]; decide) (by decide +kernel) (fun _ _ => by decide +kernel) (fun _ => Iff.rfl) 0
    le_rfl unit_reduced (by rw [hcof]; decide +kernel)
    (separated_of_metric _ 2 (by decide) hD rfl 1 one_pos M3.one (by
      intro i j
      rw [hQ]
      show _ = mulRM (transposeRM (mulRM (cofactorRM unitLattice) (castM M3.one)))
        (mulRM (cofactorRM unitLattice) (castM M3.one)) i j
      revert i j
      decide +kernel) (by decide))
    id pointCell none id (cubeRotation o) rfl rfl rfl rfl
    ⟨rfl, fun _ _ => by ext <;> simp [cubeRotation], fun _ => by ext <;> simp [cubeRotation, conj],
      fun _ => rfl⟩
    { atoms := rfl
      points := by
        show ((o.bz.size.toNat : Nat) : Int) = o.bz.size
        rw [h27]; rfl
      gonze := rfl
      born := rfl
      gamma := fun _ => rfl
      q := fun _ => rfl
      dyn := fun _ _ => rfl
      solve := fun gp => point_modes _ (by split <;> rfl) _ _ _ }
    (fun d W hW => ⟨castM W, (point_symmetry (List.mem_of_getElem? hW)).1,
      (point_symmetry (List.mem_of_getElem? hW)).2, fun p hp => by simp at hp⟩)
    (by rw [h27]; intro gp hgp; simp [cubeRotation] at hgp; omega) s hs
  rw [h27] at this
  exact this

end Phono3py.Props
