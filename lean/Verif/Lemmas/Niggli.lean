/-
Lemmas about the Niggli reduction.
-/
import Verif.Model.Niggli
import Verif.Spec.Niggli
import Verif.Lemmas.Grid
import Mathlib.Tactic.FinCases
import Mathlib.Data.Fintype.Basic
import Mathlib.Data.Fin.VecNotation
import Mathlib.Tactic.FieldSimp
import Mathlib.Tactic.LinearCombination

namespace Phono3py
open Phono3py.Spec

section
variable {K : Type _} [Field K]

/-- An integer matrix as a real one. -/
def castM (T : M3) : RM K := fun i j => (T.e i j : K)

theorem mulRM_castM (a b : M3) : mulRM (castM a : RM K) (castM b) = castM (a.mul b) := by
  funext i j
  fin_cases i <;> fin_cases j <;> simp [mulRM, castM, M3.e, M3.mul]

theorem mulRM_assoc (a b c : RM K) : mulRM (mulRM a b) c = mulRM a (mulRM b c) := by
  funext i j; simp only [mulRM]; ring

theorem mulRM_one (a : RM K) : mulRM a (castM M3.one) = a := by
  funext i j
  fin_cases j <;> simp [mulRM, castM, M3.e, M3.one]

theorem one_mulRM (a : RM K) : mulRM (castM M3.one) a = a := by
  funext i j
  fin_cases i <;> simp [mulRM, castM, M3.e, M3.one]

theorem detRM_castM (a : M3) : detRM (castM a : RM K) = (a.det : K) := by
  simp [detRM, castM, M3.e, M3.det]

theorem detRM_mul (a b : RM K) : detRM (mulRM a b) = detRM a * detRM b := by
  simp only [detRM, mulRM]; ring

theorem cellVolume_eq (a : RM K) : cellVolume a = detRM a := by
  simp only [cellVolume, detRM]; ring

theorem cofactorRM_mul (a : RM K) (h : detRM a ≠ 0) : mulRM (cofactorRM a) a = castM M3.one := by
  funext i j
  obtain ⟨d, hd⟩ : ∃ d, d = detRM a := ⟨_, rfl⟩
  have h0 : d ≠ 0 := hd ▸ h
  fin_cases i <;> fin_cases j <;>
    simp [mulRM, cofactorRM, rows9, castM, M3.e, M3.one, ← hd] <;> field_simp <;>
    (try rw [hd]) <;> (try simp only [detRM]) <;> ring

/-- `L'` is `L` times an integer matrix of determinant 1. -/
def Related (L L' : RM K) : Prop := ∃ T : M3, T.det = 1 ∧ L' = mulRM L (castM T)

theorem Related.refl (L : RM K) : Related L L := ⟨M3.one, by decide, (mulRM_one L).symm⟩

theorem Related.trans {a b c : RM K} : Related a b → Related b c → Related a c := by
  rintro ⟨S, hS, rfl⟩ ⟨T, hT, rfl⟩
  exact ⟨S.mul T, by rw [M3.det_mul, hS, hT]; rfl, by rw [mulRM_assoc, mulRM_castM]⟩

/-- The integer inverse. -/
def adj (a : M3) : M3 :=
  ⟨a.m11 * a.m22 - a.m12 * a.m21, a.m21 * a.m02 - a.m22 * a.m01, a.m01 * a.m12 - a.m02 * a.m11,
   a.m12 * a.m20 - a.m10 * a.m22, a.m22 * a.m00 - a.m20 * a.m02, a.m02 * a.m10 - a.m00 * a.m12,
   a.m10 * a.m21 - a.m11 * a.m20, a.m20 * a.m01 - a.m21 * a.m00, a.m00 * a.m11 - a.m01 * a.m10⟩

theorem mul_adj (a : M3) (h : a.det = 1) : a.mul (adj a) = M3.one := by
  simp only [M3.det] at h
  simp only [M3.mul, adj, M3.one, M3.mk.injEq]
  refine ⟨?_, ?_, ?_, ?_, ?_, ?_, ?_, ?_, ?_⟩ <;> first | linear_combination h | ring

theorem adj_mul (a : M3) (h : a.det = 1) : (adj a).mul a = M3.one := by
  simp only [M3.det] at h
  simp only [M3.mul, adj, M3.one, M3.mk.injEq]
  refine ⟨?_, ?_, ?_, ?_, ?_, ?_, ?_, ?_, ?_⟩ <;> first | linear_combination h | ring

theorem det_adj (a : M3) (h : a.det = 1) : (adj a).det = 1 := by
  have := congrArg M3.det (mul_adj a h)
  rw [M3.det_mul, h, one_mul] at this
  rw [this]; decide

theorem latticeVector_mul (L : RM K) (T : M3) (n : Fin 3 → Int) :
    latticeVector (mulRM L (castM T)) n =
      latticeVector L (fun i => T.e i 0 * n 0 + T.e i 1 * n 1 + T.e i 2 * n 2) := by
  funext i
  simp only [latticeVector, mulRM, castM]
  push_cast
  ring

theorem Related.symm {L L' : RM K} : Related L L' → Related L' L := by
  rintro ⟨T, hT, rfl⟩
  exact ⟨adj T, det_adj T hT, by rw [mulRM_assoc, mulRM_castM, mul_adj T hT, mulRM_one]⟩

theorem Related.sameLattice {L L' : RM K} (h : Related L L') : SameLattice L L' := by
  have one {a b : RM K} (h : Related a b) (v : Fin 3 → K) :
      (∃ n, latticeVector b n = v) → ∃ n, latticeVector a n = v := by
    rintro ⟨n, rfl⟩
    obtain ⟨T, _, rfl⟩ := h
    exact ⟨_, (latticeVector_mul a T n).symm⟩
  exact fun v => ⟨one h.symm v, one h v⟩

theorem Related.volume {L L' : RM K} (h : Related L L') : cellVolume L' = cellVolume L := by
  obtain ⟨T, hT, rfl⟩ := h
  rw [cellVolume_eq, cellVolume_eq, detRM_mul, detRM_castM, hT, Int.cast_one, mul_one]

variable [LinearOrder K] [IsStrictOrderedRing K]

theorem rows9_cast (t0 t1 t2 t3 t4 t5 t6 t7 t8 : Int) :
    (rows9 (t0 : K) t1 t2 t3 t4 t5 t6 t7 t8) = castM ⟨t0, t1, t2, t3, t4, t5, t6, t7, t8⟩ := by
  funext i j
  fin_cases i <;> fin_cases j <;> rfl

/-- What every step does: only `tmat` changes, and it becomes an integer matrix of
determinant 1. -/
def GoodStep (step : NiggliParams K → Option (NiggliParams K)) : Prop :=
  ∀ p p', step p = some p' → p'.lattice = p.lattice ∧ p'.eps = p.eps ∧
    ∃ T : M3, T.det = 1 ∧ p'.tmat = castM T

theorem good1 : GoodStep (niggliStep1 (K := K)) := by
  intro p p' h
  unfold niggliStep1 at h
  split_ifs at h
  obtain rfl := Option.some.inj h
  refine ⟨rfl, rfl, ⟨0, -1, 0, -1, 0, 0, 0, 0, -1⟩, by decide, ?_⟩
  rw [← rows9_cast]; push_cast; rfl

theorem good2 : GoodStep (niggliStep2 (K := K)) := by
  intro p p' h
  unfold niggliStep2 at h
  split_ifs at h
  obtain rfl := Option.some.inj h
  refine ⟨rfl, rfl, ⟨-1, 0, 0, 0, 0, -1, 0, -1, 0⟩, by decide, ?_⟩
  rw [← rows9_cast]; push_cast; rfl

theorem good8 : GoodStep (niggliStep8 (K := K)) := by
  intro p p' h
  unfold niggliStep8 at h
  split_ifs at h
  obtain rfl := Option.some.inj h
  refine ⟨rfl, rfl, ⟨1, 0, 1, 0, 1, 1, 0, 0, 1⟩, by decide, ?_⟩
  rw [← rows9_cast]; push_cast; rfl

theorem shearEntry_int (v : K) : ∃ s : Int, shearEntry v = (s : K) := by
  unfold shearEntry
  split_ifs
  · exact ⟨1, by simp⟩
  · exact ⟨-1, by simp⟩
  · exact ⟨1, by simp⟩
  · exact ⟨0, by simp⟩

theorem good5 : GoodStep (niggliStep5 (K := K)) := by
  intro p p' h
  unfold niggliStep5 at h
  split_ifs at h
  obtain rfl := Option.some.inj h
  obtain ⟨s, hs⟩ := shearEntry_int p.xi
  refine ⟨rfl, rfl, ⟨1, 0, 0, 0, 1, s, 0, 0, 1⟩, by simp [M3.det], ?_⟩
  rw [← rows9_cast, ← hs]; push_cast; rfl

theorem good6 : GoodStep (niggliStep6 (K := K)) := by
  intro p p' h
  unfold niggliStep6 at h
  split_ifs at h
  obtain rfl := Option.some.inj h
  obtain ⟨s, hs⟩ := shearEntry_int p.eta
  refine ⟨rfl, rfl, ⟨1, 0, s, 0, 1, 0, 0, 0, 1⟩, by simp [M3.det], ?_⟩
  rw [← rows9_cast, ← hs]; push_cast; rfl

theorem good7 : GoodStep (niggliStep7 (K := K)) := by
  intro p p' h
  unfold niggliStep7 at h
  split_ifs at h
  obtain rfl := Option.some.inj h
  obtain ⟨s, hs⟩ := shearEntry_int p.zeta
  refine ⟨rfl, rfl, ⟨1, s, 0, 0, 1, 0, 0, 0, 1⟩, by simp [M3.det], ?_⟩
  rw [← rows9_cast, ← hs]; push_cast; rfl

/-- A factor of a product of three integers that is a unit is 1 or -1. -/
theorem unit3 {l m n : Int} (h : l * m * n = 1 ∨ l * m * n = -1) :
    (l = 1 ∨ l = -1) ∧ (m = 1 ∨ m = -1) ∧ (n = 1 ∨ n = -1) := by
  have hu : IsUnit (l * m * n) := by
    rcases h with h | h <;> rw [h]
    · exact isUnit_one
    · exact isUnit_one.neg
  have h1 := IsUnit.mul_iff.1 hu
  have h2 := IsUnit.mul_iff.1 h1.1
  exact ⟨Int.isUnit_iff.1 h2.1, Int.isUnit_iff.1 h2.2, Int.isUnit_iff.1 h1.2⟩

/-- What the sign steps do: they fire with a diagonal matrix of signs with product 1. -/
theorem step3_some (p p' : NiggliParams K) (h : niggliStep3 p = some p') :
    ∃ i j k : Int, (i = 1 ∨ i = -1) ∧ (j = 1 ∨ j = -1) ∧ (k = 1 ∨ k = -1) ∧ i * j * k = 1 ∧
      p' = { p with tmat := rows9 (i : K) 0 0 0 (j : K) 0 0 0 (k : K) } ∧
      p.l * (j * k) = 1 ∧ p.m * (i * k) = 1 ∧ p.n * (i * j) = 1 := by
  unfold niggliStep3 at h
  by_cases hc : p.l * p.m * p.n = 1
  swap
  · rw [if_neg hc] at h; exact absurd h (by simp)
  rw [if_pos hc] at h
  refine ⟨_, _, _, ?_, ?_, ?_, ?_, (Option.some.inj h).symm, ?_⟩
  · split_ifs <;> simp
  · split_ifs <;> simp
  · split_ifs <;> simp
  · rcases unit3 (Or.inl hc) with ⟨h1, h2, h3⟩
    rcases h1 with h1 | h1 <;> rcases h2 with h2 | h2 <;> rcases h3 with h3 | h3 <;>
      simp_all
  · rcases unit3 (Or.inl hc) with ⟨h1, h2, h3⟩
    rcases h1 with h1 | h1 <;> rcases h2 with h2 | h2 <;> rcases h3 with h3 | h3 <;>
      simp_all

theorem good3 : GoodStep (niggliStep3 (K := K)) := by
  intro p p' h
  obtain ⟨i, j, k, -, -, -, hd, rfl, -⟩ := step3_some p p' h
  refine ⟨rfl, rfl, ⟨i, 0, 0, 0, j, 0, 0, 0, k⟩, by simp [M3.det, ← mul_assoc, hd], ?_⟩
  rw [← rows9_cast]; push_cast; rfl

/-- Step 4 fires with signs of product 1 after which no angle parameter has type 1. -/
theorem step4_some (p p' : NiggliParams K) (h : niggliStep4 p = some p')
    (hl : p.l = 0 ∨ p.l = 1 ∨ p.l = -1) (hm : p.m = 0 ∨ p.m = 1 ∨ p.m = -1)
    (hn : p.n = 0 ∨ p.n = 1 ∨ p.n = -1) :
    ∃ i j k : Int, (i = 1 ∨ i = -1) ∧ (j = 1 ∨ j = -1) ∧ (k = 1 ∨ k = -1) ∧ i * j * k = 1 ∧
      p' = { p with tmat := rows9 (i : K) 0 0 0 (j : K) 0 0 0 (k : K) } ∧
      p.l * (j * k) ≤ 0 ∧ p.m * (i * k) ≤ 0 ∧ p.n * (i * j) ≤ 0 := by
  unfold niggliStep4 at h
  by_cases h0 : p.l = -1 ∧ p.m = -1 ∧ p.n = -1
  · rw [if_pos h0] at h; exact absurd h (by simp)
  rw [if_neg h0] at h
  by_cases hc : p.l * p.m * p.n = 0 ∨ p.l * p.m * p.n = -1
  swap
  · rw [if_neg hc] at h; exact absurd h (by simp)
  rw [if_pos hc] at h
  refine ⟨_, _, _, ?_, ?_, ?_, ?_, (Option.some.inj h).symm, ?_⟩
  all_goals
    rcases hl with h1 | h1 | h1 <;> rcases hm with h2 | h2 | h2 <;> rcases hn with h3 | h3 | h3 <;>
      simp_all

theorem good4 : GoodStep (niggliStep4 (K := K)) := by
  intro p p' h
  have hs : ∃ i j k : Int, i * j * k = 1 ∧
      p' = { p with tmat := rows9 (i : K) 0 0 0 (j : K) 0 0 0 (k : K) } := by
    unfold niggliStep4 at h
    by_cases h0 : p.l = -1 ∧ p.m = -1 ∧ p.n = -1
    · rw [if_pos h0] at h; exact absurd h (by simp)
    rw [if_neg h0] at h
    by_cases hc : p.l * p.m * p.n = 0 ∨ p.l * p.m * p.n = -1
    swap
    · rw [if_neg hc] at h; exact absurd h (by simp)
    rw [if_pos hc] at h
    refine ⟨_, _, _, ?_, (Option.some.inj h).symm⟩
    have hz : p.l * p.m * p.n = 0 → p.l = 0 ∨ p.m = 0 ∨ p.n = 0 := by
      intro hz
      rcases mul_eq_zero.1 hz with h1 | h1
      · rcases mul_eq_zero.1 h1 with h2 | h2 <;> simp [h2]
      · simp [h1]
    have key : (p.l = 0 ∨ p.m = 0 ∨ p.n = 0) ∨
        ((p.l = 1 ∨ p.l = -1) ∧ (p.m = 1 ∨ p.m = -1) ∧ (p.n = 1 ∨ p.n = -1)) :=
      hc.elim (fun e => Or.inl (hz e)) (fun e => Or.inr (unit3 (Or.inr e)))
    have hc' : p.l * p.m * p.n ≠ 1 := by omega
    clear h hc hz
    by_cases l1 : p.l = 1 <;> by_cases m1 : p.m = 1 <;> by_cases n1 : p.n = 1 <;>
    by_cases l0 : p.l = 0 <;> by_cases m0 : p.m = 0 <;> by_cases n0 : p.n = 0 <;>
    simp_all
  obtain ⟨i, j, k, hd, rfl⟩ := hs
  refine ⟨rfl, rfl, ⟨i, 0, 0, 0, j, 0, 0, 0, k⟩, by simp [M3.det, ← mul_assoc, hd], ?_⟩
  rw [← rows9_cast]; push_cast; rfl

theorem goodSteps : ∀ s ∈ (niggliSteps : List ((NiggliParams K → Option (NiggliParams K)) × Bool)),
    GoodStep s.1 := by
  intro s hs
  simp only [niggliSteps, List.mem_cons, List.not_mem_nil, or_false] at hs
  rcases hs with rfl | rfl | rfl | rfl | rfl | rfl | rfl | rfl
  · exact good1
  · exact good2
  · exact good3
  · exact good4
  · exact good5
  · exact good6
  · exact good7
  · exact good8

/-- The parameters are those of the lattice. -/
def Consistent (p : NiggliParams K) : Prop := setParameters p = p

theorem consistent_set (p : NiggliParams K) : Consistent (setParameters p) := rfl

theorem consistent_reset (p : NiggliParams K) : Consistent (niggliReset p) := rfl

theorem reset_good {p p' : NiggliParams K} {step : NiggliParams K → Option (NiggliParams K)}
    (hg : GoodStep step) (h : step p = some p') :
    Related p.lattice (niggliReset p').lattice ∧ (niggliReset p').eps = p.eps ∧
      Consistent (niggliReset p') := by
  obtain ⟨h1, h2, T, hT, ht⟩ := hg p p' h
  refine ⟨⟨T, hT, ?_⟩, h2, consistent_set _⟩
  show mulRM p'.lattice p'.tmat = _
  rw [h1, ht]

theorem pass_good : ∀ (l : List ((NiggliParams K → Option (NiggliParams K)) × Bool)),
    (∀ s ∈ l, GoodStep s.1) → ∀ p, Consistent p →
    Related p.lattice (niggliPass l p).1.lattice ∧ (niggliPass l p).1.eps = p.eps ∧
      Consistent (niggliPass l p).1
  | [], _, p, hc => ⟨Related.refl _, rfl, hc⟩
  | (step, brk) :: rest, hg, p, hc => by
    have hg1 := hg (step, brk) (by simp)
    have hgr : ∀ s ∈ rest, GoodStep s.1 := fun s hs => hg s (by simp [hs])
    unfold niggliPass
    cases hs : step p with
    | none => exact pass_good rest hgr p hc
    | some p' =>
      obtain ⟨r1, r2, r3⟩ := reset_good hg1 hs
      dsimp only
      split_ifs
      · exact ⟨r1, r2, r3⟩
      · obtain ⟨q1, q2, q3⟩ := pass_good rest hgr (niggliReset p') r3
        exact ⟨r1.trans q1, q2.trans r2, q3⟩

theorem loop_good : ∀ (n : Nat) (p : NiggliParams K), Consistent p →
    Related p.lattice (niggliLoop n p).1.lattice ∧ (niggliLoop n p).1.eps = p.eps
  | 0, p, _ => ⟨Related.refl _, rfl⟩
  | n + 1, p, hc => by
    obtain ⟨q1, q2, q3⟩ := pass_good niggliSteps goodSteps p hc
    unfold niggliLoop
    dsimp only
    split_ifs
    · exact ⟨q1, q2⟩
    · obtain ⟨r1, r2⟩ := loop_good n _ q3
      exact ⟨q1.trans r1, r2.trans q2⟩

theorem niggliReduce_related (L : RM K) (eps : K) : Related L (niggliReduce L eps).1 :=
  (loop_good 100 (setParameters (niggliInit L eps)) (consistent_set _)).1

/-! ### What holds after a pass without a break -/

/-- When the loop succeeds, its last pass ended with `j == 8`. -/
theorem loop_last : ∀ (n : Nat) (p : NiggliParams K), Consistent p → (niggliLoop n p).2 = true →
    ∃ q, Consistent q ∧ q.eps = p.eps ∧ niggliPass niggliSteps q = ((niggliLoop n p).1, true)
  | 0, p, _, h => by simp [niggliLoop] at h
  | n + 1, p, hc, h => by
    obtain ⟨_, q2, q3⟩ := pass_good niggliSteps goodSteps p hc
    unfold niggliLoop at h ⊢
    dsimp only at h ⊢
    split_ifs at h ⊢ with hp
    · exact ⟨p, hc, rfl, Prod.ext rfl hp⟩
    · obtain ⟨q, a, b, c⟩ := loop_last n _ q3 h
      exact ⟨q, a, b.trans q2, c⟩

theorem pass_cons_true {step : NiggliParams K → Option (NiggliParams K)} {rest p r}
    (h : niggliPass ((step, true) :: rest) p = (r, true)) :
    step p = none ∧ niggliPass rest p = (r, true) := by
  unfold niggliPass at h
  cases hs : step p with
  | none => rw [hs] at h; exact ⟨rfl, h⟩
  | some p' => rw [hs] at h; simp at h

theorem pass_cons_false {step : NiggliParams K → Option (NiggliParams K)} {rest p r}
    (h : niggliPass ((step, false) :: rest) p = (r, true)) :
    (step p = none ∧ niggliPass rest p = (r, true)) ∨
      ∃ p', step p = some p' ∧ niggliPass rest (niggliReset p') = (r, true) := by
  unfold niggliPass at h
  cases hs : step p with
  | none => rw [hs] at h; exact Or.inl ⟨rfl, h⟩
  | some p' => rw [hs] at h; exact Or.inr ⟨p', rfl, by simpa using h⟩

/-- The same metric up to signs of the mixed products. -/
structure SameUpToSigns (p q : NiggliParams K) : Prop where
  A : q.A = p.A
  B : q.B = p.B
  C : q.C = p.C
  eps : q.eps = p.eps
  xi : |q.xi| = |p.xi|
  eta : |q.eta| = |p.eta|
  zeta : |q.zeta| = |p.zeta|

theorem SameUpToSigns.refl (p : NiggliParams K) : SameUpToSigns p p :=
  ⟨rfl, rfl, rfl, rfl, rfl, rfl, rfl⟩

theorem SameUpToSigns.trans {p q r : NiggliParams K} (h : SameUpToSigns p q)
    (g : SameUpToSigns q r) : SameUpToSigns p r :=
  ⟨g.A.trans h.A, g.B.trans h.B, g.C.trans h.C, g.eps.trans h.eps, g.xi.trans h.xi,
    g.eta.trans h.eta, g.zeta.trans h.zeta⟩

theorem Consistent.eqs {p : NiggliParams K} (h : Consistent p) :
    p.A = colDot p.lattice 0 0 ∧ p.B = colDot p.lattice 1 1 ∧ p.C = colDot p.lattice 2 2 ∧
    p.xi = 2 * colDot p.lattice 1 2 ∧ p.eta = 2 * colDot p.lattice 0 2 ∧
    p.zeta = 2 * colDot p.lattice 0 1 ∧ p.l = angleType p.xi p.eps ∧
    p.m = angleType p.eta p.eps ∧ p.n = angleType p.zeta p.eps := by
  rw [← h]
  refine ⟨rfl, rfl, rfl, ?_, ?_, ?_, rfl, rfl, rfl⟩ <;>
    simp only [setParameters, metricRM, mulRM, transposeRM, colDot] <;> ring

theorem reset_swap {p : NiggliParams K} (h : Consistent p) :
    let q := niggliReset { p with tmat := rows9 0 (-1) 0 (-1) 0 0 0 0 (-1) }
    q.A = p.B ∧ q.B = p.A ∧ q.C = p.C ∧ q.xi = p.eta ∧ q.eta = p.xi ∧ q.zeta = p.zeta ∧
      q.eps = p.eps := by
  obtain ⟨a, b, c, x, e, z, -⟩ := h.eqs
  obtain ⟨a', b', c', x', e', z', -⟩ :=
    (consistent_set { p with lattice := mulRM p.lattice (rows9 0 (-1) 0 (-1) 0 0 0 0 (-1)) }).eqs
  refine ⟨a'.trans (Eq.trans ?_ b.symm), b'.trans (Eq.trans ?_ a.symm), c'.trans (Eq.trans ?_ c.symm),
    x'.trans (Eq.trans ?_ e.symm), e'.trans (Eq.trans ?_ x.symm), z'.trans (Eq.trans ?_ z.symm), rfl⟩ <;>
    simp [setParameters, mulRM, colDot, rows9] <;> ring

theorem reset_signs {p : NiggliParams K} (h : Consistent p) (i j k : Int)
    (hi : i = 1 ∨ i = -1) (hj : j = 1 ∨ j = -1) (hk : k = 1 ∨ k = -1) :
    let q := niggliReset { p with tmat := rows9 (i : K) 0 0 0 (j : K) 0 0 0 (k : K) }
    SameUpToSigns p q ∧ q.xi = ((j * k : Int) : K) * p.xi ∧ q.eta = ((i * k : Int) : K) * p.eta ∧
      q.zeta = ((i * j : Int) : K) * p.zeta := by
  obtain ⟨a, b, c, x, e, z, -⟩ := h.eqs
  obtain ⟨a', b', c', x', e', z', -⟩ := (consistent_set
    { p with lattice := mulRM p.lattice (rows9 (i : K) 0 0 0 (j : K) 0 0 0 (k : K)) }).eqs
  have sq {n : Int} (hn : n = 1 ∨ n = -1) : (n : K) * n = 1 := by
    rcases hn with rfl | rfl <;> simp
  have ab {n m : Int} (hn : n = 1 ∨ n = -1) (hm : m = 1 ∨ m = -1) : |((n * m : Int) : K)| = 1 := by
    rcases hn with rfl | rfl <;> rcases hm with rfl | rfl <;> simp
  have hx : (niggliReset { p with tmat := rows9 (i : K) 0 0 0 (j : K) 0 0 0 (k : K) }).xi =
      ((j * k : Int) : K) * p.xi := by
    refine x'.trans ?_
    rw [x]; simp [setParameters, mulRM, colDot, rows9]; ring
  have he : (niggliReset { p with tmat := rows9 (i : K) 0 0 0 (j : K) 0 0 0 (k : K) }).eta =
      ((i * k : Int) : K) * p.eta := by
    refine e'.trans ?_
    rw [e]; simp [setParameters, mulRM, colDot, rows9]; ring
  have hz : (niggliReset { p with tmat := rows9 (i : K) 0 0 0 (j : K) 0 0 0 (k : K) }).zeta =
      ((i * j : Int) : K) * p.zeta := by
    refine z'.trans ?_
    rw [z]; simp [setParameters, mulRM, colDot, rows9]; ring
  refine ⟨⟨?_, ?_, ?_, rfl, ?_, ?_, ?_⟩, hx, he, hz⟩
  · refine a'.trans ?_
    rw [a]; simp [setParameters, mulRM, colDot, rows9]; linear_combination (p.lattice 0 0 * p.lattice 0 0 + p.lattice 1 0 * p.lattice 1 0 + p.lattice 2 0 * p.lattice 2 0) * sq hi
  · refine b'.trans ?_
    rw [b]; simp [setParameters, mulRM, colDot, rows9]; linear_combination (p.lattice 0 1 * p.lattice 0 1 + p.lattice 1 1 * p.lattice 1 1 + p.lattice 2 1 * p.lattice 2 1) * sq hj
  · refine c'.trans ?_
    rw [c]; simp [setParameters, mulRM, colDot, rows9]; linear_combination (p.lattice 0 2 * p.lattice 0 2 + p.lattice 1 2 * p.lattice 1 2 + p.lattice 2 2 * p.lattice 2 2) * sq hk
  · rw [hx, abs_mul, ab hj hk, one_mul]
  · rw [he, abs_mul, ab hi hk, one_mul]
  · rw [hz, abs_mul, ab hi hj, one_mul]

theorem angleType_cases (v eps : K) : angleType v eps = 0 ∨ angleType v eps = 1 ∨
    angleType v eps = -1 := by
  unfold angleType; split_ifs <;> simp

theorem angleType_one {v eps : K} : angleType v eps = 1 ↔ eps < v := by
  unfold angleType; split_ifs <;> simp_all

theorem angleType_neg {v eps : K} (h0 : 0 ≤ eps) : angleType v eps = -1 ↔ v < -eps := by
  unfold angleType
  split_ifs with h1 h2 h2
  · linarith
  · simpa using h1
  · simpa using h1
  · simpa using h1

theorem unit_mul {i j : Int} (hi : i = 1 ∨ i = -1) (hj : j = 1 ∨ j = -1) : i * j = 1 ∨ i * j = -1 := by
  rcases hi with rfl | rfl <;> rcases hj with rfl | rfl <;> simp

theorem sign_flip_pos {v eps : K} (h0 : 0 ≤ eps) {s : Int} (hs : s = 1 ∨ s = -1)
    (h : angleType v eps * s = 1) : eps < (s : K) * v := by
  rcases hs with rfl | rfl
  · rw [mul_one] at h
    simpa using angleType_one.1 h
  · have : angleType v eps = -1 := by omega
    have := (angleType_neg h0).1 this
    push_cast; linarith

theorem sign_flip_nonpos {v eps : K} (h0 : 0 ≤ eps) {s : Int} (hs : s = 1 ∨ s = -1)
    (h : angleType v eps * s ≤ 0) : (s : K) * v ≤ eps := by
  rcases hs with rfl | rfl
  · have : angleType v eps ≠ 1 := by omega
    have := mt angleType_one.2 this
    simpa using this
  · have : angleType v eps ≠ -1 := by omega
    have := mt (angleType_neg h0).2 this
    push_cast; linarith [not_lt.1 this]

/-- Steps 3 and 4 together. -/
theorem signs_done {p r : NiggliParams K} {rest} (hc : Consistent p) (h0 : 0 ≤ p.eps)
    (h : niggliPass ((niggliStep3, false) :: (niggliStep4, false) :: rest) p = (r, true)) :
    ∃ q, Consistent q ∧ SameUpToSigns p q ∧ niggliPass rest q = (r, true) ∧
      ((q.eps < q.xi ∧ q.eps < q.eta ∧ q.eps < q.zeta) ∨
        (q.xi ≤ q.eps ∧ q.eta ≤ q.eps ∧ q.zeta ≤ q.eps)) := by
  have step4 (p : NiggliParams K) (hc : Consistent p) (h0 : 0 ≤ p.eps)
      (hn : p.l * p.m * p.n ≠ 1)
      (h : niggliPass ((niggliStep4, false) :: rest) p = (r, true)) :
      ∃ q, Consistent q ∧ SameUpToSigns p q ∧ niggliPass rest q = (r, true) ∧
        (q.xi ≤ q.eps ∧ q.eta ≤ q.eps ∧ q.zeta ≤ q.eps) := by
    obtain ⟨-, -, -, -, -, -, el, em, en⟩ := hc.eqs
    have cl : p.l = 0 ∨ p.l = 1 ∨ p.l = -1 := el ▸ angleType_cases _ _
    have cm : p.m = 0 ∨ p.m = 1 ∨ p.m = -1 := em ▸ angleType_cases _ _
    have cn : p.n = 0 ∨ p.n = 1 ∨ p.n = -1 := en ▸ angleType_cases _ _
    rcases pass_cons_false h with ⟨hs, hr⟩ | ⟨p', hs, hr⟩
    · refine ⟨p, hc, SameUpToSigns.refl p, hr, ?_⟩
      have hall : p.l = -1 ∧ p.m = -1 ∧ p.n = -1 := by
        by_contra hcon
        unfold niggliStep4 at hs
        rw [if_neg hcon] at hs
        have : p.l * p.m * p.n = 0 ∨ p.l * p.m * p.n = -1 := by
          rcases cl with h1 | h1 | h1 <;> rcases cm with h2 | h2 | h2 <;>
            rcases cn with h3 | h3 | h3 <;> rw [h1, h2, h3] at hn ⊢ <;>
            first | decide | exact absurd (by decide) hn
        rw [if_pos this] at hs
        simp at hs
      rw [el, em, en, angleType_neg h0, angleType_neg h0, angleType_neg h0] at hall
      exact ⟨by linarith [hall.1], by linarith [hall.2.1], by linarith [hall.2.2]⟩
    · obtain ⟨i, j, k, hi, hj, hk, -, rfl, s1, s2, s3⟩ := step4_some p p' hs cl cm cn
      obtain ⟨S, ex, ee, ez⟩ := reset_signs hc i j k hi hj hk
      refine ⟨_, consistent_reset _, S, hr, ?_⟩
      rw [ex, ee, ez, S.eps]
      rw [el] at s1; rw [em] at s2; rw [en] at s3
      exact ⟨sign_flip_nonpos h0 (unit_mul hj hk) s1, sign_flip_nonpos h0 (unit_mul hi hk) s2,
        sign_flip_nonpos h0 (unit_mul hi hj) s3⟩
  rcases pass_cons_false h with ⟨hs, hr⟩ | ⟨p', hs, hr⟩
  · have hn : p.l * p.m * p.n ≠ 1 := by
      intro hcon
      unfold niggliStep3 at hs
      rw [if_pos hcon] at hs
      simp at hs
    obtain ⟨q, a, b, c, d⟩ := step4 p hc h0 hn hr
    exact ⟨q, a, b, c, Or.inr d⟩
  · obtain ⟨i, j, k, hi, hj, hk, -, rfl, s1, s2, s3⟩ := step3_some p p' hs
    obtain ⟨S, ex, ee, ez⟩ := reset_signs hc i j k hi hj hk
    obtain ⟨-, -, -, -, -, -, el, em, en⟩ := hc.eqs
    rw [el] at s1; rw [em] at s2; rw [en] at s3
    have q1 := sign_flip_pos h0 (unit_mul hj hk) s1
    have q2 := sign_flip_pos h0 (unit_mul hi hk) s2
    have q3 := sign_flip_pos h0 (unit_mul hi hj) s3
    obtain ⟨q, hq⟩ : ∃ q, q = niggliReset { p with tmat := rows9 (i : K) 0 0 0 (j : K) 0 0 0 (k : K) } :=
      ⟨_, rfl⟩
    rw [← hq] at hr S ex ee ez
    have hcq : Consistent q := by rw [hq]; exact consistent_reset _
    rw [← ex, ← S.eps] at q1
    rw [← ee, ← S.eps] at q2
    rw [← ez, ← S.eps] at q3
    obtain ⟨-, -, -, -, -, -, el', em', en'⟩ := hcq.eqs
    have l1 : q.l = 1 := el'.trans (angleType_one.2 q1)
    have m1 : q.m = 1 := em'.trans (angleType_one.2 q2)
    have n1 : q.n = 1 := en'.trans (angleType_one.2 q3)
    rcases pass_cons_false hr with ⟨hs, hr⟩ | ⟨p'', hs, hr⟩
    · exact ⟨q, hcq, S, hr, Or.inl ⟨q1, q2, q3⟩⟩
    · unfold niggliStep4 at hs
      rw [l1, m1, n1] at hs
      simp at hs

/-- A pass that runs to its end leaves a Niggli cell. -/
theorem pass_niggli {p r : NiggliParams K} (hc : Consistent p) (h0 : 0 ≤ p.eps)
    (h : niggliPass niggliSteps p = (r, true)) : Consistent r ∧ r.eps = p.eps ∧
      NiggliCell p.eps r.A r.B r.C r.xi r.eta r.zeta := by
  -- step 1
  have s1 : ∃ q, Consistent q ∧ q.eps = p.eps ∧
      ¬ (q.B + q.eps < q.A ∨ (¬ q.eps < |q.A - q.B| ∧ |q.eta| + q.eps < |q.xi|)) ∧
      niggliPass (niggliSteps.tail) q = (r, true) := by
    rcases pass_cons_false h with ⟨hs, hr⟩ | ⟨p', hs, hr⟩
    · refine ⟨p, hc, rfl, ?_, hr⟩
      intro hcon
      unfold niggliStep1 at hs
      rw [if_pos hcon] at hs
      simp at hs
    · unfold niggliStep1 at hs
      split_ifs at hs with hcond
      obtain rfl := Option.some.inj hs
      obtain ⟨eA, eB, -, ex, ee, -, eeps⟩ := reset_swap hc
      refine ⟨_, consistent_reset _, eeps, ?_, hr⟩
      rw [eA, eB, ex, ee, eeps]
      rintro (g | ⟨g1, g2⟩)
      · rcases hcond with c | ⟨c1, c2⟩
        · linarith
        · have := abs_le.1 (not_lt.1 c1); linarith
      · rcases hcond with c | ⟨c1, c2⟩
        · have := abs_le.1 (not_lt.1 g1); linarith
        · linarith
  obtain ⟨p1, hc1, e1, n1, h1⟩ := s1
  obtain ⟨hs2, h2⟩ := pass_cons_true h1
  have n2 : ¬ (p1.C + p1.eps < p1.B ∨ (¬ p1.eps < |p1.B - p1.C| ∧ |p1.zeta| + p1.eps < |p1.eta|)) := by
    intro hcon
    unfold niggliStep2 at hs2
    rw [if_pos hcon] at hs2
    simp at hs2
  obtain ⟨q, hcq, S, hq, hsig⟩ := signs_done hc1 (e1 ▸ h0) h2
  obtain ⟨hs5, h5⟩ := pass_cons_true hq
  obtain ⟨hs6, h6⟩ := pass_cons_true h5
  obtain ⟨hs7, h7⟩ := pass_cons_true h6
  obtain ⟨hs8, h8⟩ := pass_cons_true h7
  have hr : q = r := by
    unfold niggliPass at h8
    exact (Prod.mk.inj h8).1
  have n5 : ¬ (q.B + q.eps < |q.xi| ∨ (¬ q.eps < |q.B - q.xi| ∧ 2 * q.eta < q.zeta - q.eps) ∨
      (¬ q.eps < |q.B + q.xi| ∧ q.zeta < -q.eps)) := by
    intro hcon
    unfold niggliStep5 at hs5
    rw [if_pos hcon] at hs5
    simp at hs5
  have n6 : ¬ (q.A + q.eps < |q.eta| ∨ (¬ q.eps < |q.A - q.eta| ∧ 2 * q.xi < q.zeta - q.eps) ∨
      (¬ q.eps < |q.A + q.eta| ∧ q.zeta < -q.eps)) := by
    intro hcon
    unfold niggliStep6 at hs6
    rw [if_pos hcon] at hs6
    simp at hs6
  have n7 : ¬ (q.A + q.eps < |q.zeta| ∨ (¬ q.eps < |q.A - q.zeta| ∧ 2 * q.xi < q.eta - q.eps) ∨
      (¬ q.eps < |q.A + q.zeta| ∧ q.eta < -q.eps)) := by
    intro hcon
    unfold niggliStep7 at hs7
    rw [if_pos hcon] at hs7
    simp at hs7
  have n8 : ¬ (q.xi + q.eta + q.zeta + q.A + q.B < -q.eps ∨
      (¬ q.eps < |q.xi + q.eta + q.zeta + q.A + q.B| ∧ q.eps < 2 * (q.A + q.eta) + q.zeta)) := by
    intro hcon
    unfold niggliStep8 at hs8
    rw [if_pos hcon] at hs8
    simp at hs8
  rw [← S.A, ← S.B, ← S.eps, ← S.xi, ← S.eta] at n1
  rw [← S.B, ← S.C, ← S.eps, ← S.eta, ← S.zeta] at n2
  have ee : q.eps = p.eps := S.eps.trans e1
  rw [ee] at n1 n2 n5 n6 n7 n8 hsig
  subst hr
  simp only [not_or, not_and, not_lt] at n1 n2 n5 n6 n7 n8
  exact ⟨hcq, ee, n1.1, n2.1, n1.2, n2.2, hsig, n5.1, n5.2.1, n5.2.2, n6.1, n6.2.1, n6.2.2, n7.1,
    n7.2.1, n7.2.2, n8.1, n8.2⟩

theorem niggliReduce_niggli (L : RM K) (eps : K) (h0 : 0 ≤ eps)
    (h : (niggliReduce L eps).2 = true) : IsNiggli eps (niggliReduce L eps).1 := by
  obtain ⟨q, hc, he, hp⟩ := loop_last 100 (setParameters (niggliInit L eps)) (consistent_set _) h
  have he' : q.eps = eps := he
  obtain ⟨hc', -, hN⟩ := pass_niggli hc (by rw [he']; exact h0) hp
  obtain ⟨a, b, c, x, e, z, -⟩ := hc'.eqs
  rw [a, b, c, x, e, z, he'] at hN
  exact hN

end

end Phono3py
