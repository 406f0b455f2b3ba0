/- Lemmas about `grg_transform_rotations`. -/
import Verif.Model.Transform
import Verif.Lemmas.Unimodular
import Mathlib.Tactic.LinearCombination
import Mathlib.Tactic.FieldSimp
import Mathlib.Tactic.FinCases
import Mathlib.Algebra.Order.Round
import Mathlib.LinearAlgebra.Matrix.NonsingularInverse

namespace Phono3py
open Spec

theorem nint_nearest (a : Rat) (n : Int) : |(nint a : Rat) - a| ≤ |(n : Rat) - a| := by
  have h1 : |(nint a : Rat) - a| ≤ 1 / 2 := by
    unfold nint
    split
    · have := Int.ceil_lt_add_one (a - 1 / 2)
      have := Int.le_ceil (a - 1 / 2)
      rw [abs_le]; constructor <;> linarith
    · have := Int.floor_le (a + 1 / 2)
      have := Int.lt_floor_add_one (a + 1 / 2)
      rw [abs_le]; constructor <;> linarith
  by_cases h : n = nint a
  · rw [h]
  · have h2 : (1 : Rat) ≤ |(n : Rat) - nint a| := by
      have : (1 : Int) ≤ |n - nint a| := Int.one_le_abs (sub_ne_zero.2 h)
      have h3 : ((1 : Int) : Rat) ≤ ((|n - nint a| : Int) : Rat) := by exact_mod_cast this
      push_cast at h3; exact h3
    have h3 := abs_sub_abs_le_abs_sub ((n : Rat) - nint a) (a - nint a)
    have h4 : (n : Rat) - nint a - (a - nint a) = n - a := by ring
    rw [h4, abs_sub_comm a] at h3
    linarith

theorem dabs_eq (a : Rat) : dabs a = |a| := by
  unfold dabs; split
  · rw [abs_of_neg (by assumption)]
  · rw [abs_of_nonneg (by linarith)]

theorem checkIdentity_iff (a : M3) (b : Fin 3 → Fin 3 → Rat) (e : Rat) :
    checkIdentity a b e = true ↔ ∀ i j, |(a.e i j : Rat) - b i j| ≤ e := by
  unfold checkIdentity
  simp only [Bool.not_eq_true', List.any_eq_false, decide_eq_true_eq, dabs_eq, gt_iff_lt, not_lt]
  constructor
  · intro h i j
    exact h (i, j) (by fin_cases i <;> fin_cases j <;> decide)
  · rintro h ⟨i, j⟩ _; exact h i j

@[simp] theorem M3.ofFn_e (f : Fin 3 → Fin 3 → Int) (i j : Fin 3) : (M3.ofFn f).e i j = f i j := by
  fin_cases i <;> fin_cases j <;> rfl

theorem M3.ext_e {a b : M3} (h : ∀ i j, a.e i j = b.e i j) : a = b := by
  ext
  · exact h 0 0
  · exact h 0 1
  · exact h 0 2
  · exact h 1 0
  · exact h 1 1
  · exact h 1 2
  · exact h 2 0
  · exact h 2 1
  · exact h 2 2

theorem M3.mul_e (a b : M3) (i j : Fin 3) :
    (a.mul b).e i j = a.e i 0 * b.e 0 j + a.e i 1 * b.e 1 j + a.e i 2 * b.e 2 j := by
  fin_cases i <;> fin_cases j <;> rfl

theorem transformRotation_some (D : V3) (Q R t : M3) (h : transformRotation D Q R = some t) :
    ∀ i j, |(t.e i j : Rat) - scaledSimilar R Q D i j| ≤ identityTol := by
  unfold transformRotation at h
  simp only at h
  split at h
  · simp at h
  · rename_i hc
    simp only [Option.some.injEq] at h
    subst h
    rw [Bool.not_eq_true', Bool.not_eq_false, checkIdentity_iff] at hc
    exact hc

theorem transformRotation_none (D : V3) (Q R : M3) :
    transformRotation D Q R = none ↔
      ∃ i j, ∀ n : Int, identityTol < |(n : Rat) - scaledSimilar R Q D i j| := by
  unfold transformRotation
  simp only
  constructor
  · intro h
    split at h
    · rename_i hc
      rw [Bool.not_eq_true', ← Bool.not_eq_true, checkIdentity_iff] at hc
      push Not at hc
      obtain ⟨i, j, hij⟩ := hc
      refine ⟨i, j, fun n => lt_of_lt_of_le hij ?_⟩
      rw [M3.ofFn_e]; exact nint_nearest _ n
    · simp at h
  · rintro ⟨i, j, hij⟩
    rw [if_pos]
    rw [Bool.not_eq_true', ← Bool.not_eq_true, checkIdentity_iff]
    push Not
    exact ⟨i, j, hij _⟩

/-- The inverse computed with divisions is the integer inverse. -/
theorem inverseD3_unimodular (Q : M3) (h : Q.det.natAbs = 1) (i j : Fin 3) :
    inverseD3 Q i j = ((Q.cofactorsDiv Q.det).e i j : Rat) := by
  have hd : Q.det = 1 ∨ Q.det = -1 := by omega
  rcases hd with hd | hd <;> unfold inverseD3 M3.cofactorsDiv <;> rw [hd] <;>
    fin_cases i <;> fin_cases j <;>
    simp [M3.e, Int.tdiv_neg, Int.tdiv_one, div_neg]

theorem scaledSimilar_eq (D : V3) (Q R : M3) (h : Q.det.natAbs = 1) (j k : Fin 3) :
    scaledSimilar R Q D j k =
      ((((Q.cofactorsDiv Q.det).mul (R.mul Q)).e j k : Int) : Rat) * (D.e j : Rat) / (D.e k : Rat) := by
  unfold scaledSimilar similarLd3 mulD3
  simp only [inverseD3_unimodular Q h, M3.mul_e]
  push_cast
  rfl

theorem V3.e_pos {D : V3} (h : PosMesh D) (i : Fin 3) : 0 < D.e i := by
  obtain ⟨a, b, c⟩ := h
  fin_cases i
  · exact a
  · exact b
  · exact c

/-- Below 10^5 mesh numbers the tolerance leaves no room: the result is exact. -/
theorem transformRotation_exact (D : V3) (hD : PosMesh D) (hlt : ∀ i, D.e i < 100000)
    (Q R t : M3) (h : Q.det.natAbs = 1) (ht : transformRotation D Q R = some t) (j k : Fin 3) :
    t.e j k * D.e k = D.e j * ((Q.cofactorsDiv Q.det).mul (R.mul Q)).e j k := by
  have h1 := transformRotation_some D Q R t ht j k
  rw [scaledSimilar_eq D Q R h] at h1
  generalize ((Q.cofactorsDiv Q.det).mul (R.mul Q)).e j k = N at *
  have hk := V3.e_pos hD k
  have hk' : (0 : Rat) < (D.e k : Rat) := by exact_mod_cast hk
  have hl : (D.e k : Rat) < 100000 := by exact_mod_cast hlt k
  have e1 : ((t.e j k * D.e k - D.e j * N : Int) : Rat)
      = ((t.e j k : Rat) - (N : Rat) * (D.e j : Rat) / (D.e k : Rat)) * (D.e k : Rat) := by
    push_cast; field_simp
  have e2 : |((t.e j k * D.e k - D.e j * N : Int) : Rat)| < 1 := by
    rw [e1, abs_mul, abs_of_pos hk']
    have : identityTol * (D.e k : Rat) < 1 := by unfold identityTol; linarith
    have := mul_le_mul_of_nonneg_right h1 hk'.le
    linarith
  have e3 : |t.e j k * D.e k - D.e j * N| < 1 := by exact_mod_cast e2
  have := Int.abs_lt_one_iff.1 e3
  linarith

theorem transformRotations_some (D : V3) (Q : M3) : ∀ (rots l : List M3),
    transformRotations D Q rots = some l →
      List.Forall₂ (fun R t => transformRotation D Q R = some t) rots l := by
  intro rots
  induction rots with
  | nil => intro l h; simp [transformRotations] at h; subst h; exact List.Forall₂.nil
  | cons R rots ih =>
    intro l h
    unfold transformRotations at h
    split at h
    · simp at h
    · rename_i t ht
      split at h
      · simp at h
      · rename_i l' hl'
        simp at h; subst h
        exact List.Forall₂.cons ht (ih l' hl')

theorem transformRotations_none (D : V3) (Q : M3) : ∀ (rots : List M3),
    transformRotations D Q rots = none ↔ ∃ R ∈ rots, transformRotation D Q R = none := by
  intro rots
  induction rots with
  | nil => simp [transformRotations]
  | cons R rots ih =>
    unfold transformRotations
    cases hR : transformRotation D Q R with
    | none => simp [hR]
    | some t =>
      cases hl : transformRotations D Q rots with
      | none => simp only [true_iff]; obtain ⟨S, hS, e⟩ := ih.1 hl; exact ⟨S, by simp [hS], e⟩
      | some l =>
        simp only [reduceCtorEq, false_iff]
        rintro ⟨S, hS, e⟩
        simp only [List.mem_cons] at hS
        rcases hS with rfl | hS
        · rw [hR] at e; simp at e
        · have := ih.2 ⟨S, hS, e⟩; rw [hl] at this; simp at this

end Phono3py
