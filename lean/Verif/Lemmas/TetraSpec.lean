/- The weights of the tetrahedron method equal the B-spline formulas of the specification. -/
import Verif.Lemmas.Tetrahedron

set_option linter.unusedSectionVars false
set_option linter.unusedSimpArgs false

namespace Phono3py
open Spec

section
variable {K : Type _} [Field K] [LinearOrder K] [IsStrictOrderedRing K]
variable {eps w : K} {v : Fin 4 → K}

/-- Neighbouring frequencies at least `eps` apart. -/
def Distinct (eps : K) (v : Fin 4 → K) : Prop :=
  eps ≤ v 1 - v 0 ∧ eps ≤ v 2 - v 1 ∧ eps ≤ v 3 - v 2

/-- Coordinates: the gaps and the distance to the lowest frequency. -/
structure Coord (w : K) (v : Fin 4 → K) (x p q r : K) : Prop where
  hp : 0 < p
  hq : 0 < q
  hr : 0 < r
  e1 : v 1 = v 0 + p
  e2 : v 2 = v 0 + p + q
  e3 : v 3 = v 0 + p + q + r
  ew : w = v 0 + x

theorem Distinct.coord (he : 0 < eps) (h : Distinct eps v) :
    Coord w v (w - v 0) (v 1 - v 0) (v 2 - v 1) (v 3 - v 2) := by
  obtain ⟨h1, h2, h3⟩ := h
  constructor <;> first | linarith | ring

theorem Coord.gaps {x p q r : K} (c : Coord w v x p q r) :
    gaps v 0 = p * (p + q) * (p + q + r) ∧ gaps v 1 = -(p * q * (q + r)) ∧
      gaps v 2 = (p + q) * q * r ∧ gaps v 3 = -((p + q + r) * (q + r) * r) := by
  have e1 := c.e1; have e2 := c.e2; have e3 := c.e3
  refine ⟨?_, ?_, ?_, ?_⟩ <;> simp [Spec.gaps, List.finRange_succ, e1, e2, e3] <;> ring

/-- The fractions in coordinates. -/
theorem Distinct.f (he : 0 < eps) (h : Distinct eps v) {x p q r : K} (c : Coord w v x p q r) :
    thmF eps 1 0 w v = x / p ∧ thmF eps 2 0 w v = x / (p + q) ∧
    thmF eps 3 0 w v = x / (p + q + r) ∧ thmF eps 2 1 w v = (x - p) / q ∧
    thmF eps 3 1 w v = (x - p) / (q + r) ∧ thmF eps 3 2 w v = (x - p - q) / r ∧
    thmF eps 0 1 w v = 1 - x / p ∧ thmF eps 0 2 w v = 1 - x / (p + q) ∧
    thmF eps 0 3 w v = 1 - x / (p + q + r) ∧ thmF eps 1 2 w v = 1 - (x - p) / q ∧
    thmF eps 1 3 w v = 1 - (x - p) / (q + r) ∧ thmF eps 2 3 w v = 1 - (x - p - q) / r := by
  obtain ⟨h1, h2, h3⟩ := h
  have e1 := c.e1; have e2 := c.e2; have e3 := c.e3; have ew := c.ew
  refine ⟨?_, ?_, ?_, ?_, ?_, ?_, ?_, ?_, ?_, ?_, ?_, ?_⟩
  · rw [thmF_up he (by linarith), ew, e1]; congr 1 <;> ring
  · rw [thmF_up he (by linarith), ew, e2]; congr 1 <;> ring
  · rw [thmF_up he (by linarith), ew, e3]; congr 1 <;> ring
  · rw [thmF_up he (by linarith), ew, e1, e2]; congr 1 <;> ring
  · rw [thmF_up he (by linarith), ew, e1, e3]; congr 1 <;> ring
  · rw [thmF_up he (by linarith), ew, e2, e3]; congr 1 <;> ring
  · rw [thmF_down he (by linarith), ew, e1]; congr 2 <;> ring
  · rw [thmF_down he (by linarith), ew, e2]; congr 2 <;> ring
  · rw [thmF_down he (by linarith), ew, e3]; congr 2 <;> ring
  · rw [thmF_down he (by linarith), ew, e1, e2]; congr 2 <;> ring
  · rw [thmF_down he (by linarith), ew, e1, e3]; congr 2 <;> ring
  · rw [thmF_down he (by linarith), ew, e2, e3]; congr 2 <;> ring

theorem Coord.tpow {x p q r : K} (c : Coord w v x p q r) (n : Nat) :
    tpow w (v 0) n = (if 0 < x then x ^ n else 0) ∧
    tpow w (v 1) n = (if p < x then (x - p) ^ n else 0) ∧
    tpow w (v 2) n = (if p + q < x then (x - p - q) ^ n else 0) ∧
    tpow w (v 3) n = (if p + q + r < x then (x - p - q - r) ^ n else 0) := by
  have e1 := c.e1; have e2 := c.e2; have e3 := c.e3; have ew := c.ew
  unfold Spec.tpow
  refine ⟨?_, ?_, ?_, ?_⟩
  · rw [ew]; congr 1
    · simp
    · congr 1; ring
  · rw [ew, e1]; congr 1
    · simp
    · congr 1; ring
  · rw [ew, e2]; congr 1
    · simp [add_assoc]
    · congr 1; ring
  · rw [ew, e3]; congr 1
    · simp [add_assoc]
    · congr 1; ring

theorem Coord.interval {x p q r : K} (c : Coord w v x p q r) (i : Nat) (hi : InInterval v w i) :
    (i = 0 ∧ ¬ 0 < x ∧ ¬ p < x ∧ ¬ p + q < x ∧ ¬ p + q + r < x) ∨
    (i = 1 ∧ 0 < x ∧ ¬ p < x ∧ ¬ p + q < x ∧ ¬ p + q + r < x) ∨
    (i = 2 ∧ 0 < x ∧ p < x ∧ ¬ p + q < x ∧ ¬ p + q + r < x) ∨
    (i = 3 ∧ 0 < x ∧ p < x ∧ p + q < x ∧ ¬ p + q + r < x) ∨
    (i = 4 ∧ 0 < x ∧ p < x ∧ p + q < x ∧ p + q + r < x) := by
  obtain ⟨hp, hq, hr, e1, e2, e3, ew⟩ := c
  match i, hi with
  | 0, (h : w < v 0) =>
    left; refine ⟨rfl, ?_, ?_, ?_, ?_⟩ <;> linarith
  | 1, ⟨a, b⟩ =>
    right; left; refine ⟨rfl, ?_, ?_, ?_, ?_⟩ <;> linarith
  | 2, ⟨a, b⟩ =>
    right; right; left; refine ⟨rfl, ?_, ?_, ?_, ?_⟩ <;> linarith
  | 3, ⟨a, b⟩ =>
    right; right; right; left; refine ⟨rfl, ?_, ?_, ?_, ?_⟩ <;> linarith
  | 4, (h : v 3 < w) =>
    right; right; right; right; refine ⟨rfl, ?_, ?_, ?_, ?_⟩ <;> linarith

theorem Coord.diffs {x p q r : K} (c : Coord w v x p q r) :
    v 1 - v 0 = p ∧ v 2 - v 0 = p + q ∧ v 3 - v 0 = p + q + r ∧ v 2 - v 1 = q ∧
    v 3 - v 1 = q + r ∧ v 3 - v 2 = r ∧ v 0 - v 1 = -p ∧ v 0 - v 2 = -(p + q) ∧
    v 0 - v 3 = -(p + q + r) ∧ v 1 - v 2 = -q ∧ v 1 - v 3 = -(q + r) ∧ v 2 - v 3 = -r := by
  obtain ⟨hp, hq, hr, e1, e2, e3, ew⟩ := c
  refine ⟨?_, ?_, ?_, ?_, ?_, ?_, ?_, ?_, ?_, ?_, ?_, ?_⟩ <;> simp only [e1, e2, e3] <;> ring

theorem nFunc_states (he : 0 < eps) (h : Distinct eps v) {i : Nat} (hi : InInterval v w i) :
    nFunc eps i w v = states w v := by
  obtain ⟨x, p, q, r, c⟩ : ∃ x p q r, Coord w v x p q r := ⟨_, _, _, _, h.coord he⟩
  obtain ⟨f10, f20, f30, f21, f31, f32, f01, f02, f03, f12, f13, f23⟩ := h.f he c
  obtain ⟨g0, g1, g2, g3⟩ := c.gaps
  obtain ⟨d10, d20, d30, d21, d31, d32, d01, d02, d03, d12, d13, d23⟩ := c.diffs
  obtain ⟨t30, t31, t32, t33⟩ := c.tpow 3
  have hI := c.interval i hi
  have hp := c.hp.ne'; have hq := c.hq.ne'; have hr := c.hr.ne'
  have hpq := (add_pos c.hp c.hq).ne'
  have hqr := (add_pos c.hq c.hr).ne'
  have hpqr := (add_pos (add_pos c.hp c.hq) c.hr).ne'
  simp only [states, sum4, g0, g1, g2, g3, t30, t31, t32, t33]
  rcases hI with ⟨rfl, a, b, c, d⟩ | ⟨rfl, a, b, c, d⟩ | ⟨rfl, a, b, c, d⟩ | ⟨rfl, a, b, c, d⟩ |
    ⟨rfl, a, b, c, d⟩ <;> simp only [a, b, c, d, if_true, if_false, nFunc, n1, n2, n3, f10, f20,
      f30, f21, f31, f32, f01, f02, f03, f12, f13, f23, d30]
  · simp
  · field_simp; ring
  · field_simp; ring
  · field_simp; ring
  · field_simp; ring

theorem gFunc_density (he : 0 < eps) (h : Distinct eps v) {i : Nat} (hi : InInterval v w i) :
    gFunc eps i w v = density w v := by
  obtain ⟨x, p, q, r, c⟩ : ∃ x p q r, Coord w v x p q r := ⟨_, _, _, _, h.coord he⟩
  obtain ⟨f10, f20, f30, f21, f31, f32, f01, f02, f03, f12, f13, f23⟩ := h.f he c
  obtain ⟨g0, g1, g2, g3⟩ := c.gaps
  obtain ⟨d10, d20, d30, d21, d31, d32, d01, d02, d03, d12, d13, d23⟩ := c.diffs
  obtain ⟨t20, t21, t22, t23⟩ := c.tpow 2
  have hI := c.interval i hi
  have hp := c.hp.ne'; have hq := c.hq.ne'; have hr := c.hr.ne'
  have hpq := (add_pos c.hp c.hq).ne'
  have hqr := (add_pos c.hq c.hr).ne'
  have hpqr := (add_pos (add_pos c.hp c.hq) c.hr).ne'
  simp only [density, sum4, g0, g1, g2, g3, t20, t21, t22, t23]
  rcases hI with ⟨rfl, a, b, c, d⟩ | ⟨rfl, a, b, c, d⟩ | ⟨rfl, a, b, c, d⟩ | ⟨rfl, a, b, c, d⟩ |
    ⟨rfl, a, b, c, d⟩ <;> simp only [a, b, c, d, if_true, if_false, gFunc, Phono3py.g1, Phono3py.g2, Phono3py.g3, f10, f20,
      f30, f21, f31, f32, f01, f02, f03, f12, f13, f23, d30]
  · simp
  · field_simp; ring
  · field_simp; ring
  · field_simp; ring
  · field_simp; ring

/-- The shares of interval 2, with the common factor cancelled. -/
theorem i2_mul (he : 0 < eps) (hg : eps ≤ g2core eps w v) (ci : Nat) :
    i2 eps ci w v * Phono3py.g2 eps w v =
      (match ci with
      | 0 => thmF eps 0 3 w v * g2core eps w v
          + thmF eps 0 2 w v * (thmF eps 1 2 w v * thmF eps 2 0 w v)
      | 1 => thmF eps 1 2 w v * g2core eps w v
          + thmF eps 1 3 w v * (thmF eps 1 3 w v * thmF eps 2 1 w v)
      | 2 => thmF eps 2 1 w v * g2core eps w v
          + thmF eps 2 0 w v * (thmF eps 1 2 w v * thmF eps 2 0 w v)
      | _ => thmF eps 3 0 w v * g2core eps w v
          + thmF eps 3 1 w v * (thmF eps 1 3 w v * thmF eps 2 1 w v)) / (v 3 - v 0) := by
  have hn : ¬ (thmF eps 1 2 w v * thmF eps 2 0 w v + thmF eps 1 3 w v * thmF eps 2 1 w v < eps) :=
    not_lt.2 hg
  have hp : g2core eps w v ≠ 0 := by intro h0; linarith
  rw [g2_core]
  unfold i2
  simp only [if_neg hn]
  change (match ci with
    | 0 => (thmF eps 0 3 w v + thmF eps 0 2 w v * (thmF eps 1 2 w v * thmF eps 2 0 w v) / g2core eps w v) / 3
    | 1 => (thmF eps 1 2 w v + thmF eps 1 3 w v * (thmF eps 1 3 w v * thmF eps 2 1 w v) / g2core eps w v) / 3
    | 2 => (thmF eps 2 1 w v + thmF eps 2 0 w v * (thmF eps 1 2 w v * thmF eps 2 0 w v) / g2core eps w v) / 3
    | _ => (thmF eps 3 0 w v + thmF eps 3 1 w v * (thmF eps 1 3 w v * thmF eps 2 1 w v) / g2core eps w v) / 3) * _ = _
  generalize g2core eps w v = G at hp ⊢
  split <;> field_simp

theorem i_share0 (he : 0 < eps) (h : Distinct eps v) {i : Nat} (hi : InInterval v w i)
    (hg : i = 2 → eps ≤ g2core eps w v) :
    iFunc eps i 0 w v * gFunc eps i w v = densityShare 0 w v := by
  obtain ⟨x, p, q, r, c⟩ : ∃ x p q r, Coord w v x p q r := ⟨_, _, _, _, h.coord he⟩
  obtain ⟨f10, f20, f30, f21, f31, f32, f01, f02, f03, f12, f13, f23⟩ := h.f he c
  obtain ⟨g0, g1, g2, g3⟩ := c.gaps
  obtain ⟨d10, d20, d30, d21, d31, d32, d01, d02, d03, d12, d13, d23⟩ := c.diffs
  obtain ⟨t20, t21, t22, t23⟩ := c.tpow 2
  obtain ⟨t30, t31, t32, t33⟩ := c.tpow 3
  have hI := c.interval i hi
  have hp := c.hp.ne'; have hq := c.hq.ne'; have hr := c.hr.ne'
  have hpq := (add_pos c.hp c.hq).ne'
  have hqr := (add_pos c.hq c.hr).ne'
  have hpqr := (add_pos (add_pos c.hp c.hq) c.hr).ne'
  simp only [densityShare, sum4, g0, g1, g2, g3, t20, t21, t22, t23, t30, t31, t32, t33, d10, d20, d30, d21, d31, d32,
    d01, d02, d03, d12, d13, d23, Fin.reduceEq, reduceIte]
  rcases hI with ⟨rfl, a, b, c, d⟩ | ⟨rfl, a, b, c, d⟩ | ⟨rfl, a, b, c, d⟩ | ⟨rfl, a, b, c, d⟩ |
    ⟨rfl, a, b, c, d⟩ <;> simp only [a, b, c, d, reduceIte]
  · simp [gFunc]
  · simp only [iFunc, i1, gFunc, Phono3py.g1, f10, f20, f30, f21, f31, f32, f01, f02, f03,
      f12, f13, f23, d30]
    field_simp
    try ring1
  · simp only [iFunc, gFunc, i2_mul he (hg rfl), g2core, f10, f20, f30, f21, f31, f32, f01, f02, f03,
      f12, f13, f23, d30]
    field_simp
    try ring1
  · simp only [iFunc, i3, gFunc, Phono3py.g3, f10, f20, f30, f21, f31, f32, f01, f02, f03,
      f12, f13, f23, d30]
    field_simp
    try ring1
  · simp only [gFunc, mul_zero]
    field_simp
    try ring1

theorem i_share1 (he : 0 < eps) (h : Distinct eps v) {i : Nat} (hi : InInterval v w i)
    (hg : i = 2 → eps ≤ g2core eps w v) :
    iFunc eps i 1 w v * gFunc eps i w v = densityShare 1 w v := by
  obtain ⟨x, p, q, r, c⟩ : ∃ x p q r, Coord w v x p q r := ⟨_, _, _, _, h.coord he⟩
  obtain ⟨f10, f20, f30, f21, f31, f32, f01, f02, f03, f12, f13, f23⟩ := h.f he c
  obtain ⟨g0, g1, g2, g3⟩ := c.gaps
  obtain ⟨d10, d20, d30, d21, d31, d32, d01, d02, d03, d12, d13, d23⟩ := c.diffs
  obtain ⟨t20, t21, t22, t23⟩ := c.tpow 2
  obtain ⟨t30, t31, t32, t33⟩ := c.tpow 3
  have hI := c.interval i hi
  have hp := c.hp.ne'; have hq := c.hq.ne'; have hr := c.hr.ne'
  have hpq := (add_pos c.hp c.hq).ne'
  have hqr := (add_pos c.hq c.hr).ne'
  have hpqr := (add_pos (add_pos c.hp c.hq) c.hr).ne'
  simp only [densityShare, sum4, g0, g1, g2, g3, t20, t21, t22, t23, t30, t31, t32, t33, d10, d20, d30, d21, d31, d32,
    d01, d02, d03, d12, d13, d23, Fin.reduceEq, reduceIte]
  rcases hI with ⟨rfl, a, b, c, d⟩ | ⟨rfl, a, b, c, d⟩ | ⟨rfl, a, b, c, d⟩ | ⟨rfl, a, b, c, d⟩ |
    ⟨rfl, a, b, c, d⟩ <;> simp only [a, b, c, d, reduceIte]
  · simp [gFunc]
  · simp only [iFunc, i1, gFunc, Phono3py.g1, f10, f20, f30, f21, f31, f32, f01, f02, f03,
      f12, f13, f23, d30]
    field_simp
    try ring1
  · simp only [iFunc, gFunc, i2_mul he (hg rfl), g2core, f10, f20, f30, f21, f31, f32, f01, f02, f03,
      f12, f13, f23, d30]
    field_simp
    try ring1
  · simp only [iFunc, i3, gFunc, Phono3py.g3, f10, f20, f30, f21, f31, f32, f01, f02, f03,
      f12, f13, f23, d30]
    field_simp
    try ring1
  · simp only [gFunc, mul_zero]
    field_simp
    try ring1

theorem i_share2 (he : 0 < eps) (h : Distinct eps v) {i : Nat} (hi : InInterval v w i)
    (hg : i = 2 → eps ≤ g2core eps w v) :
    iFunc eps i 2 w v * gFunc eps i w v = densityShare 2 w v := by
  obtain ⟨x, p, q, r, c⟩ : ∃ x p q r, Coord w v x p q r := ⟨_, _, _, _, h.coord he⟩
  obtain ⟨f10, f20, f30, f21, f31, f32, f01, f02, f03, f12, f13, f23⟩ := h.f he c
  obtain ⟨g0, g1, g2, g3⟩ := c.gaps
  obtain ⟨d10, d20, d30, d21, d31, d32, d01, d02, d03, d12, d13, d23⟩ := c.diffs
  obtain ⟨t20, t21, t22, t23⟩ := c.tpow 2
  obtain ⟨t30, t31, t32, t33⟩ := c.tpow 3
  have hI := c.interval i hi
  have hp := c.hp.ne'; have hq := c.hq.ne'; have hr := c.hr.ne'
  have hpq := (add_pos c.hp c.hq).ne'
  have hqr := (add_pos c.hq c.hr).ne'
  have hpqr := (add_pos (add_pos c.hp c.hq) c.hr).ne'
  simp only [densityShare, sum4, g0, g1, g2, g3, t20, t21, t22, t23, t30, t31, t32, t33, d10, d20, d30, d21, d31, d32,
    d01, d02, d03, d12, d13, d23, Fin.reduceEq, reduceIte]
  rcases hI with ⟨rfl, a, b, c, d⟩ | ⟨rfl, a, b, c, d⟩ | ⟨rfl, a, b, c, d⟩ | ⟨rfl, a, b, c, d⟩ |
    ⟨rfl, a, b, c, d⟩ <;> simp only [a, b, c, d, reduceIte]
  · simp [gFunc]
  · simp only [iFunc, i1, gFunc, Phono3py.g1, f10, f20, f30, f21, f31, f32, f01, f02, f03,
      f12, f13, f23, d30]
    field_simp
    try ring1
  · simp only [iFunc, gFunc, i2_mul he (hg rfl), g2core, f10, f20, f30, f21, f31, f32, f01, f02, f03,
      f12, f13, f23, d30]
    field_simp
    try ring1
  · simp only [iFunc, i3, gFunc, Phono3py.g3, f10, f20, f30, f21, f31, f32, f01, f02, f03,
      f12, f13, f23, d30]
    field_simp
    try ring1
  · simp only [gFunc, mul_zero]
    field_simp
    try ring1

theorem i_share3 (he : 0 < eps) (h : Distinct eps v) {i : Nat} (hi : InInterval v w i)
    (hg : i = 2 → eps ≤ g2core eps w v) :
    iFunc eps i 3 w v * gFunc eps i w v = densityShare 3 w v := by
  obtain ⟨x, p, q, r, c⟩ : ∃ x p q r, Coord w v x p q r := ⟨_, _, _, _, h.coord he⟩
  obtain ⟨f10, f20, f30, f21, f31, f32, f01, f02, f03, f12, f13, f23⟩ := h.f he c
  obtain ⟨g0, g1, g2, g3⟩ := c.gaps
  obtain ⟨d10, d20, d30, d21, d31, d32, d01, d02, d03, d12, d13, d23⟩ := c.diffs
  obtain ⟨t20, t21, t22, t23⟩ := c.tpow 2
  obtain ⟨t30, t31, t32, t33⟩ := c.tpow 3
  have hI := c.interval i hi
  have hp := c.hp.ne'; have hq := c.hq.ne'; have hr := c.hr.ne'
  have hpq := (add_pos c.hp c.hq).ne'
  have hqr := (add_pos c.hq c.hr).ne'
  have hpqr := (add_pos (add_pos c.hp c.hq) c.hr).ne'
  simp only [densityShare, sum4, g0, g1, g2, g3, t20, t21, t22, t23, t30, t31, t32, t33, d10, d20, d30, d21, d31, d32,
    d01, d02, d03, d12, d13, d23, Fin.reduceEq, reduceIte]
  rcases hI with ⟨rfl, a, b, c, d⟩ | ⟨rfl, a, b, c, d⟩ | ⟨rfl, a, b, c, d⟩ | ⟨rfl, a, b, c, d⟩ |
    ⟨rfl, a, b, c, d⟩ <;> simp only [a, b, c, d, reduceIte]
  · simp [gFunc]
  · simp only [iFunc, i1, gFunc, Phono3py.g1, f10, f20, f30, f21, f31, f32, f01, f02, f03,
      f12, f13, f23, d30]
    field_simp
    try ring1
  · simp only [iFunc, gFunc, i2_mul he (hg rfl), g2core, f10, f20, f30, f21, f31, f32, f01, f02, f03,
      f12, f13, f23, d30]
    field_simp
    try ring1
  · simp only [iFunc, i3, gFunc, Phono3py.g3, f10, f20, f30, f21, f31, f32, f01, f02, f03,
      f12, f13, f23, d30]
    field_simp
    try ring1
  · simp only [gFunc, mul_zero]
    field_simp
    try ring1

/-- The shares of interval 2 in the number of states, with the common factor cancelled. -/
theorem j2_mul (he : 0 < eps) (hn : eps ≤ n2 eps w v) (ci : Nat) :
    let f := fun (a b : Fin 4) => thmF eps a b w v
    j2 eps ci w v * n2 eps w v =
      (match ci with
      | 0 => (f 3 1 * f 2 1 + f 3 0 * f 1 3 * f 2 1 * (1 + f 0 3)
        + f 3 0 * f 2 0 * f 1 2 * (1 + f 0 3 + f 0 2))
      | 1 => (f 3 1 * f 2 1 * (1 + f 1 3 + f 1 2) + f 3 0 * f 1 3 * f 2 1 * (f 1 3 + f 1 2)
        + f 3 0 * f 2 0 * f 1 2 * f 1 2)
      | 2 => (f 3 1 * f 2 1 * f 2 1 + f 3 0 * f 1 3 * f 2 1 * f 2 1
        + f 3 0 * f 2 0 * f 1 2 * (f 2 1 + f 2 0))
      | _ => (f 3 1 * f 2 1 * f 3 1 + f 3 0 * f 1 3 * f 2 1 * (f 3 1 + f 3 0)
        + f 3 0 * f 2 0 * f 1 2 * f 3 0)) / 4 := by
  have hp : n2 eps w v ≠ 0 := by intro h0; linarith
  unfold j2
  simp only [if_neg (not_lt.2 hn)]
  rcases ci with _ | _ | _ | _ <;> exact div_mul_cancel₀ _ hp

theorem j3_mul (he : 0 < eps) (hn : eps ≤ n3 eps w v) (ci : Nat) :
    let f := fun (a b : Fin 4) => thmF eps a b w v
    j3 eps ci w v * n3 eps w v =
      (match ci with
      | 0 => (1 - f 0 3 * f 0 3 * f 1 3 * f 2 3)
      | 1 => (1 - f 0 3 * f 1 3 * f 1 3 * f 2 3)
      | 2 => (1 - f 0 3 * f 1 3 * f 2 3 * f 2 3)
      | _ => (1 - f 0 3 * f 1 3 * f 2 3 * (1 + f 3 0 + f 3 1 + f 3 2))) / 4 := by
  have hp : n3 eps w v ≠ 0 := by intro h0; linarith
  unfold j3
  simp only [if_neg (not_lt.2 hn)]
  rcases ci with _ | _ | _ | _ <;> exact div_mul_cancel₀ _ hp

theorem j_share0 (he : 0 < eps) (h : Distinct eps v) {i : Nat} (hi : InInterval v w i)
    (hn : i = 2 ∨ i = 3 → eps ≤ nFunc eps i w v) :
    jFunc eps i 0 w v * nFunc eps i w v = statesShare 0 w v := by
  obtain ⟨x, p, q, r, c⟩ : ∃ x p q r, Coord w v x p q r := ⟨_, _, _, _, h.coord he⟩
  obtain ⟨f10, f20, f30, f21, f31, f32, f01, f02, f03, f12, f13, f23⟩ := h.f he c
  obtain ⟨g0, g1, g2, g3⟩ := c.gaps
  obtain ⟨d10, d20, d30, d21, d31, d32, d01, d02, d03, d12, d13, d23⟩ := c.diffs
  obtain ⟨t30, t31, t32, t33⟩ := c.tpow 3
  obtain ⟨t40, t41, t42, t43⟩ := c.tpow 4
  have hI := c.interval i hi
  have hp := c.hp.ne'; have hq := c.hq.ne'; have hr := c.hr.ne'
  have hpq := (add_pos c.hp c.hq).ne'
  have hqr := (add_pos c.hq c.hr).ne'
  have hpqr := (add_pos (add_pos c.hp c.hq) c.hr).ne'
  simp only [statesShare, sum4, g0, g1, g2, g3, t30, t31, t32, t33, t40, t41, t42, t43, d10, d20, d30, d21, d31, d32,
    d01, d02, d03, d12, d13, d23, Fin.reduceEq, reduceIte]
  rcases hI with ⟨rfl, a, b, c, d⟩ | ⟨rfl, a, b, c, d⟩ | ⟨rfl, a, b, c, d⟩ | ⟨rfl, a, b, c, d⟩ |
    ⟨rfl, a, b, c, d⟩ <;> simp only [a, b, c, d, reduceIte]
  · simp [nFunc]
  · simp only [jFunc, j1, nFunc, n1, f10, f20, f30, f21, f31, f32, f01, f02, f03,
      f12, f13, f23, d30]
    field_simp
    try ring1
  · simp only [jFunc, nFunc, j2_mul he (hn (Or.inl rfl)), f10, f20, f30, f21, f31, f32, f01, f02, f03,
      f12, f13, f23, d30]
    field_simp
    try ring1
  · simp only [jFunc, nFunc, j3_mul he (hn (Or.inr rfl)), f10, f20, f30, f21, f31, f32, f01, f02, f03,
      f12, f13, f23, d30]
    field_simp
    try ring1
  · simp only [nFunc, jFunc]
    field_simp
    try ring1

theorem j_share1 (he : 0 < eps) (h : Distinct eps v) {i : Nat} (hi : InInterval v w i)
    (hn : i = 2 ∨ i = 3 → eps ≤ nFunc eps i w v) :
    jFunc eps i 1 w v * nFunc eps i w v = statesShare 1 w v := by
  obtain ⟨x, p, q, r, c⟩ : ∃ x p q r, Coord w v x p q r := ⟨_, _, _, _, h.coord he⟩
  obtain ⟨f10, f20, f30, f21, f31, f32, f01, f02, f03, f12, f13, f23⟩ := h.f he c
  obtain ⟨g0, g1, g2, g3⟩ := c.gaps
  obtain ⟨d10, d20, d30, d21, d31, d32, d01, d02, d03, d12, d13, d23⟩ := c.diffs
  obtain ⟨t30, t31, t32, t33⟩ := c.tpow 3
  obtain ⟨t40, t41, t42, t43⟩ := c.tpow 4
  have hI := c.interval i hi
  have hp := c.hp.ne'; have hq := c.hq.ne'; have hr := c.hr.ne'
  have hpq := (add_pos c.hp c.hq).ne'
  have hqr := (add_pos c.hq c.hr).ne'
  have hpqr := (add_pos (add_pos c.hp c.hq) c.hr).ne'
  simp only [statesShare, sum4, g0, g1, g2, g3, t30, t31, t32, t33, t40, t41, t42, t43, d10, d20, d30, d21, d31, d32,
    d01, d02, d03, d12, d13, d23, Fin.reduceEq, reduceIte]
  rcases hI with ⟨rfl, a, b, c, d⟩ | ⟨rfl, a, b, c, d⟩ | ⟨rfl, a, b, c, d⟩ | ⟨rfl, a, b, c, d⟩ |
    ⟨rfl, a, b, c, d⟩ <;> simp only [a, b, c, d, reduceIte]
  · simp [nFunc]
  · simp only [jFunc, j1, nFunc, n1, f10, f20, f30, f21, f31, f32, f01, f02, f03,
      f12, f13, f23, d30]
    field_simp
    try ring1
  · simp only [jFunc, nFunc, j2_mul he (hn (Or.inl rfl)), f10, f20, f30, f21, f31, f32, f01, f02, f03,
      f12, f13, f23, d30]
    field_simp
    try ring1
  · simp only [jFunc, nFunc, j3_mul he (hn (Or.inr rfl)), f10, f20, f30, f21, f31, f32, f01, f02, f03,
      f12, f13, f23, d30]
    field_simp
    try ring1
  · simp only [nFunc, jFunc]
    field_simp
    try ring1

theorem j_share2 (he : 0 < eps) (h : Distinct eps v) {i : Nat} (hi : InInterval v w i)
    (hn : i = 2 ∨ i = 3 → eps ≤ nFunc eps i w v) :
    jFunc eps i 2 w v * nFunc eps i w v = statesShare 2 w v := by
  obtain ⟨x, p, q, r, c⟩ : ∃ x p q r, Coord w v x p q r := ⟨_, _, _, _, h.coord he⟩
  obtain ⟨f10, f20, f30, f21, f31, f32, f01, f02, f03, f12, f13, f23⟩ := h.f he c
  obtain ⟨g0, g1, g2, g3⟩ := c.gaps
  obtain ⟨d10, d20, d30, d21, d31, d32, d01, d02, d03, d12, d13, d23⟩ := c.diffs
  obtain ⟨t30, t31, t32, t33⟩ := c.tpow 3
  obtain ⟨t40, t41, t42, t43⟩ := c.tpow 4
  have hI := c.interval i hi
  have hp := c.hp.ne'; have hq := c.hq.ne'; have hr := c.hr.ne'
  have hpq := (add_pos c.hp c.hq).ne'
  have hqr := (add_pos c.hq c.hr).ne'
  have hpqr := (add_pos (add_pos c.hp c.hq) c.hr).ne'
  simp only [statesShare, sum4, g0, g1, g2, g3, t30, t31, t32, t33, t40, t41, t42, t43, d10, d20, d30, d21, d31, d32,
    d01, d02, d03, d12, d13, d23, Fin.reduceEq, reduceIte]
  rcases hI with ⟨rfl, a, b, c, d⟩ | ⟨rfl, a, b, c, d⟩ | ⟨rfl, a, b, c, d⟩ | ⟨rfl, a, b, c, d⟩ |
    ⟨rfl, a, b, c, d⟩ <;> simp only [a, b, c, d, reduceIte]
  · simp [nFunc]
  · simp only [jFunc, j1, nFunc, n1, f10, f20, f30, f21, f31, f32, f01, f02, f03,
      f12, f13, f23, d30]
    field_simp
    try ring1
  · simp only [jFunc, nFunc, j2_mul he (hn (Or.inl rfl)), f10, f20, f30, f21, f31, f32, f01, f02, f03,
      f12, f13, f23, d30]
    field_simp
    try ring1
  · simp only [jFunc, nFunc, j3_mul he (hn (Or.inr rfl)), f10, f20, f30, f21, f31, f32, f01, f02, f03,
      f12, f13, f23, d30]
    field_simp
    try ring1
  · simp only [nFunc, jFunc]
    field_simp
    try ring1

theorem j_share3 (he : 0 < eps) (h : Distinct eps v) {i : Nat} (hi : InInterval v w i)
    (hn : i = 2 ∨ i = 3 → eps ≤ nFunc eps i w v) :
    jFunc eps i 3 w v * nFunc eps i w v = statesShare 3 w v := by
  obtain ⟨x, p, q, r, c⟩ : ∃ x p q r, Coord w v x p q r := ⟨_, _, _, _, h.coord he⟩
  obtain ⟨f10, f20, f30, f21, f31, f32, f01, f02, f03, f12, f13, f23⟩ := h.f he c
  obtain ⟨g0, g1, g2, g3⟩ := c.gaps
  obtain ⟨d10, d20, d30, d21, d31, d32, d01, d02, d03, d12, d13, d23⟩ := c.diffs
  obtain ⟨t30, t31, t32, t33⟩ := c.tpow 3
  obtain ⟨t40, t41, t42, t43⟩ := c.tpow 4
  have hI := c.interval i hi
  have hp := c.hp.ne'; have hq := c.hq.ne'; have hr := c.hr.ne'
  have hpq := (add_pos c.hp c.hq).ne'
  have hqr := (add_pos c.hq c.hr).ne'
  have hpqr := (add_pos (add_pos c.hp c.hq) c.hr).ne'
  simp only [statesShare, sum4, g0, g1, g2, g3, t30, t31, t32, t33, t40, t41, t42, t43, d10, d20, d30, d21, d31, d32,
    d01, d02, d03, d12, d13, d23, Fin.reduceEq, reduceIte]
  rcases hI with ⟨rfl, a, b, c, d⟩ | ⟨rfl, a, b, c, d⟩ | ⟨rfl, a, b, c, d⟩ | ⟨rfl, a, b, c, d⟩ |
    ⟨rfl, a, b, c, d⟩ <;> simp only [a, b, c, d, reduceIte]
  · simp [nFunc]
  · simp only [jFunc, j1, nFunc, n1, f10, f20, f30, f21, f31, f32, f01, f02, f03,
      f12, f13, f23, d30]
    field_simp
    try ring1
  · simp only [jFunc, nFunc, j2_mul he (hn (Or.inl rfl)), f10, f20, f30, f21, f31, f32, f01, f02, f03,
      f12, f13, f23, d30]
    field_simp
    try ring1
  · simp only [jFunc, nFunc, j3_mul he (hn (Or.inr rfl)), f10, f20, f30, f21, f31, f32, f01, f02, f03,
      f12, f13, f23, d30]
    field_simp
    try ring1
  · simp only [nFunc, jFunc]
    field_simp
    try ring1

end
end Phono3py
