/- Lemmas about the Smith normal form routine: `finalize` and the main loop. -/
import Verif.Lemmas.Snf

namespace Phono3py

/-- Diagonal with positive entries. -/
def PosDiag (A : M3) : Prop := IsDiag A ∧ 0 < A.m00 ∧ 0 < A.m11 ∧ 0 < A.m22

theorem flipRow_inv {A0 : M3} {s : Snf} (h : SnfInv A0 s) (d : Int) {L : M3}
    (hL : L.det.natAbs = 1) : SnfInv A0 (flipRowIf d L s) := by
  unfold flipRowIf; split
  · exact h.left hL
  · exact h

theorem makeDiagPositive_inv {A0 : M3} {s : Snf} (h : SnfInv A0 s) :
    SnfInv A0 (makeDiagPositive s) :=
  flipRow_inv (flipRow_inv (flipRow_inv h _ (by decide)) _ (by decide)) _ (by decide)

theorem isDiag_iff (A : M3) : IsDiag A ↔ A = M3.diag ⟨A.m00, A.m11, A.m22⟩ := by
  unfold IsDiag
  constructor
  · rintro ⟨a, b, c, d, e, f⟩
    ext <;> simp [M3.diag, a, b, c, d, e, f]
  · intro h; rw [h]; simp [M3.diag]

theorem makeDiagPositive_diag {s : Snf} {a b c : Int} (h : s.A = M3.diag ⟨a, b, c⟩) :
    (makeDiagPositive s).A = M3.diag ⟨|a|, |b|, |c|⟩ := by
  have h1 : (flipRowIf s.A.m00 (M3.diag ⟨-1, 1, 1⟩) s).A = M3.diag ⟨|a|, b, c⟩ := by
    unfold flipRowIf
    split
    · rename_i hh; rw [h] at hh ⊢
      rw [abs_of_neg (show a < 0 from hh)]
      ext <;> simp [M3.mul, M3.diag]
    · rename_i hh; rw [h] at hh
      rw [abs_of_nonneg (not_lt.1 (show ¬ a < 0 from hh)), h]
  unfold makeDiagPositive
  simp only
  generalize flipRowIf s.A.m00 (M3.diag ⟨-1, 1, 1⟩) s = s1 at *
  have h2 : (flipRowIf s1.A.m11 (M3.diag ⟨1, -1, 1⟩) s1).A = M3.diag ⟨|a|, |b|, c⟩ := by
    unfold flipRowIf
    split
    · rename_i hh; rw [h1] at hh ⊢
      rw [abs_of_neg (show b < 0 from hh)]
      ext <;> simp [M3.mul, M3.diag]
    · rename_i hh; rw [h1] at hh
      rw [abs_of_nonneg (not_lt.1 (show ¬ b < 0 from hh)), h1]
  generalize flipRowIf s1.A.m11 (M3.diag ⟨1, -1, 1⟩) s1 = s2 at *
  unfold flipRowIf
  split
  · rename_i hh; rw [h2] at hh ⊢
    rw [abs_of_neg (show c < 0 from hh)]
    ext <;> simp [M3.mul, M3.diag]
  · rename_i hh; rw [h2] at hh
    rw [abs_of_nonneg (not_lt.1 (show ¬ c < 0 from hh)), h2]

theorem swapDiag_inv {A0 : M3} {s : Snf} (h : SnfInv A0 s) {L : M3} (hL : L.det.natAbs = 1) :
    SnfInv A0 (swapDiagElems L s) := (h.left hL).right hL

theorem finalizeSort_inv {A0 : M3} {s : Snf} (h : SnfInv A0 s) : SnfInv A0 (finalizeSort s) := by
  have key : ∀ (p : Prop) [Decidable p] (L : M3) (t : Snf), L.det.natAbs = 1 → SnfInv A0 t →
      SnfInv A0 (if p then swapDiagElems L t else t) := by
    intro p _ L t hL ht; split
    · exact swapDiag_inv ht hL
    · exact ht
  exact key _ _ _ (by decide) (key _ _ _ (by decide) (key _ _ _ (by decide) h))

theorem swap01_diag {s : Snf} {a b c : Int} (h : s.A = M3.diag ⟨a, b, c⟩) :
    (swapDiagElems swap01 s).A = M3.diag ⟨b, a, c⟩ := by
  simp only [swapDiagElems, h]
  ext <;> simp [M3.mul, M3.diag, swap01, M3.transpose]

theorem swap12_diag {s : Snf} {a b c : Int} (h : s.A = M3.diag ⟨a, b, c⟩) :
    (swapDiagElems swap12 s).A = M3.diag ⟨a, c, b⟩ := by
  simp only [swapDiagElems, h]
  ext <;> simp [M3.mul, M3.diag, swap12, M3.transpose]

theorem finalizeSort_diag {s : Snf} {a b c : Int} (h : s.A = M3.diag ⟨a, b, c⟩)
    (ha : 0 < a) (hb : 0 < b) (hc : 0 < c) :
    ∃ x y z, (finalizeSort s).A = M3.diag ⟨x, y, z⟩ ∧ 0 < x ∧ x ≤ y ∧ y ≤ z := by
  have s1 : ∃ x y, (if s.A.m00 > s.A.m11 then swapDiagElems swap01 s else s).A
      = M3.diag ⟨x, y, c⟩ ∧ x ≤ y ∧ 0 < x := by
    split
    · rename_i hh; rw [h] at hh
      exact ⟨b, a, swap01_diag h, le_of_lt hh, hb⟩
    · rename_i hh; rw [h] at hh
      exact ⟨a, b, h, not_lt.1 hh, ha⟩
  unfold finalizeSort
  simp only
  generalize (if s.A.m00 > s.A.m11 then swapDiagElems swap01 s else s) = u at *
  obtain ⟨x, y, hu, hxy, hx⟩ := s1
  have s2 : ∃ y' z', (if u.A.m11 > u.A.m22 then swapDiagElems swap12 u else u).A
      = M3.diag ⟨x, y', z'⟩ ∧ y' ≤ z' ∧ x ≤ z' ∧ 0 < y' := by
    split
    · rename_i hh; rw [hu] at hh
      exact ⟨c, y, swap12_diag hu, le_of_lt hh, hxy, hc⟩
    · rename_i hh; rw [hu] at hh
      have : y ≤ c := not_lt.1 hh
      exact ⟨y, c, hu, this, by omega, by omega⟩
  generalize (if u.A.m11 > u.A.m22 then swapDiagElems swap12 u else u) = v at *
  obtain ⟨y', z', hv, h1, h2, h3⟩ := s2
  split
  · rename_i hh; rw [hv] at hh
    exact ⟨y', x, z', swap01_diag hv, h3, le_of_lt hh, h2⟩
  · rename_i hh; rw [hv] at hh
    exact ⟨x, y', z', hv, hx, not_lt.1 hh, h1⟩

/-- The elimination after a disturbance: two entries become gcd and lcm. -/
theorem gcd_lcm_facts {a b : Int} (ha : 0 < a) (hab : a ≤ b) (hnd : ¬ a ∣ b) :
    ∃ r x y u v : Int, extGcd a b = some (r, x, y) ∧ cdiv (-b) r = some u ∧ cdiv a r = some v ∧
      0 < r ∧ 0 < v ∧ r = Int.gcd a b ∧ v * b = Int.lcm a b ∧ x * a + y * b = r ∧
      u * a + v * b = 0 ∧ y * b ≠ 0 ∧ r ∣ y * b ∧ ¬ y * b ∣ r := by
  have hb : b ≠ 0 := by omega
  obtain ⟨r, x, y, hg, e1, e2⟩ := extGcd_spec (a := a) hb
  obtain ⟨hr, u, v, hu, hv, d, z, p, pu, pv⟩ := elim_facts hb hg
  have hr0 : 0 < r := extGcd_pos (by omega) hg
  have hrg : r = Int.gcd a b := by rw [← e2]; omega
  have hra : r ∣ a := ⟨v, by linarith⟩
  have hrb : r ∣ b := ⟨-u, by linarith⟩
  have hv0 : 0 < v := by
    by_contra hcon
    push Not at hcon
    nlinarith
  have hy : y ≠ 0 := by
    intro hy
    apply hnd
    have : a ∣ r := ⟨x, by rw [e1, hy]; ring⟩
    exact this.trans hrb
  have hlcm : v * b = Int.lcm a b := by
    have h1 : (Int.gcd a b : Int) * Int.lcm a b = a * b := by
      have := Int.gcd_mul_lcm a b
      have h2 : ((Int.gcd a b * Int.lcm a b : Nat) : Int) = ((a * b).natAbs : Int) := by
        rw [this]
        simp [Int.natAbs_mul]
      rw [Int.natAbs_of_nonneg (mul_nonneg ha.le (by omega))] at h2
      push_cast at h2; exact h2
    rw [← hrg] at h1
    have : r * (v * b - Int.lcm a b) = 0 := by linear_combination b * pv - h1
    rcases mul_eq_zero.1 this with h | h
    · exact absurd h hr
    · linarith
  refine ⟨r, x, y, u, v, hg, hu, hv, hr0, hv0, hrg, hlcm, p, z, mul_ne_zero hy hb,
    dvd_mul_of_dvd_right hrb y, ?_⟩
  intro hdv
  have hbr : b ∣ r := (dvd_mul_left b y).trans hdv
  have h1 := Int.le_of_dvd ha (hbr.trans hra)
  have : a = b := le_antisymm hab h1
  exact hnd (by rw [this])

theorem first_disturbed {s : Snf} {a b c : Int} (h : s.A = ⟨a, 0, 0, b, b, 0, 0, 0, c⟩)
    (ha : 0 < a) (hab : a ≤ b) (hnd : ¬ a ∣ b) :
    ∃ t, first s = some (true, t) ∧ t.A = M3.diag ⟨Int.gcd a b, Int.lcm a b, c⟩ := by
  obtain ⟨r, x, y, u, v, hg, hu, hv, hr0, hv0, hrg, hlcm, p, z, yb, d1, d2⟩ :=
    gcd_lcm_facts ha hab hnd
  have hb : b ≠ 0 := by omega
  have e1 : firstColumn ⟨s.A, s.P⟩ = some (AP.left ⟨s.A, s.P⟩ ⟨x, y, 0, u, v, 0, 0, 0, 1⟩) := by
    have ha' : a ≠ 0 := by omega
    simp [firstColumn, searchFirstPivot, h, ha', zeroFirst1, zeroFirst2, hb, hg, setZero01, hu, hv,
      AP.left, M3.mul]
  have eA : (AP.left ⟨s.A, s.P⟩ ⟨x, y, 0, u, v, 0, 0, 0, 1⟩).A
      = ⟨r, y * b, 0, 0, v * b, 0, 0, 0, c⟩ := by
    simp only [AP.left, h]
    ext <;> simp only [M3.mul] <;> first | ring1 | linarith
  generalize hP1 : (AP.left ⟨s.A, s.P⟩ ⟨x, y, 0, u, v, 0, 0, 0, 1⟩) = w at *
  have hg2 : extGcd r (y * b) = some (r, 1, 0) := extGcd_of_dvd yb hr0 d1 d2
  obtain ⟨_, u2, v2, hu2, hv2, _, z2, _, _, pv2⟩ := elim_facts yb hg2
  have hv1 : v2 = 1 := by
    have : (v2 - 1) * r = 0 := by linear_combination pv2
    rcases mul_eq_zero.1 this with h | h <;> omega
  subst hv1
  have e2 : firstColumn ⟨w.A.transpose, s.Q⟩
      = some (AP.left ⟨w.A.transpose, s.Q⟩ ⟨1, 0, 0, u2, 1, 0, 0, 0, 1⟩) := by
    have hr' : r ≠ 0 := by omega
    simp [firstColumn, searchFirstPivot, eA, hr', zeroFirst1, zeroFirst2, yb, hg2, setZero01,
      hu2, hv2, AP.left, M3.mul, M3.transpose]
  have eB : (AP.left ⟨w.A.transpose, s.Q⟩ ⟨1, 0, 0, u2, 1, 0, 0, 0, 1⟩).A.transpose
      = M3.diag ⟨Int.gcd a b, Int.lcm a b, c⟩ := by
    simp only [AP.left, eA, ← hrg, ← hlcm]
    ext <;> simp only [M3.mul, M3.diag, M3.transpose] <;> first | ring1 | linarith
  refine ⟨⟨M3.diag ⟨Int.gcd a b, Int.lcm a b, c⟩, w.P,
    (AP.left ⟨w.A.transpose, s.Q⟩ ⟨1, 0, 0, u2, 1, 0, 0, 0, 1⟩).P⟩, ?_, rfl⟩
  · simp only [first, oneLoop, e1, e2, Option.bind_eq_bind, Option.bind_some, eB]
    simp [M3.diag]

theorem second_disturbed {s : Snf} {a b c : Int} (h : s.A = ⟨c, 0, 0, 0, a, 0, 0, b, b⟩)
    (ha : 0 < a) (hab : a ≤ b) (hnd : ¬ a ∣ b) :
    ∃ t, second s = some (true, t) ∧ t.A = M3.diag ⟨c, Int.gcd a b, Int.lcm a b⟩ := by
  obtain ⟨r, x, y, u, v, hg, hu, hv, hr0, hv0, hrg, hlcm, p, z, yb, d1, d2⟩ :=
    gcd_lcm_facts ha hab hnd
  have hb : b ≠ 0 := by omega
  have e1 : secondColumn ⟨s.A, s.P⟩ = some (AP.left ⟨s.A, s.P⟩ ⟨1, 0, 0, 0, x, y, 0, u, v⟩) := by
    have ha' : a ≠ 0 := by omega
    simp [secondColumn, h, ha', hb, hg, setZero12, hu, hv, AP.left]
  have eA : (AP.left ⟨s.A, s.P⟩ ⟨1, 0, 0, 0, x, y, 0, u, v⟩).A
      = ⟨c, 0, 0, 0, r, y * b, 0, 0, v * b⟩ := by
    simp only [AP.left, h]
    ext <;> simp only [M3.mul] <;> first | ring1 | linarith
  generalize hP1 : (AP.left ⟨s.A, s.P⟩ ⟨1, 0, 0, 0, x, y, 0, u, v⟩) = w at *
  have hg2 : extGcd r (y * b) = some (r, 1, 0) := extGcd_of_dvd yb hr0 d1 d2
  obtain ⟨_, u2, v2, hu2, hv2, _, z2, _, _, pv2⟩ := elim_facts yb hg2
  have hv1 : v2 = 1 := by
    have : (v2 - 1) * r = 0 := by linear_combination pv2
    rcases mul_eq_zero.1 this with h | h <;> omega
  subst hv1
  have e2 : secondColumn ⟨w.A.transpose, s.Q⟩
      = some (AP.left ⟨w.A.transpose, s.Q⟩ ⟨1, 0, 0, 0, 1, 0, 0, u2, 1⟩) := by
    have hr' : r ≠ 0 := by omega
    simp [secondColumn, eA, hr', yb, hg2, setZero12, hu2, hv2, AP.left, M3.transpose]
  have eB : (AP.left ⟨w.A.transpose, s.Q⟩ ⟨1, 0, 0, 0, 1, 0, 0, u2, 1⟩).A.transpose
      = M3.diag ⟨c, Int.gcd a b, Int.lcm a b⟩ := by
    simp only [AP.left, eA, ← hrg, ← hlcm]
    ext <;> simp only [M3.mul, M3.diag, M3.transpose] <;> first | ring1 | linarith
  refine ⟨⟨M3.diag ⟨c, Int.gcd a b, Int.lcm a b⟩, w.P,
    (AP.left ⟨w.A.transpose, s.Q⟩ ⟨1, 0, 0, 0, 1, 0, 0, u2, 1⟩).P⟩, ?_, rfl⟩
  · simp only [second, oneLoop, e1, e2, Option.bind_eq_bind, Option.bind_some, eB]
    simp [M3.diag]

theorem lcm_pos' {a b : Int} (ha : 0 < a) (hb : 0 < b) : (0 : Int) < Int.lcm a b := by
  have : Int.lcm a b ≠ 0 := by
    intro h
    rw [Int.lcm_eq_zero_iff] at h
    omega
  omega

theorem gcd_pos' {a b : Int} (ha : 0 < a) : (0 : Int) < Int.gcd a b := by
  have : Int.gcd a b ≠ 0 := by
    intro h
    rw [Int.gcd_eq_zero_iff] at h
    omega
  omega

/-- Disturb and eliminate the first two diagonal elements. -/
theorem step01 {A0 : M3} (h0 : A0.det ≠ 0) {s : Snf} (hs : SnfInv A0 s) {a b c : Int}
    (h : s.A = M3.diag ⟨a, b, c⟩) (ha : 0 < a) (hab : a ≤ b) (hc : 0 < c) :
    ∃ t bb u x y, finalizeDisturb s.A.m00 s.A.m11 ⟨1, 1, 0, 0, 1, 0, 0, 0, 1⟩ s = some t ∧
      first t = some (bb, u) ∧ SnfInv A0 u ∧ u.A = M3.diag ⟨x, y, c⟩ ∧ 0 < x ∧ 0 < y := by
  have ha' : a ≠ 0 := by omega
  have hm : cmod s.A.m11 s.A.m00 = some (b.tmod a) := by simp [cmod, h, M3.diag, ha']
  unfold finalizeDisturb
  rw [hm]
  simp only [Option.bind_eq_bind, Option.bind_some]
  by_cases hd : a ∣ b
  · rw [if_neg (by rw [tmod_eq_zero_iff.2 hd]; simp)]
    have : first s = some (true, s) := by
      apply first_block <;> simp [h, Block, M3.diag, ha']
    exact ⟨s, true, s, a, b, rfl, this, hs, h, ha, by omega⟩
  · rw [if_pos (by rw [Ne, tmod_eq_zero_iff]; exact hd)]
    have ht : ((M3.mul ⟨1, 1, 0, 0, 1, 0, 0, 0, 1⟩ s.A.transpose).transpose)
        = ⟨a, 0, 0, b, b, 0, 0, 0, c⟩ := by
      rw [h]; ext <;> simp [M3.mul, M3.diag, M3.transpose]
    have hi := hs.right (L := ⟨1, 1, 0, 0, 1, 0, 0, 0, 1⟩) (by decide)
    obtain ⟨u, e, eA⟩ := first_disturbed (s := ⟨(M3.mul ⟨1, 1, 0, 0, 1, 0, 0, 0, 1⟩
      s.A.transpose).transpose, s.P, M3.mul ⟨1, 1, 0, 0, 1, 0, 0, 0, 1⟩ s.Q⟩) ht ha hab hd
    obtain ⟨b', u', e', i', _⟩ := first_spec h0 hi
    rw [e] at e'
    simp only [Option.some.injEq, Prod.mk.injEq] at e'
    rw [← e'.2] at i'
    exact ⟨_, _, _, _, _, rfl, e, i', eA, gcd_pos' ha, lcm_pos' ha (by omega)⟩

/-- Disturb and eliminate the last two diagonal elements. -/
theorem step12 {A0 : M3} (h0 : A0.det ≠ 0) {s : Snf} (hs : SnfInv A0 s) {a b c : Int}
    (h : s.A = M3.diag ⟨c, a, b⟩) (ha : 0 < a) (hab : a ≤ b) :
    ∃ t bb u x y, finalizeDisturb s.A.m11 s.A.m22 ⟨1, 0, 0, 0, 1, 1, 0, 0, 1⟩ s = some t ∧
      second t = some (bb, u) ∧ SnfInv A0 u ∧ u.A = M3.diag ⟨c, x, y⟩ ∧ 0 < x ∧ 0 < y ∧
      x ∣ y := by
  have ha' : a ≠ 0 := by omega
  have hm : cmod s.A.m22 s.A.m11 = some (b.tmod a) := by simp [cmod, h, M3.diag, ha']
  unfold finalizeDisturb
  rw [hm]
  simp only [Option.bind_eq_bind, Option.bind_some]
  by_cases hd : a ∣ b
  · rw [if_neg (by rw [tmod_eq_zero_iff.2 hd]; simp)]
    have : second s = some (true, s) := by
      apply second_diag; rw [h]; simp [IsDiag, M3.diag]
    exact ⟨s, true, s, a, b, rfl, this, hs, h, ha, by omega, hd⟩
  · rw [if_pos (by rw [Ne, tmod_eq_zero_iff]; exact hd)]
    have ht : ((M3.mul ⟨1, 0, 0, 0, 1, 1, 0, 0, 1⟩ s.A.transpose).transpose)
        = ⟨c, 0, 0, 0, a, 0, 0, b, b⟩ := by
      rw [h]; ext <;> simp [M3.mul, M3.diag, M3.transpose]
    have hi := hs.right (L := ⟨1, 0, 0, 0, 1, 1, 0, 0, 1⟩) (by decide)
    obtain ⟨u, e, eA⟩ := second_disturbed (s := ⟨(M3.mul ⟨1, 0, 0, 0, 1, 1, 0, 0, 1⟩
      s.A.transpose).transpose, s.P, M3.mul ⟨1, 0, 0, 0, 1, 1, 0, 0, 1⟩ s.Q⟩) ht ha hab hd
    obtain ⟨b', u', e', i', _⟩ := second_spec h0 hi (by
      simp only [ht, Block, and_self])
    rw [e] at e'
    simp only [Option.some.injEq, Prod.mk.injEq] at e'
    rw [← e'.2] at i'
    refine ⟨_, _, _, _, _, rfl, e, i', eA, gcd_pos' ha, lcm_pos' ha (by omega), ?_⟩
    exact (Int.gcd_dvd_left ..).trans (Int.dvd_lcm_left ..)

theorem flipPQ_inv {A0 : M3} {s : Snf} (h : SnfInv A0 s) :
    SnfInv A0 (flipPQ s) ∧ (flipPQ s).P.det = 1 ∧ (flipPQ s).A = s.A := by
  obtain ⟨a, p, q⟩ := h
  unfold flipPQ
  by_cases c : s.P.det < 0
  · rw [if_pos c]
    have hn : M3.negOne.det = -1 := by decide
    refine ⟨⟨?_, ?_, ?_⟩, ?_, rfl⟩
    · simp only
      rw [a]
      ext <;> simp only [M3.mul, M3.negOne, M3.transpose] <;> ring
    · simp only [M3.det_mul, hn]; omega
    · simp only [M3.det_mul, hn]; omega
    · simp only [M3.det_mul, hn]; omega
  · rw [if_neg c]
    exact ⟨⟨a, p, q⟩, by omega, rfl⟩

theorem finalize_spec {A0 : M3} (h0 : A0.det ≠ 0) {s : Snf} (hs : SnfInv A0 s)
    (hd : IsDiag s.A) :
    ∃ t, finalize s = some t ∧ SnfInv A0 t ∧ t.P.det = 1 ∧ PosDiag t.A ∧ t.A.m11 ∣ t.A.m22 := by
  rw [isDiag_iff] at hd
  have hdet := hs.det_ne h0
  generalize s.A.m00 = a at *
  generalize s.A.m11 = b at *
  generalize s.A.m22 = c at *
  have hprod : a * b * c ≠ 0 := by
    intro hz; apply hdet; rw [hd]; simp only [M3.det, M3.diag]
    linear_combination hz
  have ha : 0 < |a| := abs_pos.2 (by rintro rfl; simp at hprod)
  have hb : 0 < |b| := abs_pos.2 (by rintro rfl; simp at hprod)
  have hc : 0 < |c| := abs_pos.2 (by rintro rfl; simp at hprod)
  have i1 := makeDiagPositive_inv hs
  have d1 := makeDiagPositive_diag hd
  unfold finalize
  simp only
  generalize makeDiagPositive s = s1 at *
  have i2 := finalizeSort_inv i1
  obtain ⟨x, y, z, d2, hx, hxy, hyz⟩ := finalizeSort_diag d1 ha hb hc
  generalize finalizeSort s1 = s2 at *
  obtain ⟨t, bb, u, x', y', e1, e2, i3, d3, hx', hy'⟩ := step01 h0 i2 d2 hx hxy (by omega)
  rw [e1]
  simp only [Option.bind_eq_bind, Option.bind_some, e2]
  have i4 := finalizeSort_inv i3
  obtain ⟨x2, y2, z2, d4, hx2, hxy2, hyz2⟩ := finalizeSort_diag d3 hx' hy' (by omega)
  generalize finalizeSort u = s3 at *
  obtain ⟨t', bb', u', x3, y3, e3, e4, i5, d5, hx3, hy3, hdv⟩ := step12 h0 i4 d4 (by omega) hyz2
  rw [e3]
  simp only [Option.bind_some, e4]
  obtain ⟨i6, p6, a6⟩ := flipPQ_inv i5
  refine ⟨_, rfl, i6, p6, ?_, ?_⟩
  · rw [a6, d5]; refine ⟨?_, hx2, hx3, hy3⟩
    simp [IsDiag, M3.diag]
  · rw [a6, d5]; exact hdv

/-! ### the loop -/

/-- Soundness: whenever the routine reports success the result is right; it never divides
by zero. -/
theorem snfLoop_sound {A0 : M3} (h0 : A0.det ≠ 0) : ∀ (n : Nat) (s : Snf), SnfInv A0 s →
    ∃ o, snfLoop n s = some o ∧ ∀ t, o = some t →
      t.A = (t.P.mul A0).mul t.Q ∧ t.P.det = 1 ∧ t.Q.det.natAbs = 1 ∧ PosDiag t.A ∧
      t.A.m11 ∣ t.A.m22 := by
  intro n
  induction n with
  | zero => intro s _; exact ⟨none, rfl, by simp⟩
  | succ n ih =>
    intro s hs
    obtain ⟨b1, s1, e1, i1, z1, z2, n1, d1, k1, _⟩ := first_spec h0 hs
    unfold snfLoop
    simp only [e1, Option.bind_eq_bind, Option.bind_some]
    cases b1
    · simpa using ih s1 i1
    · simp only [if_true]
      obtain ⟨b2, s2, e2, i2, _, _, _, _, _, k2, _⟩ := second_spec h0 i1 (k1 rfl)
      simp only [e2, Option.bind_some]
      cases b2
      · simpa using ih s2 i2
      · simp only [if_true]
        obtain ⟨t, e3, i3, p3, d3, v3⟩ := finalize_spec h0 i2 (k2 rfl)
        simp only [e3, Option.bind_some]
        refine ⟨_, rfl, ?_⟩
        intro t' ht'
        simp only [Option.some.injEq] at ht'
        subst ht'
        refine ⟨i3.1, p3, ?_, d3, v3⟩
        simp only [M3.det_transpose]; exact i3.2.2

/-- A proper divisor is at most half. -/
theorem natAbs_le_half {a b : Int} (hb : b ≠ 0) (h : a ∣ b) (hn : ¬ b ∣ a) :
    2 * a.natAbs ≤ b.natAbs := by
  obtain ⟨k, rfl⟩ := h
  have hk : k.natAbs ≠ 0 := by
    intro hk; apply hb; rw [Int.natAbs_eq_zero.1 hk]; ring
  have hk1 : k.natAbs ≠ 1 := by
    intro hk1
    apply hn
    rcases Int.natAbs_eq_natAbs_iff.1 (hk1.trans (Int.natAbs_one).symm) with e | e <;> rw [e] <;> simp
  rw [Int.natAbs_mul, Nat.mul_comm 2]
  exact Nat.mul_le_mul_left _ (by omega)

/-- Second phase: from a block form with second pivot a proper obstruction. -/
theorem snfLoop_second {A0 : M3} (h0 : A0.det ≠ 0) : ∀ (n : Nat) (s : Snf), SnfInv A0 s →
    Block s.A → s.A.m00 ≠ 0 → s.A.m11 ≠ 0 → ¬ s.A.m11 ∣ s.A.m21 → s.A.m11.natAbs < 2 ^ n →
    ∃ t, snfLoop n s = some (some t) := by
  intro n
  induction n with
  | zero => intro s _ _ _ h _ hl; simp at hl; exact absurd hl h
  | succ n ih =>
    intro s hs hb h00 h11 hnd hl
    unfold snfLoop
    simp only [first_block hb h00, Option.bind_eq_bind, Option.bind_some, if_true]
    obtain ⟨b2, s2, e2, i2, bl, k00, k12, k11, d, k2, k3⟩ := second_spec h0 hs hb
    simp only [e2, Option.bind_some]
    cases b2
    · simp only [Bool.false_eq_true, if_false]
      refine ih s2 i2 bl (by rw [k00]; exact h00) k11 (k3 rfl) ?_
      have : ¬ s.A.m11 ∣ s2.A.m11 := fun hh => hnd (hh.trans d.2)
      have := natAbs_le_half h11 d.1 this
      rw [pow_succ] at hl; omega
    · simp only [if_true]
      obtain ⟨t, e3, _⟩ := finalize_spec h0 i2 (k2 rfl)
      simp only [e3, Option.bind_some]
      exact ⟨_, rfl⟩

theorem dvd_det_first {A : M3} (h1 : A.m01 = 0) (h2 : A.m02 = 0) : A.m00 ∣ A.det :=
  ⟨A.m11 * A.m22 - A.m12 * A.m21, by simp only [M3.det, h1, h2]; ring⟩

theorem dvd_det_second {A : M3} (h : Block A) (h2 : A.m12 = 0) : A.m11 ∣ A.det :=
  ⟨A.m00 * A.m22, by obtain ⟨a, b, c, d⟩ := h; simp only [M3.det, a, b, c, d, h2]; ring⟩

theorem natAbs_lt_of_dvd {a b : Int} {N : Nat} (h : a ∣ b) (hb : b ≠ 0) (hl : b.natAbs < N) :
    a.natAbs < N :=
  lt_of_le_of_lt (Nat.le_of_dvd (Int.natAbs_pos.2 hb) (Int.natAbs_dvd_natAbs.2 h)) hl

/-- First phase. -/
theorem snfLoop_first {A0 : M3} (h0 : A0.det ≠ 0) (m : Nat) (hm : A0.det.natAbs < 2 ^ m) :
    ∀ (n : Nat) (s : Snf), SnfInv A0 s → s.A.m00 ≠ 0 →
    ¬ (s.A.m00 ∣ s.A.m10 ∧ s.A.m00 ∣ s.A.m20) → s.A.m00.natAbs < 2 ^ n →
    ∃ t, snfLoop (n + m) s = some (some t) := by
  intro n
  induction n with
  | zero =>
    intro s _ h _ hl; simp at hl; exact absurd hl h
  | succ n ih =>
    intro s hs h00 hnd hl
    rw [show n + 1 + m = (n + m) + 1 from by ring]
    unfold snfLoop
    obtain ⟨b1, s1, e1, i1, z1, z2, n1, d1, k1, k1'⟩ := first_spec h0 hs
    simp only [e1, Option.bind_eq_bind, Option.bind_some]
    cases b1
    · simp only [Bool.false_eq_true, if_false]
      refine ih s1 i1 n1 (k1' rfl) ?_
      have : ¬ s.A.m00 ∣ s1.A.m00 := fun hh => hnd ⟨hh.trans d1.2.1, hh.trans d1.2.2⟩
      have := natAbs_le_half h00 d1.1 this
      rw [pow_succ] at hl; omega
    · simp only [if_true]
      obtain ⟨b2, s2, e2, i2, bl, k00, k12, k11, d, k2, k3⟩ := second_spec h0 i1 (k1 rfl)
      simp only [e2, Option.bind_some]
      cases b2
      · simp only [Bool.false_eq_true, if_false]
        have hl2 : s2.A.m11.natAbs < 2 ^ (n + m) := by
          refine lt_of_lt_of_le (natAbs_lt_of_dvd (dvd_det_second bl k12) (i2.det_ne h0) ?_)
            (Nat.pow_le_pow_right (by norm_num) (Nat.le_add_left m n))
          rw [i2.det_eq]; exact hm
        exact snfLoop_second h0 (n + m) s2 i2 bl (by rw [k00]; exact n1) k11 (k3 rfl) hl2
      · simp only [if_true]
        obtain ⟨t, e3, _⟩ := finalize_spec h0 i2 (k2 rfl)
        simp only [e3, Option.bind_some]
        exact ⟨_, rfl⟩

theorem snfInv_init (A : M3) : SnfInv A ⟨A, M3.one, M3.one⟩ := by
  have h1 : M3.one.det.natAbs = 1 := by decide
  refine ⟨?_, h1, h1⟩
  simp only [M3.one_mul]
  exact (M3.mul_one A).symm

/-- The 100 rounds suffice for every matrix of determinant below 2^49. -/
theorem snf_complete (A : M3) (h0 : A.det ≠ 0) (hm : A.det.natAbs < 2 ^ 49) :
    ∃ t, snf3x3 A = some (some t) := by
  unfold snf3x3
  rw [show (100 : Nat) = 99 + 1 from rfl]
  unfold snfLoop
  have hs := snfInv_init A
  obtain ⟨b1, s1, e1, i1, z1, z2, n1, d1, k1, k1'⟩ := first_spec h0 hs
  simp only [e1, Option.bind_eq_bind, Option.bind_some]
  cases b1
  · simp only [Bool.false_eq_true, if_false]
    have hl : s1.A.m00.natAbs < 2 ^ 50 := by
      refine natAbs_lt_of_dvd (dvd_det_first z1 z2) (i1.det_ne h0) ?_
      rw [i1.det_eq]; exact lt_trans hm (by norm_num)
    exact snfLoop_first h0 49 hm 50 s1 i1 n1 (k1' rfl) hl
  · simp only [if_true]
    obtain ⟨b2, s2, e2, i2, bl, k00, k12, k11, d, k2, k3⟩ := second_spec h0 i1 (k1 rfl)
    simp only [e2, Option.bind_some]
    cases b2
    · simp only [Bool.false_eq_true, if_false]
      have hl2 : s2.A.m11.natAbs < 2 ^ 99 := by
        refine natAbs_lt_of_dvd (dvd_det_second bl k12) (i2.det_ne h0) ?_
        rw [i2.det_eq]; exact lt_trans hm (by norm_num)
      exact snfLoop_second h0 99 s2 i2 bl (by rw [k00]; exact n1) k11 (k3 rfl) hl2
    · simp only [if_true]
      obtain ⟨t, e3, _⟩ := finalize_spec h0 i2 (k2 rfl)
      simp only [e3, Option.bind_some]
      exact ⟨_, rfl⟩

end Phono3py
