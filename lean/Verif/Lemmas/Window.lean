/-
Pure inequalities about a ternary quadratic form that is Minkowski reduced up to a
tolerance: the coordinates of the points of its Voronoi cell are below 5/2.
`A`, `B`, `C` are the squared lengths of the basis vectors, `x`, `e`, `z` the products
`b·c`, `a·c`, `a·b`.
-/
import Mathlib.Algebra.Order.Field.Basic
import Mathlib.Algebra.Order.Floor.Ring
import Mathlib.Tactic.Ring
import Mathlib.Tactic.Linarith
import Mathlib.Tactic.LinearCombination
import Mathlib.Tactic.NormNum

namespace Phono3py

section
variable {K : Type _} [Field K] [LinearOrder K] [IsStrictOrderedRing K]

/-- `|y₁ a + y₂ b + y₃ c|²`. -/
def form (A B C x e z y1 y2 y3 : K) : K :=
  A * y1 * y1 + B * y2 * y2 + C * y3 * y3 + 2 * z * y1 * y2 + 2 * e * y1 * y3 + 2 * x * y2 * y3

theorem window_P_pos (A B X E s : K) (hA : 0 ≤ A) (hAB : A ≤ B) (hs0 : 0 ≤ s) (hs : 2 * s ≤ A)
    (hX0 : 0 ≤ X) (hX : 2 * X ≤ B) (hE0 : 0 ≤ E) (hE : 2 * E ≤ A) :
    4 * (A * X * X + B * E * E - 2 * X * E * s) ≤ A * B * (A + B - 2 * s) := by
  obtain ⟨u, hu⟩ : ∃ u, u = B / 2 - X := ⟨_, rfl⟩
  obtain ⟨v, hv⟩ : ∃ v, v = A / 2 - E := ⟨_, rfl⟩
  have hu0 : 0 ≤ u := by linarith
  have hv0 : 0 ≤ v := by linarith
  have hX' : X = B / 2 - u := by linarith
  have hE' : E = A / 2 - v := by linarith
  have h1 : 0 ≤ A * u * (B - u - s) := mul_nonneg (mul_nonneg hA hu0) (by linarith)
  have h2 : 0 ≤ B * v * (A - v - s) := mul_nonneg (mul_nonneg (by linarith) hv0) (by linarith)
  have h3 : 0 ≤ s * u * v := mul_nonneg (mul_nonneg hs0 hu0) hv0
  rw [hX', hE']
  nlinarith

theorem window_P_neg (A B X E s : K) (hA : 0 ≤ A) (hAB : A ≤ B) (hs0 : 0 ≤ s) (hs : 2 * s ≤ A)
    (hX0 : 0 ≤ X) (hX : 2 * X ≤ B) (hE0 : 0 ≤ E) (hE : 2 * E ≤ A)
    (ht : 2 * (X + E + s) ≤ A + B) :
    4 * (A * X * X + B * E * E + 2 * X * E * s) ≤ A * B * (A + B - 2 * s) := by
  rcases le_total (B - 2 * s) (2 * X) with h | h
  · -- increase `E` to the edge of the hexagon
    obtain ⟨F, hF⟩ : ∃ F, F = (A + B) / 2 - s - X := ⟨_, rfl⟩
    have hEF : E ≤ F := by linarith
    have m1 : B * E * E + 2 * X * E * s ≤ B * F * F + 2 * X * F * s := by
      have : 0 ≤ (F - E) * (B * (F + E) + 2 * X * s) :=
        mul_nonneg (by linarith) (add_nonneg (mul_nonneg (by linarith) (by linarith))
          (mul_nonneg (by linarith) hs0))
      nlinarith
    have m2 : 0 ≤ (A + B - 2 * s) * ((B - 2 * X) * (2 * X - (B - 2 * s))) :=
      mul_nonneg (by linarith) (mul_nonneg (by linarith) (by linarith))
    have m3 : 4 * (A * X * X + B * F * F + 2 * X * F * s) +
        (A + B - 2 * s) * ((B - 2 * X) * (2 * X - (B - 2 * s))) = A * B * (A + B - 2 * s) := by
      rw [hF]; ring
    linarith
  · have m1 : B * E * E + 2 * X * E * s ≤ B * (A / 2) * (A / 2) + 2 * X * (A / 2) * s := by
      have : 0 ≤ (A / 2 - E) * (B * (A / 2 + E) + 2 * X * s) :=
        mul_nonneg (by linarith) (add_nonneg (mul_nonneg (by linarith) (by linarith))
          (mul_nonneg (by linarith) hs0))
      nlinarith
    have m2 : A * X * X + A * X * s ≤ A * (B / 2 - s) * (B / 2 - s) + A * (B / 2 - s) * s := by
      have : 0 ≤ A * ((B / 2 - s - X) * ((B / 2 - s + X) + s)) :=
        mul_nonneg hA (mul_nonneg (by linarith) (by linarith))
      nlinarith
    nlinarith

/-- The height of `c` over the plane of `a` and `b` is at least `|c|/√2`. -/
theorem window_height (A B C x e z : K) (hA : 0 ≤ A) (hAB : A ≤ B) (hBC : B ≤ C)
    (hz : 2 * |z| ≤ A) (he : 2 * |e| ≤ A) (hx : 2 * |x| ≤ B)
    (ht : x * e * z < 0 → 2 * (|x| + |e| + |z|) ≤ A + B) :
    2 * (A * x * x + B * e * e - 2 * x * e * z) ≤ C * (A * B - z * z) := by
  have ax := abs_nonneg x; have ae := abs_nonneg e; have az := abs_nonneg z
  have sx : |x| * |x| = x * x := abs_mul_abs_self x
  have se : |e| * |e| = e * e := abs_mul_abs_self e
  have sz : |z| * |z| = z * z := abs_mul_abs_self z
  have hp : |x| * |e| * |z| = |x * e * z| := by rw [abs_mul, abs_mul]
  have key : 4 * (A * x * x + B * e * e - 2 * x * e * z) ≤ A * B * (A + B - 2 * |z|) := by
    rcases lt_or_ge (x * e * z) 0 with h | h
    · have := window_P_neg A B |x| |e| |z| hA hAB az hz ax hx ae he (ht h)
      rw [abs_of_neg h] at hp
      nlinarith
    · have := window_P_pos A B |x| |e| |z| hA hAB az hz ax hx ae he
      rw [abs_of_nonneg h] at hp
      nlinarith
  have hB : 0 ≤ B := le_trans hA hAB
  have k2 : A * B * (A + B - 2 * |z|) ≤ 2 * (B * (A * B - z * z)) := by
    have h1 : 0 ≤ B * (A * (B - A) + 2 * |z| * (A - |z|)) :=
      mul_nonneg hB (add_nonneg (mul_nonneg hA (by linarith))
        (mul_nonneg (by linarith) (by linarith)))
    nlinarith
  have hM : 0 ≤ A * B - z * z := by
    have : |z| * |z| ≤ A * B := mul_le_mul (by linarith) (by linarith) az hA
    linarith
  have k3 : B * (A * B - z * z) ≤ C * (A * B - z * z) := mul_le_mul_of_nonneg_right hBC hM
  linarith

/-- `|y|²` is at least half of the part of `c`. -/
theorem window_form (A B C x e z y1 y2 y3 : K) (hA : 0 < A) (hAB : A ≤ B) (hBC : B ≤ C)
    (hz : 2 * |z| ≤ A) (he : 2 * |e| ≤ A) (hx : 2 * |x| ≤ B)
    (ht : x * e * z < 0 → 2 * (|x| + |e| + |z|) ≤ A + B) :
    C * y3 * y3 ≤ 2 * form A B C x e z y1 y2 y3 := by
  have hh := window_height A B C x e z hA.le hAB hBC hz he hx ht
  have az := abs_nonneg z
  have sz : |z| * |z| = z * z := abs_mul_abs_self z
  have hM : 0 < A * B - z * z := by
    have : |z| * |z| ≤ (A / 2) * (B / 2) := mul_le_mul (by linarith) (by linarith) az (by linarith)
    have hAB' : 0 < A * B := mul_pos hA (lt_of_lt_of_le hA hAB)
    nlinarith
  obtain ⟨M, hMd⟩ : ∃ M, M = A * B - z * z := ⟨_, rfl⟩
  rw [← hMd] at hM hh
  have id1 : A * (M * (2 * form A B C x e z y1 y2 y3 - C * y3 * y3)) =
      2 * (M * ((A * y1 + z * y2 + e * y3) * (A * y1 + z * y2 + e * y3)) +
        (M * y2 + (A * x - z * e) * y3) * (M * y2 + (A * x - z * e) * y3)) +
      A * ((C * M - 2 * (A * x * x + B * e * e - 2 * x * e * z)) * (y3 * y3)) := by
    rw [hMd]; unfold form; ring
  have p1 : 0 ≤ M * ((A * y1 + z * y2 + e * y3) * (A * y1 + z * y2 + e * y3)) :=
    mul_nonneg hM.le (mul_self_nonneg _)
  have p2 := mul_self_nonneg (M * y2 + (A * x - z * e) * y3)
  have p3 : 0 ≤ A * ((C * M - 2 * (A * x * x + B * e * e - 2 * x * e * z)) * (y3 * y3)) :=
    mul_nonneg hA.le (mul_nonneg (by linarith) (mul_self_nonneg _))
  have p4 : 0 ≤ A * (M * (2 * form A B C x e z y1 y2 y3 - C * y3 * y3)) := by
    rw [id1]; linarith
  have p5 : 0 ≤ M * (2 * form A B C x e z y1 y2 y3 - C * y3 * y3) := nonneg_of_mul_nonneg_right p4 hA
  have p6 := nonneg_of_mul_nonneg_right p5 hM
  linarith

theorem window_num (w : K) (h : 283 / 200 ≤ w)
    (q : w * w ≤ 3 / 2 + (3 / 50) * ((99 + 101 * w) / 97 * ((99 + 101 * w) / 97) + w * w)) :
    False := by
  obtain ⟨d, hd⟩ : ∃ d, d = w - 283 / 200 := ⟨_, rfl⟩
  have hw : w = 283 / 200 + d := by linarith
  have d0 : 0 ≤ d := by linarith
  rw [hw] at q
  have d2 := mul_self_nonneg d
  have e : (3 / 2 + (3 / 50) * ((99 + 101 * (283 / 200 + d)) / 97 * ((99 + 101 * (283 / 200 + d)) / 97)
      + (283 / 200 + d) * (283 / 200 + d))) - (283 / 200 + d) * (283 / 200 + d) =
      (3 / 2 - 47 / 50 * (283 / 200) * (283 / 200) + 3 / 50 * ((99 + 101 * 283 / 200) * (99 + 101 * 283 / 200)) / 9409) +
      (- (47 / 50 * (283 / 100)) + 3 / 50 * (202 * (99 + 101 * 283 / 200)) / 9409) * d
      + (- (47 / 50) + 3 / 50 * (101 * 101) / 9409) * (d * d) := by
    ring
  norm_num at e
  linarith

variable [FloorRing K]

/-- A point not longer than any of its translates is at most half the cell diagonal long. -/
theorem window_radius (A B C x e z y1 y2 y3 : K) (hA : 0 ≤ A) (hB : 0 ≤ B) (hC : 0 ≤ C)
    (hmin : ∀ n1 n2 n3 : Int, form A B C x e z y1 y2 y3 ≤
      form A B C x e z (y1 - n1) (y2 - n2) (y3 - n3)) :
    4 * form A B C x e z y1 y2 y3 ≤ A + B + C := by
  obtain ⟨q, hq⟩ : ∃ q, q = form A B C x e z y1 y2 y3 := ⟨_, rfl⟩
  obtain ⟨f, hf⟩ : ∃ f, f = Int.fract y1 := ⟨_, rfl⟩
  obtain ⟨g, hg⟩ : ∃ g, g = Int.fract y2 := ⟨_, rfl⟩
  obtain ⟨h, hh⟩ : ∃ h, h = Int.fract y3 := ⟨_, rfl⟩
  have f0 : 0 ≤ f := hf ▸ Int.fract_nonneg y1
  have g0 : 0 ≤ g := hg ▸ Int.fract_nonneg y2
  have h0 : 0 ≤ h := hh ▸ Int.fract_nonneg y3
  have f1 : 0 ≤ 1 - f := by rw [hf]; linarith [Int.fract_lt_one y1]
  have g1 : 0 ≤ 1 - g := by rw [hg]; linarith [Int.fract_lt_one y2]
  have h1 : 0 ≤ 1 - h := by rw [hh]; linarith [Int.fract_lt_one y3]
  have e1 : y1 - (⌊y1⌋ : K) = f := by rw [hf]; exact Int.self_sub_floor y1
  have e2 : y2 - (⌊y2⌋ : K) = g := by rw [hg]; exact Int.self_sub_floor y2
  have e3 : y3 - (⌊y3⌋ : K) = h := by rw [hh]; exact Int.self_sub_floor y3
  have e1' : y1 - ((⌊y1⌋ + 1 : Int) : K) = f - 1 := by rw [← e1]; push_cast; ring
  have e2' : y2 - ((⌊y2⌋ + 1 : Int) : K) = g - 1 := by rw [← e2]; push_cast; ring
  have e3' : y3 - ((⌊y3⌋ + 1 : Int) : K) = h - 1 := by rw [← e3]; push_cast; ring
  have m000 := hmin ⌊y1⌋ ⌊y2⌋ ⌊y3⌋
  have m001 := hmin ⌊y1⌋ ⌊y2⌋ (⌊y3⌋ + 1)
  have m010 := hmin ⌊y1⌋ (⌊y2⌋ + 1) ⌊y3⌋
  have m011 := hmin ⌊y1⌋ (⌊y2⌋ + 1) (⌊y3⌋ + 1)
  have m100 := hmin (⌊y1⌋ + 1) ⌊y2⌋ ⌊y3⌋
  have m101 := hmin (⌊y1⌋ + 1) ⌊y2⌋ (⌊y3⌋ + 1)
  have m110 := hmin (⌊y1⌋ + 1) (⌊y2⌋ + 1) ⌊y3⌋
  have m111 := hmin (⌊y1⌋ + 1) (⌊y2⌋ + 1) (⌊y3⌋ + 1)
  rw [← hq] at m000 m001 m010 m011 m100 m101 m110 m111 ⊢
  rw [e1, e2, e3] at m000
  rw [e1, e2, e3'] at m001
  rw [e1, e2', e3] at m010
  rw [e1, e2', e3'] at m011
  rw [e1', e2, e3] at m100
  rw [e1', e2, e3'] at m101
  rw [e1', e2', e3] at m110
  rw [e1', e2', e3'] at m111
  have w (a b c p : K) (ha : 0 ≤ a) (hb : 0 ≤ b) (hc : 0 ≤ c) (hp : q ≤ p) :
      a * b * c * q ≤ a * b * c * p :=
    mul_le_mul_of_nonneg_left hp (mul_nonneg (mul_nonneg ha hb) hc)
  have s000 := w _ _ _ _ f1 g1 h1 m000
  have s001 := w _ _ _ _ f1 g1 h0 m001
  have s010 := w _ _ _ _ f1 g0 h1 m010
  have s011 := w _ _ _ _ f1 g0 h0 m011
  have s100 := w _ _ _ _ f0 g1 h1 m100
  have s101 := w _ _ _ _ f0 g1 h0 m101
  have s110 := w _ _ _ _ f0 g0 h1 m110
  have s111 := w _ _ _ _ f0 g0 h0 m111
  have sum := add_le_add (add_le_add (add_le_add s000 s001) (add_le_add s010 s011))
    (add_le_add (add_le_add s100 s101) (add_le_add s110 s111))
  have l : (1 - f) * (1 - g) * (1 - h) * q + (1 - f) * (1 - g) * h * q +
      ((1 - f) * g * (1 - h) * q + (1 - f) * g * h * q) +
      (f * (1 - g) * (1 - h) * q + f * (1 - g) * h * q + (f * g * (1 - h) * q + f * g * h * q)) = q := by
    ring
  rw [l] at sum
  have sum2 : q ≤ A * (f * (1 - f)) + B * (g * (1 - g)) + C * (h * (1 - h)) := by
    refine sum.trans (le_of_eq ?_)
    unfold form
    ring
  have quarter (t : K) : 4 * (t * (1 - t)) ≤ 1 := by nlinarith [mul_self_nonneg (2 * t - 1)]
  have a1 := mul_le_mul_of_nonneg_left (quarter f) hA
  have a2 := mul_le_mul_of_nonneg_left (quarter g) hB
  have a3 := mul_le_mul_of_nonneg_left (quarter h) hC
  linarith

/-- The coordinates of a point not longer than any of its translates. -/
theorem window_bound (A B C x e z eps y1 y2 y3 : K) (heps : 0 ≤ eps) (hA : 0 < A)
    (hAe : 100 * eps ≤ A) (hAB : A ≤ B + eps) (hBC : B ≤ C + eps)
    (hz : 2 * |z| ≤ A + eps) (he : 2 * |e| ≤ A + eps) (hx : 2 * |x| ≤ B + eps)
    (ht : x * e * z < 0 → 2 * (|x| + |e| + |z|) ≤ A + B + eps)
    (hmin : ∀ n1 n2 n3 : Int, form A B C x e z y1 y2 y3 ≤
      form A B C x e z (y1 - n1) (y2 - n2) (y3 - n3)) :
    |y1| < 5 / 2 ∧ |y2| < 5 / 2 ∧ |y3| < 5 / 2 := by
  have hB : 0 < B := by linarith
  have hC : 0 < C := by linarith
  have rad := window_radius A B C x e z y1 y2 y3 hA.le hB.le hC.le hmin
  have frm := window_form (A + eps) (B + 2 * eps) (C + 3 * eps) x e z y1 y2 y3 (by linarith)
    (by linarith) (by linarith) hz he (by linarith) (fun h => by linarith [ht h])
  have frm' : form (A + eps) (B + 2 * eps) (C + 3 * eps) x e z y1 y2 y3 =
      form A B C x e z y1 y2 y3 + eps * (y1 * y1 + 2 * (y2 * y2) + 3 * (y3 * y3)) := by
    unfold form; ring
  rw [frm'] at frm
  -- Voronoi inequalities
  have va : 2 * |A * y1 + z * y2 + e * y3| ≤ A := by
    have p := hmin 1 0 0
    have m := hmin (-1) 0 0
    push_cast at p m
    unfold form at p m
    have : |A * y1 + z * y2 + e * y3| ≤ A / 2 := abs_le.2 ⟨by linarith, by linarith⟩
    linarith
  have vb : 2 * |z * y1 + B * y2 + x * y3| ≤ B := by
    have p := hmin 0 1 0
    have m := hmin 0 (-1) 0
    push_cast at p m
    unfold form at p m
    have : |z * y1 + B * y2 + x * y3| ≤ B / 2 := abs_le.2 ⟨by linarith, by linarith⟩
    linarith
  obtain ⟨u, hu⟩ : ∃ u, u = |y1| := ⟨_, rfl⟩
  obtain ⟨v, hv⟩ : ∃ v, v = |y2| := ⟨_, rfl⟩
  obtain ⟨w, hw⟩ : ∃ w, w = |y3| := ⟨_, rfl⟩
  have u0 : 0 ≤ u := hu ▸ abs_nonneg y1
  have v0 : 0 ≤ v := hv ▸ abs_nonneg y2
  have w0 : 0 ≤ w := hw ▸ abs_nonneg y3
  have uu : y1 * y1 = u * u := by rw [hu, abs_mul_abs_self]
  have vv : y2 * y2 = v * v := by rw [hv, abs_mul_abs_self]
  have ww : y3 * y3 = w * w := by rw [hw, abs_mul_abs_self]
  have tri (p q r : K) : |p| ≤ |p + q + r| + |q| + |r| := by
    have h1 : |p| = |(p + q + r) + (-q) + (-r)| := by congr 1; ring
    rw [h1]
    refine (abs_add_le _ _).trans ?_
    rw [abs_neg]
    have := abs_add_le (p + q + r) (-q)
    rw [abs_neg] at this
    linarith
  have ea : A * u ≤ A / 2 + |z| * v + |e| * w := by
    have := tri (A * y1) (z * y2) (e * y3)
    rw [abs_mul, abs_mul, abs_mul, abs_of_pos hA, ← hu, ← hv, ← hw] at this
    linarith
  have eb : B * v ≤ B / 2 + |z| * u + |x| * w := by
    have := tri (B * y2) (z * y1) (x * y3)
    rw [abs_mul, abs_mul, abs_mul, abs_of_pos hB, ← hu, ← hv, ← hw] at this
    have e1 : B * y2 + z * y1 + x * y3 = z * y1 + B * y2 + x * y3 := by ring
    rw [e1] at this
    linarith
  have eA : 198 * eps ≤ 2 * B := by linarith
  have ia : u ≤ 1 / 2 + (101 / 198) * (v + w) := by
    have k1 : |z| * v ≤ (101 / 198 * A) * v := mul_le_mul_of_nonneg_right (by linarith) v0
    have k2 : |e| * w ≤ (101 / 198 * A) * w := mul_le_mul_of_nonneg_right (by linarith) w0
    have : A * u ≤ A * (1 / 2 + (101 / 198) * (v + w)) := by
      have : A * (1 / 2 + (101 / 198) * (v + w)) = A / 2 + 101 / 198 * A * v + 101 / 198 * A * w := by
        ring
      linarith
    exact le_of_mul_le_mul_left this hA
  have ib : v ≤ 1 / 2 + (101 / 198) * (u + w) := by
    have k1 : |z| * u ≤ (101 / 198 * B) * u := mul_le_mul_of_nonneg_right (by linarith) u0
    have k2 : |x| * w ≤ (101 / 198 * B) * w := mul_le_mul_of_nonneg_right (by linarith) w0
    have : B * v ≤ B * (1 / 2 + (101 / 198) * (u + w)) := by
      have : B * (1 / 2 + (101 / 198) * (u + w)) = B / 2 + 101 / 198 * B * u + 101 / 198 * B * w := by
        ring
      linarith
    exact le_of_mul_le_mul_left this hB
  have mu : u ≤ (99 + 101 * w) / 97 := by
    rw [le_div_iff₀ (by norm_num)]; linarith
  have mv : v ≤ (99 + 101 * w) / 97 := by
    rw [le_div_iff₀ (by norm_num)]; linarith
  -- the third coordinate
  obtain ⟨m, hm⟩ : ∃ m, m = (99 + 101 * w) / 97 := ⟨_, rfl⟩
  rw [← hm] at mu mv
  have m0 : 0 ≤ m := le_trans u0 mu
  have eC : 100 * eps ≤ C + 3 * eps := by linarith
  have hC3 : 0 < C + 3 * eps := by linarith
  have q3 : w * w ≤ 3 / 2 + (1 / 50) * (u * u + 2 * (v * v) + 3 * (w * w)) := by
    rw [uu, vv, ww] at frm
    have s0 : 0 ≤ u * u + 2 * (v * v) + 3 * (w * w) :=
      add_nonneg (add_nonneg (mul_self_nonneg _) (by linarith [mul_self_nonneg v]))
        (by linarith [mul_self_nonneg w])
    have k1 : eps * (u * u + 2 * (v * v) + 3 * (w * w)) ≤
        ((C + 3 * eps) / 100) * (u * u + 2 * (v * v) + 3 * (w * w)) :=
      mul_le_mul_of_nonneg_right (by linarith) s0
    have k2 : (C + 3 * eps) * (w * w) ≤ (C + 3 * eps) *
        (3 / 2 + (1 / 50) * (u * u + 2 * (v * v) + 3 * (w * w))) := by
      have : (C + 3 * eps) * y3 * y3 = (C + 3 * eps) * (w * w) := by rw [mul_assoc, ww]
      rw [this] at frm
      linarith
    exact le_of_mul_le_mul_left k2 hC3
  have um : u * u ≤ m * m := mul_le_mul mu mu u0 m0
  have vm : v * v ≤ m * m := mul_le_mul mv mv v0 m0
  have wb : w < 283 / 200 := by
    by_contra hcon
    have hcon := not_lt.1 hcon
    have q4 : w * w ≤ 3 / 2 + (3 / 50) * (m * m + w * w) := by linarith
    rw [hm] at q4
    exact window_num w hcon q4
  have fin : m < 5 / 2 := by
    rw [hm, div_lt_iff₀ (by norm_num)]; linarith
  rw [← hu, ← hv, ← hw]
  exact ⟨lt_of_le_of_lt mu fin, lt_of_le_of_lt mv fin, by linarith⟩

end

end Phono3py
