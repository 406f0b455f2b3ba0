/-
The search window of the Brillouin-zone grid holds the nearest of all translates when the
reciprocal basis is reduced.
-/
import Verif.Lemmas.BZGrid
import Verif.Lemmas.Window
import Verif.Lemmas.Niggli
import Mathlib.Order.Interval.Finset.Defs
import Mathlib.Data.Int.Interval
import Mathlib.Data.Finset.Prod
import Mathlib.Data.Finset.Max

namespace Phono3py
open Phono3py.Spec

section
variable {K : Type _} [Field K] [LinearOrder K] [IsStrictOrderedRing K]

/-- The form of a basis. -/
def latForm (L : RM K) (y1 y2 y3 : K) : K :=
  form (colDot L 0 0) (colDot L 1 1) (colDot L 2 2) (colDot L 1 2) (colDot L 0 2) (colDot L 0 1)
    y1 y2 y3

theorem latForm_eq (L : RM K) (y1 y2 y3 : K) : latForm L y1 y2 y3 =
    normSquared (mulVecD3 L ![y1, y2, y3]) := by
  simp [latForm, form, colDot, normSquared, mulVecD3]
  ring

theorem qNorm_eq (b : BZInput K) (a : V3) :
    qNorm b a = latForm b.reclat (qCoord b a 0) (qCoord b a 1) (qCoord b a 2) := by
  unfold qNorm latForm form colDot
  ring

/-- Cauchy-Schwarz in three dimensions. -/
theorem cauchy3 (a v : Fin 3 → K) : (a 0 * v 0 + a 1 * v 1 + a 2 * v 2) *
    (a 0 * v 0 + a 1 * v 1 + a 2 * v 2) ≤ normSquared a * normSquared v := by
  have h : normSquared a * normSquared v - (a 0 * v 0 + a 1 * v 1 + a 2 * v 2) *
      (a 0 * v 0 + a 1 * v 1 + a 2 * v 2) =
      (a 0 * v 1 - a 1 * v 0) * (a 0 * v 1 - a 1 * v 0) +
      (a 0 * v 2 - a 2 * v 0) * (a 0 * v 2 - a 2 * v 0) +
      (a 1 * v 2 - a 2 * v 1) * (a 1 * v 2 - a 2 * v 1) := by
    unfold normSquared; ring
  have := mul_self_nonneg (a 0 * v 1 - a 1 * v 0)
  have := mul_self_nonneg (a 0 * v 2 - a 2 * v 0)
  have := mul_self_nonneg (a 1 * v 2 - a 2 * v 1)
  linarith

theorem normSquared_nonneg (v : Fin 3 → K) : 0 ≤ normSquared v :=
  add_nonneg (add_nonneg (mul_self_nonneg _) (mul_self_nonneg _)) (mul_self_nonneg _)

/-- Coordinates are bounded by the length. -/
theorem coord_bound (L : RM K) (hdet : detRM L ≠ 0) :
    ∃ S : K, 0 ≤ S ∧ ∀ y : Fin 3 → K, ∀ i, y i * y i ≤ S * latForm L (y 0) (y 1) (y 2) := by
  have hinv := cofactorRM_mul L hdet
  refine ⟨normSquared (cofactorRM L 0) + normSquared (cofactorRM L 1) + normSquared (cofactorRM L 2),
    add_nonneg (add_nonneg (normSquared_nonneg _) (normSquared_nonneg _)) (normSquared_nonneg _), ?_⟩
  intro y i
  have hy : ![y 0, y 1, y 2] = y := by funext i; fin_cases i <;> rfl
  rw [latForm_eq, hy]
  have e : y i = cofactorRM L i 0 * mulVecD3 L y 0 + cofactorRM L i 1 * mulVecD3 L y 1 +
      cofactorRM L i 2 * mulVecD3 L y 2 := by
    have h0 := congrFun (congrFun hinv i) 0
    have h1 := congrFun (congrFun hinv i) 1
    have h2 := congrFun (congrFun hinv i) 2
    simp only [mulRM] at h0 h1 h2
    have hy' : y i = (castM M3.one : RM K) i 0 * y 0 + (castM M3.one : RM K) i 1 * y 1 +
        (castM M3.one : RM K) i 2 * y 2 := by
      fin_cases i <;> simp [castM, M3.one, M3.e]
    rw [hy', ← h0, ← h1, ← h2]
    unfold mulVecD3
    ring
  have c := cauchy3 (cofactorRM L i) (mulVecD3 L y)
  rw [← e] at c
  refine c.trans (mul_le_mul_of_nonneg_right ?_ (normSquared_nonneg _))
  have n0 := normSquared_nonneg (cofactorRM L 0)
  have n1 := normSquared_nonneg (cofactorRM L 1)
  have n2 := normSquared_nonneg (cofactorRM L 2)
  fin_cases i
  · show normSquared (cofactorRM L 0) ≤ _; linarith
  · show normSquared (cofactorRM L 1) ≤ _; linarith
  · show normSquared (cofactorRM L 2) ≤ _; linarith

variable [FloorRing K]

/-- Some translate is nearest. -/
theorem exists_nearest (L : RM K) (hdet : detRM L ≠ 0) (q1 q2 q3 : K) :
    ∃ n1 n2 n3 : Int, ∀ m1 m2 m3 : Int,
      latForm L (q1 - n1) (q2 - n2) (q3 - n3) ≤ latForm L (q1 - m1) (q2 - m2) (q3 - m3) := by
  obtain ⟨S, hS, hb⟩ := coord_bound L hdet
  obtain ⟨R, hR⟩ : ∃ R, R = S * latForm L q1 q2 q3 := ⟨_, rfl⟩
  obtain ⟨N, hN⟩ : ∃ N : Int, R + 1 + |q1| + |q2| + |q3| ≤ (N : K) := ⟨⌈_⌉, Int.le_ceil _⟩
  let box : Finset (Int × Int × Int) :=
    Finset.Icc (-N) N ×ˢ (Finset.Icc (-N) N ×ˢ Finset.Icc (-N) N)
  let f : Int × Int × Int → K := fun n => latForm L (q1 - n.1) (q2 - n.2.1) (q3 - n.2.2)
  have hR0 : 0 ≤ R := by
    rw [hR, latForm_eq]; exact mul_nonneg hS (normSquared_nonneg _)
  have a1 := abs_nonneg q1
  have a2 := abs_nonneg q2
  have a3 := abs_nonneg q3
  have hN0 : 0 ≤ N := by
    have : (0 : K) ≤ N := by linarith
    exact_mod_cast this
  have hne : ((0, 0, 0) : Int × Int × Int) ∈ box := by
    simp only [box, Finset.mem_product, Finset.mem_Icc]
    omega
  obtain ⟨n, hn, hmin⟩ := Finset.exists_min_image box f ⟨_, hne⟩
  refine ⟨n.1, n.2.1, n.2.2, fun m1 m2 m3 => ?_⟩
  by_cases hm : (m1, m2, m3) ∈ box
  · exact hmin _ hm
  · have h0 : f n ≤ latForm L q1 q2 q3 := by
      have := hmin _ hne
      simpa [f] using this
    refine h0.trans ?_
    by_contra hcon
    have hcon := not_le.1 hcon
    have hy := hb ![q1 - m1, q2 - m2, q3 - m3]
    have hle : S * latForm L (q1 - m1) (q2 - m2) (q3 - m3) ≤ R := by
      rw [hR]; exact mul_le_mul_of_nonneg_left hcon.le hS
    have one (q : K) (m : Int) (hq : |q| ≤ |q1| + |q2| + |q3|)
        (h : (q - m) * (q - m) ≤ S * latForm L (q1 - m1) (q2 - m2) (q3 - m3)) :
        -N ≤ m ∧ m ≤ N := by
      have h1 : |q - m| * |q - m| ≤ R := by rw [abs_mul_abs_self]; exact h.trans hle
      have h2 : |q - m| ≤ R + 1 := by
        by_contra hc
        have hc := not_le.1 hc
        nlinarith
      have h3 : |(m : K)| ≤ N := by
        have : |(m : K)| ≤ |q - m| + |q| := by
          have e : (m : K) = -(q - m) + q := by ring
          calc |(m : K)| = |-(q - m) + q| := by rw [← e]
            _ ≤ |-(q - m)| + |q| := abs_add_le _ _
            _ = _ := by rw [abs_neg]
        linarith
      have := abs_le.1 h3
      exact ⟨by exact_mod_cast this.1, by exact_mod_cast this.2⟩
    apply hm
    simp only [box, Finset.mem_product, Finset.mem_Icc]
    exact ⟨one q1 m1 (by linarith) (by simpa using hy 0), one q2 m2 (by linarith) (by simpa using hy 1),
      one q3 m3 (by linarith) (by simpa using hy 2)⟩

theorem nint_dist (a : K) : |a - (nint a : K)| ≤ 1 / 2 := by
  unfold nint
  split_ifs
  · have h1 := Int.le_ceil (a - 1 / 2)
    have h2 := Int.ceil_lt_add_one (a - 1 / 2)
    exact abs_le.2 ⟨by linarith, by linarith⟩
  · have h1 := Int.floor_le (a + 1 / 2)
    have h2 := Int.lt_floor_add_one (a + 1 / 2)
    exact abs_le.2 ⟨by linarith, by linarith⟩

theorem nint_int (n : Int) : nint (n : K) = n := by
  have h := nint_dist (n : K)
  have h1 : |((n - nint (n : K) : Int) : K)| < 1 := by
    push_cast; exact lt_of_le_of_lt h (by norm_num)
  have h2 : |n - nint (n : K)| < 1 := by exact_mod_cast h1
  have := Int.abs_lt_one_iff.1 h2
  omega

/-- The basis is reduced well enough for the search window. -/
structure WindowReady (eps : K) (L : RM K) : Prop where
  eps_nonneg : 0 ≤ eps
  pos : 0 < colDot L 0 0
  small : 100 * eps ≤ colDot L 0 0
  a_le_b : colDot L 0 0 ≤ colDot L 1 1 + eps
  b_le_c : colDot L 1 1 ≤ colDot L 2 2 + eps
  z : 2 * |colDot L 0 1| ≤ colDot L 0 0 + eps
  e : 2 * |colDot L 0 2| ≤ colDot L 0 0 + eps
  x : 2 * |colDot L 1 2| ≤ colDot L 1 1 + eps
  diag : colDot L 1 2 * colDot L 0 2 * colDot L 0 1 < 0 →
    2 * (|colDot L 1 2| + |colDot L 0 2| + |colDot L 0 1|) ≤ colDot L 0 0 + colDot L 1 1 + eps

/-- A nearest translate is one of the 125. -/
theorem WindowReady.window {eps : K} {L : RM K} (h : WindowReady eps L) (q1 q2 q3 : K)
    (n1 n2 n3 : Int) (hmin : ∀ m1 m2 m3 : Int,
      latForm L (q1 - n1) (q2 - n2) (q3 - n3) ≤ latForm L (q1 - m1) (q2 - m2) (q3 - m3)) :
    (-2 ≤ nint q1 - n1 ∧ nint q1 - n1 ≤ 2) ∧ (-2 ≤ nint q2 - n2 ∧ nint q2 - n2 ≤ 2) ∧
      (-2 ≤ nint q3 - n3 ∧ nint q3 - n3 ≤ 2) := by
  have hw := window_bound _ _ _ _ _ _ eps (q1 - n1) (q2 - n2) (q3 - n3) h.eps_nonneg h.pos h.small h.a_le_b
    h.b_le_c h.z h.e h.x h.diag (fun m1 m2 m3 => by
      have := hmin (n1 + m1) (n2 + m2) (n3 + m3)
      push_cast at this
      rw [← sub_sub, ← sub_sub, ← sub_sub] at this
      exact this)
  have one (q : K) (n : Int) (hq : |q - n| < 5 / 2) : -2 ≤ nint q - n ∧ nint q - n ≤ 2 := by
    have h1 := nint_dist q
    have h2 : |((nint q - n : Int) : K)| < 3 := by
      have e : ((nint q - n : Int) : K) = -(q - nint q) + (q - n) := by push_cast; ring
      rw [e]
      refine lt_of_le_of_lt (abs_add_le _ _) ?_
      rw [abs_neg]; linarith
    have h3 : |nint q - n| < 3 := by exact_mod_cast h2
    have := abs_lt.1 h3
    omega
  exact ⟨one q1 n1 hw.1, one q2 n2 hw.2.1, one q3 n3 hw.2.2⟩

/-! ### Translates of a grid point -/

/-- The integer coordinates of a translation of the grid. -/
theorem samePoint_qCoord (b : BZInput K) (hD : PosMesh b.D) {t gr : V3} (h : SamePoint b.D t gr) :
    ∃ n : V3, ∀ i, qCoord b t i = qCoord b gr i - (n.e i : K) := by
  obtain ⟨⟨m1, h1⟩, ⟨m2, h2⟩, ⟨m3, h3⟩⟩ := h
  refine ⟨-(b.Q.mulVec ⟨m1, m2, m3⟩), fun i => ?_⟩
  have hd (j : Fin 3) : (b.D.e j : K) ≠ 0 := by exact_mod_cast (V3.e_pos hD j).ne'
  have ht (j : Fin 3) : ((t.e j : K) + (b.PS.e j : K) / 2) / (b.D.e j : K) =
      ((gr.e j : K) + (b.PS.e j : K) / 2) / (b.D.e j : K) + (((⟨m1, m2, m3⟩ : V3).e j : Int) : K) := by
    have : t.e j = gr.e j + b.D.e j * (⟨m1, m2, m3⟩ : V3).e j := by
      fin_cases j
      · show t.x = gr.x + b.D.x * m1
        simp only [V3.sub_x] at h1; omega
      · show t.y = gr.y + b.D.y * m2
        simp only [V3.sub_y] at h2; omega
      · show t.z = gr.z + b.D.z * m3
        simp only [V3.sub_z] at h3; omega
    rw [this]
    have := hd j
    push_cast
    field_simp
    ring
  unfold qCoord
  simp only
  rw [ht 0, ht 1, ht 2]
  have he : ((-(b.Q.mulVec ⟨m1, m2, m3⟩)).e i : Int) =
      -(b.Q.e i 0 * m1 + b.Q.e i 1 * m2 + b.Q.e i 2 * m3) := by
    fin_cases i <;> simp [V3.e, M3.mulVec, M3.e]
  rw [he]
  have e0 : ((⟨m1, m2, m3⟩ : V3).e 0) = m1 := rfl
  have e1 : ((⟨m1, m2, m3⟩ : V3).e 1) = m2 := rfl
  have e2 : ((⟨m1, m2, m3⟩ : V3).e 2) = m3 := rfl
  rw [e0, e1, e2]
  push_cast
  ring

/-- The translate with given integer coordinates. -/
def translateBy (b : BZInput K) (gr n : V3) : V3 :=
  setBzAddress (bzNint b gr - n) gr b.D (bzNint b gr) (b.Q.cofactorsDiv b.Q.det)

theorem translateBy_spec (b : BZInput K) (hD : PosMesh b.D) (hQ : b.Q.det.natAbs = 1) (gr n : V3) :
    SamePoint b.D (translateBy b gr n) gr ∧
    ∀ i, qCoord b (translateBy b gr n) i = qCoord b gr i - (n.e i : K) := by
  obtain ⟨i1, i2⟩ := M3.cofactorsDiv_mul b.Q hQ
  refine ⟨setBzAddress_samePoint _ _ _ _ _, fun i => ?_⟩
  unfold translateBy
  rw [qCoord_setBz b hD _ i2]
  have : (bzNint b gr - n).e i = nint (qCoord b gr i) - n.e i := by
    rw [← qRed_eq]; fin_cases i <;> rfl
  rw [this]
  push_cast
  ring

theorem WindowReady.searched {eps : K} {b : BZInput K} (h : WindowReady eps b.reclat)
    (hD : PosMesh b.D) (hQ : b.Q.det.natAbs = 1) {gr t : V3} (ht : SamePoint b.D t gr)
    (hmin : ∀ u, SamePoint b.D u gr → qNorm b t ≤ qNorm b u) : Searched b gr t := by
  obtain ⟨n, hn⟩ := samePoint_qCoord b hD ht
  have w := h.window (qCoord b gr 0) (qCoord b gr 1) (qCoord b gr 2) (n.e 0) (n.e 1) (n.e 2)
    (fun m1 m2 m3 => by
      obtain ⟨s, e⟩ := translateBy_spec b hD hQ gr ⟨m1, m2, m3⟩
      have := hmin _ s
      rw [qNorm_eq, qNorm_eq, hn, hn, hn, e, e, e] at this
      exact this)
  refine ⟨⟨nint (qCoord b gr 0) - n.e 0, nint (qCoord b gr 1) - n.e 1, nint (qCoord b gr 2) - n.e 2⟩,
    w, fun i => ?_⟩
  rw [hn i]
  fin_cases i <;> simp [V3.e]

theorem exists_nearest_translate (b : BZInput K) (hD : PosMesh b.D) (hQ : b.Q.det.natAbs = 1)
    (hdet : detRM b.reclat ≠ 0) (gr : V3) :
    ∃ t, SamePoint b.D t gr ∧ ∀ u, SamePoint b.D u gr → qNorm b t ≤ qNorm b u := by
  obtain ⟨n1, n2, n3, hn⟩ := exists_nearest b.reclat hdet (qCoord b gr 0) (qCoord b gr 1)
    (qCoord b gr 2)
  obtain ⟨s, e⟩ := translateBy_spec b hD hQ gr ⟨n1, n2, n3⟩
  refine ⟨_, s, fun u hu => ?_⟩
  obtain ⟨m, hm⟩ := samePoint_qCoord b hD hu
  rw [qNorm_eq, qNorm_eq, hm, hm, hm, e, e, e]
  exact hn _ _ _

end

end Phono3py
