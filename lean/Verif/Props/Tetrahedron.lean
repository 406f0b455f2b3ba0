/-
C19-C22: the tetrahedron tables and weights.
-/
import Verif.Lemmas.TetraTable
import Verif.Lemmas.TetraReal
import Mathlib.Data.Rat.Floor

set_option linter.unusedSectionVars false

namespace Phono3py.Props
open Phono3py Phono3py.Spec

section
variable {K : Type _} [Field K] [LinearOrder K] [IsStrictOrderedRing K]

/-! ## C19 -/

/-- Six times the volume of every tetrahedron is one, so they are all of equal volume; there
are 24 of them, no two with the same vertices, each with four vertices of components -1, 0, 1
of which the first is the centre. -/
theorem C19_shape (d : Nat) (hd : d < 4) :
    let tetrahedra := dbRelativeGridAddress.getD d []
    tetrahedra.length = 24 ∧
    (∀ T ∈ tetrahedra, T.length = 4 ∧ T.head? = some ⟨0, 0, 0⟩ ∧ (sixVolume T).natAbs = 1 ∧
      ∀ p ∈ T, (p.x = -1 ∨ p.x = 0 ∨ p.x = 1) ∧ (p.y = -1 ∨ p.y = 0 ∨ p.y = 1) ∧
        (p.z = -1 ∨ p.z = 0 ∨ p.z = 1)) ∧
    ∀ i < 24, ∀ j < i, ¬ (tetrahedra.getD i []).Perm (tetrahedra.getD j []) := by
  intro tetrahedra
  refine ⟨?_, ?_, ?_⟩
  · revert d; decide +kernel
  · have h1 : ∀ d < 4, ∀ T ∈ dbRelativeGridAddress.getD d [], T.length = 4 ∧
        T.head? = some ⟨0, 0, 0⟩ ∧ (sixVolume T).natAbs = 1 := by decide +kernel
    have h2 : ∀ d < 4, ∀ T ∈ dbRelativeGridAddress.getD d [], ∀ p ∈ T,
        (p.x = -1 ∨ p.x = 0 ∨ p.x = 1) ∧ (p.y = -1 ∨ p.y = 0 ∨ p.y = 1) ∧
          (p.z = -1 ∨ p.z = 0 ∨ p.z = 1) := by decide +kernel
    intro T hT
    obtain ⟨a, b, c⟩ := h1 d hd T hT
    exact ⟨a, b, c, h2 d hd T hT⟩
  · have h3 : ∀ d < 4, ∀ i < 24, ∀ j < i, ¬ ((dbRelativeGridAddress.getD d []).getD i []).Perm
        ((dbRelativeGridAddress.getD d []).getD j []) := by decide +kernel
    exact h3 d hd

/-- Every tetrahedron seen from any of its vertices is again one of the 24: each tetrahedron
of the tiling is visited once from each of its four corners. -/
theorem C19_recentre (d : Nat) (hd : d < 4) :
    let tetrahedra := dbRelativeGridAddress.getD d []
    ∀ T ∈ tetrahedra, ∀ p ∈ T, ∃ T' ∈ tetrahedra, T'.Perm (T.map (· - p)) := by
  revert hd
  revert d
  decide +kernel

/-- Every point of space lies in some grid translate of one of the 24 tetrahedra. -/
theorem C19_cover [FloorRing K] (d : Nat) (hd : d < 4) (x : Fin 3 → K) :
    ∃ T ∈ dbRelativeGridAddress.getD d [], ∃ t : V3, InTetra (shift T t) x :=
  tab_cover d hd x

/-- Translates of the tetrahedra overlap only when they are the same tetrahedron. -/
theorem C19_disjoint (d : Nat) (hd : d < 4) (T T' : List V3)
    (hT : T ∈ dbRelativeGridAddress.getD d []) (hT' : T' ∈ dbRelativeGridAddress.getD d [])
    (t t' : V3) (x : Fin 3 → K) (h : InInterior (shift T t) x) (h' : InInterior (shift T' t') x) :
    (shift T t).Perm (shift T' t') :=
  tab_disjoint d hd hT hT' t t' h h'

/-- The four main diagonals of a cell, up to sign. -/
def cellDiagonals : List V3 := [⟨1, 1, 1⟩, ⟨-1, 1, 1⟩, ⟨1, -1, 1⟩, ⟨1, 1, -1⟩]

/-- Squared length of the reciprocal vector with the given components; the lattice vectors are
the columns. -/
def vectorLength (reclat : Fin 3 → Fin 3 → K) (b : V3) : K :=
  (reclat 0 0 * b.x + reclat 0 1 * b.y + reclat 0 2 * b.z) ^ 2
    + (reclat 1 0 * b.x + reclat 1 1 * b.y + reclat 1 2 * b.z) ^ 2
    + (reclat 2 0 * b.x + reclat 2 1 * b.y + reclat 2 2 * b.z) ^ 2

theorem vectorLength_eq (reclat : Fin 3 → Fin 3 → K) (b : V3) :
    diagonalLength reclat b = vectorLength reclat b := by
  simp only [diagonalLength, vectorLength]; ring

/-- The table is chosen so that one main diagonal, the shortest of the four, is an edge of all
of its tetrahedra. -/
theorem C19_diagonal (reclat : Fin 3 → Fin 3 → K) :
    ∃ d < 4, relativeGridAddress reclat = dbRelativeGridAddress.getD d [] ∧
      ∃ g ∈ cellDiagonals,
        (∀ g' ∈ cellDiagonals, vectorLength reclat g ≤ vectorLength reclat g') ∧
        ∀ T ∈ relativeGridAddress reclat, ∃ p ∈ T, ∃ q ∈ T, q = p + g := by
  have key : ∀ d < 4, (∀ T ∈ dbRelativeGridAddress.getD d [], ∃ p ∈ T, ∃ q ∈ T,
      q = p + cellDiagonals.getD d ⟨0, 0, 0⟩) := by decide +kernel
  have hm : getMainDiagonal reclat < 4 ∧ ∀ g' ∈ cellDiagonals,
      vectorLength reclat (cellDiagonals.getD (getMainDiagonal reclat) ⟨0, 0, 0⟩) ≤
        vectorLength reclat g' := by
    unfold getMainDiagonal
    simp only [vectorLength_eq, List.foldl, mainDiagonal, mainDiagonals, cellDiagonals,
      List.getD_cons_zero, List.getD_cons_succ]
    split_ifs <;> simp <;> (try refine ⟨?_, ?_, ?_⟩) <;>
      simp_all <;> linarith
  refine ⟨getMainDiagonal reclat, hm.1, rfl, cellDiagonals.getD (getMainDiagonal reclat) ⟨0, 0, 0⟩,
    ?_, hm.2, key _ hm.1⟩
  have := hm.1
  generalize getMainDiagonal reclat = d at this ⊢
  revert d
  decide

/-- A cubic lattice takes the first table, a skewed one the second. -/
example : getMainDiagonal (K := ℚ) ![![1, 0, 0], ![0, 1, 0], ![0, 0, 1]] = 0 ∧
    getMainDiagonal (K := ℚ) ![![1, 1, 1], ![0, 1, 0], ![0, 0, 1]] = 1 := by decide +kernel

/-! ## C20 -/

/-- C20: the frequencies come out in ascending order, as a rearrangement of the input, and the
reported position holds the frequency of the first (centre) vertex. -/
theorem C20_sort (v : Fin 4 → K) :
    let s := (sortOmegas v).1
    let ci := (sortOmegas v).2
    (s 0 ≤ s 1 ∧ s 1 ≤ s 2 ∧ s 2 ≤ s 3) ∧ (List.ofFn s).Perm (List.ofFn v) ∧
      ∃ h : ci < 4, s ⟨ci, h⟩ = v 0 :=
  ⟨sortOmegas_sorted v, sortOmegas_perm v, sortOmegas_centre v⟩

example : sortOmegas (K := ℚ) ![3, 1, 4, 1] = (![1, 1, 3, 4], 2) := by decide +kernel

/-! ## C21 -/

/-- Sum of the weights of the four vertices of one tetrahedron in the density of states. -/
def totalDensity (eps w : K) (v : Fin 4 → K) : K :=
  sum4 fun k => tetraTerm (gFunc eps) (iFunc eps) k w v

/-- Sum of the weights of the four vertices of one tetrahedron in the number of states. -/
def totalStates (eps w : K) (v : Fin 4 → K) : K :=
  sum4 fun k => tetraTerm (nFunc eps) (jFunc eps) k w v

/-- C21: every vertex weight is non-negative. -/
theorem C21_nonneg (eps : K) (he : 0 < eps) (w : K) (v : Fin 4 → K) (hs : Sorted4 v) (ci : Nat) :
    0 ≤ tetraTerm (gFunc eps) (iFunc eps) ci w v ∧
      0 ≤ tetraTerm (nFunc eps) (jFunc eps) ci w v := by
  by_cases hw : ∀ k, w ≠ v k
  · obtain ⟨i, -, hi⟩ := exists_interval hw
    rw [tetraTerm_interval _ _ _ hs hi, tetraTerm_interval _ _ _ hs hi]
    exact ⟨mul_nonneg (iFunc_nonneg he i ci hs hi) (gFunc_nonneg i hs hi),
      mul_nonneg (jFunc_nonneg he i ci hs hi) (nFunc_unit he i hs hi).1⟩
  · push Not at hw
    obtain ⟨k, hk⟩ := hw
    rw [tetraTerm_vertex _ _ _ hs hk, tetraTerm_vertex _ _ _ hs hk]
    exact ⟨le_rfl, le_rfl⟩

/-- C21: strictly inside an interval the four vertex shares multiply the interval's density of
states to itself, and likewise for the number of states, unless that number is below the
threshold `eps` of the code: then all four weights are zero. -/
theorem C21_shares_complete (eps : K) (he : 0 < eps) (w : K) (v : Fin 4 → K) (hs : Sorted4 v)
    (i : Nat) (hi : InInterval v w i) :
    (totalDensity eps w v = gFunc eps i w v ∨
      (gFunc eps i w v * (v 3 - v 0) / 3 < eps ∧ totalDensity eps w v = 0)) ∧
    (totalStates eps w v = nFunc eps i w v ∨
      (nFunc eps i w v < eps ∧ totalStates eps w v = 0)) := by
  unfold totalDensity totalStates sum4
  simp only [tetraTerm_interval _ _ _ hs hi]
  rw [← add_mul, ← add_mul, ← add_mul, ← add_mul, ← add_mul, ← add_mul]
  have hs' := hs
  obtain ⟨h0, h1, h2⟩ := hs'
  match i, hi with
  | 0, _ => simp [gFunc, nFunc]
  | 1, _ => exact ⟨Or.inl (i_sum1 he hs), Or.inl (j_sum1 he hs)⟩
  | 2, ⟨a, b⟩ =>
    constructor
    · by_cases hg : eps ≤ g2core eps w v
      · left
        have := i_sum2 he hs hg
        change (i2 eps 0 w v + i2 eps 1 w v + i2 eps 2 w v + i2 eps 3 w v) * _ = _
        rw [this, one_mul]
      · right
        have hd : v 3 - v 0 ≠ 0 := by intro h; linarith
        have e : gFunc eps 2 w v * (v 3 - v 0) / 3 = g2core eps w v := by
          change g2 eps w v * (v 3 - v 0) / 3 = _
          rw [g2_core]; field_simp
        refine ⟨by rw [e]; exact not_le.1 hg, ?_⟩
        have z : ∀ ci, i2 eps ci w v = 0 := by
          intro ci
          unfold i2
          exact if_pos (not_le.1 hg)
        change (i2 eps 0 w v + i2 eps 1 w v + i2 eps 2 w v + i2 eps 3 w v) * _ = _
        rw [z, z, z, z]; ring
    · by_cases hg : eps ≤ n2 eps w v
      · left
        have := j_sum2 he hs hg
        change (j2 eps 0 w v + j2 eps 1 w v + j2 eps 2 w v + j2 eps 3 w v) * _ = _
        rw [this, one_mul]
      · right
        refine ⟨not_le.1 hg, ?_⟩
        have z : ∀ ci, j2 eps ci w v = 0 := by
          intro ci
          unfold j2
          exact if_pos (not_le.1 hg)
        change (j2 eps 0 w v + j2 eps 1 w v + j2 eps 2 w v + j2 eps 3 w v) * _ = _
        rw [z, z, z, z]; ring
  | 3, _ =>
    refine ⟨Or.inl (i_sum3 he hs), ?_⟩
    by_cases hg : eps ≤ n3 eps w v
    · left
      have := j_sum3 he hs hg
      change (j3 eps 0 w v + j3 eps 1 w v + j3 eps 2 w v + j3 eps 3 w v) * _ = _
      rw [this, one_mul]
    · right
      refine ⟨not_le.1 hg, ?_⟩
      have z : ∀ ci, j3 eps ci w v = 0 := by
        intro ci
        unfold j3
        exact if_pos (not_le.1 hg)
      change (j3 eps 0 w v + j3 eps 1 w v + j3 eps 2 w v + j3 eps 3 w v) * _ = _
      rw [z, z, z, z]; ring
  | 4, _ => simp [gFunc, nFunc, jFunc]; left; norm_num

/-- C21: the number of states lies between 0 and 1. -/
theorem C21_bounds (eps : K) (he : 0 < eps) (w : K) (v : Fin 4 → K) (hs : Sorted4 v) :
    0 ≤ totalStates eps w v ∧ totalStates eps w v ≤ 1 := by
  by_cases hw : ∀ k, w ≠ v k
  · obtain ⟨i, -, hi⟩ := exists_interval hw
    have := nFunc_unit he i hs hi
    rcases (C21_shares_complete eps he w v hs i hi).2 with h | ⟨-, h⟩ <;> rw [h]
    · exact this
    · exact ⟨le_rfl, zero_le_one⟩
  · push Not at hw
    obtain ⟨k, hk⟩ := hw
    have z : totalStates eps w v = 0 := by
      unfold totalStates sum4
      simp [tetraTerm_vertex _ _ _ hs hk]
    rw [z]
    exact ⟨le_rfl, zero_le_one⟩

/-- C21 (what holds of monotonicity): between frequencies that are not vertex frequencies the
number of states does not decrease, if neighbouring vertex frequencies are equal or at least
`eps` apart and the lower value is not below the threshold. The full claim has none of these
conditions; see `C21_not_monotone` and `C22_zero_at_vertices`. -/
theorem C21_monotone_partial (eps : K) (he : 0 < eps) (w w' : K) (v : Fin 4 → K)
    (hs : Sorted4 v) (hsep : Separated eps v) (hw : ∀ k, w ≠ v k) (hw' : ∀ k, w' ≠ v k)
    (hle : w ≤ w') : totalStates eps w v ≤ totalStates eps w' v ∨
      (totalStates eps w v < eps ∧ totalStates eps w' v = 0) := by
  obtain ⟨i, -, hi⟩ := exists_interval hw
  obtain ⟨i', -, hi'⟩ := exists_interval hw'
  have hm := nFunc_mono he hs hsep hi hi' hle
  have b' := (C21_bounds eps he w' v hs).1
  rcases (C21_shares_complete eps he w v hs i hi).2 with h | ⟨-, h⟩
  · rcases (C21_shares_complete eps he w' v hs i' hi').2 with h' | ⟨hlt, h'⟩
    · left; rw [h, h']; exact hm
    · right; exact ⟨by rw [h]; exact lt_of_le_of_lt hm hlt, h'⟩
  · left; rw [h]; exact b'

/-- C21: with two vertex frequencies closer than `eps` the number of states falls back to zero
between them, so monotonicity fails. -/
theorem C21_not_monotone :
    let eps : ℚ := 1 / 10 ^ 10
    let v : Fin 4 → ℚ := ![0, 1, 1 + 1 / 10 ^ 11, 2]
    Sorted4 v ∧ totalStates eps (9 / 10) v > 3 / 10 ∧
      totalStates eps (1 + 1 / (2 * 10 ^ 11)) v = 0 := by
  unfold Sorted4
  decide +kernel

/-- C21: near the bottom of a flat interval the density is positive but all weights are zero. -/
theorem C21_threshold_loss :
    let eps : ℚ := 1 / 10 ^ 10
    let v : Fin 4 → ℚ := ![0, 0, 1, 1]
    let w : ℚ := 1 / 10 ^ 11
    Sorted4 v ∧ InInterval v w 2 ∧ gFunc eps 2 w v > 0 ∧ totalDensity eps w v = 0 := by
  unfold Sorted4
  simp only [InInterval]
  decide +kernel

/-- C21: for distinct vertex frequencies every vertex weight is the exact share of that vertex
under linear interpolation, and the totals are the exact density and number of states. -/
theorem C21_exact (eps : K) (he : 0 < eps) (w : K) (v : Fin 4 → K)
    (hd : eps ≤ v 1 - v 0 ∧ eps ≤ v 2 - v 1 ∧ eps ≤ v 3 - v 2) (hw : ∀ k, w ≠ v k)
    (k : Fin 4) :
    (eps ≤ density w v * (v 3 - v 0) / 3 →
      tetraTerm (gFunc eps) (iFunc eps) k w v = densityShare k w v) ∧
    (eps ≤ states w v → tetraTerm (nFunc eps) (jFunc eps) k w v = statesShare k w v) := by
  have hs : Sorted4 v := ⟨by linarith, by linarith, by linarith⟩
  obtain ⟨i, -, hi⟩ := exists_interval hw
  rw [tetraTerm_interval _ _ _ hs hi, tetraTerm_interval _ _ _ hs hi]
  have hD : Distinct eps v := hd
  constructor
  · intro h
    have hg : i = 2 → eps ≤ g2core eps w v := by
      rintro rfl
      rw [← gFunc_density he hD hi] at h
      have hd0 : v 3 - v 0 ≠ 0 := by intro h0; linarith
      change eps ≤ g2 eps w v * (v 3 - v 0) / 3 at h
      rw [g2_core] at h
      field_simp at h
      exact h
    fin_cases k
    · exact i_share0 he hD hi hg
    · exact i_share1 he hD hi hg
    · exact i_share2 he hD hi hg
    · exact i_share3 he hD hi hg
  · intro h
    rw [← nFunc_states he hD hi] at h
    fin_cases k
    · exact j_share0 he hD hi (fun _ => h)
    · exact j_share1 he hD hi (fun _ => h)
    · exact j_share2 he hD hi (fun _ => h)
    · exact j_share3 he hD hi (fun _ => h)

/-- C21: totals of `C21_exact`. -/
theorem C21_exact_total (eps : K) (he : 0 < eps) (w : K) (v : Fin 4 → K)
    (hd : eps ≤ v 1 - v 0 ∧ eps ≤ v 2 - v 1 ∧ eps ≤ v 3 - v 2) (hw : ∀ k, w ≠ v k) :
    (eps ≤ density w v * (v 3 - v 0) / 3 → totalDensity eps w v = density w v) ∧
    (eps ≤ states w v → totalStates eps w v = states w v) := by
  have hs : Sorted4 v := ⟨by linarith, by linarith, by linarith⟩
  obtain ⟨i, -, hi⟩ := exists_interval hw
  have hD : Distinct eps v := hd
  obtain ⟨h1, h2⟩ := C21_shares_complete eps he w v hs i hi
  rw [gFunc_density he hD hi] at h1
  rw [nFunc_states he hD hi] at h2
  constructor
  · intro h
    rcases h1 with h1 | ⟨h1, -⟩
    · exact h1
    · linarith
  · intro h
    rcases h2 with h2 | ⟨h2, -⟩
    · exact h2
    · linarith

/-- C21: above all vertex frequencies every grid point has the full weight 1. -/
theorem C21_full (eps : K) (w : K) (om : Fin 24 → Fin 4 → K) (h : ∀ i j, om i j < w) :
    thmIntegrationWeight eps false w om = 1 := by
  have t : ∀ i, tetraTerm (nFunc eps) (jFunc eps) (sortOmegas (om i)).2 w (sortOmegas (om i)).1
      = 1 / 4 := by
    intro i
    have hs := sortOmegas_sorted (om i)
    have h3 : (sortOmegas (om i)).1 3 < w := by
      have hm : (sortOmegas (om i)).1 3 ∈ List.ofFn (om i) :=
        (sortOmegas_perm (om i)).mem_iff.1 (List.mem_ofFn.2 ⟨3, rfl⟩)
      obtain ⟨j, hj⟩ := List.mem_ofFn.1 hm
      rw [← hj]; exact h i j
    rw [tetraTerm_interval (i := 4) _ _ _ hs h3]
    simp [jFunc, nFunc]
  unfold thmIntegrationWeight integrationWeight
  simp only [Bool.false_eq_true, if_false, t]
  simp [List.finRange_succ]
  norm_num

example : Sorted4 (K := ℚ) ![0, 1, 2, 4] ∧ Separated (K := ℚ) (1 / 10 ^ 10) ![0, 1, 2, 4] ∧
    InInterval (K := ℚ) ![0, 1, 2, 4] (3 / 2) 2 ∧
    totalStates (K := ℚ) (1 / 10 ^ 10) (3 / 2) ![0, 1, 2, 4] = states (3 / 2) ![0, 1, 2, 4] ∧
    totalDensity (K := ℚ) (1 / 10 ^ 10) (3 / 2) ![0, 1, 2, 4] = density (3 / 2) ![0, 1, 2, 4] ∧
    density (K := ℚ) (3 / 2) ![0, 1, 2, 4] * 4 / 3 > 1 / 10 ^ 10 := by
  unfold Sorted4 Separated
  simp only [InInterval]
  decide +kernel

/-! ## C22 -/

open Filter Topology

/-- C22: for distinct vertex frequencies, off the vertices, the number of states has the exact
density as derivative; by `C21_exact_total` that is the density used for the weights. -/
theorem C22_derivative (eps : ℝ) (he : 0 < eps) (w : ℝ) (v : Fin 4 → ℝ)
    (hd : eps ≤ v 1 - v 0 ∧ eps ≤ v 2 - v 1 ∧ eps ≤ v 3 - v 2) (hw : ∀ k, w ≠ v k)
    (hn : eps < states w v) : HasDerivAt (fun w => totalStates eps w v) (density w v) w := by
  refine (states_hasDerivAt v w hw).congr_of_eventuallyEq ?_
  have h1 : ∀ᶠ y in 𝓝 w, eps < states y v :=
    (states_continuous v).continuousAt.eventually (lt_mem_nhds hn)
  have h2 : ∀ k, ∀ᶠ y in 𝓝 w, y ≠ v k := fun k => isOpen_ne.mem_nhds (hw k)
  filter_upwards [h1, h2 0, h2 1, h2 2, h2 3] with y hy h0 h1 h2 h3
  refine (C21_exact_total eps he y v hd ?_).2 hy.le
  intro k
  fin_cases k
  · exact h0
  · exact h1
  · exact h2
  · exact h3

/-- C22 (what holds of continuity): at a vertex frequency the number of states has the same
limit from both sides, namely the exact number of states, provided that exceeds `eps`. The full
claim is continuity; `C22_zero_at_vertices` shows that the value itself is wrong. -/
theorem C22_limit_partial (eps : ℝ) (he : 0 < eps) (v : Fin 4 → ℝ)
    (hd : eps ≤ v 1 - v 0 ∧ eps ≤ v 2 - v 1 ∧ eps ≤ v 3 - v 2) (k : Fin 4)
    (hn : eps < states (v k) v) :
    Tendsto (fun w => totalStates eps w v) (𝓝[≠] v k) (𝓝 (states (v k) v)) := by
  refine ((states_continuous v).continuousAt.tendsto.mono_left nhdsWithin_le_nhds).congr' ?_
  have h1 : ∀ᶠ y in 𝓝 (v k), eps < states y v :=
    (states_continuous v).continuousAt.eventually (lt_mem_nhds hn)
  have h2 : ∀ j, ∀ᶠ y in 𝓝[≠] v k, y ≠ v j := by
    intro j
    by_cases e : v j = v k
    · filter_upwards [self_mem_nhdsWithin] with y hy
      rw [e]; exact hy
    · exact eventually_nhdsWithin_of_eventually_nhds (isOpen_ne.mem_nhds (Ne.symm e))
  filter_upwards [eventually_nhdsWithin_of_eventually_nhds h1, h2 0, h2 1, h2 2, h2 3]
    with y hy h0 h1 h2 h3
  refine ((C21_exact_total eps he y v hd ?_).2 hy.le).symm
  intro k
  fin_cases k
  · exact h0
  · exact h1
  · exact h2
  · exact h3

/-- C22: at a vertex frequency itself every weight is zero, so the number of states drops to
zero there and continuity fails. -/
theorem C22_zero_at_vertices (eps : K) (v : Fin 4 → K) (hs : Sorted4 v) (k : Fin 4) (ci : Nat) :
    tetraTerm (nFunc eps) (jFunc eps) ci (v k) v = 0 ∧
      tetraTerm (gFunc eps) (iFunc eps) ci (v k) v = 0 :=
  ⟨tetraTerm_vertex _ _ _ hs rfl, tetraTerm_vertex _ _ _ hs rfl⟩

/-- C22: with vertex frequencies 0, 1, 2, 3 the number of states is 1 just above frequency 3
and should be 1 at frequency 3, but comes out as 0 there. -/
theorem C22_not_continuous :
    let v : Fin 4 → ℚ := ![0, 1, 2, 3]
    let eps : ℚ := 1 / 10 ^ 10
    totalStates eps 3 v = 0 ∧ states 3 v = 1 ∧ totalStates eps (3 + 1 / 10 ^ 20) v = 1 := by
  decide +kernel

example : (1 / 10 ^ 10 : ℚ) < states (1 : ℚ) ![0, 1, 2, 4] := by decide +kernel

end
end Phono3py.Props
