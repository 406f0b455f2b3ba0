/-
C39: linewidths from isotope scattering.
-/
import Mathlib.Algebra.Order.BigOperators.Ring.Finset
import Mathlib.Algebra.Order.BigOperators.Group.List
import Mathlib.Tactic.Linarith
import Mathlib.Tactic.NormNum
import Mathlib.Tactic.Positivity
import Mathlib.Data.Rat.Cast.Order
import Verif.Lemmas.Isotope

namespace Phono3py.Props
open Finset Spec

section
variable {K : Type _} [Field K] [LinearOrder K] [IsStrictOrderedRing K]

/-- Frequency of band `k` at the `q`-th grid point of the sum. -/
def isoFreq (s : IsoArgs K) (q k : Nat) : K :=
  s.frequencies (s.irGridPoints q * s.numBand + ((k : Nat) : Int))

/-- Eigenvector of band `k` at the `q`-th grid point of the sum; eigenvectors are the columns of
the matrix stored for each grid point. -/
def isoMode (s : IsoArgs K) (q k c : Nat) : Cplx K :=
  s.eigenvectors (s.irGridPoints q * s.numBand * s.numBand + (c : Int) * s.numBand + k)

/-- **C39 (value, smearing).** The routine returns Tamura's linewidth, with the Gaussian of the
frequency difference times the weight of the grid point in place of the delta function, whatever
`gamma` held and in whatever order the partial sums of the grid points are added. -/
theorem C39_value (gaussian : K → K → K) (twoPi : K) (s : IsoArgs K) (sigma : K)
    (order : List Nat) (horder : order.Perm (List.range s.numGridPoints)) (gamma : Int → K)
    (i : Nat) (hi : i < s.numBand0) :
    isoStrength gaussian twoPi s sigma order gamma i =
      isotopeLinewidth (twoPi / 2) s.cutoff s.massVariances s.numGridPoints s.numBand
        (isoF0 s i) (isoE0 s i) (isoFreq s) (isoMode s)
        (fun q k => gaussian (isoFreq s q k - isoF0 s i) sigma * s.weights (s.irGridPoints q)) := by
  unfold isoStrength
  dsimp only
  rw [runWrites_each _ _ _ _ hi, runWrites_skip _ _ (fun i => isoF0 s i < s.cutoff) _ _ hi,
    runWrites_each _ _ _ _ hi]
  unfold isotopeLinewidth
  by_cases hc : isoF0 s i < s.cutoff
  · rw [if_pos hc, if_pos hc, zero_mul]
  · rw [if_neg hc, if_neg hc, foldl_add_perm _ _ horder]
    have e : ∀ q ∈ range s.numGridPoints,
        isoSumGK s i (s.irGridPoints q) (fun k => gaussian (s.frequencies
          (s.irGridPoints q * s.numBand + k) - isoF0 s i) sigma) * s.weights (s.irGridPoints q) =
        ∑ k ∈ range s.numBand, if isoFreq s q k < s.cutoff then 0 else
          gaussian (isoFreq s q k - isoF0 s i) sigma * s.weights (s.irGridPoints q) *
          ∑ l ∈ range (s.numBand / 3), s.massVariances l *
            overlapSq (isoE0 s i) (isoMode s q k) l := by
      intro q _
      rw [sumGK_eq, Finset.sum_mul]
      refine Finset.sum_congr rfl fun k _ => ?_
      unfold isoFreq isoMode
      split
      · rw [zero_mul]
      · ring
    rw [Finset.sum_congr rfl e]
    ring

/-- Other entries of `gamma` keep their value. -/
theorem C39_outside (gaussian : K → K → K) (twoPi : K) (s : IsoArgs K) (sigma : K)
    (order : List Nat) (gamma : Int → K) (x : Int) (hx : ∀ i < s.numBand0, (i : Int) ≠ x) :
    isoStrength gaussian twoPi s sigma order gamma x = gamma x := by
  unfold isoStrength
  dsimp only
  rw [loop_each_outside _ _ _ _ hx, loop_skip_outside _ _ (fun i => isoF0 s i < s.cutoff) _ _ hx,
    loop_each_outside _ _ _ _ hx]

theorem thm_stores (s : IsoArgs K) (iw : Int → K) (order : List Nat) (q j : Nat)
    (hj : j < s.numBand0) (horder : order.Nodup) (hq : q ∈ order) (a : Int → K) :
    runWrites a (order.flatMap (isoThmStores s iw)) ((q * s.numBand0 + j : Nat) : Int) =
      if isoF0 s j < s.cutoff then a ((q * s.numBand0 + j : Nat) : Int)
      else isoSumGK s j (s.irGridPoints q) (fun k => iw (s.irGridPoints q * s.numBand0 * s.numBand +
        j * s.numBand + k)) * s.weights (s.irGridPoints q) := by
  have key : ∀ (q' : Nat) (w : Int × K), w ∈ isoThmStores s iw q' →
      w.1 = ((q * s.numBand0 + j : Nat) : Int) → q' = q ∧ ¬ isoF0 s j < s.cutoff ∧
        w.2 = isoSumGK s j (s.irGridPoints q) (fun k => iw (s.irGridPoints q * s.numBand0 *
          s.numBand + j * s.numBand + k)) * s.weights (s.irGridPoints q) := by
    intro q' w hw e
    obtain ⟨j', hj', h⟩ := mem_loop.1 hw
    by_cases hc : isoF0 s j' < s.cutoff
    · simp [hc] at h
    · rw [if_neg hc, List.mem_singleton] at h
      rw [h] at e
      obtain ⟨e1, e2⟩ := digits2 hj' hj (Int.ofNat_inj.1 e)
      subst e1 e2
      exact ⟨rfl, hc, by rw [h]⟩
  by_cases hc : isoF0 s j < s.cutoff
  · rw [if_pos hc]
    refine runWrites_untouched _ _ _ fun w hw e => ?_
    obtain ⟨q', _, h⟩ := List.mem_flatMap.1 hw
    exact (key q' w h e).2.1 hc
  · rw [if_neg hc]
    refine (runWrites_value a _ ?_ (((q * s.numBand0 + j : Nat) : Int), _) ?_)
    · intro w hw w' hw' e
      obtain ⟨q1, _, h1⟩ := List.mem_flatMap.1 hw
      obtain ⟨q2, _, h2⟩ := List.mem_flatMap.1 hw'
      obtain ⟨j1, hj1, g1⟩ := mem_loop.1 h1
      obtain ⟨j2, hj2, g2⟩ := mem_loop.1 h2
      by_cases c1 : isoF0 s j1 < s.cutoff
      · simp [c1] at g1
      by_cases c2 : isoF0 s j2 < s.cutoff
      · simp [c2] at g2
      rw [if_neg c1, List.mem_singleton] at g1
      rw [if_neg c2, List.mem_singleton] at g2
      rw [g1, g2] at e
      obtain ⟨e1, e2⟩ := digits2 hj1 hj2 (Int.ofNat_inj.1 e)
      subst e1 e2
      rw [g1, g2]
    · refine List.mem_flatMap.2 ⟨q, hq, mem_loop.2 ⟨j, hj, ?_⟩⟩
      rw [if_neg hc, List.mem_singleton]

/-- **C39 (value, tetrahedron method).** The same with the integration weights of the grid point,
of the position `i` in the list of bands and of the band of the partner, whatever the buffer and
`gamma` held before and in whatever order the parallel iterations run. -/
theorem C39_value_tetrahedron (twoPi : K) (s : IsoArgs K) (iw : Int → K) (order : List Nat)
    (horder : order.Perm (List.range s.numGridPoints)) (mem gamma : Int → K) (i : Nat)
    (hi : i < s.numBand0) :
    isoThmStrength twoPi s iw order mem gamma i =
      isotopeLinewidth (twoPi / 2) s.cutoff s.massVariances s.numGridPoints s.numBand
        (isoF0 s i) (isoE0 s i) (isoFreq s) (isoMode s)
        (fun q k => iw (s.irGridPoints q * s.numBand0 * s.numBand + i * s.numBand + k) *
          s.weights (s.irGridPoints q)) := by
  unfold isoThmStrength
  rw [runWrites_each _ _ _ _ hi, runAdds_value, runWrites_each _ _ _ _ hi, zero_add, addsAt_loop]
  have e : ∀ q ∈ range s.numGridPoints,
      addsAt (loop s.numBand0 fun j => [(((j : Nat) : Int), runWrites (runWrites mem
        (loop (s.numGridPoints * s.numBand0) fun i => [(((i : Nat) : Int), 0)]))
        (order.flatMap (isoThmStores s iw)) ((q * s.numBand0 + j : Nat) : Int))]) (i : Int) =
      if isoF0 s i < s.cutoff then 0 else
        ∑ k ∈ range s.numBand, if isoFreq s q k < s.cutoff then 0 else
          iw (s.irGridPoints q * s.numBand0 * s.numBand + i * s.numBand + k) *
            s.weights (s.irGridPoints q) * ∑ l ∈ range (s.numBand / 3), s.massVariances l *
              overlapSq (isoE0 s i) (isoMode s q k) l := by
    intro q hq
    have hq' := Finset.mem_range.1 hq
    rw [addsAt_loop, Finset.sum_eq_single i]
    · rw [addsAt_single, if_pos rfl, thm_stores s iw order q i hi
        (horder.nodup_iff.2 List.nodup_range) (horder.mem_iff.2 (List.mem_range.2 hq'))]
      have : q * s.numBand0 + i < s.numGridPoints * s.numBand0 := by
        calc q * s.numBand0 + i < q * s.numBand0 + s.numBand0 := by omega
          _ = (q + 1) * s.numBand0 := by ring
          _ ≤ _ := Nat.mul_le_mul_right _ hq'
      rw [runWrites_each _ _ _ _ this]
      split
      · rfl
      · rw [sumGK_eq, Finset.sum_mul]
        refine Finset.sum_congr rfl fun k _ => ?_
        unfold isoFreq isoMode
        split
        · rw [zero_mul]
        · ring
    · intro j _ hne
      rw [addsAt_single, if_neg fun e => hne (Int.ofNat_inj.1 e)]
    · intro h
      exact absurd (Finset.mem_range.2 hi) h
  rw [Finset.sum_congr rfl e]
  unfold isotopeLinewidth
  by_cases hc : isoF0 s i < s.cutoff
  · simp [if_pos hc]
  · simp only [if_neg hc]
    ring

/-! Consequences, for the two forms of the calculation the user can ask for. -/

/-- The weights of the smearing method as the user meets them. -/
theorem run_value (gaussian : K → K → K) (pi : K) (s : IsoArgs K) (sigma prodD : K) (i : Nat)
    (hi : i < s.numBand0) :
    isoRunC gaussian pi s sigma prodD i =
      isotopeLinewidth pi s.cutoff s.massVariances s.numGridPoints s.numBand
        (isoF0 s i) (isoE0 s i) (isoFreq s) (isoMode s)
        (fun q k => gaussian (isoFreq s q k - isoF0 s i) sigma) / prodD := by
  have h := C39_value gaussian (2 * pi) { s with weights := fun _ => 1 } sigma
    (List.range s.numGridPoints) (List.Perm.refl _) (fun _ => 0) i hi
  simp only [mul_one, mul_div_cancel_left₀ pi (two_ne_zero (α := K))] at h
  unfold isoRunC
  rw [h]
  rfl

theorem run_value_thm (pi : K) (s : IsoArgs K) (iw : Int → K) (prodD : K) (mem : Int → K) (i : Nat)
    (hi : i < s.numBand0) :
    isoRunThmC pi s iw prodD mem i =
      isotopeLinewidth pi s.cutoff s.massVariances s.numGridPoints s.numBand
        (isoF0 s i) (isoE0 s i) (isoFreq s) (isoMode s)
        (fun q k => iw (s.irGridPoints q * s.numBand0 * s.numBand + i * s.numBand + k)) /
          prodD := by
  have h := C39_value_tetrahedron (2 * pi) { s with weights := fun _ => 1 } iw
    (List.range s.numGridPoints) (List.Perm.refl _) mem (fun _ => 0) i hi
  simp only [mul_one, mul_div_cancel_left₀ pi (two_ne_zero (α := K))] at h
  unfold isoRunThmC
  rw [h]
  rfl

theorem overlapSq_nonneg (w v : Nat → Cplx K) (l : Nat) : 0 ≤ overlapSq w v l :=
  normSq_nonneg _

theorem linewidth_nonneg (pi cutoff : K) (hpi : 0 ≤ pi) (g : Nat → K) (nq nb : Nat)
    (hg : ∀ l < nb / 3, 0 ≤ g l) (f0 : K) (e0 : Nat → Cplx K) (f : Nat → Nat → K)
    (e : Nat → Nat → Nat → Cplx K) (delta : Nat → Nat → K)
    (hd : ∀ q < nq, ∀ k < nb, 0 ≤ delta q k) :
    0 ≤ isotopeLinewidth pi cutoff g nq nb f0 e0 f e delta := by
  unfold isotopeLinewidth
  split
  · exact le_refl _
  · refine mul_nonneg (mul_nonneg (by positivity) (sq_nonneg _))
      (Finset.sum_nonneg fun q hq => Finset.sum_nonneg fun k hk => ?_)
    split
    · exact le_refl _
    · exact mul_nonneg (hd q (Finset.mem_range.1 hq) k (Finset.mem_range.1 hk))
        (Finset.sum_nonneg fun l hl =>
          mul_nonneg (hg l (Finset.mem_range.1 hl)) (overlapSq_nonneg _ _ _))

/-- **C39 (non-negative, smearing).** -/
theorem C39_nonneg (gaussian : K → K → K) (pi : K) (s : IsoArgs K) (sigma prodD : K)
    (hpi : 0 ≤ pi) (hD : 0 ≤ prodD) (hgauss : ∀ x, 0 ≤ gaussian x sigma)
    (hg : ∀ l < s.numBand / 3, 0 ≤ s.massVariances l) (i : Nat) (hi : i < s.numBand0) :
    0 ≤ isoRunC gaussian pi s sigma prodD i := by
  rw [run_value gaussian pi s sigma prodD i hi]
  exact div_nonneg (linewidth_nonneg _ _ hpi _ _ _ hg _ _ _ _ _ fun _ _ _ _ => hgauss _) hD

/-- **C39 (non-negative, tetrahedron method).** -/
theorem C39_nonneg_tetrahedron (pi : K) (s : IsoArgs K) (iw : Int → K) (prodD : K) (mem : Int → K)
    (hpi : 0 ≤ pi) (hD : 0 ≤ prodD) (hiw : ∀ x, 0 ≤ iw x)
    (hg : ∀ l < s.numBand / 3, 0 ≤ s.massVariances l) (i : Nat) (hi : i < s.numBand0) :
    0 ≤ isoRunThmC pi s iw prodD mem i := by
  rw [run_value_thm pi s iw prodD mem i hi]
  exact div_nonneg (linewidth_nonneg _ _ hpi _ _ _ hg _ _ _ _ _ fun _ _ _ _ => hiw _) hD

/-- **C39 (below the cutoff).** A mode below the cutoff frequency has linewidth zero. -/
theorem C39_below_cutoff (gaussian : K → K → K) (pi : K) (s : IsoArgs K) (sigma prodD : K)
    (iw mem : Int → K) (i : Nat) (hi : i < s.numBand0) (hc : isoF0 s i < s.cutoff) :
    isoRunC gaussian pi s sigma prodD i = 0 ∧ isoRunThmC pi s iw prodD mem i = 0 := by
  rw [run_value gaussian pi s sigma prodD i hi, run_value_thm pi s iw prodD mem i hi]
  simp [isotopeLinewidth, hc]

/-- Partners below the cutoff frequency do not contribute: their frequencies and eigenvectors
are of no effect. -/
theorem C39_partners_below_cutoff (gaussian : K → K → K) (pi : K) (s t : IsoArgs K)
    (sigma prodD : K) (i : Nat) (hi : i < s.numBand0)
    (hf : ∀ q < s.numGridPoints, ∀ k < s.numBand,
      (isoFreq s q k < s.cutoff ∧ isoFreq t q k < s.cutoff) ∨
      (isoFreq s q k = isoFreq t q k ∧ ∀ c, isoMode s q k c = isoMode t q k c))
    (h0 : isoF0 t i = isoF0 s i) (he : ∀ c, isoE0 t i c = isoE0 s i c)
    (hm : t.massVariances = s.massVariances) (hc : t.cutoff = s.cutoff)
    (hn : t.numBand = s.numBand) (hn0 : t.numBand0 = s.numBand0)
    (hg : t.numGridPoints = s.numGridPoints) :
    isoRunC gaussian pi t sigma prodD i = isoRunC gaussian pi s sigma prodD i := by
  rw [run_value gaussian pi s sigma prodD i hi, run_value gaussian pi t sigma prodD i (hn0 ▸ hi),
    hm, hc, hn, hg, h0, funext he]
  unfold isotopeLinewidth
  split
  · rfl
  · congr 2
    refine Finset.sum_congr rfl fun q hq => Finset.sum_congr rfl fun k hk => ?_
    rcases hf q (Finset.mem_range.1 hq) k (Finset.mem_range.1 hk) with ⟨a, b⟩ | ⟨a, b⟩
    · rw [if_pos a, if_pos b]
    · beta_reduce
      rw [a, funext b]

/-- **C39 (no variance).** Without mass variances all linewidths vanish. -/
theorem C39_no_variance (gaussian : K → K → K) (pi : K) (s : IsoArgs K) (sigma prodD : K)
    (iw mem : Int → K) (hg : ∀ l < s.numBand / 3, s.massVariances l = 0)
    (i : Nat) (hi : i < s.numBand0) :
    isoRunC gaussian pi s sigma prodD i = 0 ∧ isoRunThmC pi s iw prodD mem i = 0 := by
  have z : ∀ delta : Nat → Nat → K, isotopeLinewidth pi s.cutoff s.massVariances s.numGridPoints
      s.numBand (isoF0 s i) (isoE0 s i) (isoFreq s) (isoMode s) delta = 0 := by
    intro delta
    unfold isotopeLinewidth
    split
    · rfl
    · rw [Finset.sum_eq_zero, mul_zero]
      intro q _
      refine Finset.sum_eq_zero fun k _ => ?_
      split
      · rfl
      · rw [Finset.sum_eq_zero, mul_zero]
        intro l hl
        rw [hg l (Finset.mem_range.1 hl), zero_mul]
  rw [run_value gaussian pi s sigma prodD i hi, run_value_thm pi s iw prodD mem i hi, z, z,
    zero_div]
  exact ⟨rfl, rfl⟩

theorem overlapSq_phase (w v : Nat → Cplx K) (a b : Cplx K) (ha : a.normSq = 1)
    (hb : b.normSq = 1) (l : Nat) :
    overlapSq (fun c => a * w c) (fun c => b * v c) l = overlapSq w v l := by
  unfold overlapSq
  have : ∑ m ∈ range 3, conj (a * w (l * 3 + m)) * (b * v (l * 3 + m)) =
      (conj a * b) * ∑ m ∈ range 3, conj (w (l * 3 + m)) * v (l * 3 + m) := by
    rw [Finset.mul_sum]
    refine Finset.sum_congr rfl fun m _ => ?_
    rw [conj_mul]
    ring
  rw [this, normSq_mul, normSq_mul, normSq_conj, ha, hb, one_mul, one_mul]

/-- **C39 (phases).** Multiplying every eigenvector by a phase factor of its own changes no
linewidth. -/
theorem C39_phase (gaussian : K → K → K) (pi : K) (s : IsoArgs K) (sigma prodD : K)
    (iw mem : Int → K) (ev : Int → Cplx K) (ph : Int → Int → Cplx K)
    (hph : ∀ gp k, (ph gp k).normSq = 1)
    (hev : ∀ (gp : Int) (c : Nat) (k : Int),
      ev (gp * s.numBand * s.numBand + c * s.numBand + k) =
        ph gp k * s.eigenvectors (gp * s.numBand * s.numBand + c * s.numBand + k))
    (i : Nat) (hi : i < s.numBand0) :
    isoRunC gaussian pi { s with eigenvectors := ev } sigma prodD i =
        isoRunC gaussian pi s sigma prodD i ∧
      isoRunThmC pi { s with eigenvectors := ev } iw prodD mem i =
        isoRunThmC pi s iw prodD mem i := by
  have z : ∀ delta : Nat → Nat → K,
      isotopeLinewidth pi s.cutoff s.massVariances s.numGridPoints
        s.numBand (isoF0 s i) (isoE0 { s with eigenvectors := ev } i) (isoFreq s)
        (isoMode { s with eigenvectors := ev }) delta =
      isotopeLinewidth pi s.cutoff s.massVariances s.numGridPoints
        s.numBand (isoF0 s i) (isoE0 s i) (isoFreq s) (isoMode s) delta := by
    intro delta
    unfold isotopeLinewidth
    split
    · rfl
    · congr 1
      refine Finset.sum_congr rfl fun q _ => Finset.sum_congr rfl fun k _ => ?_
      split
      · rfl
      · congr 1
        refine Finset.sum_congr rfl fun l _ => ?_
        congr 1
        rw [← overlapSq_phase (isoE0 s i) (isoMode s q k) _ _ (hph s.gridPoint (s.bandIndices i))
          (hph (s.irGridPoints q) k)]
        congr 1
        · funext c
          exact hev _ _ _
        · funext c
          exact hev _ _ _
  refine ⟨?_, ?_⟩
  · rw [run_value gaussian pi s sigma prodD i hi, run_value gaussian pi { s with eigenvectors := ev } sigma prodD i hi]
    exact congrArg (· / prodD) (z _)
  · rw [run_value_thm pi s iw prodD mem i hi, run_value_thm pi { s with eigenvectors := ev } iw prodD mem i hi]
    exact congrArg (· / prodD) (z _)

/-- **C39 (degenerate partners).** The linewidth does not depend on the choice of eigenvectors
within degenerate subspaces of the partner modes: mixing the bands of equal frequency at each
grid point by a unitary matrix `U q` keeps it. -/
theorem C39_degenerate (gaussian : K → K → K) (pi : K) (s : IsoArgs K) (sigma prodD : K)
    (ev : Int → Cplx K) (i : Nat) (hi : i < s.numBand0)
    (U : Nat → Nat → Nat → Cplx K)
    (hU : ∀ q < s.numGridPoints, ∀ a < s.numBand, ∀ b < s.numBand,
      ∑ k ∈ range s.numBand, conj (U q k a) * U q k b = if a = b then 1 else 0)
    (hf : ∀ q < s.numGridPoints, ∀ k < s.numBand, ∀ a < s.numBand,
      U q k a ≠ 0 → isoFreq s q k = isoFreq s q a)
    (he : ∀ c, isoE0 { s with eigenvectors := ev } i c = isoE0 s i c)
    (hev : ∀ q < s.numGridPoints, ∀ k < s.numBand, ∀ c,
      isoMode { s with eigenvectors := ev } q k c =
        ∑ a ∈ range s.numBand, U q k a * isoMode s q a c) :
    isoRunC gaussian pi { s with eigenvectors := ev } sigma prodD i =
      isoRunC gaussian pi s sigma prodD i := by
  rw [run_value gaussian pi s sigma prodD i hi, run_value gaussian pi { s with eigenvectors := ev } sigma prodD i hi]
  congr 1
  rw [funext he]
  unfold isotopeLinewidth
  dsimp only
  have e0 : isoF0 { s with eigenvectors := ev } i = isoF0 s i := rfl
  have e1 : isoFreq { s with eigenvectors := ev } = isoFreq s := rfl
  rw [e0, e1]
  split
  · rfl
  · congr 1
    refine Finset.sum_congr rfl fun q hq => ?_
    have hq' := Finset.mem_range.1 hq
    let φ : Nat → K := fun k => if isoFreq s q k < s.cutoff then 0 else
      gaussian (isoFreq s q k - isoF0 s i) sigma
    let z : Nat → Nat → Cplx K := fun l a =>
      ∑ m ∈ range 3, conj (isoE0 s i (l * 3 + m)) * isoMode s q a (l * 3 + m)
    have key : ∀ l, ∑ k ∈ range s.numBand, φ k *
        (∑ a ∈ range s.numBand, U q k a * z l a).normSq =
        ∑ a ∈ range s.numBand, φ a * (z l a).normSq := fun l =>
      sum_normSq_unitary s.numBand (U q) φ
        (fun k hk a ha h => by
          show (if _ then _ else _) = if _ then _ else _
          rw [hf q hq' k hk a ha h])
        (hU q hq') (z l)
    have lhs : ∀ k ∈ range s.numBand, (if isoFreq s q k < s.cutoff then 0 else
        gaussian (isoFreq s q k - isoF0 s i) sigma * ∑ l ∈ range (s.numBand / 3),
          s.massVariances l * overlapSq (isoE0 s i)
            (isoMode { s with eigenvectors := ev } q k) l) =
        ∑ l ∈ range (s.numBand / 3), s.massVariances l *
          (φ k * (∑ a ∈ range s.numBand, U q k a * z l a).normSq) := by
      intro k hk
      have ov : ∀ l, overlapSq (isoE0 s i) (isoMode { s with eigenvectors := ev } q k) l =
          (∑ a ∈ range s.numBand, U q k a * z l a).normSq := by
        intro l
        unfold overlapSq
        congr 1
        simp only [hev q hq' k (Finset.mem_range.1 hk), Finset.mul_sum, z]
        rw [Finset.sum_comm]
        exact Finset.sum_congr rfl fun a _ => Finset.sum_congr rfl fun m _ => by ring
      simp only [ov, φ]
      split
      · simp
      · rw [Finset.mul_sum]
        exact Finset.sum_congr rfl fun l _ => by ring
    have rhs : ∀ k ∈ range s.numBand, (if isoFreq s q k < s.cutoff then 0 else
        gaussian (isoFreq s q k - isoF0 s i) sigma * ∑ l ∈ range (s.numBand / 3),
          s.massVariances l * overlapSq (isoE0 s i) (isoMode s q k) l) =
        ∑ l ∈ range (s.numBand / 3), s.massVariances l * (φ k * (z l k).normSq) := by
      intro k _
      simp only [overlapSq, φ, z]
      split
      · simp
      · rw [Finset.mul_sum]
        exact Finset.sum_congr rfl fun l _ => by ring
    rw [Finset.sum_congr rfl lhs, Finset.sum_congr rfl rhs, Finset.sum_comm,
      Finset.sum_comm (s := range s.numBand)]
    refine Finset.sum_congr rfl fun l _ => ?_
    rw [← Finset.mul_sum, ← Finset.mul_sum, key]

/-! The Python implementation. -/

theorem py_overlap (s : IsoArgs K) (i : Nat) (gp : Int) (j l : Nat) :
    (sumLoop 3 fun m => isoE1 s gp j l m *
      (⟨(isoE0 s i (l * 3 + m)).re, -(isoE0 s i (l * 3 + m)).im⟩ : Cplx K)).normSq =
    overlapSq (isoE0 s i) (fun c => s.eigenvectors (gp * s.numBand * s.numBand +
        (c : Int) * s.numBand + j)) l := by
  rw [sumLoop_eq]
  unfold overlapSq isoE1
  congr 1
  refine Finset.sum_congr rfl fun m _ => ?_
  unfold conj
  push_cast
  ring

/-- Value computed by the Python implementation: Tamura's formula, without the test of the
frequency of the mode against the cutoff and with the weights `weight gp bi j`. -/
theorem C39_python_value (pi : K) (s : IsoArgs K) (weight : Int → Int → Nat → K) (prodD : K)
    (i : Nat) :
    isoRunPy pi s weight prodD i = pi / 4 * isoF0 s i ^ 2 * (∑ q ∈ range s.numGridPoints,
      ∑ k ∈ range s.numBand, if isoFreq s q k < s.cutoff then 0 else
        weight (s.irGridPoints q) (s.bandIndices i) k * ∑ l ∈ range (s.numBand / 3),
          s.massVariances l * overlapSq (isoE0 s i) (isoMode s q k) l) / prodD := by
  unfold isoRunPy
  dsimp only
  have inner : ∀ (q : Nat) (x : K), (List.range s.numBand).foldl (fun sum (j : Nat) =>
      if s.frequencies (s.irGridPoints q * s.numBand + j) < s.cutoff then sum
      else sum + (sumLoop (s.numBand / 3) fun l => (sumLoop 3 fun m => isoE1 s (s.irGridPoints q) j l m *
        (⟨(isoE0 s i (l * 3 + m)).re, -(isoE0 s i (l * 3 + m)).im⟩ : Cplx K)).normSq *
          s.massVariances l) * weight (s.irGridPoints q) (s.bandIndices i) j) x =
      x + ∑ k ∈ range s.numBand, if isoFreq s q k < s.cutoff then 0 else
        weight (s.irGridPoints q) (s.bandIndices i) k * ∑ l ∈ range (s.numBand / 3),
          s.massVariances l * overlapSq (isoE0 s i) (isoMode s q k) l := by
    intro q x
    rw [foldl_add_if (fun (k : Nat) => isoFreq s q k < s.cutoff) (fun (k : Nat) =>
      weight (s.irGridPoints q) (s.bandIndices i) k * ∑ l ∈ range (s.numBand / 3),
          s.massVariances l * overlapSq (isoE0 s i) (isoMode s q k) l), sum_range_list]
    intro y j
    unfold isoFreq
    split
    · rfl
    · rw [sumLoop_eq]
      simp only [py_overlap]
      congr 1
      rw [mul_comm]
      congr 1
      refine Finset.sum_congr rfl fun l _ => ?_
      rw [mul_comm]
      rfl
  simp only [inner]
  rw [foldl_add_sum, sum_range_list, zero_add]
  ring

/-- Smearing: both implementations agree on modes that are not below the cutoff. -/
theorem C39_python_smearing (gaussian : K → K → K) (heven : ∀ x y, gaussian (-x) y = gaussian x y)
    (pi : K) (s : IsoArgs K) (sigma prodD : K) (i : Nat) (hi : i < s.numBand0)
    (hc : ¬ isoF0 s i < s.cutoff) :
    isoRunPy pi s (fun gp _ j => gaussian (isoF0 s i -
        s.frequencies (gp * s.numBand + ((j : Nat) : Int))) sigma) prodD i =
      isoRunC gaussian pi s sigma prodD i := by
  rw [C39_python_value, run_value gaussian pi s sigma prodD i hi]
  unfold isotopeLinewidth
  rw [if_neg hc]
  congr 2
  refine Finset.sum_congr rfl fun q _ => Finset.sum_congr rfl fun k _ => ?_
  rw [← heven]
  unfold isoFreq
  rw [neg_sub]

/-- Tetrahedron method: both implementations agree when the bands are asked for in the order of
their indices. -/
theorem C39_python_tetrahedron (pi : K) (s : IsoArgs K) (iw : Int → K) (prodD : K)
    (mem : Int → K) (i : Nat) (hi : i < s.numBand0) (hb : s.bandIndices i = i)
    (hc : ¬ isoF0 s i < s.cutoff) :
    isoRunPy pi s (fun gp bi j => iw (gp * s.numBand0 * s.numBand + bi * s.numBand + j)) prodD i =
      isoRunThmC pi s iw prodD mem i := by
  rw [C39_python_value, run_value_thm pi s iw prodD mem i hi]
  unfold isotopeLinewidth
  rw [if_neg hc, hb]

/-! Mass variances. -/

theorem C39_mass_variance_nonneg (isotopes : List (K × K)) (h : ∀ x ∈ isotopes, 0 ≤ x.2) :
    0 ≤ massVariance isotopes := by
  unfold massVariance
  refine List.sum_nonneg fun y hy => ?_
  obtain ⟨x, hx, rfl⟩ := List.mem_map.1 hy
  exact mul_nonneg (h x hx) (sq_nonneg _)

theorem sum_zero_iff (l : List K) (h : ∀ x ∈ l, 0 ≤ x) : l.sum = 0 ↔ ∀ x ∈ l, x = 0 := by
  induction l with
  | nil => simp
  | cons a l ih =>
    have ha := h a List.mem_cons_self
    have hl : ∀ x ∈ l, 0 ≤ x := fun x hx => h x (List.mem_cons_of_mem _ hx)
    rw [List.sum_cons, add_eq_zero_iff_of_nonneg ha (List.sum_nonneg hl), ih hl]
    simp

/-- The variance vanishes only if all isotopes present have the mean mass. -/
theorem C39_mass_variance_zero (isotopes : List (K × K)) (h : ∀ x ∈ isotopes, 0 < x.2)
    (hm : (isotopes.map fun x => x.1 * x.2).sum ≠ 0) :
    massVariance isotopes = 0 ↔
      ∀ x ∈ isotopes, x.1 = (isotopes.map fun x => x.1 * x.2).sum := by
  unfold massVariance
  dsimp only
  rw [sum_zero_iff]
  · constructor
    · intro hz x hx
      have := hz _ (List.mem_map.2 ⟨x, hx, rfl⟩)
      have h2 := (mul_eq_zero.1 this).resolve_left (h x hx).ne'
      have h3 : x.1 / (isotopes.map fun x => x.1 * x.2).sum = 1 := by
        have := pow_eq_zero_iff (two_ne_zero) |>.1 h2
        linarith
      rwa [div_eq_one_iff_eq hm] at h3
    · intro hz y hy
      obtain ⟨x, hx, rfl⟩ := List.mem_map.1 hy
      rw [hz x hx, div_self hm]
      simp
  · intro y hy
    obtain ⟨x, hx, rfl⟩ := List.mem_map.1 hy
    exact mul_nonneg (h x hx).le (sq_nonneg _)

/-- For fractions that add up to one, the variance is the relative variance
`⟨m²⟩ / ⟨m⟩² - 1`. -/
theorem C39_mass_variance_moments (isotopes : List (K × K))
    (h1 : (isotopes.map fun x => x.2).sum = 1)
    (hm : (isotopes.map fun x => x.1 * x.2).sum ≠ 0) :
    massVariance isotopes = (isotopes.map fun x => x.1 ^ 2 * x.2).sum /
      (isotopes.map fun x => x.1 * x.2).sum ^ 2 - 1 := by
  unfold massVariance
  dsimp only
  generalize hM : (isotopes.map fun x => x.1 * x.2).sum = M at hm
  have gen : ∀ l : List (K × K), (l.map fun x => x.2 * (1 - x.1 / M) ^ 2).sum =
      (l.map fun x => x.2).sum - 2 / M * (l.map fun x => x.1 * x.2).sum +
        (l.map fun x => x.1 ^ 2 * x.2).sum / M ^ 2 := by
    intro l
    induction l with
    | nil => simp
    | cons a l ih =>
      simp only [List.map_cons, List.sum_cons, ih]
      field_simp
      ring
  rw [gen, h1, hM]
  field_simp
  ring

/-- One variance per atom, from the data of the user if they have the element, otherwise from the
table; the call fails only for an element found in neither. -/
theorem C39_mass_variances (table : String → Option (List (K × K)))
    (user : Option (String → Option (List (K × K)))) (symbols : List String) (vs : List K) :
    getMassVariances table user symbols = some vs ↔
      List.Forall₂ (fun s v => ∃ d, (user.bind (· s)).or (table s) = some d ∧ v = massVariance d)
        symbols vs := by
  unfold getMassVariances
  rw [mapM_forall₂]
  have e : ∀ s v, ((match user.bind (· s) with
      | some d => some (massVariance d)
      | none => (table s).map massVariance) = some v) ↔
      ∃ d, (user.bind (· s)).or (table s) = some d ∧ v = massVariance d := by
    intro s v
    rcases user.bind (· s) with _ | d
    · rcases table s with _ | d <;> simp [eq_comm]
    · simp [eq_comm]
  constructor
  · exact fun h => h.imp fun s v h => (e s v).1 h
  · exact fun h => h.imp fun s v h => (e s v).2 h

end

/-! A crystal with one atom, two grid points; the mode `(1, 0, 0)` of frequency 2 scatters into
the modes of frequency 2 and 3, not into the one of frequency 1/2. -/

/-- Arguments of the example. -/
def isoExample : IsoArgs ℚ where
  gridPoint := 0
  irGridPoints := fun j => (j : Int)
  weights := fun _ => 1
  massVariances := fun _ => 1 / 10
  frequencies := fun x => if x = 0 then 2 else if x = 1 then 3 else if x = 2 then 1 / 2
    else if x = 3 then 2 else if x = 4 then 3 else 1 / 2
  eigenvectors := fun x => if x = 0 ∨ x = 4 ∨ x = 8 then 1
    else if x = 9 then ⟨3 / 5, 0⟩ else if x = 10 then ⟨0, 4 / 5⟩
    else if x = 12 then ⟨0, 4 / 5⟩ else if x = 13 then ⟨3 / 5, 0⟩ else if x = 17 then 1 else 0
  numGridPoints := 2
  bandIndices := fun i => if i = 0 then 1 else 0
  numBand := 3
  numBand0 := 2
  cutoff := 1

/-- A positive even function. -/
def isoGauss (x s : ℚ) : ℚ := 1 / (s ^ 2 + x ^ 2)

example : isoRunC isoGauss 1 isoExample 1 2 1 = 1 / 4 * 4 * (1 / 10 * (1 + 9 / 25 + 16 / 25 / 2)) / 2 ∧
    isoRunC isoGauss 1 isoExample 1 2 1 ≠ 0 := by decide +kernel

/-- The hypotheses of the theorems above hold for the example. -/
example : (0 : ℚ) ≤ isoRunC isoGauss 1 isoExample 1 2 1 :=
  C39_nonneg _ _ _ _ _ (by norm_num) (by norm_num)
    (fun x => by unfold isoGauss; positivity) (fun l _ => by norm_num [isoExample]) 1 (by decide)

example : massVariance [((28 : ℚ), 9 / 10), (30, 1 / 10)] ≠ 0 := by decide +kernel

/-- **C39 (finding).** With the tetrahedron method the Python implementation reads the integration
weights at the band index instead of at its position in the list of bands: for bands `1, 0` its
result differs from that of the C implementation. -/
theorem C39_python_band_index :
    ∃ (s : IsoArgs ℚ) (iw : Int → ℚ), (∀ x, 0 ≤ iw x) ∧ s.bandIndices 0 = 1 ∧ s.numBand0 = 2 ∧
      isoRunThmC 1 s iw 2 (fun _ => 0) 0 ≠ 0 ∧
      isoRunPy 1 s (fun gp bi j => iw (gp * s.numBand0 * s.numBand + bi * s.numBand + j)) 2 0 = 0 := by
  refine ⟨isoExample, fun x => if x = 1 then 1 else 0, fun x => ?_, ?_, ?_, ?_, ?_⟩
  · dsimp only
    split <;> norm_num
  all_goals decide +kernel

/-- **C39 (finding).** The Python implementation does not test the frequency of the mode against
the cutoff: it gives a non-zero linewidth to a mode below the cutoff, the C implementation zero. -/
theorem C39_python_cutoff :
    ∃ (s : IsoArgs ℚ), isoF0 s 0 < s.cutoff ∧
      isoRunC isoGauss 1 s 1 2 0 = 0 ∧
      isoRunPy 1 s (fun gp _ j => isoGauss (isoF0 s 0 -
        s.frequencies (gp * s.numBand + ((j : Nat) : Int))) 1) 2 0 ≠ 0 := by
  refine ⟨{ isoExample with
    bandIndices := fun _ => 2
    eigenvectors := fun x => if x = 0 ∨ x = 4 ∨ x = 8 then 1
      else if x = 9 ∨ x = 10 ∨ x = 15 ∨ x = 16 ∨ x = 14 then 1 else 0 }, ?_, ?_, ?_⟩
  all_goals decide +kernel

end Phono3py.Props
