/-
C28, C29, C30, C69, C70: averages over degenerate bands, batches of frequency points, band groups,
scattering classes and the Python implementation of the linewidth.
-/
import Verif.Lemmas.Bands
import Verif.Props.PPCollision

set_option linter.unusedSectionVars false

namespace Phono3py.Props
open Phono3py Phono3py.Spec

section
variable {K : Type _} [Field K] [LinearOrder K] [IsStrictOrderedRing K]

/-! ## C28 -/

/-- C28: every value is replaced by the average over the bands degenerate with it. -/
theorem C28_value (sets : List (List Nat)) (bands : List Nat) (h : DegenerateSets sets bands)
    (ise : Nat → K) (i : Nat) (hi : i < bands.length) :
    averageByDegeneracy sets bands ise i = mean (degenerateWith sets bands i) ise := by
  have hb : bands.getD i 0 ∈ bands := by
    simp [List.getD, List.getElem?_eq_getElem hi]
  obtain ⟨s, hs, hbs⟩ := h.cover _ hb
  unfold averageByDegeneracy mean
  rw [(average_fold sets bands ise _ i hi h.disjoint).1 s hs hbs, degenerateWith_eq h hs hbs]
  unfold positions
  rw [sum_filter_range, length_filter_range]
  simp only [List.contains_iff_mem]

theorem degenerate_self {sets : List (List Nat)} {bands : List Nat} (h : DegenerateSets sets bands)
    {i : Nat} (hi : i < bands.length) : i ∈ degenerateWith sets bands i := by
  have hb : bands.getD i 0 ∈ bands := by
    simp [List.getD, List.getElem?_eq_getElem hi]
  obtain ⟨s, hs, hbs⟩ := h.cover _ hb
  exact Finset.mem_filter.2 ⟨Finset.mem_range.2 hi, s, hs, hbs, hbs⟩

theorem degenerate_same {sets : List (List Nat)} {bands : List Nat} (h : DegenerateSets sets bands)
    {i j : Nat} (hj : j ∈ degenerateWith sets bands i) :
    degenerateWith sets bands j = degenerateWith sets bands i := by
  obtain ⟨_, s, hs, h1, h2⟩ := Finset.mem_filter.1 hj
  rw [degenerateWith_eq h hs h1, degenerateWith_eq h hs h2]

/-- C28: bands degenerate with each other get equal values. -/
theorem C28_equal (sets : List (List Nat)) (bands : List Nat) (h : DegenerateSets sets bands)
    (ise : Nat → K) (i j : Nat) (hi : i < bands.length)
    (hj : j ∈ degenerateWith sets bands i) :
    averageByDegeneracy sets bands ise j = averageByDegeneracy sets bands ise i := by
  rw [C28_value sets bands h ise i hi,
    C28_value sets bands h ise j (Finset.mem_range.1 (Finset.mem_filter.1 hj).1),
    degenerate_same h hj]

theorem mean_congr {s : Finset Nat} {x y : Nat → K} (h : ∀ j ∈ s, x j = y j) :
    mean s x = mean s y := by
  unfold mean; rw [Finset.sum_congr rfl h]

theorem mean_const {s : Finset Nat} {x : Nat → K} {c : K} {i : Nat} (hi : i ∈ s)
    (h : ∀ j ∈ s, x j = c) : mean s x = c := by
  unfold mean
  rw [Finset.sum_congr rfl h, Finset.sum_const, nsmul_eq_mul]
  have : (s.card : K) ≠ 0 := Nat.cast_ne_zero.2 (Finset.card_ne_zero_of_mem hi)
  field_simp

/-- C28: averaging twice is averaging once. -/
theorem C28_idempotent (sets : List (List Nat)) (bands : List Nat) (h : DegenerateSets sets bands)
    (ise : Nat → K) (i : Nat) (hi : i < bands.length) :
    averageByDegeneracy sets bands (averageByDegeneracy sets bands ise) i =
      averageByDegeneracy sets bands ise i := by
  rw [C28_value sets bands h (averageByDegeneracy sets bands ise) i hi]
  exact mean_const (degenerate_self h hi) fun j hj => C28_equal sets bands h ise i j hi hj

/-- C28: values that already agree on degenerate bands are not changed. -/
theorem C28_unchanged (sets : List (List Nat)) (bands : List Nat) (h : DegenerateSets sets bands)
    (ise : Nat → K) (i : Nat) (hi : i < bands.length)
    (hc : ∀ j ∈ degenerateWith sets bands i, ise j = ise i) :
    averageByDegeneracy sets bands ise i = ise i := by
  rw [C28_value sets bands h ise i hi]
  exact mean_const (degenerate_self h hi) hc

/-- C28: averaging preserves the sum over the selected bands. -/
theorem C28_sum (sets : List (List Nat)) (bands : List Nat) (h : DegenerateSets sets bands)
    (ise : Nat → K) :
    ∑ i ∈ Finset.range bands.length, averageByDegeneracy sets bands ise i =
      ∑ i ∈ Finset.range bands.length, ise i := by
  have h1 : ∀ i ∈ Finset.range bands.length, averageByDegeneracy sets bands ise i =
      ∑ j ∈ Finset.range bands.length, if j ∈ degenerateWith sets bands i then
        ise j / (degenerateWith sets bands j).card else 0 := by
    intro i hi
    rw [C28_value sets bands h ise i (Finset.mem_range.1 hi), mean, Finset.sum_div,
      ← Finset.sum_filter]
    refine Finset.sum_congr ?_ fun j hj => ?_
    · ext j
      rw [Finset.mem_filter]
      exact ⟨fun hj => ⟨(Finset.mem_filter.1 hj).1, hj⟩, fun hj => hj.2⟩
    · rw [degenerate_same h (Finset.mem_filter.1 hj).2]
  rw [Finset.sum_congr rfl h1, Finset.sum_comm]
  refine Finset.sum_congr rfl fun j hj => ?_
  have hsym : ∀ i, j ∈ degenerateWith sets bands i ∧ i < bands.length ↔
      i ∈ degenerateWith sets bands j := by
    intro i
    constructor
    · rintro ⟨hji, hi⟩
      rw [degenerate_same h hji]
      exact degenerate_self h hi
    · intro hij
      refine ⟨?_, Finset.mem_range.1 (Finset.mem_filter.1 hij).1⟩
      rw [degenerate_same h hij]
      exact degenerate_self h (Finset.mem_range.1 hj)
  have h2 : ∑ i ∈ Finset.range bands.length, (if j ∈ degenerateWith sets bands i then
      ise j / (degenerateWith sets bands j).card else 0) =
      ∑ i ∈ degenerateWith sets bands j, ise j / (degenerateWith sets bands j).card := by
    rw [← Finset.sum_filter]
    refine Finset.sum_congr ?_ fun _ _ => rfl
    ext i
    rw [Finset.mem_filter, ← hsym i, Finset.mem_range, and_comm]
  rw [h2, Finset.sum_const, nsmul_eq_mul]
  have : ((degenerateWith sets bands j).card : K) ≠ 0 :=
    Nat.cast_ne_zero.2 (Finset.card_ne_zero_of_mem (degenerate_self h (Finset.mem_range.1 hj)))
  field_simp

/-- C28: averaging is linear. -/
theorem C28_linear (sets : List (List Nat)) (bands : List Nat) (h : DegenerateSets sets bands)
    (x y : Nat → K) (a c : K) (i : Nat) (hi : i < bands.length) :
    averageByDegeneracy sets bands (fun j => a * x j + c * y j) i =
      a * averageByDegeneracy sets bands x i + c * averageByDegeneracy sets bands y i := by
  rw [C28_value sets bands h _ i hi, C28_value sets bands h _ i hi, C28_value sets bands h _ i hi]
  unfold mean
  rw [Finset.sum_add_distrib, ← Finset.mul_sum, ← Finset.mul_sum]
  ring

/-- C28: averages of non-negative values are non-negative. -/
theorem C28_nonneg (sets : List (List Nat)) (bands : List Nat) (h : DegenerateSets sets bands)
    (x : Nat → K) (hx : ∀ j < bands.length, 0 ≤ x j) (i : Nat) (hi : i < bands.length) :
    0 ≤ averageByDegeneracy sets bands x i := by
  rw [C28_value sets bands h _ i hi]
  exact div_nonneg (Finset.sum_nonneg fun j hj =>
    hx j (Finset.mem_range.1 (Finset.mem_filter.1 hj).1)) (Nat.cast_nonneg _)

/-- Six bands, the second and third and the last three degenerate; bands 5, 2, 1, 4 selected. -/
example : DegenerateSets [[0], [1, 2], [3, 4, 5]] [5, 2, 1, 4] :=
  ⟨by decide, by decide⟩

example : (List.range 4).map (averageByDegeneracy [[0], [1, 2], [3, 4, 5]] [5, 2, 1, 4]
    (fun i => [(1 : ℚ), 10, 20, 4].getD i 0)) = [5 / 2, 15, 15, 5 / 2] := by decide +kernel

/-! ## C29 -/

theorem arange_eq (a b : Int) : arange a b = (List.range (b - a).toNat).map fun (i : Nat) => a + i :=
  rfl

theorem batches_flatten (n : Nat) (m : Nat) :
    ((List.range m).map fun (i : Nat) => arange (i * (n : Int)) ((i + 1) * n)).flatten =
      (List.range (m * n)).map fun (i : Nat) => (i : Int) := by
  induction m with
  | zero => simp
  | succ m ih =>
    rw [List.range_succ, List.map_append, List.flatten_append, ih, Nat.succ_mul, List.range_add,
      List.map_append]
    congr 1
    simp only [List.map_cons, List.map_nil, List.flatten_cons, List.flatten_nil, List.append_nil,
      arange]
    rw [show (((m : Int) + 1) * n - m * n).toNat = n by ring_nf; simp, List.map_map]
    refine List.map_congr_left fun i _ => ?_
    simp

/-- C29: for every number of points and every positive batch size, the batches, put one after
the other, are 0, 1, ..., n-1; no batch is empty or longer than the batch size. The default batch
size is 10. -/
theorem C29_batches (tot : Nat) (nelems : Option Int) (h : 0 < nelems.getD 10) :
    ∃ bs, freqPointsBatches tot nelems = some bs ∧
      bs.flatten = (List.range tot).map (fun (i : Nat) => (i : Int)) ∧
      ∀ batch ∈ bs, batch ≠ [] ∧ (batch.length : Int) ≤ nelems.getD 10 := by
  obtain ⟨n, hn⟩ := Int.eq_ofNat_of_zero_le h.le
  rw [hn] at h
  have hn0 : 0 < n := by exact_mod_cast h
  unfold freqPointsBatches
  rw [hn]
  dsimp only
  rw [if_neg (ne_of_gt h)]
  refine ⟨_, rfl, ?_, ?_⟩
  · have hdiv : (tot : Int).fdiv n = ((tot / n : Nat) : Int) := by
      rw [Int.fdiv_eq_ediv_of_nonneg _ (Int.natCast_nonneg _)]; norm_cast
    have hmod : (tot : Int).fmod n = ((tot % n : Nat) : Int) := by
      rw [Int.fmod_eq_emod_of_nonneg _ (Int.natCast_nonneg _)]; norm_cast
    rw [hdiv, hmod, Int.toNat_natCast]
    by_cases hr : 0 < tot % n
    · rw [if_pos (by exact_mod_cast hr), List.flatten_append, batches_flatten]
      conv_rhs => rw [← Nat.div_add_mod' tot n, List.range_add, List.map_append]
      congr 1
      simp only [List.flatten_cons, List.flatten_nil, List.append_nil, arange]
      rw [List.map_map]
      have : ((tot : Int) - (n : Int) * ((tot / n : Nat) : Int)).toNat = tot % n := by
        have := Nat.div_add_mod tot n
        have h2 : (tot : Int) = n * ((tot / n : Nat) : Int) + ((tot % n : Nat) : Int) := by
          exact_mod_cast this.symm
        omega
      rw [this]
      refine List.map_congr_left fun i _ => ?_
      simp [mul_comm]
    · rw [if_neg (by exact_mod_cast hr), batches_flatten]
      have := Nat.div_add_mod' tot n
      rw [show tot / n * n = tot by omega]
  · have hlen : ∀ a b : Int, (arange a b).length = (b - a).toNat := fun a b => by
      simp [arange]
    have hne : ∀ a b : Int, a < b → arange a b ≠ [] := fun a b hab e => by
      have := hlen a b
      rw [e, List.length_nil] at this
      omega
    have hfull : ∀ batch ∈ (List.range ((tot : Int).fdiv n).toNat).map
        (fun (i : Nat) => arange (i * (n : Int)) ((i + 1) * n)),
        batch ≠ [] ∧ (batch.length : Int) ≤ n := by
      intro batch hb
      obtain ⟨i, _, rfl⟩ := List.mem_map.1 hb
      refine ⟨hne _ _ (by linarith), ?_⟩
      rw [hlen, show ((i : Int) + 1) * n - i * n = n by ring, Int.toNat_natCast]
    intro batch hb
    split_ifs at hb with hr
    · rcases List.mem_append.1 hb with hb | hb
      · exact hfull batch hb
      · rw [List.mem_singleton] at hb
        subst hb
        have h1 : (n : Int) * (tot : Int).fdiv n + (tot : Int).fmod n = tot :=
          Int.mul_fdiv_add_fmod _ _
        have h2 : (tot : Int).fmod n < n := Int.fmod_lt_of_pos _ h
        refine ⟨hne _ _ (by omega), ?_⟩
        rw [hlen]
        omega
    · exact hfull batch hb

theorem fmod_nonpos (a : Int) {n : Int} (h : n < 0) : a.fmod n ≤ 0 := by
  rw [Int.fmod_eq_emod]
  have h1 := Int.emod_lt_of_neg a h
  split_ifs with hc
  · rcases hc with hc | hc
    · omega
    · rw [Int.emod_eq_zero_of_dvd hc]; omega
  · omega

/-- C29: a negative batch size is not rejected: there is no batch at all, and nothing is
computed. -/
theorem C29_negative_size (tot : Nat) (n : Int) (h : n < 0) :
    freqPointsBatches tot (some n) = some [] := by
  unfold freqPointsBatches
  simp only [Option.getD_some]
  rw [if_neg (ne_of_lt h)]
  have h1 : (tot : Int).fdiv n ≤ 0 := by
    by_contra hc
    push Not at hc
    have h1 := Int.mul_fdiv_add_fmod (tot : Int) n
    have h2 := fmod_nonpos (tot : Int) h
    nlinarith
  have h2 : ¬ (tot : Int).fmod n > 0 := not_lt.2 (fmod_nonpos (tot : Int) h)
  rw [if_neg h2, Int.toNat_of_nonpos h1]
  rfl

theorem runFreqBatches_eq (bs : List (List Int)) (points : Int → K)
    (run : List K → Nat → Nat → K) (F : K → Nat → K)
    (hrun : ∀ pts p (h : p < pts.length), run pts p = F pts[p]) (gamma : Int → Nat → K) :
    runFreqBatches bs points run gamma =
      runWrites gamma (bs.flatten.map fun k => (k, F (points k))) := by
  unfold runFreqBatches
  induction bs generalizing gamma with
  | nil => rfl
  | cons batch bs ih =>
    rw [List.foldl_cons, ih, List.flatten_cons, List.map_append, runWrites_append]
    congr 2
    apply List.ext_getElem
    · simp
    · intro n h1 h2
      have hn : n < batch.length := by simpa using h1
      simp only [List.getElem_map, List.getElem_zipIdx, Nat.zero_add, Prod.mk.injEq, true_and]
      rw [hrun _ _ (by simpa using hn), List.getElem_map]

/-- C29: if a run computes the row of each of its points independently of the other points, the
batch-wise calculation fills every point with the row of a run at that point alone, for every
batch size, and touches nothing else. -/
theorem C29_each_point (tot : Nat) (nelems : Option Int) (h : 0 < nelems.getD 10)
    (points : Int → K) (run : List K → Nat → Nat → K)
    (hrun : ∀ pts p (h : p < pts.length), run pts p = run [pts[p]] 0) (gamma : Int → Nat → K) :
    ∃ bs, freqPointsBatches tot nelems = some bs ∧
      (∀ k : Nat, k < tot → runFreqBatches bs points run gamma k = run [points k] 0) ∧
      ∀ k : Int, k < 0 ∨ tot ≤ k → runFreqBatches bs points run gamma k = gamma k := by
  obtain ⟨bs, hbs, hflat, _⟩ := C29_batches tot nelems h
  refine ⟨bs, hbs, fun k hk => ?_, fun k hk => ?_⟩
  · rw [runFreqBatches_eq bs points run (fun f => run [f] 0) hrun, hflat, List.map_map]
    refine runWrites_value _ _ ?_ ((k : Int), run [points k] 0) ?_
    · rintro u hu w hw e
      obtain ⟨i, _, rfl⟩ := List.mem_map.1 hu
      obtain ⟨j, _, rfl⟩ := List.mem_map.1 hw
      have : (i : Int) = j := e
      simp only [Function.comp_apply, this]
    · exact List.mem_map.2 ⟨k, List.mem_range.2 hk, rfl⟩
  · rw [runFreqBatches_eq bs points run (fun f => run [f] 0) hrun, hflat, List.map_map]
    refine runWrites_untouched _ _ _ fun w hw => ?_
    obtain ⟨i, hi, rfl⟩ := List.mem_map.1 hw
    have := List.mem_range.1 hi
    simp only [Function.comp_apply]
    omega

theorem average_congr (sets : List (List Nat)) (bands : List Nat) {x y : Nat → K}
    (h : ∀ i < bands.length, x i = y i) :
    averageByDegeneracy sets bands x = averageByDegeneracy sets bands y := by
  have : averageSet bands x = averageSet bands y := by
    funext se s
    have e : (positions bands s).map x = (positions bands s).map y :=
      List.map_congr_left fun i hi => h i (mem_positions.1 hi).1
    funext k
    rw [averageSet_apply, averageSet_apply, e]
  unfold averageByDegeneracy
  rw [this]

/-- Flags and weights at row `p` of `(g, z)` with `n` rows, and at row 0 of `(g', z')` with one
row: sound flags and equal weights give equal rows. -/
theorem runAtPoints_congr (s : IseState K) (g g' : (Int → K) × (Int → Bool)) (pts : List K)
    (f : K) (p : Nat) (hbose : ∀ f, s.cutoff < f → 0 ≤ s.bose f s.temperature)
    (hz : ∀ i < s.numTriplets, ∀ k < s.numBand, ∀ l < s.numBand,
      g.2 (at4 pts.length s.numBand s.numBand i p k l : Nat) = true → ∀ e < 2,
        g.1 (at5 s.numTriplets pts.length s.numBand s.numBand e i p k l : Nat) = 0)
    (hz' : ∀ i < s.numTriplets, ∀ k < s.numBand, ∀ l < s.numBand,
      g'.2 (at4 1 s.numBand s.numBand i 0 k l : Nat) = true → ∀ e < 2,
        g'.1 (at5 s.numTriplets 1 s.numBand s.numBand e i 0 k l : Nat) = 0)
    (he : ∀ i < s.numTriplets, ∀ k < s.numBand, ∀ l < s.numBand, ∀ e < 2,
      g.1 (at5 s.numTriplets pts.length s.numBand s.numBand e i p k l : Nat) =
        g'.1 (at5 s.numTriplets 1 s.numBand s.numBand e i 0 k l : Nat)) :
    runAtPoints s g pts p = runAtPoints s g' [f] 0 := by
  unfold runAtPoints
  refine average_congr _ _ fun b hb => ?_
  rw [show [f].length = 1 from rfl]
  rw [C25_full_sum_at_frequency _ _ _ _ _ _ _ _ _ _ _ _ _ hbose b hb p
      fun i hi k hk l hl h => Or.inl ⟨hz i hi k hk l hl h 0 (by decide),
        hz i hi k hk l hl h 1 (by decide)⟩,
    C25_full_sum_at_frequency _ _ _ _ _ _ _ _ _ _ _ _ _ hbose b hb 0
      fun i hi k hk l hl h => Or.inl ⟨hz' i hi k hk l hl h 0 (by decide),
        hz' i hi k hk l hl h 1 (by decide)⟩]
  congr 1
  unfold linewidth
  refine Finset.sum_congr rfl fun i hi => ?_
  rw [Finset.mem_range] at hi
  congr 1
  refine pairSum_congr _ _ _ _ _ _ fun k hk l hl n1 n2 => ?_
  rw [he i hi k hk l hl 0 (by decide), he i hi k hk l hl 1 (by decide)]

/-- Tetrahedron weights and flags for a list of frequency points. -/
def pointWeights (s : IseState K) (eps : K) (g0 : Fin 3 → K) (relative : Fin 24 → Fin 4 → V3)
    (bz : BZGridOut) (D : V3) (dense : Bool) (iw : Int → K) (zero : Int → Bool) (pts : List K) :
    (Int → K) × (Int → Bool) :=
  tetrahedronWeights eps g0 (fun j => pts.getD j 0) pts.length relative s.triplets s.numTriplets
    bz D dense s.frequencies s.numBand s.frequencies s.numBand 2 iw zero

/-- C29: self-energies sampled with the tetrahedron method do not depend on the batch size: every
point gets the value computed for it alone. -/
theorem C29_tetrahedron (s : IseState K) (eps : K) (g0 : Fin 3 → K)
    (relative : Fin 24 → Fin 4 → V3) (bz : BZGridOut) (D : V3) (dense : Bool) (iw : Int → K)
    (zero : Int → Bool) (hbose : ∀ f, s.cutoff < f → 0 ≤ s.bose f s.temperature)
    (tot : Nat) (nelems : Option Int) (h : 0 < nelems.getD 10) (points : Int → K)
    (gamma : Int → Nat → K) :
    let run := fun pts => runAtPoints s
      (pointWeights s eps g0 relative bz D dense iw zero pts) pts
    ∃ bs, freqPointsBatches tot nelems = some bs ∧
      ∀ k : Nat, k < tot → runFreqBatches bs points run gamma k = run [points k] 0 := by
  intro run
  obtain ⟨bs, h1, h2, _⟩ := C29_each_point tot nelems h points run (fun pts p hp => by
    have w := fun (qs : List K) q (hq : q < qs.length) i hi k hk l hl =>
      C23_weights eps g0 (fun j => qs.getD j 0) qs.length relative s.triplets s.numTriplets
        bz D dense s.frequencies s.numBand s.frequencies s.numBand 2 iw zero (Or.inl rfl) i q k l hi
        hq hk hl
    refine runAtPoints_congr s _ _ pts _ p hbose (fun i hi k hk l hl => (w pts p hp i hi k hk l hl).2.2)
      (fun i hi k hk l hl => (w [pts[p]] 0 Nat.one_pos i hi k hk l hl).2.2)
      fun i hi k hk l hl e he => ?_
    refine ((w pts p hp i hi k hk l hl).1 e he).trans
      (((w [pts[p]] 0 Nat.one_pos i hi k hk l hl).1 e he).trans ?_).symm
    simp [List.getD, hp]) gamma
  exact ⟨bs, h1, h2⟩

/-- C29: the same for the smearing method. -/
theorem C29_smearing (s : IseState K) (gaussian : K → K → K) (sigma sigmaCutoff : K) (iw : Int → K)
    (zero : Int → Bool) (hbose : ∀ f, s.cutoff < f → 0 ≤ s.bose f s.temperature)
    (tot : Nat) (nelems : Option Int) (h : 0 < nelems.getD 10) (points : Int → K)
    (gamma : Int → Nat → K) :
    let run := fun pts : List K => runAtPoints s
      (smearingWeights gaussian sigma sigmaCutoff (fun j => pts.getD j 0) pts.length s.triplets
        s.numTriplets s.frequencies s.numBand 2 iw zero) pts
    ∃ bs, freqPointsBatches tot nelems = some bs ∧
      ∀ k : Nat, k < tot → runFreqBatches bs points run gamma k = run [points k] 0 := by
  intro run
  obtain ⟨bs, h1, h2, _⟩ := C29_each_point tot nelems h points run (fun pts p hp => by
    have w := fun (qs : List K) q (hq : q < qs.length) i hi k hk l hl =>
      C24_flag gaussian sigma sigmaCutoff (fun j => qs.getD j 0) qs.length s.triplets s.numTriplets
        s.frequencies s.numBand 2 iw zero (Or.inl rfl) i q k l hi hq hk hl
    refine runAtPoints_congr s _ _ pts _ p hbose (fun i hi k hk l hl => (w pts p hp i hi k hk l hl).2.1)
      (fun i hi k hk l hl => (w [pts[p]] 0 Nat.one_pos i hi k hk l hl).2.1)
      fun i hi k hk l hl e he => ?_
    have a := w pts p hp i hi k hk l hl
    have c := w [pts[p]] 0 Nat.one_pos i hi k hk l hl
    have hpt : (fun j => pts.getD j 0) p = (fun j => [pts[p]].getD j 0) 0 := by
      simp [List.getD, hp]
    dsimp only at a c
    dsimp only at hpt
    rw [hpt] at a
    have hiff := a.1.trans c.1.symm
    cases hf : (smearingWeights gaussian sigma sigmaCutoff (fun j => pts.getD j 0) pts.length
      s.triplets s.numTriplets s.frequencies s.numBand 2 iw zero).2
        (at4 pts.length s.numBand s.numBand i p k l : Nat) with
    | true => exact (a.2.1 hf e he).trans (c.2.1 (hiff.1 hf) e he).symm
    | false =>
      have hf' := Bool.eq_false_iff.2 fun hc => absurd (hiff.2 hc) (by rw [hf]; decide)
      exact (a.2.2 hf e he).trans (c.2.2 hf' e he).symm) gamma
  exact ⟨bs, h1, h2⟩

/-- 23 points in batches of 10, the default. -/
example : (freqPointsBatches 23 none).map (List.map List.length) = some [10, 10, 3] := by
  decide +kernel

/-! ## C30 -/

theorem groupPos_eq (groups : List (List Nat)) (i : Nat) (hi : i ≤ groups.length) :
    groupPos groups i = (groups.take i).flatten.length := by
  induction i with
  | zero => rfl
  | succ i ih =>
    have h1 : groupPos groups (i + 1) = groupPos groups i + (groups.getD i []).length := by
      unfold groupPos; rw [List.range_succ, List.foldl_append]; rfl
    have hlt : i < groups.length := hi
    rw [h1, ih (by omega), List.take_succ_eq_append_getElem hlt, List.flatten_append,
      List.length_append]
    simp [List.getD, hlt]

/-- C30: with the values of the selected bands in the order of selection, every group is written
with the average over exactly its own bands, groups in the order of selection. -/
theorem C30_group_average (groups : List (List Nat)) (value : Nat → K) :
    writtenGroups groups ((flattenBands groups).map value) =
      groups.map fun g => (g, (g.map value).sum / (g.length : K)) := by
  unfold writtenGroups flattenBands
  apply List.ext_getElem
  · simp
  · intro n h1 h2
    have hn : n < groups.length := by simpa using h1
    simp only [List.getElem_map, List.getElem_zipIdx, Nat.zero_add]
    have : List.take groups[n].length (List.drop (groupPos groups n) (List.map value groups.flatten))
        = groups[n].map value := by
      conv_lhs => rw [← List.map_drop, ← List.map_take]
      congr 1
      rw [groupPos_eq groups n hn.le]
      conv_lhs => rw [show groups.flatten = (groups.take n).flatten ++ (groups.drop n).flatten by
        rw [← List.flatten_append, List.take_append_drop]]
      rw [List.drop_left, List.drop_eq_getElem_cons hn, List.flatten_cons, List.take_left]
    rw [this]

example : writtenGroups [[4, 5], [0], [2, 1]] ([7, 9, 1, 10, 20] : List ℚ) =
    [([4, 5], 8), ([0], 1), ([2, 1], 15)] := by decide +kernel

/-! ## C69 -/

theorem at4_lt {n0 n1 n2 n3 a b c d : Nat} (ha : a < n0) (hb : b < n1) (hc : c < n2) (hd : d < n3) :
    at4 n1 n2 n3 a b c d < n0 * n1 * n2 * n3 := by
  have h1 : a * n1 + b < n0 * n1 := digits_lt ha hb
  have h2 : (a * n1 + b) * n2 + c < n0 * n1 * n2 := digits_lt h1 hc
  exact digits_lt h2 hd

theorem at5_one (n1 n2 n3 n4 a b c d : Nat) :
    at5 n1 n2 n3 n4 1 a b c d = n1 * n2 * n3 * n4 + at4 n2 n3 n4 a b c d := by
  unfold at5 at4; ring

theorem selectClass_slab (g : Int → K) {n r m i p k l : Nat} (hi : i < n) (hp : p < r) (hk : k < m)
    (hl : l < m) :
    selectClass (some 1) (n * r * m * m) g (at5 n r m m 0 i p k l : Nat) = 0 ∧
    selectClass (some 1) (n * r * m * m) g (at5 n r m m 1 i p k l : Nat) =
      g (at5 n r m m 1 i p k l : Nat) ∧
    selectClass (some 2) (n * r * m * m) g (at5 n r m m 0 i p k l : Nat) =
      g (at5 n r m m 0 i p k l : Nat) ∧
    selectClass (some 2) (n * r * m * m) g (at5 n r m m 1 i p k l : Nat) = 0 := by
  have h := at4_lt hi hp hk hl
  have h0 := at5_zero n r m m i p k l
  have h1 := at5_one n r m m i p k l
  unfold selectClass
  refine ⟨if_pos ⟨Int.natCast_nonneg _, ?_⟩, if_neg ?_, if_neg ?_, if_pos ⟨?_, ?_⟩⟩ <;>
    (first | rw [h0] | rw [h1]) <;> omega

theorem linewidth_classes (bose : K → K → K) (n nb0 m r : Nat) (strength : Int → K)
    (frequencies : Int → K) (triplets : Nat → Fin 3 → Int) (weights : Nat → Int) (g : Int → K)
    (T cutoff : K) (b p : Nat) (hp : p < r) :
    linewidth bose n nb0 m r strength frequencies triplets weights
        (selectClass (some 1) (n * r * m * m) g) T cutoff b p +
      linewidth bose n nb0 m r strength frequencies triplets weights
        (selectClass (some 2) (n * r * m * m) g) T cutoff b p =
      linewidth bose n nb0 m r strength frequencies triplets weights g T cutoff b p := by
  unfold linewidth pairSum
  rw [← Finset.sum_add_distrib]
  refine Finset.sum_congr rfl fun i hi => ?_
  rw [← mul_add, ← Finset.sum_add_distrib]
  congr 1
  refine Finset.sum_congr rfl fun k hk => ?_
  rw [← Finset.sum_add_distrib]
  refine Finset.sum_congr rfl fun l hl => ?_
  obtain ⟨h1, h2, h3, h4⟩ := selectClass_slab g (Finset.mem_range.1 hi) hp (Finset.mem_range.1 hk)
    (Finset.mem_range.1 hl)
  beta_reduce
  rw [h1, h2, h3, h4]
  unfold modePair
  split_ifs <;> ring

theorem selectClass_sound {n nb0 m r : Nat} {strength g : Int → K} {gZero : Int → Bool} {b p : Nat}
    (hp : p < r) (h : FlagsSound n nb0 m r strength g gZero b p) (c : Nat) (hc : c = 1 ∨ c = 2) :
    FlagsSound n nb0 m r strength (selectClass (some c) (n * r * m * m) g) gZero b p := by
  intro i hi k hk l hl hz
  obtain ⟨h1, h2, h3, h4⟩ := selectClass_slab g hi hp hk hl
  rcases h i hi k hk l hl hz with ⟨e0, e1⟩ | e
  · left
    rcases hc with rfl | rfl
    · rw [h1, h2]; exact ⟨rfl, e1⟩
    · rw [h3, h4]; exact ⟨e0, rfl⟩
  · exact Or.inr e

/-- C69: at the band frequencies the linewidths restricted to the two scattering classes add up
to the full linewidth; at zero temperature class 1 (collision) does not contribute. -/
theorem C69_classes_at_bands (bose : K → K → K) (numTriplets numBand0 numBand : Nat)
    (strength : Int → K) (frequencies : Int → K) (triplets : Nat → Fin 3 → Int)
    (weights : Nat → Int) (g : Int → K) (gZero : Int → Bool) (T cutoff : K) (numPoints : Nat)
    (hbose : ∀ f, cutoff < f → 0 ≤ bose f T) (b : Nat) (hb : b < numBand0)
    (hflag : FlagsSound numTriplets numBand0 numBand numBand0 strength g gZero b b) :
    let slab := numTriplets * numBand0 * numBand * numBand
    let ise := fun cls => iseWithG bose numTriplets numBand0 numBand strength frequencies triplets
      weights (selectClass cls slab g) gZero T cutoff numPoints (-1) b
    ise (some 1) + ise (some 2) = ise none ∧ (T ≤ 0 → ise (some 1) = 0) := by
  intro slab ise
  have h1 : ise (some 1) = _ := C25_full_sum bose numTriplets numBand0 numBand strength frequencies
    triplets weights _ gZero T cutoff numPoints hbose b hb
    (selectClass_sound hb hflag 1 (Or.inl rfl))
  have h2 : ise (some 2) = _ := C25_full_sum bose numTriplets numBand0 numBand strength frequencies
    triplets weights _ gZero T cutoff numPoints hbose b hb
    (selectClass_sound hb hflag 2 (Or.inr rfl))
  have h0 : ise none = _ := C25_full_sum bose numTriplets numBand0 numBand strength frequencies
    triplets weights g gZero T cutoff numPoints hbose b hb hflag
  refine ⟨by rw [h0, h1, h2, linewidth_classes _ _ _ _ _ _ _ _ _ _ _ _ _ _ hb], fun hT => ?_⟩
  rw [h1]
  unfold linewidth
  refine Finset.sum_eq_zero fun i hi => mul_eq_zero_of_right _ ?_
  refine Finset.sum_eq_zero fun k hk => Finset.sum_eq_zero fun l hl => ?_
  beta_reduce
  rw [show selectClass (some 1) slab g _ = 0 from (selectClass_slab g (Finset.mem_range.1 hi) hb
    (Finset.mem_range.1 hk) (Finset.mem_range.1 hl)).1]
  unfold modePair
  rw [if_neg (not_lt.2 hT), zero_mul, ite_self]

/-- C69: the same at sampled frequencies. -/
theorem C69_classes_at_frequencies (bose : K → K → K) (numTriplets numBand0 numBand : Nat)
    (strength : Int → K) (frequencies : Int → K) (triplets : Nat → Fin 3 → Int)
    (weights : Nat → Int) (g : Int → K) (gZero : Int → Bool) (T cutoff : K) (numPoints : Nat)
    (hbose : ∀ f, cutoff < f → 0 ≤ bose f T) (b : Nat) (hb : b < numBand0) (p : Nat)
    (hp : p < numPoints)
    (hflag : FlagsSound numTriplets numBand0 numBand numPoints strength g gZero b p) :
    let slab := numTriplets * numPoints * numBand * numBand
    let ise := fun cls => iseWithG bose numTriplets numBand0 numBand strength frequencies triplets
      weights (selectClass cls slab g) gZero T cutoff numPoints p b
    ise (some 1) + ise (some 2) = ise none := by
  intro slab ise
  have h1 : ise (some 1) = _ := C25_full_sum_at_frequency bose numTriplets numBand0 numBand strength
    frequencies triplets weights _ gZero T cutoff numPoints hbose b hb p
    (selectClass_sound hp hflag 1 (Or.inl rfl))
  have h2 : ise (some 2) = _ := C25_full_sum_at_frequency bose numTriplets numBand0 numBand strength
    frequencies triplets weights _ gZero T cutoff numPoints hbose b hb p
    (selectClass_sound hp hflag 2 (Or.inr rfl))
  have h0 : ise none = _ := C25_full_sum_at_frequency bose numTriplets numBand0 numBand strength
    frequencies triplets weights g gZero T cutoff numPoints hbose b hb p hflag
  rw [h0, h1, h2, linewidth_classes _ _ _ _ _ _ _ _ _ _ _ _ _ _ hp]

/-! ## C70 -/

/-- C70: the Python implementation gives the linewidth of the C implementation, provided that
flagged weights are zero and, at zero temperature, that the interaction strength vanishes for
modes not above the cutoff (C40). -/
theorem C70_python (bose : K → K → K) (numTriplets numBand0 numBand : Nat)
    (strength : Int → K) (frequencies : Int → K) (triplets : Nat → Fin 3 → Int)
    (weights : Nat → Int) (g : Int → K) (gZero : Int → Bool) (T cutoff : K) (numPoints : Nat)
    (hbose : ∀ f, cutoff < f → 0 ≤ bose f T) (b : Nat) (hb : b < numBand0)
    (hflag : FlagsSound numTriplets numBand0 numBand numBand0 strength g gZero b b)
    (hcut : T ≤ 0 → ∀ i < numTriplets, ∀ k < numBand, ∀ l < numBand,
      ¬ (cutoff < frequencies (triplets i 1 * numBand + k) ∧
        cutoff < frequencies (triplets i 2 * numBand + l)) →
      strength (at4 numBand0 numBand numBand i b k l : Nat) = 0) :
    isePy bose numTriplets numBand
      (fun i b k l => strength (at4 numBand0 numBand numBand i b k l : Nat))
      (fun q j => frequencies (q * numBand + j)) triplets weights
      (fun e i b k l => g (at5 numTriplets numBand0 numBand numBand e i b k l : Nat)) T cutoff b =
    iseWithG bose numTriplets numBand0 numBand strength frequencies triplets weights g gZero T
      cutoff numPoints (-1) b := by
  rw [C25_full_sum bose numTriplets numBand0 numBand strength frequencies
    triplets weights g gZero T cutoff numPoints hbose b hb hflag]
  have fold : ∀ (m : Nat) (f : K → Nat → K) (x : Nat → K), (∀ s, ∀ i < m, f s i = s + x i) →
      ∀ s, (List.range m).foldl f s = s + ∑ i ∈ Finset.range m, x i := by
    intro m f x h
    induction m with
    | zero => simp
    | succ m ih =>
      intro s
      rw [List.range_succ, List.foldl_append, ih (fun s i hi => h s i (by omega)),
        Finset.sum_range_succ, ← add_assoc]
      exact h _ m (by omega)
  unfold isePy linewidth pairSum
  rw [fold numTriplets _ _ ?_, zero_add]
  intro s i hi
  dsimp only
  rw [Finset.mul_sum]
  refine fold numBand _ _ ?_ s
  intro s k hk
  rw [Finset.mul_sum]
  refine fold numBand _ _ ?_ s
  intro s l hl
  unfold modePair
  by_cases hT : 0 < T
  · simp only [gt_iff_lt, hT, if_true]
    by_cases hc : cutoff < frequencies (triplets i 1 * numBand + k) ∧
        cutoff < frequencies (triplets i 2 * numBand + l)
    · rw [if_pos hc, if_pos hc, if_pos hc.1, if_pos hc.2]; ring
    · rw [if_neg hc, if_neg hc]; ring
  · simp only [gt_iff_lt, hT, if_false]
    by_cases hc : cutoff < frequencies (triplets i 1 * numBand + k) ∧
        cutoff < frequencies (triplets i 2 * numBand + l)
    · rw [if_pos hc]; ring
    · rw [if_neg hc, hcut (not_lt.1 hT) i hi k hk l hl hc]; ring

/-- One triplet, two bands. -/
example : isePy (K := ℚ) (fun _ _ => 1) 1 2 (fun _ _ _ _ => 3) (fun _ _ => 1) (fun _ _ => 0)
    (fun _ => 2) (fun _ _ _ _ _ => 5) 300 0 0 = 360 := by decide +kernel

end
end Phono3py.Props
