/-
Property theorems C112-C114: mean free paths, collective phonons and repeated evaluation of the
direct solution.
-/
import Verif.Props.LBTE

set_option linter.unusedSectionVars false

namespace Phono3py.Props
open Phono3py Phono3py.Spec Finset

section
variable {K : Type _} [Field K] [LinearOrder K] [IsStrictOrderedRing K]

/-! ### C112 -/

theorem freqsSinh_pos (k : LBTEInput K) (hk : 0 < k.kb) (ht : 0 < k.t) (he : 0 < k.toEv)
    (hc : 0 ≤ k.cutoff) (f : K) (hf : k.cutoff < f)
    (hs : 0 < k.sinh (f * k.toEv / (2 * k.kb * k.t))) : 0 < freqsSinh k f := by
  unfold freqsSinh
  dsimp only
  rw [if_pos hf, if_pos hs]
  have : 0 < f := lt_of_le_of_lt hc hf
  positivity

theorem starOuter_scale (k : LBTEInput K) (c d : K) (v f : Fin 3 → K) (a b : Fin 3) :
    starOuter k (fun x => c * v x) (fun x => d * f x) a b = c * d * starOuter k v f a b := by
  unfold starOuter
  rw [sumLoop_eq, sumLoop_eq, Finset.mul_sum]
  refine Finset.sum_congr rfl fun j _ => ?_
  unfold rotateVector
  ring

/-- The square root in the mean free path. -/
theorem sqrt_heat_capacity (sqrt : K → K) (hsq : ∀ y, 0 ≤ y → 0 ≤ sqrt y ∧ sqrt y * sqrt y = y)
    (k : LBTEInput K) (hk : 0 < k.kb) (ht : 0 < k.t) (he : 0 < k.toEv) (hc : 0 ≤ k.cutoff) (f : K)
    (hf : k.cutoff < f) (hs : 0 < k.sinh (f * k.toEv / (2 * k.kb * k.t))) :
    sqrt (k.kb / sinhHeatCapacity k f) = 1 / (2 * k.t * freqsSinh k f) := by
  have hp := freqsSinh_pos k hk ht he hc f hf hs
  rw [← freqsSinh_sq k hk ht f fun _ => hs]
  set u := freqsSinh k f
  have h0 : 0 ≤ k.kb / (u * u * (4 * k.kb * k.t ^ 2)) := by positivity
  obtain ⟨h1, h2⟩ := hsq _ h0
  set s := sqrt (k.kb / (u * u * (4 * k.kb * k.t ^ 2)))
  have e : s * s = 1 / (2 * k.t * u) * (1 / (2 * k.t * u)) := by
    rw [h2]
    field_simp
    ring
  have hq : 0 < 1 / (2 * k.t * u) := by positivity
  have hz : (s - 1 / (2 * k.t * u)) * (s + 1 / (2 * k.t * u)) = 0 := by linear_combination e
  rcases mul_eq_zero.1 hz with h | h
  · exact sub_eq_zero.1 h
  · exact absurd h (ne_of_gt (by linarith))

/-- **C112 (mean free path).** The stored mean free path reproduces the contribution of every mode
to the conductivity: it is the vector `Λ` with `κ = -2π · cv v ⊗ Λ`, symmetrised and summed over the
star. The heat capacity is the one of the mode and not below the threshold; `sqrt` is a square root;
the mode is not one of the three lowest at Γ. -/
theorem C112_mean_free_path (sqrt : K → K)
    (hsq : ∀ y, 0 ≤ y → 0 ≤ sqrt y ∧ sqrt y * sqrt y = y) (pi tiny : K) (hpi : pi ≠ 0)
    (k : LBTEInput K) (hk : 0 < k.kb) (ht : 0 < k.t) (he : 0 < k.toEv) (hc : 0 ≤ k.cutoff)
    (cv : Nat → Nat → K) (Y : Nat → Fin 3 → K) (old : Nat → Nat → Fin 6 → K)
    (oldMfp : Nat → Nat → Fin 3 → K) (i l : Nat) (hl : l < k.numBand)
    (hcv : cv i l = sinhHeatCapacity k (k.frequencies i l)) (htiny : tiny ≤ cv i l)
    (hf : k.cutoff < k.frequencies i l)
    (hs : 0 < k.sinh (k.frequencies i l * k.toEv / (2 * k.kb * k.t))) (hw : k.weights i ≠ 0)
    (hg : ¬(k.gammaAddress i = true ∧ l < 3)) (c : Fin 6) :
    modeKappaFromMfp pi k cv (meanFreePath sqrt pi tiny k cv (fVectors k Y) oldMfp) i l c =
      lbteModeKappa k (lbteX k) Y old i l c := by
  have hp := freqsSinh_pos k hk ht he hc _ hf hs
  have hX : lbteX k (i * k.numBand + l) =
      fun a => (k.weights i * freqsSinh k (k.frequencies i l)) * k.gv i l a := by
    funext a
    unfold lbteX
    rw [if_pos ht, (index2 hl).1, (index2 hl).2]
    ring
  have hY : Y (i * k.numBand + l) = fun a => (2 * k.weights i) * fVectors k Y i l a := by
    funext a
    unfold fVectors
    field_simp
  have hm : meanFreePath sqrt pi tiny k cv (fVectors k Y) oldMfp i l =
      fun a => (-1 / (freqsSinh k (k.frequencies i l) * (2 * pi))) * fVectors k Y i l a := by
    funext a
    unfold meanFreePath
    rw [if_neg (not_lt.2 htiny), hcv, sqrt_heat_capacity sqrt hsq k hk ht he hc _ hf hs]
    field_simp
  have hv : k.gv i l = fun a => 1 * k.gv i l a := by funext a; rw [one_mul]
  unfold modeKappaFromMfp lbteModeKappa
  dsimp only
  rw [if_neg hg, hX, hY, hm, hcv, ← freqsSinh_sq k hk ht _ fun _ => hs]
  rw [starOuter_scale, starOuter_scale]
  conv_lhs => rw [hv]
  rw [starOuter_scale, starOuter_scale]
  field_simp
  ring

/-- **C112 (relaxation time approximation).** When the collision matrix is diagonal the mean free
path is `-v / (4π Γ)`: the velocity times the lifetime `1 / (4π Γ)`, pointing backwards. -/
theorem C112_rta (sqrt : K → K) (hsq : ∀ y, 0 ≤ y → 0 ≤ sqrt y ∧ sqrt y * sqrt y = y)
    (pi tiny : K) (hpi : pi ≠ 0) (k : LBTEInput K) (hk : 0 < k.kb) (ht : 0 < k.t)
    (he : 0 < k.toEv) (hc : 0 ≤ k.cutoff) (cv g : Nat → Nat → K)
    (oldMfp : Nat → Nat → Fin 3 → K) (i l : Nat) (hl : l < k.numBand)
    (hcv : cv i l = sinhHeatCapacity k (k.frequencies i l)) (htiny : tiny ≤ cv i l)
    (hf : k.cutoff < k.frequencies i l)
    (hs : 0 < k.sinh (k.frequencies i l * k.toEv / (2 * k.kb * k.t))) (hw : k.weights i ≠ 0)
    (hgam : g i l ≠ 0) (a : Fin 3) :
    meanFreePath sqrt pi tiny k cv (fVectors k (lbteRTAIr k g)) oldMfp i l a =
      -(k.gv i l a * (1 / (4 * pi * g i l))) := by
  have hp := freqsSinh_pos k hk ht he hc _ hf hs
  unfold meanFreePath
  rw [if_neg (not_lt.2 htiny), hcv, sqrt_heat_capacity sqrt hsq k hk ht he hc _ hf hs]
  unfold fVectors lbteRTAIr lbteX
  rw [(index2 hl).1, (index2 hl).2, if_pos hf, if_neg hgam, if_pos ht]
  field_simp
  ring

/-! ### C113 -/

/-- `∑_s (u_s · x)² w_s = x · A x`. -/
theorem quadratic_spectrum {n : Nat} {A : Nat → Nat → K} {w : Nat → K} {V : Nat → Nat → K}
    (h : IsEigensystem n A w V) (x : Nat → K) :
    ∑ s ∈ range n, (∑ p ∈ range n, V p s * x p) ^ 2 * w s =
      ∑ p ∈ range n, ∑ q ∈ range n, x p * A p q * x q := by
  have e : ∀ p ∈ range n, ∀ q ∈ range n, x p * A p q * x q =
      ∑ s ∈ range n, V p s * x p * (V q s * x q) * w s := by
    intro p hp q hq
    rw [h.eigen p (Finset.mem_range.1 hp) q (Finset.mem_range.1 hq), Finset.mul_sum, Finset.sum_mul]
    exact Finset.sum_congr rfl fun s _ => by ring
  rw [Finset.sum_congr rfl fun p hp => Finset.sum_congr rfl fun q hq => e p hp q hq]
  have e2 : ∀ p, ∑ q ∈ range n, ∑ s ∈ range n, V p s * x p * (V q s * x q) * w s =
      ∑ s ∈ range n, ∑ q ∈ range n, V p s * x p * (V q s * x q) * w s := fun p => Finset.sum_comm
  simp only [e2]
  rw [Finset.sum_comm]
  refine Finset.sum_congr rfl fun s _ => ?_
  rw [pow_two, Finset.sum_mul_sum, Finset.sum_mul]
  refine Finset.sum_congr rfl fun p _ => ?_
  rw [Finset.sum_mul]

theorem rotationSum_outer (k : LBTEInput K) (v f : Fin 3 → K) (a b : Fin 3) :
    ∑ i : Fin 3, ∑ j : Fin 3, v i * rotationSum k a b i j * f j =
      starOuter k v f a b + starOuter k v f b a := by
  unfold rotationSum starOuter
  simp only [sumLoop_eq]
  rw [← Finset.sum_add_distrib]
  have e : ∀ i j : Fin 3, v i * ((∑ r ∈ range k.numOps, k.rotations r a i * k.rotations r b j) +
      ∑ r ∈ range k.numOps, k.rotations r a j * k.rotations r b i) * f j =
      ∑ r ∈ range k.numOps, (v i * (k.rotations r a i * k.rotations r b j) * f j +
        v i * (k.rotations r a j * k.rotations r b i) * f j) := by
    intro i j
    rw [Finset.sum_add_distrib, mul_add, add_mul, Finset.mul_sum, Finset.sum_mul, Finset.mul_sum,
      Finset.sum_mul]
  simp only [e]
  simp only [Fin.sum_univ_three]
  simp only [← Finset.sum_add_distrib]
  refine Finset.sum_congr rfl fun r _ => ?_
  unfold rotateVector
  ring

theorem sum_points {α : Type _} [AddCommMonoid α] (n nb : Nat) (F : Nat → Nat → α) :
    ∑ l ∈ range nb, ∑ i ∈ range n, F i l = ∑ i : Fin n, ∑ l ∈ range nb, F i l := by
  rw [Finset.sum_comm, Finset.sum_range]

/-- The product `I Ω⁻¹` that the calculation of collective phonons diagonalises; `w` and `v` are the
eigenvalues and eigenvectors of the collision matrix. -/
def collectiveMatrix (method : Int) (cutoff : K) (size : Nat) (w : Nat → K) (v : Nat → Nat → K)
    (I : Nat → Nat → K) (p q : Nat) : K :=
  ∑ s ∈ range size, I p s * ∑ m ∈ range size, v s m * (cutInverse method cutoff (w m) * v q m)

/-- **C113 (collective phonons).** When the matrices `I Ω⁻¹` are diagonalised correctly the mode
conductivities of the collective phonons add up to the conductivity of the ordinary evaluation. This
needs these matrices to be symmetric; nothing in the code makes them so, see
`C113_asymmetric`. -/
theorem C113_total_partial (eigh : (Nat → Nat → K) → (Nat → K) × (Nat → Nat → K)) (tiny : K)
    (method : Int) (cutoff : K) (k : LBTEInput K) (w : Nat → K) (v : Nat → Nat → K)
    (Y : Nat → Fin 3 → K)
    (hY : lbteY false 0 3 method cutoff (k.numGp * k.numBand * 3) w v (lbteX k) = some Y)
    (old : Nat → Nat → Fin 6 → K) (hskip : SkippedVanish k old)
    (htiny : ∀ a b i j : Fin 3, |rotationSum k a b i j| < tiny → rotationSum k a b i j = 0)
    (heigh : ∀ a b I, chaputI tiny k a b = some I →
      IsEigensystem (k.numGp * k.numBand * 3)
        (collectiveMatrix method cutoff (k.numGp * k.numBand * 3) w v I)
        (eigh (collectiveMatrix method cutoff (k.numGp * k.numBand * 3) w v I)).1
        (eigh (collectiveMatrix method cutoff (k.numGp * k.numBand * 3) w v I)).2)
    (a b : Fin 3) :
    tensorOf (lbteSum k (chaputModeKappa eigh tiny method cutoff k w v)) a b =
      tensorOf (lbteKappa false k (lbteX k) Y old).2 a b := by
  rw [lbte_tensor false k old hskip]
  have hYv : ∀ p a, Y p a = spectral (k.numGp * k.numBand * 3) w v (cutInverse method cutoff)
      (ravel (lbteX k)) (p * 3 + (a : Nat)) := by
    intro p a
    unfold lbteY at hY
    simp [rowSolver] at hY
    rw [← hY]
    beta_reduce
    rw [pinvDot_spectral]
    rfl
  set size := k.numGp * k.numBand * 3 with hsize
  -- the sum over the modes
  have key : ∀ a b : Fin 3, ∑ i ∈ range k.numGp, ∑ l ∈ range k.numBand,
      (starOuter k (lbteX k (i * k.numBand + l)) (Y (i * k.numBand + l)) a b +
        starOuter k (lbteX k (i * k.numBand + l)) (Y (i * k.numBand + l)) b a) =
      ∑ i : Fin k.numGp, ∑ l ∈ range k.numBand, ∑ a' : Fin 3, ∑ b' : Fin 3,
        lbteX k (i * k.numBand + l) a' * rotationSum k a b a' b' * Y (i * k.numBand + l) b' := by
    intro a b
    rw [Finset.sum_range]
    refine Finset.sum_congr rfl fun i _ => Finset.sum_congr rfl fun l _ => ?_
    rw [rotationSum_outer]
  have sym : ∀ i l, starOuter k (lbteX k (i * k.numBand + l)) (Y (i * k.numBand + l)) a b +
      starOuter k (lbteX k (i * k.numBand + l)) (Y (i * k.numBand + l)) b a =
      starOuter k (lbteX k (i * k.numBand + l)) (Y (i * k.numBand + l)) (voigt (voigtIndex a b)).1
        (voigt (voigtIndex a b)).2 +
      starOuter k (lbteX k (i * k.numBand + l)) (Y (i * k.numBand + l)) (voigt (voigtIndex a b)).2
        (voigt (voigtIndex a b)).1 := fun i l =>
    (voigt_symm (starOuter k (lbteX k (i * k.numBand + l)) (Y (i * k.numBand + l))) a b).symm
  simp only [sym]
  rw [key]
  unfold tensorOf lbteSum
  rw [sumLoop_eq]
  simp only [sumLoop_eq]
  rw [sum_points k.numGp k.numBand fun i l =>
    chaputModeKappa eigh tiny method cutoff k w v i l (voigtIndex a b)]
  unfold chaputModeKappa
  dsimp only
  have hX : (fun r => lbteX k (r / 3) ⟨r % 3, Nat.mod_lt _ (by decide)⟩) = ravel (lbteX k) := rfl
  cases hI : chaputI tiny k (voigt (voigtIndex a b)).1 (voigt (voigtIndex a b)).2 with
  | none =>
    have h0 : ∀ i j, rotationSum k (voigt (voigtIndex a b)).1 (voigt (voigtIndex a b)).2 i j =
        0 := by
      intro i j
      unfold chaputI at hI
      split_ifs at hI with h
      exact htiny _ _ _ _ (h i j)
    simp [h0]
  | some I =>
    have hsys := heigh _ _ I hI
    have hIv : ∀ p q, I p q = if p / 3 = q / 3 then
        rotationSum k (voigt (voigtIndex a b)).1 (voigt (voigtIndex a b)).2
          ⟨p % 3, Nat.mod_lt _ (by decide)⟩ ⟨q % 3, Nat.mod_lt _ (by decide)⟩ else 0 := by
      intro p q
      unfold chaputI at hI
      split_ifs at hI with h
      rw [← Option.some.inj hI]
    have hmat : (fun p q => ∑ s ∈ range size, I p s * ∑ m ∈ range size, v s m *
          (eigvalsPinv method cutoff w m * v q m)) = collectiveMatrix method cutoff size w v I := by
      funext p q
      unfold collectiveMatrix
      simp only [cutInverse_eq]
    simp only [sumLoop_eq, ← hsize]
    simp only [hmat]
    set d := eigh (collectiveMatrix method cutoff size w v I)
    -- eigenvectors are normalised
    have e1 : ∑ i : Fin k.numGp, ∑ l ∈ range k.numBand, (∑ s ∈ range size,
        (∑ p ∈ range size, d.2 p s * lbteX k (p / 3) ⟨p % 3, Nat.mod_lt _ (by decide)⟩) ^ 2 *
          d.1 s * (d.2 ((i * k.numBand + l) * 3) s ^ 2 + d.2 ((i * k.numBand + l) * 3 + 1) s ^ 2 +
            d.2 ((i * k.numBand + l) * 3 + 2) s ^ 2)) * (k.factor * k.kb * k.t ^ 2) =
        (∑ s ∈ range size, (∑ p ∈ range size, d.2 p s * ravel (lbteX k) p) ^ 2 * d.1 s) *
          (k.factor * k.kb * k.t ^ 2) := by
      simp only [← Finset.sum_mul]
      congr 1
      have e2 : ∀ s ∈ range size, ∑ i : Fin k.numGp, ∑ l ∈ range k.numBand,
          (d.2 ((i * k.numBand + l) * 3) s ^ 2 + d.2 ((i * k.numBand + l) * 3 + 1) s ^ 2 +
            d.2 ((i * k.numBand + l) * 3 + 2) s ^ 2) = 1 := by
        intro s hs
        have hs := Finset.mem_range.1 hs
        have h1 := hsys.orthonormal s hs s hs
        rw [if_pos rfl, hsize, sum_flat3] at h1
        rw [← h1]
        refine Finset.sum_congr rfl fun i _ => Finset.sum_congr rfl fun l _ => ?_
        rw [Fin.sum_univ_three]
        simp only [pow_two]
        rfl
      calc _ = ∑ s ∈ range size, ∑ i : Fin k.numGp, ∑ l ∈ range k.numBand,
            (∑ p ∈ range size, d.2 p s * lbteX k (p / 3) ⟨p % 3, Nat.mod_lt _ (by decide)⟩) ^ 2 *
            d.1 s * (d.2 ((i * k.numBand + l) * 3) s ^ 2 +
              d.2 ((i * k.numBand + l) * 3 + 1) s ^ 2 +
              d.2 ((i * k.numBand + l) * 3 + 2) s ^ 2) := by
            exact (Finset.sum_congr rfl fun i _ => Finset.sum_comm).trans Finset.sum_comm
        _ = _ := by
            refine Finset.sum_congr rfl fun s hs => ?_
            simp only [← Finset.mul_sum]
            rw [e2 s hs, mul_one]
            rfl
    rw [e1, quadratic_spectrum hsys]
    -- `X I Ω⁻¹ X = X I Y`
    have e3 : ∑ p ∈ range size, ∑ q ∈ range size,
        ravel (lbteX k) p * collectiveMatrix method cutoff size w v I p q * ravel (lbteX k) q =
        ∑ p ∈ range size, ∑ t ∈ range size, ravel (lbteX k) p * I p t * ravel Y t := by
      refine Finset.sum_congr rfl fun p _ => ?_
      have hyt : ∀ t, ravel Y t = ∑ q ∈ range size,
          spectralMatrix size w v (cutInverse method cutoff) t q * ravel (lbteX k) q := by
        intro t
        unfold ravel
        rw [hYv, spectral_eq]
        have : t / 3 * 3 + t % 3 = t := by omega
        simp only [this]
        rfl
      simp only [hyt, Finset.mul_sum]
      rw [Finset.sum_comm]
      refine Finset.sum_congr rfl fun q _ => ?_
      unfold collectiveMatrix
      rw [Finset.mul_sum, Finset.sum_mul]
      refine Finset.sum_congr rfl fun t _ => ?_
      unfold spectralMatrix
      ring
    have e4 : ∑ p ∈ range size, ∑ t ∈ range size, ravel (lbteX k) p * I p t * ravel Y t =
        ∑ i : Fin k.numGp, ∑ l ∈ range k.numBand, ∑ a' : Fin 3, ∑ b' : Fin 3,
          lbteX k (i * k.numBand + l) a' *
            rotationSum k (voigt (voigtIndex a b)).1 (voigt (voigtIndex a b)).2 a' b' *
            Y (i * k.numBand + l) b' := by
      rw [hsize, sum_flat3]
      refine Finset.sum_congr rfl fun i _ => Finset.sum_congr rfl fun l hl =>
        Finset.sum_congr rfl fun a' _ => ?_
      have hpl : (i : Nat) * k.numBand + l < k.numGp * k.numBand := by
        have := at3_lt i.2 (Finset.mem_range.1 hl) 0
        simp at this
        omega
      rw [sum_pairs, Finset.sum_eq_single ((i : Nat) * k.numBand + l)]
      · rw [Finset.sum_range]
        refine Finset.sum_congr rfl fun b' _ => ?_
        have ex : ∀ (q : Nat) (a : Fin 3), (q * 3 + (a : Nat)) / 3 = q ∧
            (q * 3 + (a : Nat)) % 3 = a := fun q a => by have := a.2; omega
        rw [show at2 3 ((i : Nat) * k.numBand + l) (b' : Nat) =
          ((i : Nat) * k.numBand + l) * 3 + (b' : Nat) from rfl, hIv, ravel_at, ravel_at,
          (ex _ a').1, (ex _ b').1, if_pos rfl]
        simp only [(ex _ a').2, (ex _ b').2]
      · intro q _ hq
        refine Finset.sum_eq_zero fun b' hb => ?_
        have hb := Finset.mem_range.1 hb
        rw [show at2 3 q b' = q * 3 + b' from rfl, hIv, if_neg, mul_zero, zero_mul]
        have := a'.2
        omega
      · intro hn
        exact absurd (Finset.mem_range.2 hpl) hn
    rw [e3, e4]
    simp only [Bool.false_eq_true, if_false, mul_one]
    ring

/-! ### C114 -/

/-- **C114 (one evaluation).** An evaluation at a positive temperature gives the conductivity of the
prepared collision matrix, whatever eigenvalues and conductivities the object held before. -/
theorem C114_evaluate_partial (s : LBTESettings K) (k : LBTEInput K) (hs : EigenSolver s.pinvSolver s.solver)
    (ht : 0 < k.t) (st : LBTEState K) :
    (lbteEvaluate s k st).map (fun st' => (st'.kappa, st'.kappaRTA)) =
      (solveColmat s.routines s.reducible s.pinvSolver s.solver s.method s.pinvCutoff
        (lbteSize s.reducible k) (s.prepare st.colmat) (lbteX k)).map fun Y =>
        ((lbteKappa s.reducible k (lbteX k) Y st.modeKappa).2,
          (lbteKappa s.reducible k (lbteX k) (s.yRTA (s.prepare st.colmat)) st.modeKappaRTA).2) := by
  have hd : ∃ d : (Nat → K) × (Nat → Nat → K), diagonalizeColmat s.routines s.solver
      (lbteSize s.reducible k) (s.prepare st.colmat) = some (some d.1, d.2) := by
    unfold diagonalizeColmat
    rcases hs with ⟨_, h⟩ | ⟨_, h | h | h | h | h⟩ <;> simp [h, rowSolver]
  obtain ⟨d, hd⟩ := hd
  unfold lbteEvaluate lbteAtTemperature solveColmat
  simp only [if_pos ht]
  rw [hd]
  simp only [Option.bind_some, Option.map_map]
  rfl

/-- **C114 (zero temperature).** At zero temperature an evaluation leaves every result as it was. -/
theorem C114_zero (s : LBTESettings K) (k : LBTEInput K) (ht : k.t ≤ 0) (st : LBTEState K) :
    ∃ st', lbteEvaluate s k st = some st' ∧ st'.kappa = st.kappa ∧ st'.modeKappa = st.modeKappa ∧
      st'.kappaRTA = st.kappaRTA ∧ st'.modeKappaRTA = st.modeKappaRTA ∧
      st'.eigenvalues = st.eigenvalues := by
  refine ⟨{ st with colmat := s.prepare st.colmat }, ?_, rfl, rfl, rfl, rfl, rfl⟩
  unfold lbteEvaluate lbteAtTemperature
  rw [if_neg (not_lt.2 ht)]

end

/-! ### Cases that meet the hypotheses, and failures -/

/-- Four mirror operations, one point, one band along a general direction. -/
def collectiveInput : LBTEInput ℚ where
  numGp := 1
  numBand := 1
  numOps := 4
  rotations j := ![![if j % 2 = 0 then 1 else -1, 0, 0], ![0, if j < 2 then 1 else -1, 0],
    ![0, 0, 1]]
  frequencies _ _ := 1
  cutoff := 1 / 2
  weights _ := 1
  gv _ _ := ![1, 2, 3]
  gammaAddress _ := false
  t := 1
  kb := 1 / 2
  toEv := 1
  sinh x := x
  factor := 1
  n := 1

/-- Diagonalisation of diagonal matrices. -/
def diagonalEigh (M : Nat → Nat → ℚ) : (Nat → ℚ) × (Nat → Nat → ℚ) :=
  (fun i => M i i, fun i j => if i = j then 1 else 0)

theorem diagonalEigh_spec (n : Nat) (M : Nat → Nat → ℚ) (h : ∀ i < n, ∀ j < n, i ≠ j → M i j = 0) :
    IsEigensystem n M (diagonalEigh M).1 (diagonalEigh M).2 := by
  have := diagonal_eigensystem n fun i => M i i
  refine ⟨this.orthonormal, fun i hi j hj => ?_⟩
  have e := this.eigen i hi j hj
  unfold diagonalEigh
  rw [← e]
  by_cases hij : i = j
  · subst hij; simp
  · rw [if_neg hij, h i hi j hj hij]

/-- The hypotheses of C113 are met by a diagonal collision matrix. -/
example (a b : Fin 3) : ∃ Y, lbteY false 0 3 0 (1 / 2) 3 (fun i => (i : ℚ) + 1)
      (fun i j => if i = j then 1 else 0) (lbteX collectiveInput) = some Y ∧
    tensorOf (lbteSum collectiveInput (chaputModeKappa diagonalEigh (1 / 10) 0 (1 / 2)
      collectiveInput (fun i => (i : ℚ) + 1) fun i j => if i = j then 1 else 0)) a b =
      tensorOf (lbteKappa false collectiveInput (lbteX collectiveInput) Y fun _ _ _ => 0).2 a b := by
  refine ⟨_, rfl, C113_total_partial diagonalEigh (1 / 10) 0 (1 / 2) collectiveInput
    (fun i => (i : ℚ) + 1) (fun i j => if i = j then 1 else 0) _ rfl _
    ⟨fun _ _ _ _ h => absurd h Bool.false_ne_true, fun _ _ _ _ _ _ _ => rfl⟩ ?_ ?_ a b⟩
  · decide +kernel
  · intro a b I hI
    refine diagonalEigh_spec 3 _ ?_
    have h : ∀ a b : Fin 3, (chaputI (1 / 10) collectiveInput a b).all fun I =>
        (List.range 3).all fun i => (List.range 3).all fun j => i == j ||
          collectiveMatrix 0 (1 / 2) 3 (fun i => (i : ℚ) + 1)
            (fun i j => if i = j then 1 else 0) I i j == 0 := by decide +kernel
    have := h a b
    rw [hI] at this
    simp only [Option.all_some, List.all_eq_true, List.mem_range, Bool.or_eq_true, beq_iff_eq] at this
    exact fun i hi j hj hij => (this i hi j hj).resolve_left hij

/-- The conductivity along `z` in that case. -/
example : tensorOf (lbteSum collectiveInput (chaputModeKappa diagonalEigh (1 / 10) 0 (1 / 2)
      collectiveInput (fun i => (i : ℚ) + 1) fun i j => if i = j then 1 else 0)) 2 2 ≠ 0 := by
  decide +kernel

/-- The same without symmetry. -/
def collectiveInput' : LBTEInput ℚ := { collectiveInput with numOps := 1 }

/-- Eigenvectors of a collision matrix that mixes `x` and `y`. -/
def turnedVectors (i j : Nat) : ℚ :=
  (![![3 / 5, -4 / 5, 0], ![4 / 5, 3 / 5, 0], ![0, 0, 1]] : Fin 3 → Fin 3 → ℚ)
    (Fin.ofNat 3 i) (Fin.ofNat 3 j)

/-- Its eigenvalues. -/
def turnedValues (i : Nat) : ℚ := if i = 0 then 1 else 2

/-- The symmetric matrix that a solver sees which reads the lower triangle only. -/
def lowerTriangle (M : Nat → Nat → ℚ) (i j : Nat) : ℚ := if j ≤ i then M i j else M j i

/-- **C113 fails in general.** `I Ω⁻¹` is not symmetric. A solver of symmetric eigenvalue problems
that reads the lower triangle gives mode conductivities that do not add up to the conductivity. -/
theorem C113_asymmetric :
    IsEigensystem 3 (fun i j => ∑ m ∈ range 3, turnedVectors i m * (turnedValues m *
      turnedVectors j m)) turnedValues turnedVectors ∧
    (∃ I, chaputI (1 / 10) collectiveInput' 0 0 = some I ∧
      let M := collectiveMatrix 0 (1 / 2) 3 turnedValues turnedVectors I
      IsEigensystem 3 (lowerTriangle M) (diagonalEigh M).1 (diagonalEigh M).2) ∧
    (lbteY false 0 3 0 (1 / 2) 3 turnedValues turnedVectors (lbteX collectiveInput')).map
      (fun Y => tensorOf (lbteKappa false collectiveInput' (lbteX collectiveInput') Y
        fun _ _ _ => 0).2 0 0) ≠
    some (tensorOf (lbteSum collectiveInput' (chaputModeKappa diagonalEigh (1 / 10) 0 (1 / 2)
      collectiveInput' turnedValues turnedVectors)) 0 0) := by
  refine ⟨⟨by decide +kernel, fun _ _ _ _ => rfl⟩, ?_, by decide +kernel⟩
  cases hI : chaputI (1 / 10) collectiveInput' 0 0 with
  | none =>
    have : (chaputI (1 / 10) collectiveInput' 0 0).isSome = true := by decide +kernel
    rw [hI] at this
    exact absurd this Bool.false_ne_true
  | some I =>
    refine ⟨I, rfl, ?_⟩
    have h : (chaputI (1 / 10) collectiveInput' 0 0).all fun I =>
        (List.range 3).all fun i => (List.range 3).all fun j => i == j ||
          lowerTriangle (collectiveMatrix 0 (1 / 2) 3 turnedValues turnedVectors I) i j == 0 := by
      decide +kernel
    rw [hI] at h
    simp only [Option.all_some, List.all_eq_true, List.mem_range, Bool.or_eq_true, beq_iff_eq] at h
    have hs := diagonalEigh_spec 3 _ fun i hi j hj hij => (h i hi j hj).resolve_left hij
    refine ⟨hs.orthonormal, fun i hi j hj => ?_⟩
    rw [hs.eigen i hi j hj]
    refine Finset.sum_congr rfl fun m _ => ?_
    unfold diagonalEigh lowerTriangle
    simp

/-- The hypotheses of C112 are met: over the reals, for a mode of the example of C108. -/
noncomputable def mfpInput : LBTEInput ℝ where
  numGp := 1
  numBand := 1
  numOps := 1
  rotations _ := fun a b => if a = b then 1 else 0
  frequencies _ _ := 1
  cutoff := 1 / 2
  weights _ := 1
  gv _ _ := fun _ => 1
  gammaAddress _ := false
  t := 1
  kb := 1 / 2
  toEv := 1
  sinh := Real.sinh
  factor := 1
  n := 1

example (Y : Nat → Fin 3 → ℝ) (c : Fin 6) :
    modeKappaFromMfp Real.pi mfpInput (fun _ _ => sinhHeatCapacity mfpInput 1)
      (meanFreePath Real.sqrt Real.pi 0 mfpInput (fun _ _ => sinhHeatCapacity mfpInput 1)
        (fVectors mfpInput Y) fun _ _ _ => 0) 0 0 c =
      lbteModeKappa mfpInput (lbteX mfpInput) Y (fun _ _ _ => 0) 0 0 c := by
  refine C112_mean_free_path Real.sqrt (fun y hy => ⟨Real.sqrt_nonneg _, Real.mul_self_sqrt hy⟩)
    Real.pi 0 Real.pi_ne_zero mfpInput (by norm_num [mfpInput]) (by norm_num [mfpInput])
    (by norm_num [mfpInput]) (by norm_num [mfpInput]) _ Y _ _ 0 0 (by simp [mfpInput]) rfl ?_
    (by norm_num [mfpInput]) ?_ (by norm_num [mfpInput]) (by simp [mfpInput]) c
  · unfold sinhHeatCapacity
    rw [if_neg (by norm_num [mfpInput])]
    refine mul_nonneg (by norm_num [mfpInput]) (sq_nonneg _)
  · show 0 < Real.sinh _
    rw [Real.sinh_pos_iff]
    norm_num [mfpInput]

/-- One point, one band, reducible layout without symmetry. -/
def historyInput : LBTEInput ℚ := { collectiveInput with numOps := 1 }

/-- Settings of a calculation with the linewidth 4 and no other collisions. -/
def historySettings : LBTESettings ℚ where
  reducible := true
  pinvSolver := 0
  solver := 1
  method := 0
  pinvCutoff := 1 / 2
  routines := diagonalRoutines
  prepare M := prepareReducible false 1 1 1 1 (fun _ => 0) (fun _ => 0) (fun _ => [[0]])
    (fun _ _ => 4) fun r c => M r.1 c.1
  yRTA M := lbteRTAReducible historyInput (fun _ _ => 1) M

/-- The object after all grid points were calculated. -/
def historyState : LBTEState ℚ where
  colmat _ _ := 0
  eigenvalues _ := 0
  modeKappa _ _ _ := 0
  kappa _ := 0
  modeKappaRTA _ _ _ := 0
  kappaRTA _ := 0

/-- **C114 (second evaluation).** An evaluation is not repeatable: it leaves eigenvectors in the place
of the collision matrix, and a second one adds the diagonal to them. -/
theorem C114_second :
    (lbteEvaluate historySettings historyInput historyState).map (fun s => s.kappa 0) =
      some (1 / 16) ∧
    ((lbteEvaluate historySettings historyInput historyState).bind fun s =>
      (lbteEvaluate historySettings historyInput s).map fun s => s.kappa 0) = some (1 / 20) := by
  refine ⟨?_, ?_⟩ <;> decide +kernel

end Phono3py.Props
