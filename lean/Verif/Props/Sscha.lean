import Verif.Model.Sscha
import Mathlib.LinearAlgebra.Matrix.NonsingularInverse
import Mathlib.Probability.Distributions.Gaussian.Real
import Mathlib.MeasureTheory.Integral.Pi
import Mathlib.Tactic.Ring
import Mathlib.Tactic.FieldSimp
import Mathlib.Tactic.Linarith
import Mathlib.Tactic.Positivity
import Mathlib.Tactic.NormNum

/-!
# C140–C142: displacement correlations and stochastic force constants

* C140: the matrices `psi` and `upsilon` of `DispCorrMatrix` are the covariance of the displacements
  and its inverse, and the documented density is that of this distribution.
* C141: what the averages over snapshots give for forces of known form.
* C142: the functions leave numpy's error handling as they found it.
-/

namespace Phono3py.Props

open Finset

variable {N : Nat}

/-- Index of an atom and a direction. -/
abbrev AtomDir (N : Nat) := Fin N × Fin 3

/-! ## Specification -/

/-- `lam` and `e` are eigenvalues and orthonormal eigenvectors of `D`; `e x s` is component `x` of
mode `s`. -/
structure EighResult (D : Matrix (AtomDir N) (AtomDir N) ℝ) (lam : AtomDir N → ℝ)
    (e : Matrix (AtomDir N) (AtomDir N) ℝ) : Prop where
  solves : ∀ x s, ∑ y, D x y * e y s = lam s * e x s
  orthonormal : ∀ s t, ∑ x, e x s * e x t = if s = t then 1 else 0

/-- Mean square amplitude `ħ/ω (1/2 + n)` of a quantum oscillator of frequency `ν` in the units of
`c`. -/
noncomputable def oscillatorVariance (c : BoseUnits) (T ν : ℝ) : ℝ :=
  c.factor / ν * (1 / 2 + 1 / (Real.exp (c.thzToEv * ν / (c.kb * T)) - 1))

open Classical in
/-- Mean square amplitudes with the modes at or below the cutoff at rest. -/
noncomputable def modeVariance (c : BoseUnits) (T cutoff : ℝ) (freqs : AtomDir N → ℝ)
    (s : AtomDir N) : ℝ :=
  if freqs s > cutoff then oscillatorVariance c T (freqs s) else 0

/-- Displacements of the atoms for amplitudes `q` of the modes. -/
noncomputable def modeDisplacement (masses : Fin N → ℝ) (e : Matrix (AtomDir N) (AtomDir N) ℝ)
    (q : AtomDir N → ℝ) (x : AtomDir N) : ℝ :=
  (∑ s, e x s * q s) / Real.sqrt (masses x.1)

/-- Units are positive. -/
def BoseUnits.Positive (c : BoseUnits) : Prop := 0 < c.thzToEv ∧ 0 < c.kb ∧ 0 < c.factor

/-! ## Mode lengths -/

theorem boseEinsteinRaise_some {c : BoseUnits} {x T n : ℝ} (h : boseEinsteinRaise c x T = some n) :
    n = 1 / (Real.exp (c.thzToEv * x / (c.kb * T)) - 1) ∧
      Real.exp (c.thzToEv * x / (c.kb * T)) - 1 ≠ 0 ∧ c.kb * T ≠ 0 := by
  unfold boseEinsteinRaise at h
  dsimp only at h
  split at h
  · simp at h
  · rename_i h1
    split at h
    · simp at h
    · split at h
      · simp at h
      · rename_i h2
        exact ⟨(Option.some.inj h).symm, h2, h1⟩

theorem oscillatorVariance_pos {c : BoseUnits} (hc : BoseUnits.Positive c) {T ν : ℝ} (hT : 0 < T)
    (hν : ν ≠ 0) : 0 < oscillatorVariance c T ν := by
  obtain ⟨h1, h2, h3⟩ := hc
  unfold oscillatorVariance
  have hk : 0 < c.kb * T := mul_pos h2 hT
  rcases lt_or_gt_of_ne hν with hn | hp
  · have hy : c.thzToEv * ν / (c.kb * T) < 0 := div_neg_of_neg_of_pos (by nlinarith) hk
    have he : Real.exp (c.thzToEv * ν / (c.kb * T)) < 1 := by
      rw [Real.exp_lt_one_iff]; exact hy
    have he0 := Real.exp_pos (c.thzToEv * ν / (c.kb * T))
    set E := Real.exp (c.thzToEv * ν / (c.kb * T))
    have : 1 / (E - 1) < -1 := by
      rw [div_lt_iff_of_neg (by linarith)]; linarith
    exact mul_pos_of_neg_of_neg (div_neg_of_pos_of_neg h3 hn) (by linarith)
  · have hy : 0 < c.thzToEv * ν / (c.kb * T) := by positivity
    have he : 1 < Real.exp (c.thzToEv * ν / (c.kb * T)) := Real.one_lt_exp_iff.2 hy
    have : 0 < 1 / (Real.exp (c.thzToEv * ν / (c.kb * T)) - 1) := by
      apply div_pos one_pos; linarith
    positivity

theorem sigmaSquared_some {E ι : Type} {c : BoseUnits} {raiseAll st st' : E} {x : ι → ℝ} {T : ℝ}
    {len : ι → ℝ} (h : sigmaSquared c raiseAll st x T = (st', some len)) :
    st' = st ∧ ∀ i, len i = oscillatorVariance c T (x i) ∧ x i ≠ 0 := by
  unfold sigmaSquared at h
  split at h
  · rename_i hs
    simp only [Prod.mk.injEq, Option.some.injEq] at h
    refine ⟨h.1.symm, fun i => ?_⟩
    obtain ⟨n, hn⟩ := Option.isSome_iff_exists.1 (hs i)
    obtain ⟨h1, h2, -⟩ := boseEinsteinRaise_some hn
    refine ⟨?_, ?_⟩
    · rw [← h.2]
      simp only [hn, Option.getD_some, oscillatorVariance, h1]
      norm_num
      ring
    · intro h0
      apply h2
      simp [h0]
  · simp at h

/-! ## C140 -/

section
variable {E : Type} {c : BoseUnits} {raiseAll st st' : E} {masses : Fin N → ℝ} {cutoff T : ℝ}
  {freqs : AtomDir N → ℝ} {e : Matrix (AtomDir N) (AtomDir N) ℝ} {d : DispCorr (AtomDir N)}

open Classical in
theorem dispCorrRun_some
    (h : dispCorrRun c raiseAll st masses cutoff freqs e T = (st', some d)) :
    st' = st ∧ (∀ s, freqs s > cutoff → freqs s ≠ 0) ∧
    (∀ x y, d.psi x y = (∑ s, modeVariance c T cutoff freqs s * e x s * e y s) /
      (Real.sqrt (masses x.1) * Real.sqrt (masses y.1))) ∧
    (∀ x y, d.upsilon x y = (∑ s, (modeVariance c T cutoff freqs s)⁻¹ * e x s * e y s) *
      (Real.sqrt (masses x.1) * Real.sqrt (masses y.1))) ∧
    d.prefactor = Real.sqrt (1 / ∏ s ∈ univ.filter (fun s => freqs s > cutoff),
      (2 * Real.pi * modeVariance c T cutoff freqs s)) := by
  unfold dispCorrRun at h
  dsimp only at h
  rw [Prod.mk.injEq, Option.map_eq_some_iff] at h
  obtain ⟨h1, len, h2, h3⟩ := h
  obtain ⟨h4, h5⟩ := sigmaSquared_some (Prod.ext h1 h2)
  have ha : keptLengths cutoff freqs len = modeVariance c T cutoff freqs := by
    funext s
    unfold keptLengths modeVariance
    split
    · rename_i hs
      have := (h5 s).1
      rwa [if_pos hs] at this
    · rfl
  have hb : ∀ s, keptInverses cutoff freqs len s = (modeVariance c T cutoff freqs s)⁻¹ := by
    intro s
    unfold keptInverses modeVariance
    split
    · rename_i hs
      have := (h5 s).1
      rw [if_pos hs] at this
      rw [this, one_div]
    · simp
  refine ⟨h4, ?_, ?_, ?_, ?_⟩
  · intro s hs
    have := (h5 s).2
    rwa [if_pos hs] at this
  · intro x y
    rw [← h3]
    dsimp only
    rw [ha]
    have : (∑ s, modeVariance c T cutoff freqs s * e y s * e x s) =
        ∑ s, modeVariance c T cutoff freqs s * e x s * e y s :=
      Finset.sum_congr rfl fun s _ => by ring
    rw [this]
    field_simp
  · intro x y
    rw [← h3]
    dsimp only
    simp only [hb]
    have : (∑ s, (modeVariance c T cutoff freqs s)⁻¹ * e y s * e x s) =
        ∑ s, (modeVariance c T cutoff freqs s)⁻¹ * e x s * e y s :=
      Finset.sum_congr rfl fun s _ => by ring
    rw [this]
    ring
  · rw [← h3, ← ha]

theorem modeVariance_nonneg (hc : BoseUnits.Positive c) (hT : 0 < T)
    (hz : ∀ s, freqs s > cutoff → freqs s ≠ 0) (s : AtomDir N) :
    0 ≤ modeVariance c T cutoff freqs s := by
  unfold modeVariance
  split
  · rename_i hs
    exact (oscillatorVariance_pos hc hT (hz s hs)).le
  · rfl

theorem modeVariance_ne (hc : BoseUnits.Positive c) (hT : 0 < T)
    (hz : ∀ s, freqs s > cutoff → freqs s ≠ 0) {s : AtomDir N} (hs : freqs s > cutoff) :
    modeVariance c T cutoff freqs s ≠ 0 := by
  unfold modeVariance
  rw [if_pos hs]
  exact (oscillatorVariance_pos hc hT (hz s hs)).ne'

/-- **C140**. Both matrices are symmetric and positive semidefinite. -/
theorem C140_symmetric_nonneg (hc : BoseUnits.Positive c) (hT : 0 < T)
    (h : dispCorrRun c raiseAll st masses cutoff freqs e T = (st', some d)) :
    (∀ x y, d.psi x y = d.psi y x) ∧ (∀ x y, d.upsilon x y = d.upsilon y x) ∧
    (∀ v : AtomDir N → ℝ, 0 ≤ ∑ x, ∑ y, v x * d.psi x y * v y) ∧
    (∀ v : AtomDir N → ℝ, 0 ≤ ∑ x, ∑ y, v x * d.upsilon x y * v y) := by
  obtain ⟨-, hz, hp, hu, -⟩ := dispCorrRun_some h
  have hv := modeVariance_nonneg (cutoff := cutoff) (freqs := freqs) hc hT hz
  have quad : ∀ (w : AtomDir N → ℝ) (k : AtomDir N → ℝ), (∀ s, 0 ≤ w s) →
      0 ≤ ∑ x, ∑ y, k x * (∑ s, w s * e x s * e y s) * k y := by
    intro w k hw
    have : ∑ x, ∑ y, k x * (∑ s, w s * e x s * e y s) * k y =
        ∑ s, w s * (∑ x, k x * e x s) ^ 2 := by
      simp only [Finset.mul_sum, Finset.sum_mul, pow_two]
      rw [Finset.sum_comm' (t' := univ) (s' := fun _ => univ) (by simp)]
      rw [Finset.sum_comm]
      rw [Finset.sum_congr rfl fun y _ => Finset.sum_comm]
      rw [Finset.sum_comm]
      refine Finset.sum_congr rfl fun s _ => ?_
      refine Finset.sum_congr rfl fun y _ => Finset.sum_congr rfl fun x _ => by ring
    rw [this]
    exact Finset.sum_nonneg fun s _ => mul_nonneg (hw s) (sq_nonneg _)
  refine ⟨?_, ?_, ?_, ?_⟩
  · intro x y
    rw [hp, hp, mul_comm (Real.sqrt _)]
    congr 1
    exact Finset.sum_congr rfl fun s _ => by ring
  · intro x y
    rw [hu, hu, mul_comm (Real.sqrt _)]
    congr 1
    exact Finset.sum_congr rfl fun s _ => by ring
  · intro v
    refine (quad _ (fun x => v x / Real.sqrt (masses x.1)) hv).trans_eq ?_
    refine Finset.sum_congr rfl fun x _ => Finset.sum_congr rfl fun y _ => ?_
    rw [hp]
    field_simp
  · intro v
    refine (quad _ (fun x => v x * Real.sqrt (masses x.1)) (fun s => inv_nonneg.2 (hv s))).trans_eq ?_
    refine Finset.sum_congr rfl fun x _ => Finset.sum_congr rfl fun y _ => ?_
    rw [hu]
    ring

theorem sqrt_mass_ne (hm : ∀ i, 0 < masses i) (x : AtomDir N) : Real.sqrt (masses x.1) ≠ 0 :=
  (Real.sqrt_pos.2 (hm x.1)).ne'

theorem sum_modes_apply {D : Matrix (AtomDir N) (AtomDir N) ℝ} {lam : AtomDir N → ℝ}
    (he : EighResult D lam e) (w : AtomDir N → ℝ) (x t : AtomDir N) :
    ∑ y, (∑ s, w s * e x s * e y s) * e y t = w t * e x t := by
  simp only [Finset.sum_mul]
  rw [Finset.sum_comm]
  have : ∀ s, ∑ y, w s * e x s * e y s * e y t = if s = t then w s * e x s else 0 := by
    intro s
    have h1 : ∑ y, w s * e x s * e y s * e y t = w s * e x s * ∑ y, e y s * e y t := by
      rw [Finset.mul_sum]; exact Finset.sum_congr rfl fun y _ => by ring
    rw [h1, he.orthonormal]
    split <;> simp
  rw [Finset.sum_congr rfl fun s _ => this s]
  simp

/-- **C140**. The action on the modes, which determines both matrices: the displacement pattern of a
mode is turned into `1/σ²` times its momentum pattern by `upsilon`, and the momentum pattern into
`σ²` times the displacement pattern by `psi`; modes that are left out give zero. -/
theorem C140_modes {D : Matrix (AtomDir N) (AtomDir N) ℝ} {lam : AtomDir N → ℝ}
    (he : EighResult D lam e) (hm : ∀ i, 0 < masses i)
    (h : dispCorrRun c raiseAll st masses cutoff freqs e T = (st', some d)) (s : AtomDir N) :
    (∀ x, ∑ y, d.upsilon x y * (e y s / Real.sqrt (masses y.1)) =
      (modeVariance c T cutoff freqs s)⁻¹ * (e x s * Real.sqrt (masses x.1))) ∧
    (∀ x, ∑ y, d.psi x y * (e y s * Real.sqrt (masses y.1)) =
      modeVariance c T cutoff freqs s * (e x s / Real.sqrt (masses x.1))) := by
  obtain ⟨-, hz, hp, hu, -⟩ := dispCorrRun_some h
  constructor
  · intro x
    have : ∀ y, d.upsilon x y * (e y s / Real.sqrt (masses y.1)) =
        Real.sqrt (masses x.1) *
          ((∑ s, (modeVariance c T cutoff freqs s)⁻¹ * e x s * e y s) * e y s) := by
      intro y
      have := sqrt_mass_ne hm y
      rw [hu]; field_simp
    rw [Finset.sum_congr rfl fun y _ => this y, ← Finset.mul_sum, sum_modes_apply he]
    ring
  · intro x
    have : ∀ y, d.psi x y * (e y s * Real.sqrt (masses y.1)) =
        (1 / Real.sqrt (masses x.1)) *
          ((∑ s, modeVariance c T cutoff freqs s * e x s * e y s) * e y s) := by
      intro y
      have := sqrt_mass_ne hm y
      have := sqrt_mass_ne hm x
      rw [hp]; field_simp
    rw [Finset.sum_congr rfl fun y _ => this y, ← Finset.mul_sum, sum_modes_apply he]
    ring

theorem eigh_complete {D : Matrix (AtomDir N) (AtomDir N) ℝ} {lam : AtomDir N → ℝ}
    (he : EighResult D lam e) (x y : AtomDir N) :
    ∑ s, e x s * e y s = if x = y then 1 else 0 := by
  have h1 : e.transpose * e = 1 := by
    ext s t
    rw [Matrix.mul_apply, Matrix.one_apply]
    exact he.orthonormal s t
  have h2 := mul_eq_one_comm.1 h1
  have := congrFun (congrFun h2 x) y
  rw [Matrix.mul_apply, Matrix.one_apply] at this
  exact this

theorem modes_mul {D : Matrix (AtomDir N) (AtomDir N) ℝ} {lam : AtomDir N → ℝ}
    (he : EighResult D lam e) (w v : AtomDir N → ℝ) (x z : AtomDir N) :
    ∑ y, (∑ s, w s * e x s * e y s) * (∑ s, v s * e y s * e z s) =
      ∑ s, w s * v s * e x s * e z s := by
  have : ∀ y, (∑ s, w s * e x s * e y s) * (∑ s, v s * e y s * e z s) =
      ∑ t, v t * e z t * ((∑ s, w s * e x s * e y s) * e y t) := by
    intro y
    rw [Finset.mul_sum]
    exact Finset.sum_congr rfl fun t _ => by ring
  rw [Finset.sum_congr rfl fun y _ => this y, Finset.sum_comm]
  refine Finset.sum_congr rfl fun t _ => ?_
  rw [← Finset.mul_sum, sum_modes_apply he]
  ring

/-- **C140**. `psi` and `upsilon` are generalised inverses of each other, and inverses if no mode is
left out. -/
theorem C140_inverse (hc : BoseUnits.Positive c) (hT : 0 < T)
    {D : Matrix (AtomDir N) (AtomDir N) ℝ} {lam : AtomDir N → ℝ}
    (he : EighResult D lam e) (hm : ∀ i, 0 < masses i)
    (h : dispCorrRun c raiseAll st masses cutoff freqs e T = (st', some d)) :
    d.psi * d.upsilon * d.psi = d.psi ∧ d.upsilon * d.psi * d.upsilon = d.upsilon ∧
    ((∀ s, freqs s > cutoff) → d.psi * d.upsilon = 1) := by
  obtain ⟨-, hz, hp, hu, -⟩ := dispCorrRun_some h
  set V := modeVariance c T cutoff freqs with hV
  have hV0 : ∀ s, V s * (V s)⁻¹ * V s = V s := by
    intro s
    by_cases h0 : V s = 0
    · simp [h0]
    · field_simp
  have hV1 : ∀ s, (V s)⁻¹ * V s * (V s)⁻¹ = (V s)⁻¹ := by
    intro s
    by_cases h0 : V s = 0
    · simp [h0]
    · field_simp
  have hpu : ∀ x z, (d.psi * d.upsilon) x z = (∑ s, V s * (V s)⁻¹ * e x s * e z s) *
      (Real.sqrt (masses z.1) / Real.sqrt (masses x.1)) := by
    intro x z
    rw [Matrix.mul_apply, ← modes_mul he, Finset.sum_mul]
    refine Finset.sum_congr rfl fun y _ => ?_
    have := sqrt_mass_ne hm y
    have := sqrt_mass_ne hm x
    rw [hp, hu]; field_simp
  have hup : ∀ x z, (d.upsilon * d.psi) x z = (∑ s, (V s)⁻¹ * V s * e x s * e z s) *
      (Real.sqrt (masses x.1) / Real.sqrt (masses z.1)) := by
    intro x z
    rw [Matrix.mul_apply, ← modes_mul he, Finset.sum_mul]
    refine Finset.sum_congr rfl fun y _ => ?_
    have := sqrt_mass_ne hm y
    have := sqrt_mass_ne hm z
    rw [hp, hu]; field_simp
  refine ⟨?_, ?_, ?_⟩
  · ext x z
    rw [Matrix.mul_apply]
    have : ∀ y, (d.psi * d.upsilon) x y * d.psi y z =
        (∑ s, V s * (V s)⁻¹ * e x s * e y s) * (∑ s, V s * e y s * e z s) *
          (1 / (Real.sqrt (masses x.1) * Real.sqrt (masses z.1))) := by
      intro y
      have := sqrt_mass_ne hm y
      rw [hpu, hp]; field_simp
    rw [Finset.sum_congr rfl fun y _ => this y, ← Finset.sum_mul,
      modes_mul he (fun s => V s * (V s)⁻¹) V]
    simp only [hV0]
    rw [hp]
    ring
  · ext x z
    rw [Matrix.mul_apply]
    have : ∀ y, (d.upsilon * d.psi) x y * d.upsilon y z =
        (∑ s, (V s)⁻¹ * V s * e x s * e y s) * (∑ s, (V s)⁻¹ * e y s * e z s) *
          (Real.sqrt (masses x.1) * Real.sqrt (masses z.1)) := by
      intro y
      have := sqrt_mass_ne hm y
      rw [hup, hu]; field_simp
    rw [Finset.sum_congr rfl fun y _ => this y, ← Finset.sum_mul,
      modes_mul he (fun s => (V s)⁻¹ * V s) (fun s => (V s)⁻¹)]
    simp only [hV1]
    rw [hu]
  · intro hall
    ext x z
    have h1 : ∀ s, V s * (V s)⁻¹ * e x s * e z s = e x s * e z s := by
      intro s
      have : V s ≠ 0 := modeVariance_ne hc hT hz (hall s)
      field_simp
    rw [hpu, Finset.sum_congr rfl fun s _ => h1 s, eigh_complete he, Matrix.one_apply]
    split
    · rename_i hxz
      subst hxz
      have := sqrt_mass_ne hm x
      field_simp
    · simp

/-- **C140**. With the acoustic sum rule, rigid translations are no part of the distribution:
`upsilon` maps them to zero, and the centre of mass does not move in `psi`. -/
theorem C140_translations {fc : Fin N → Fin N → Fin 3 → Fin 3 → ℝ} {lam : AtomDir N → ℝ}
    {factor : ℝ} (hf : 0 < factor) (hcut : 0 ≤ cutoff) (hm : ∀ i, 0 < masses i)
    (he : EighResult (supercellDynmat masses (flatFc2 fc)) lam e)
    (hfreq : ∀ s, freqs s = supercellFrequency factor (lam s))
    (hsum : ∀ i a b, ∑ j, fc i j a b = 0)
    (h : dispCorrRun c raiseAll st masses cutoff freqs e T = (st', some d)) (t : Fin 3 → ℝ)
    (x : AtomDir N) :
    ∑ y, d.upsilon x y * t y.2 = 0 ∧ ∑ y, d.psi x y * (masses y.1 * t y.2) = 0 := by
  obtain ⟨-, hz, hp, hu, -⟩ := dispCorrRun_some h
  set V := modeVariance c T cutoff freqs with hV
  have hlam : ∀ s, freqs s > cutoff → lam s ≠ 0 := by
    intro s hs h0
    rw [hfreq, h0] at hs
    simp only [supercellFrequency, Real.sign_zero, mul_zero, zero_mul] at hs
    linarith
  have hD : ∀ y, ∑ x, supercellDynmat masses (flatFc2 fc) x y *
      (Real.sqrt (masses x.1) * t x.2) = 0 := by
    intro y
    have : ∀ x, supercellDynmat masses (flatFc2 fc) x y * (Real.sqrt (masses x.1) * t x.2) =
        1 / Real.sqrt (masses y.1) * (t x.2 * fc y.1 x.1 y.2 x.2) := by
      intro x
      have := sqrt_mass_ne hm x
      have := sqrt_mass_ne hm y
      simp only [supercellDynmat, flatFc2]
      field_simp
    rw [Finset.sum_congr rfl fun x _ => this x, ← Finset.mul_sum, Fintype.sum_prod_type_right]
    have h0 : ∀ b, ∑ j, t b * fc y.1 j y.2 b = 0 := by
      intro b; rw [← Finset.mul_sum, hsum, mul_zero]
    simp only [h0, Finset.sum_const_zero, mul_zero]
  have horth : ∀ s, freqs s > cutoff → ∑ x, e x s * (Real.sqrt (masses x.1) * t x.2) = 0 := by
    intro s hs
    have h1 : lam s * ∑ x, e x s * (Real.sqrt (masses x.1) * t x.2) = 0 := by
      rw [Finset.mul_sum]
      have : ∀ x, lam s * (e x s * (Real.sqrt (masses x.1) * t x.2)) =
          ∑ y, e y s * (supercellDynmat masses (flatFc2 fc) x y *
            (Real.sqrt (masses x.1) * t x.2)) := by
        intro x
        rw [← mul_assoc, ← he.solves, Finset.sum_mul]
        exact Finset.sum_congr rfl fun y _ => by ring
      rw [Finset.sum_congr rfl fun x _ => this x, Finset.sum_comm]
      simp only [← Finset.mul_sum, hD, mul_zero, Finset.sum_const_zero]
    exact (mul_eq_zero.1 h1).resolve_left (hlam s hs)
  have hw : ∀ w : AtomDir N → ℝ, (∀ s, ¬ freqs s > cutoff → w s = 0) →
      ∑ y, (∑ s, w s * e x s * e y s) * (Real.sqrt (masses y.1) * t y.2) = 0 := by
    intro w hw
    simp only [Finset.sum_mul]
    rw [Finset.sum_comm]
    refine Finset.sum_eq_zero fun s _ => ?_
    by_cases hs : freqs s > cutoff
    · have : ∀ y, w s * e x s * e y s * (Real.sqrt (masses y.1) * t y.2) =
          w s * e x s * (e y s * (Real.sqrt (masses y.1) * t y.2)) := fun y => by ring
      rw [Finset.sum_congr rfl fun y _ => this y, ← Finset.mul_sum, horth s hs, mul_zero]
    · simp [hw s hs]
  have hV0 : ∀ s, ¬ freqs s > cutoff → V s = 0 := by
    intro s hs
    rw [hV]; unfold modeVariance; rw [if_neg hs]
  constructor
  · have : ∀ y, d.upsilon x y * t y.2 = Real.sqrt (masses x.1) *
        ((∑ s, (V s)⁻¹ * e x s * e y s) * (Real.sqrt (masses y.1) * t y.2)) := by
      intro y; rw [hu]; ring
    rw [Finset.sum_congr rfl fun y _ => this y, ← Finset.mul_sum,
      hw _ (fun s hs => by rw [hV0 s hs, inv_zero]), mul_zero]
  · have : ∀ y, d.psi x y * (masses y.1 * t y.2) = 1 / Real.sqrt (masses x.1) *
        ((∑ s, V s * e x s * e y s) * (Real.sqrt (masses y.1) * t y.2)) := by
      intro y
      have h1 := sqrt_mass_ne hm y
      have h2 := sqrt_mass_ne hm x
      rw [hp, show masses y.1 * t y.2 = Real.sqrt (masses y.1) * Real.sqrt (masses y.1) * t y.2 by
        rw [Real.mul_self_sqrt (hm y.1).le]]
      field_simp
    rw [Finset.sum_congr rfl fun y _ => this y, ← Finset.mul_sum, hw _ hV0, mul_zero]

end

/-- Functions of a symmetric matrix do not depend on the choice of its eigenvectors. -/
theorem sum_modes_unique {D : Matrix (AtomDir N) (AtomDir N) ℝ} (hD : ∀ x y, D x y = D y x)
    {lam lam' : AtomDir N → ℝ} {e e' : Matrix (AtomDir N) (AtomDir N) ℝ}
    (he : EighResult D lam e) (he' : EighResult D lam' e') (φ : ℝ → ℝ) (x y : AtomDir N) :
    ∑ s, φ (lam s) * e x s * e y s = ∑ s, φ (lam' s) * e' x s * e' y s := by
  -- overlaps of modes of different eigenvalue vanish
  have hov : ∀ s t, lam s * (∑ p, e p s * e' p t) = lam' t * (∑ p, e p s * e' p t) := by
    intro s t
    have h1 : ∑ p, ∑ q, D p q * e q s * e' p t = lam s * ∑ p, e p s * e' p t := by
      rw [Finset.mul_sum]
      refine Finset.sum_congr rfl fun p _ => ?_
      rw [← Finset.sum_mul, he.solves]; ring
    have h2 : ∑ p, ∑ q, D p q * e q s * e' p t = lam' t * ∑ p, e p s * e' p t := by
      rw [Finset.sum_comm, Finset.mul_sum]
      refine Finset.sum_congr rfl fun q _ => ?_
      have : ∀ p, D p q * e q s * e' p t = e q s * (D q p * e' p t) := fun p => by
        rw [hD p q]; ring
      rw [Finset.sum_congr rfl fun p _ => this p, ← Finset.mul_sum, he'.solves]; ring
    rw [← h1, h2]
  have hφ : ∀ s t, φ (lam s) * (∑ p, e p s * e' p t) = φ (lam' t) * (∑ p, e p s * e' p t) := by
    intro s t
    by_cases h0 : ∑ p, e p s * e' p t = 0
    · rw [h0]; simp
    · rw [mul_right_cancel₀ h0 (hov s t)]
  -- expand `e'` in `e`
  have hexp : ∀ p t, e' p t = ∑ s, e p s * (∑ q, e q s * e' q t) := by
    intro p t
    have : ∀ s, e p s * (∑ q, e q s * e' q t) = ∑ q, e p s * e q s * e' q t := by
      intro s; rw [Finset.mul_sum]; exact Finset.sum_congr rfl fun q _ => by ring
    rw [Finset.sum_congr rfl fun s _ => this s, Finset.sum_comm]
    simp only [← Finset.sum_mul, eigh_complete he]
    simp
  have hexp' : ∀ p s, e p s = ∑ t, e' p t * (∑ q, e q s * e' q t) := by
    intro p s
    have : ∀ t, e' p t * (∑ q, e q s * e' q t) = ∑ q, e' p t * e' q t * e q s := by
      intro t; rw [Finset.mul_sum]; exact Finset.sum_congr rfl fun q _ => by ring
    rw [Finset.sum_congr rfl fun t _ => this t, Finset.sum_comm]
    simp only [← Finset.sum_mul, eigh_complete he']
    simp
  calc ∑ s, φ (lam s) * e x s * e y s
      = ∑ s, ∑ t, e x s * (φ (lam s) * (∑ q, e q s * e' q t)) * e' y t := by
        refine Finset.sum_congr rfl fun s _ => ?_
        conv_lhs => rw [hexp' y s]
        rw [Finset.mul_sum]
        exact Finset.sum_congr rfl fun t _ => by ring
    _ = ∑ t, ∑ s, e x s * (φ (lam' t) * (∑ q, e q s * e' q t)) * e' y t := by
        rw [Finset.sum_comm]
        refine Finset.sum_congr rfl fun t _ => Finset.sum_congr rfl fun s _ => by rw [hφ]
    _ = ∑ s, φ (lam' s) * e' x s * e' y s := by
        refine Finset.sum_congr rfl fun t _ => ?_
        conv_rhs => rw [hexp x t]
        rw [Finset.mul_sum, Finset.sum_mul]
        exact Finset.sum_congr rfl fun s _ => by ring

/-- **C140**. The matrices are functions of the force constants: they do not depend on the
eigenvectors chosen by the solver. -/
theorem C140_unique {E : Type} {c : BoseUnits} {raiseAll st st₁ st₂ : E} {masses : Fin N → ℝ}
    {cutoff T factor : ℝ} {D : Matrix (AtomDir N) (AtomDir N) ℝ} (hD : ∀ x y, D x y = D y x)
    {lam lam' : AtomDir N → ℝ} {e e' : Matrix (AtomDir N) (AtomDir N) ℝ}
    (he : EighResult D lam e) (he' : EighResult D lam' e') {d d' : DispCorr (AtomDir N)}
    (h : dispCorrRun c raiseAll st masses cutoff (fun s => supercellFrequency factor (lam s)) e T =
      (st₁, some d))
    (h' : dispCorrRun c raiseAll st masses cutoff (fun s => supercellFrequency factor (lam' s)) e'
      T = (st₂, some d')) :
    d.psi = d'.psi ∧ d.upsilon = d'.upsilon := by
  classical
  obtain ⟨-, -, hp, hu, -⟩ := dispCorrRun_some h
  obtain ⟨-, -, hp', hu', -⟩ := dispCorrRun_some h'
  let φ : ℝ → ℝ := fun l => if supercellFrequency factor l > cutoff then
    oscillatorVariance c T (supercellFrequency factor l) else 0
  constructor
  · ext x y
    rw [hp, hp']
    congr 1
    exact sum_modes_unique hD he he' φ x y
  · ext x y
    rw [hu, hu']
    congr 1
    exact sum_modes_unique hD he he' (fun l => (φ l)⁻¹) x y

/-! ### The distribution -/

section
variable {E : Type} {c : BoseUnits} {raiseAll st st' : E} {masses : Fin N → ℝ} {cutoff T : ℝ}
  {freqs : AtomDir N → ℝ} {e : Matrix (AtomDir N) (AtomDir N) ℝ} {d : DispCorr (AtomDir N)}

open MeasureTheory ProbabilityTheory

/-- Second moments of independent centred normal amplitudes. -/
theorem amplitude_moments (v : AtomDir N → NNReal) (s t : AtomDir N) :
    ∫ q, q s * q t ∂(Measure.pi fun s => gaussianReal 0 (v s)) = if s = t then (v s : ℝ) else 0 := by
  have h : ∀ q : AtomDir N → ℝ, q s * q t =
      ∏ r, (if r = s then q r else 1) * (if r = t then q r else 1) := by
    intro q
    rw [Finset.prod_mul_distrib, Finset.prod_ite_eq', Finset.prod_ite_eq']
    simp
  simp only [h]
  rw [integral_fintype_prod_eq_prod
    (f := fun (r : AtomDir N) (z : ℝ) => (if r = s then z else 1) * (if r = t then z else 1))]
  have hsq : ∀ w : NNReal, ∫ z, z * z ∂gaussianReal 0 w = w := by
    intro w
    have := variance_fun_id_gaussianReal (μ := 0) (v := w)
    rw [variance_eq_integral measurable_id'.aemeasurable] at this
    simp only [integral_id_gaussianReal, sub_zero] at this
    rw [← this]
    exact integral_congr_ae (Filter.Eventually.of_forall fun z => by simp [pow_two])
  by_cases hst : s = t
  · subst hst
    rw [if_pos rfl, Finset.prod_eq_single s]
    · simp [hsq]
    · intro r _ hr
      simp [hr]
    · simp
  · rw [if_neg hst]
    refine Finset.prod_eq_zero (Finset.mem_univ s) ?_
    simp [hst, integral_id_gaussianReal]

/-- **C140**. `psi` is the covariance of the displacements if the amplitudes of the modes are
independent and normally distributed with the mean square amplitudes of quantum oscillators. -/
theorem C140_covariance (hc : BoseUnits.Positive c) (hT : 0 < T)
    (h : dispCorrRun c raiseAll st masses cutoff freqs e T = (st', some d)) (x y : AtomDir N) :
    ∫ q, modeDisplacement masses e q x * modeDisplacement masses e q y
      ∂(Measure.pi fun s => gaussianReal 0 (modeVariance c T cutoff freqs s).toNNReal) =
        d.psi x y := by
  obtain ⟨-, hz, hp, -, -⟩ := dispCorrRun_some h
  have hv := modeVariance_nonneg (cutoff := cutoff) (freqs := freqs) hc hT hz
  set V := modeVariance c T cutoff freqs with hV
  set μ := (Measure.pi fun s => gaussianReal 0 (V s).toNNReal : Measure (AtomDir N → ℝ)) with hμ
  have hint : ∀ s t, Integrable (fun q : AtomDir N → ℝ => q s * q t) μ := by
    intro s t
    have hm : ∀ r : AtomDir N, MemLp (fun q : AtomDir N → ℝ => q r) 2 μ := by
      intro r
      have h1 : MemLp id 2 (gaussianReal 0 (V r).toNNReal) :=
        memLp_id_gaussianReal' 2 (by simp)
      exact h1.comp_measurePreserving (measurePreserving_eval _ r)
    exact (hm s).integrable_mul (hm t)
  have hexp : ∀ q : AtomDir N → ℝ, modeDisplacement masses e q x * modeDisplacement masses e q y =
      ∑ s, ∑ t, (e x s * e y t / (Real.sqrt (masses x.1) * Real.sqrt (masses y.1))) *
        (q s * q t) := by
    intro q
    simp only [modeDisplacement]
    rw [div_mul_div_comm, Finset.sum_mul_sum, Finset.sum_div]
    refine Finset.sum_congr rfl fun s _ => ?_
    rw [Finset.sum_div]
    exact Finset.sum_congr rfl fun t _ => by ring
  simp only [hexp]
  rw [integral_finset_sum _ fun s _ => integrable_finset_sum _ fun t _ => (hint s t).const_mul _]
  rw [hp, Finset.sum_div]
  refine Finset.sum_congr rfl fun s _ => ?_
  rw [integral_finset_sum _ fun t _ => (hint s t).const_mul _]
  rw [Finset.sum_eq_single s]
  · rw [integral_const_mul, hμ, amplitude_moments, if_pos rfl, Real.coe_toNNReal _ (hv s)]
    ring
  · intro t _ hts
    rw [integral_const_mul, hμ, amplitude_moments, if_neg (Ne.symm hts), mul_zero]
  · simp

open Classical in
/-- Amplitudes of the modes that are kept, the others at rest. -/
noncomputable def keptAmplitudes (cutoff : ℝ) (freqs : AtomDir N → ℝ)
    (q : {s : AtomDir N // freqs s > cutoff} → ℝ) (s : AtomDir N) : ℝ :=
  if hs : freqs s > cutoff then q ⟨s, hs⟩ else 0

open Classical in
/-- **C140**. The documented density `prefactor * exp(-u · upsilon · u / 2)` is that of a probability
distribution of the amplitudes of the modes that are kept. -/
theorem C140_density (hc : BoseUnits.Positive c) (hT : 0 < T)
    {D : Matrix (AtomDir N) (AtomDir N) ℝ} {lam : AtomDir N → ℝ}
    (he : EighResult D lam e) (hm : ∀ i, 0 < masses i)
    (h : dispCorrRun c raiseAll st masses cutoff freqs e T = (st', some d)) :
    ∫ q : {s : AtomDir N // freqs s > cutoff} → ℝ,
      d.prefactor * Real.exp (-(∑ x, ∑ y,
        modeDisplacement masses e (keptAmplitudes cutoff freqs q) x * d.upsilon x y *
          modeDisplacement masses e (keptAmplitudes cutoff freqs q) y) / 2) = 1 := by
  have hmodes := C140_modes he hm h
  obtain ⟨-, hz, -, -, hpre⟩ := dispCorrRun_some h
  have hv := modeVariance_nonneg (cutoff := cutoff) (freqs := freqs) hc hT hz
  set V := modeVariance c T cutoff freqs with hV
  have hquad : ∀ q : AtomDir N → ℝ, ∑ x, ∑ y, modeDisplacement masses e q x * d.upsilon x y *
      modeDisplacement masses e q y = ∑ s, (V s)⁻¹ * q s ^ 2 := by
    intro q
    have h1 : ∀ x, ∑ y, d.upsilon x y * modeDisplacement masses e q y =
        ∑ s, q s * ((V s)⁻¹ * (e x s * Real.sqrt (masses x.1))) := by
      intro x
      have : ∀ y, d.upsilon x y * modeDisplacement masses e q y =
          ∑ s, q s * (d.upsilon x y * (e y s / Real.sqrt (masses y.1))) := by
        intro y
        rw [modeDisplacement, Finset.sum_div, Finset.mul_sum]
        exact Finset.sum_congr rfl fun s _ => by ring
      rw [Finset.sum_congr rfl fun y _ => this y, Finset.sum_comm]
      refine Finset.sum_congr rfl fun s _ => ?_
      rw [← Finset.mul_sum, (hmodes s).1]
    have h2 : ∀ x, ∑ y, modeDisplacement masses e q x * d.upsilon x y *
        modeDisplacement masses e q y = ∑ s, ∑ t, (V s)⁻¹ * q s * q t * (e x s * e x t) := by
      intro x
      have : ∀ y, modeDisplacement masses e q x * d.upsilon x y * modeDisplacement masses e q y =
          modeDisplacement masses e q x * (d.upsilon x y * modeDisplacement masses e q y) :=
        fun y => by ring
      rw [Finset.sum_congr rfl fun y _ => this y, ← Finset.mul_sum, h1, Finset.mul_sum]
      refine Finset.sum_congr rfl fun s _ => ?_
      have hx := sqrt_mass_ne hm x
      rw [modeDisplacement, Finset.sum_div, Finset.sum_mul]
      refine Finset.sum_congr rfl fun t _ => ?_
      field_simp
    rw [Finset.sum_congr rfl fun x _ => h2 x, Finset.sum_comm]
    refine Finset.sum_congr rfl fun s _ => ?_
    rw [Finset.sum_comm]
    simp only [← Finset.mul_sum, he.orthonormal]
    simp
    ring
  have hpos : ∀ s : {s : AtomDir N // freqs s > cutoff}, 0 < V s := fun s =>
    lt_of_le_of_ne (hv s) (Ne.symm (modeVariance_ne hc hT hz s.2))
  have hsub : ∀ f : AtomDir N → ℝ, (∀ s, ¬ freqs s > cutoff → f s = 0) →
      ∑ s, f s = ∑ s : {s : AtomDir N // freqs s > cutoff}, f s := by
    intro f hf
    rw [← Finset.sum_subtype (univ.filter fun s => freqs s > cutoff) (by simp) f,
      Finset.sum_filter]
    refine Finset.sum_congr rfl fun s _ => ?_
    split
    · rfl
    · rename_i hs; exact hf s hs
  have hfun : ∀ q : {s : AtomDir N // freqs s > cutoff} → ℝ,
      d.prefactor * Real.exp (-(∑ x, ∑ y,
        modeDisplacement masses e (keptAmplitudes cutoff freqs q) x * d.upsilon x y *
          modeDisplacement masses e (keptAmplitudes cutoff freqs q) y) / 2) =
      ∏ s : {s : AtomDir N // freqs s > cutoff}, gaussianPDFReal 0 (V s).toNNReal (q s) := by
    intro q
    rw [hquad, hsub _ (fun s hs => by simp [keptAmplitudes, hs])]
    have h1 : ∀ s : {s : AtomDir N // freqs s > cutoff}, gaussianPDFReal 0 (V s).toNNReal (q s) =
        (Real.sqrt (2 * Real.pi * V s))⁻¹ * Real.exp (-((V s)⁻¹ * q s ^ 2) / 2) := by
      intro s
      have := (hpos s).ne'
      rw [gaussianPDFReal, Real.coe_toNNReal _ (hv s), sub_zero]
      congr 2
      field_simp
    rw [Finset.prod_congr rfl fun s _ => h1 s, Finset.prod_mul_distrib, ← Real.exp_sum]
    congr 1
    · rw [hpre, Finset.prod_subtype (p := fun s => freqs s > cutoff) (F := inferInstance)
        (univ.filter fun s => freqs s > cutoff) (by simp) (fun s => 2 * Real.pi * V s)]
      rw [Real.sqrt_eq_iff_mul_self_eq (by
          apply div_nonneg zero_le_one
          exact Finset.prod_nonneg fun s _ => by have := hpos s; positivity)
        (Finset.prod_nonneg fun s _ => by positivity)]
      rw [← Finset.prod_mul_distrib, one_div, ← Finset.prod_inv_distrib]
      refine Finset.prod_congr rfl fun s _ => ?_
      rw [← mul_inv, Real.mul_self_sqrt (by have := hpos s; positivity)]
    · rw [← Finset.sum_neg_distrib, Finset.sum_div]
      congr 1
      refine Finset.sum_congr rfl fun s _ => ?_
      have : keptAmplitudes cutoff freqs q s = q s := by
        simp only [keptAmplitudes]
        rw [dif_pos s.2]
      rw [this]
  simp only [hfun]
  rw [integral_fintype_prod_volume_eq_prod
    (f := fun (s : {s : AtomDir N // freqs s > cutoff}) z => gaussianPDFReal 0 (V s).toNNReal z)]
  refine Finset.prod_eq_one fun s _ => ?_
  exact integral_gaussianPDFReal_eq_one 0 (by simpa using hpos s)

end

/-! ## C141 -/

section
variable {ι : Type} [Fintype ι] [DecidableEq ι] {n : Nat}

/-- `Y` is the Moore–Penrose inverse of `C`. -/
structure PseudoInverse (C Y : Matrix ι ι ℝ) : Prop where
  first : C * Y * C = C
  second : Y * C * Y = Y
  left : (C * Y).transpose = C * Y
  right : (Y * C).transpose = Y * C

theorem PseudoInverse.symm_of_symm {C Y : Matrix ι ι ℝ} (h : PseudoInverse C Y)
    (hC : C.transpose = C) : Y.transpose = Y := by
  have e1 : C * Y.transpose = Y * C := by
    have := h.right; rwa [Matrix.transpose_mul, hC] at this
  have e2 : Y.transpose * C = C * Y := by
    have := h.left; rwa [Matrix.transpose_mul, hC] at this
  have e3 : C * Y = Y * C := by
    -- both are projections with the same kernel
    have h1 : C * Y = C * Y * (Y * C) := by
      have : (C * Y).transpose = (C * (Y * C) * Y).transpose := by
        rw [show C * (Y * C) * Y = C * Y * C * Y by simp only [Matrix.mul_assoc], h.first]
      calc C * Y = Y.transpose * C := e2.symm
        _ = Y.transpose * (C * Y * C) := by rw [h.first]
        _ = Y.transpose * C * (Y * C) := by simp only [Matrix.mul_assoc]
        _ = C * Y * (Y * C) := by rw [e2]
    have h2 : Y * C = C * Y * (Y * C) := by
      calc Y * C = C * Y.transpose := e1.symm
        _ = C * Y * C * Y.transpose := by rw [h.first]
        _ = C * Y * (C * Y.transpose) := by simp only [Matrix.mul_assoc]
        _ = C * Y * (Y * C) := by rw [e1]
    rw [h1, ← h2]
  calc Y.transpose = (Y * C * Y).transpose := by rw [h.second]
    _ = Y.transpose * (C * Y.transpose) := by
        rw [Matrix.transpose_mul, Matrix.transpose_mul, hC, e1, ← e1]
    _ = Y.transpose * (Y * C) := by rw [e1]
    _ = Y.transpose * (C * Y) := by rw [e3]
    _ = Y.transpose * C * Y := by rw [Matrix.mul_assoc]
    _ = C * Y * Y := by rw [e2]
    _ = Y * C * Y := by rw [e3]
    _ = Y := h.second

theorem snapshotCovariance_symm (u : Fin n → ι → ℝ) :
    (snapshotCovariance u).transpose = snapshotCovariance u := by
  ext x y
  simp only [Matrix.transpose_apply, snapshotCovariance]
  congr 1
  exact Finset.sum_congr rfl fun l _ => mul_comm _ _

/-- Averages of a product of two inverse displacements. -/
theorem snapshotInverse_average {u : Fin n → ι → ℝ} {Y : Matrix ι ι ℝ}
    (h : PseudoInverse (snapshotCovariance u) Y) (i j : ι) :
    (∑ l, snapshotInverse Y u l i * snapshotInverse Y u l j) / n = Y i j := by
  have hs := h.symm_of_symm (snapshotCovariance_symm u)
  have hY : ∀ p q, Y p q = Y q p := fun p q => by
    conv_lhs => rw [← hs]
    rfl
  have : (∑ l, snapshotInverse Y u l i * snapshotInverse Y u l j) / n =
      (Y * snapshotCovariance u * Y) i j := by
    simp only [Matrix.mul_apply, snapshotCovariance, snapshotInverse]
    rw [Finset.sum_congr rfl fun l _ => Finset.sum_mul_sum _ _ _ _, Finset.sum_div]
    simp only [Finset.sum_mul, Finset.sum_div, Finset.mul_sum]
    rw [Finset.sum_comm]
    rw [Finset.sum_congr rfl fun p _ => Finset.sum_comm]
    rw [Finset.sum_comm]
    refine Finset.sum_congr rfl fun q _ => Finset.sum_congr rfl fun p _ =>
      Finset.sum_congr rfl fun l _ => ?_
    rw [hY i p]; ring
  rw [this, h.second]

/-- A displacement that is orthogonal to nothing else than what the sample leaves out: `C Y` leaves
every displacement of the sample as it is. -/
theorem sample_projected {u : Fin n → ι → ℝ} {Y : Matrix ι ι ℝ}
    (h : PseudoInverse (snapshotCovariance u) Y) (hn : 0 < n) (l : Fin n) (x : ι) :
    ∑ p, (snapshotCovariance u * Y) x p * u l p = u l x := by
  set C := snapshotCovariance u with hC
  have hsym : C.transpose = C := snapshotCovariance_symm u
  have hn' : (n : ℝ) ≠ 0 := Nat.cast_ne_zero.2 hn.ne'
  -- the defect of all snapshots has square zero
  let w : Fin n → ι → ℝ := fun l x => ∑ p, (C * Y) x p * u l p - u l x
  have hw : ∀ x, ∑ l, w l x * w l x = 0 := by
    intro x
    have h1 : ∀ x y, (∑ l, u l x * u l y) = n * C x y := by
      intro x y; rw [hC, snapshotCovariance]; field_simp
    have h2 : ∑ l, w l x * w l x = n * (((C * Y - 1) * C * (C * Y - 1).transpose) x x) := by
      have e1 : ∀ l, w l x = ∑ p, (C * Y - 1) x p * u l p := by
        intro l
        simp only [w, Matrix.sub_apply, sub_mul, Finset.sum_sub_distrib, Matrix.one_apply]
        simp
      simp only [e1]
      rw [Finset.sum_congr rfl fun l _ => Finset.sum_mul_sum _ _ _ _]
      simp only [Matrix.mul_apply (M := (C * Y - 1) * C), Matrix.mul_apply (M := C * Y - 1),
        Matrix.transpose_apply, Finset.sum_mul, Finset.mul_sum]
      rw [Finset.sum_comm]
      rw [Finset.sum_congr rfl fun p _ => Finset.sum_comm]
      rw [Finset.sum_comm]
      refine Finset.sum_congr rfl fun q _ => Finset.sum_congr rfl fun p _ => ?_
      have : ∀ l, (C * Y - 1) x p * u l p * ((C * Y - 1) x q * u l q) =
          (C * Y - 1) x p * (C * Y - 1) x q * (u l p * u l q) := fun l => by ring
      rw [Finset.sum_congr rfl fun l _ => this l, ← Finset.mul_sum, h1]
      ring
    rw [h2]
    have : (C * Y - 1) * C = 0 := by rw [Matrix.sub_mul, h.first, Matrix.one_mul, sub_self]
    rw [this]
    simp
  have := (Finset.sum_eq_zero_iff_of_nonneg fun l _ => mul_self_nonneg (w l x)).1 (hw x) l
    (Finset.mem_univ l)
  have := mul_self_eq_zero.1 this
  simp only [w] at this
  linarith

/-- Force constants whose columns are combinations of displacements of the sample. -/
def SampleSpans (u : Fin n → ι → ℝ) (Φ : Matrix ι ι ℝ) : Prop :=
  ∃ W : Fin n → ι → ℝ, ∀ p y, Φ p y = ∑ l, u l p * W l y

/-- **C141**. For harmonic forces, `SecondOrderFC` returns the force constants, whatever the sample,
as long as it spans them. -/
theorem C141_harmonic_fc2 {u f : Fin n → ι → ℝ} {Y Φ : Matrix ι ι ℝ} (hn : 0 < n)
    (h : PseudoInverse (snapshotCovariance u) Y) (hf : ∀ l y, f l y = -∑ p, u l p * Φ p y)
    (hs : SampleSpans u Φ) : ensembleFc2Flat Y u f = Φ := by
  have hn' : (n : ℝ) ≠ 0 := Nat.cast_ne_zero.2 hn.ne'
  have hsym := h.symm_of_symm (snapshotCovariance_symm u)
  have hCY : (snapshotCovariance u * Y).transpose = Y.transpose * snapshotCovariance u := by
    rw [Matrix.transpose_mul, snapshotCovariance_symm]
  obtain ⟨W, hW⟩ := hs
  have h1 : ensembleFc2Flat Y u f = snapshotCovariance u * Y * Φ := by
    rw [← h.left, hCY]
    ext x y
    simp only [ensembleFc2Flat, snapshotInverse, hf, Matrix.mul_apply, snapshotCovariance,
      Matrix.transpose_apply, mul_neg, Finset.sum_neg_distrib, neg_neg]
    rw [Finset.sum_congr rfl fun l _ => Finset.sum_mul_sum _ _ _ _, Finset.sum_div]
    simp only [Finset.sum_mul, Finset.sum_div, Finset.mul_sum]
    rw [Finset.sum_congr rfl fun l _ => Finset.sum_comm]
    rw [Finset.sum_comm]
    rw [Finset.sum_congr rfl fun p _ => Finset.sum_comm]
    refine Finset.sum_congr rfl fun q _ => Finset.sum_congr rfl fun p _ =>
      Finset.sum_congr rfl fun l _ => by ring
  rw [h1]
  ext x y
  rw [Matrix.mul_apply]
  simp only [hW, Finset.mul_sum]
  rw [Finset.sum_comm]
  refine Finset.sum_congr rfl fun l _ => ?_
  rw [← sample_projected h hn l x, Finset.sum_mul]
  exact Finset.sum_congr rfl fun p _ => by ring

/-- **C141**. For harmonic forces, `ThirdOrderFC` returns the product of the inverse covariance and
the force of the mean displacement of the sample. -/
theorem C141_harmonic_fc3 {u f : Fin n → ι → ℝ} {Y Φ : Matrix ι ι ℝ} (hn : 0 < n)
    (h : PseudoInverse (snapshotCovariance u) Y) (hf : ∀ l y, f l y = -∑ p, u l p * Φ p y)
    (i j k : ι) :
    ensembleFc3Flat Y u (ensembleForces Φ u f) i j k =
      -(Y i j * ∑ p, (∑ l, u l p) / n * Φ p k) := by
  have hn' : (n : ℝ) ≠ 0 := Nat.cast_ne_zero.2 hn.ne'
  have hg : ∀ l, ensembleForces Φ u f l k = ∑ p, (∑ l, u l p) / n * Φ p k := by
    intro l
    simp only [ensembleForces, hf]
    have : (∑ m, -∑ p, u m p * Φ p k) / n = -∑ p, (∑ l, u l p) / n * Φ p k := by
      rw [Finset.sum_neg_distrib, neg_div, Finset.sum_comm, Finset.sum_div]
      congr 1
      refine Finset.sum_congr rfl fun p _ => ?_
      rw [← Finset.sum_mul]
      ring
    rw [this]
    ring
  rw [← snapshotInverse_average h i j]
  simp only [ensembleFc3Flat, hg]
  rw [← Finset.sum_mul]
  ring

/-- **C141**, the part that holds: harmonic forces have no third-order force constants if the mean
displacement of the sample feels no force. -/
theorem C141_harmonic_zero_partial {u f : Fin n → ι → ℝ} {Y Φ : Matrix ι ι ℝ} (hn : 0 < n)
    (h : PseudoInverse (snapshotCovariance u) Y) (hf : ∀ l y, f l y = -∑ p, u l p * Φ p y)
    (hmean : ∀ k, ∑ p, (∑ l, u l p) / n * Φ p k = 0) (i j k : ι) :
    ensembleFc3Flat Y u (ensembleForces Φ u f) i j k = 0 := by
  rw [C141_harmonic_fc3 hn h hf, hmean]; simp

/-- The unit matrix with two of three directions left out. -/
def firstDirection : Matrix (Fin 3) (Fin 3) ℝ := fun x y => if x = 0 ∧ y = 0 then 1 else 0

/-- One snapshot with a displacement along the first direction. -/
def oneSnapshot : Fin 1 → Fin 3 → ℝ := fun _ x => if x = 0 then 1 else 0

theorem oneSnapshot_pinv : PseudoInverse (snapshotCovariance oneSnapshot) firstDirection := by
  have hC : snapshotCovariance oneSnapshot = firstDirection := by
    ext x y
    fin_cases x <;> fin_cases y <;> simp [snapshotCovariance, oneSnapshot, firstDirection]
  have h2 : firstDirection * firstDirection = firstDirection := by
    ext x y
    fin_cases x <;> fin_cases y <;>
      simp [Matrix.mul_apply, firstDirection, Fin.sum_univ_three]
  have h3 : firstDirection.transpose = firstDirection := by
    ext x y
    fin_cases x <;> fin_cases y <;> simp [firstDirection]
  rw [hC]
  exact ⟨by rw [h2, h2], by rw [h2, h2], by rw [h2, h3], by rw [h2, h3]⟩

/-- **C141**, the violation. Third-order force constants of a purely harmonic crystal do not vanish if
the mean displacement of the sample does not: the mean is computed (`_drift`) but not used. -/
theorem C141_spurious_fc3 :
    ensembleFc3Flat firstDirection oneSnapshot
      (ensembleForces firstDirection oneSnapshot
        (fun l y => -∑ p, oneSnapshot l p * firstDirection p y)) 0 0 0 = -1 := by
  rw [C141_harmonic_fc3 (Φ := firstDirection) (by decide) oneSnapshot_pinv (fun _ _ => rfl)]
  simp [firstDirection, oneSnapshot, Fin.sum_univ_three]

/-- Coupled directions. -/
def coupledDirections : Matrix (Fin 3) (Fin 3) ℝ := fun x y => if x = y then 0 else 1

/-- **C141**, the violation: the result of one sample is not symmetric under exchange of the second and
the third index. -/
theorem C141_third_index_differs :
    ensembleFc3Flat firstDirection oneSnapshot
      (ensembleForces coupledDirections oneSnapshot
        (fun l y => -∑ p, oneSnapshot l p * coupledDirections p y)) 0 0 1 = -1 ∧
    ensembleFc3Flat firstDirection oneSnapshot
      (ensembleForces coupledDirections oneSnapshot
        (fun l y => -∑ p, oneSnapshot l p * coupledDirections p y)) 0 1 0 = 0 := by
  constructor
  · rw [C141_harmonic_fc3 (Φ := coupledDirections) (by decide) oneSnapshot_pinv (fun _ _ => rfl)]
    simp [firstDirection, coupledDirections, oneSnapshot, Fin.sum_univ_three]
  · rw [C141_harmonic_fc3 (Φ := coupledDirections) (by decide) oneSnapshot_pinv (fun _ _ => rfl)]
    simp [firstDirection]

/-- The mean and the fourth moments of a sample are those of a centred normal distribution. -/
structure NormalMoments (u : Fin n → ι → ℝ) : Prop where
  mean : ∀ a, ∑ l, u l a = 0
  fourth : ∀ a b c d, (∑ l, u l a * u l b * u l c * u l d) / n =
    snapshotCovariance u a b * snapshotCovariance u c d +
    snapshotCovariance u a c * snapshotCovariance u b d +
    snapshotCovariance u a d * snapshotCovariance u b c

theorem snapshotInverse_fourth {u : Fin n → ι → ℝ} {Y : Matrix ι ι ℝ}
    (h : PseudoInverse (snapshotCovariance u) Y) (hreg : snapshotCovariance u * Y = 1)
    (hu : NormalMoments u) (i j a b : ι) :
    (∑ l, snapshotInverse Y u l i * snapshotInverse Y u l j * (u l a * u l b)) / n =
      Y i j * snapshotCovariance u a b + (if i = a then 1 else 0) * (if j = b then 1 else 0) +
        (if i = b then 1 else 0) * (if j = a then 1 else 0) := by
  set C := snapshotCovariance u with hC
  have hsym : ∀ p q, C p q = C q p := fun p q => by
    rw [hC]
    conv_lhs => rw [← snapshotCovariance_symm u]
    rfl
  have hYs := h.symm_of_symm (snapshotCovariance_symm u)
  have hid : ∀ i a, ∑ p, Y p i * C p a = if i = a then 1 else 0 := by
    intro i a
    have := congrFun (congrFun hreg a) i
    rw [Matrix.mul_apply, Matrix.one_apply] at this
    rw [show (if i = a then (1 : ℝ) else 0) = if a = i then 1 else 0 by simp [eq_comm], ← this]
    exact Finset.sum_congr rfl fun p _ => by rw [hsym p a]; ring
  have h1 : (∑ l, snapshotInverse Y u l i * snapshotInverse Y u l j * (u l a * u l b)) / n =
      ∑ p, ∑ q, Y p i * Y q j * ((∑ l, u l p * u l q * u l a * u l b) / n) := by
    simp only [snapshotInverse]
    rw [Finset.sum_congr rfl fun l _ => by rw [Finset.sum_mul_sum]]
    simp only [Finset.sum_mul, Finset.sum_div, Finset.mul_sum]
    rw [Finset.sum_comm]
    refine Finset.sum_congr rfl fun p _ => ?_
    rw [Finset.sum_comm]
    exact Finset.sum_congr rfl fun q _ => Finset.sum_congr rfl fun l _ => by ring
  have h2 : ∑ p, ∑ q, Y p i * Y q j * (C p q * C a b) = Y i j * C a b := by
    have : ∀ p, ∑ q, Y p i * Y q j * (C p q * C a b) =
        Y p i * (if p = j then 1 else 0) * C a b := by
      intro p
      rw [show (if p = j then (1 : ℝ) else 0) = if j = p then 1 else 0 by simp [eq_comm],
        ← hid j p, Finset.mul_sum, Finset.sum_mul]
      exact Finset.sum_congr rfl fun q _ => by rw [hsym p q]; ring
    rw [Finset.sum_congr rfl fun p _ => this p]
    simp only [mul_ite, mul_one, mul_zero, ite_mul, zero_mul, Finset.sum_ite_eq',
      Finset.mem_univ, if_true]
    congr 1
    conv_lhs => rw [← hYs]
    rfl
  have h3 : ∀ a b, ∑ p, ∑ q, Y p i * Y q j * (C p a * C q b) =
      (if i = a then 1 else 0) * (if j = b then 1 else 0) := by
    intro a b
    rw [← hid i a, ← hid j b, Finset.sum_mul_sum]
    exact Finset.sum_congr rfl fun p _ => Finset.sum_congr rfl fun q _ => by ring
  rw [h1]
  simp only [hu.fourth, mul_add, Finset.sum_add_distrib]
  rw [← hC, h2, h3 a b, h3 b a]

/-- **C141**. For forces up to second order in the displacements and a sample with the moments of a
normal distribution and a regular covariance, `ThirdOrderFC` returns the third-order force constants
exactly. -/
theorem C141_cubic_fc3 {u f : Fin n → ι → ℝ} {Y Φ : Matrix ι ι ℝ} {Ψ : ι → ι → ι → ℝ} (hn : 0 < n)
    (h : PseudoInverse (snapshotCovariance u) Y) (hreg : snapshotCovariance u * Y = 1)
    (hu : NormalMoments u) (hΨ : ∀ a b k, Ψ a b k = Ψ b a k)
    (hf : ∀ l k, f l k = -∑ p, u l p * Φ p k - (∑ a, ∑ b, Ψ a b k * (u l a * u l b)) / 2)
    (i j k : ι) :
    ensembleFc3Flat Y u (ensembleForces Φ u f) i j k = Ψ i j k := by
  have hn' : (n : ℝ) ≠ 0 := Nat.cast_ne_zero.2 hn.ne'
  have hmean : (∑ l, f l k) / n = -(∑ a, ∑ b, Ψ a b k * snapshotCovariance u a b) / 2 := by
    simp only [hf]
    rw [Finset.sum_sub_distrib, Finset.sum_neg_distrib, Finset.sum_comm]
    simp only [← Finset.sum_mul, hu.mean, zero_mul, Finset.sum_const_zero, neg_zero, zero_sub]
    have : (∑ l, (∑ a, ∑ b, Ψ a b k * (u l a * u l b)) / 2) / n =
        (∑ a, ∑ b, Ψ a b k * snapshotCovariance u a b) / 2 := by
      rw [← Finset.sum_div, div_right_comm]
      congr 1
      simp only [snapshotCovariance, Finset.sum_div, Finset.mul_sum]
      rw [Finset.sum_comm]
      refine Finset.sum_congr rfl fun a _ => ?_
      rw [Finset.sum_comm]
      exact Finset.sum_congr rfl fun b _ => Finset.sum_congr rfl fun l _ => by ring
    rw [neg_div, this, neg_div]
  have hg : ∀ l, ensembleForces Φ u f l k =
      ∑ a, ∑ b, Ψ a b k / 2 * (snapshotCovariance u a b - u l a * u l b) := by
    intro l
    simp only [ensembleForces]
    rw [hmean, hf l]
    have : ∑ a, ∑ b, Ψ a b k / 2 * (snapshotCovariance u a b - u l a * u l b) =
        (∑ a, ∑ b, Ψ a b k * snapshotCovariance u a b) / 2 -
        (∑ a, ∑ b, Ψ a b k * (u l a * u l b)) / 2 := by
      rw [← sub_div, ← Finset.sum_sub_distrib, Finset.sum_div]
      refine Finset.sum_congr rfl fun a _ => ?_
      rw [← Finset.sum_sub_distrib, Finset.sum_div]
      exact Finset.sum_congr rfl fun b _ => by ring
    rw [this]
    ring
  have hsum : ensembleFc3Flat Y u (ensembleForces Φ u f) i j k =
      ∑ a, ∑ b, Ψ a b k / 2 *
        ((∑ l, snapshotInverse Y u l i * snapshotInverse Y u l j * (u l a * u l b)) / n -
          (∑ l, snapshotInverse Y u l i * snapshotInverse Y u l j) / n *
            snapshotCovariance u a b) := by
    have hab : ∀ a b, Ψ a b k / 2 *
        ((∑ l, snapshotInverse Y u l i * snapshotInverse Y u l j * (u l a * u l b)) / n -
          (∑ l, snapshotInverse Y u l i * snapshotInverse Y u l j) / n *
            snapshotCovariance u a b) =
        ∑ l, -(snapshotInverse Y u l i * snapshotInverse Y u l j *
          (Ψ a b k / 2 * (snapshotCovariance u a b - u l a * u l b))) / n := by
      intro a b
      rw [Finset.sum_div, Finset.sum_div, Finset.sum_mul, ← Finset.sum_sub_distrib,
        Finset.mul_sum]
      exact Finset.sum_congr rfl fun l _ => by ring
    simp only [hab, ensembleFc3Flat, hg]
    rw [← Finset.sum_neg_distrib, Finset.sum_div]
    rw [Finset.sum_congr rfl fun a _ => Finset.sum_comm, Finset.sum_comm]
    refine Finset.sum_congr rfl fun l _ => ?_
    rw [Finset.mul_sum, ← Finset.sum_neg_distrib, Finset.sum_div]
    refine Finset.sum_congr rfl fun a _ => ?_
    rw [Finset.mul_sum, ← Finset.sum_neg_distrib, Finset.sum_div]
  rw [hsum]
  have : ∀ a b, Ψ a b k / 2 *
        ((∑ l, snapshotInverse Y u l i * snapshotInverse Y u l j * (u l a * u l b)) / n -
          (∑ l, snapshotInverse Y u l i * snapshotInverse Y u l j) / n *
            snapshotCovariance u a b) =
      Ψ a b k / 2 * ((if i = a then 1 else 0) * (if j = b then 1 else 0)) +
        Ψ a b k / 2 * ((if i = b then 1 else 0) * (if j = a then 1 else 0)) := by
    intro a b
    rw [snapshotInverse_fourth h hreg hu, snapshotInverse_average h]
    ring
  simp only [this, Finset.sum_add_distrib]
  have e1 : ∑ a, ∑ b, Ψ a b k / 2 * ((if i = a then 1 else 0) * (if j = b then 1 else 0)) =
      Ψ i j k / 2 := by
    rw [Finset.sum_eq_single i (fun a _ ha => by simp [Ne.symm ha]) (by simp),
      Finset.sum_eq_single j (fun b _ hb => by simp [Ne.symm hb]) (by simp)]
    simp
  have e2 : ∑ a, ∑ b, Ψ a b k / 2 * ((if i = b then 1 else 0) * (if j = a then 1 else 0)) =
      Ψ j i k / 2 := by
    rw [Finset.sum_eq_single j (fun a _ ha => by simp [Ne.symm ha]) (by simp),
      Finset.sum_eq_single i (fun b _ hb => by simp [Ne.symm hb]) (by simp)]
    simp
  rw [e1, e2, hΨ j i k]
  ring

/-- **C141**. The result is symmetric in its first two indices, and its sum over the atoms of the
third index vanishes if the forces and the second-order force constants have no drift. -/
theorem C141_symmetry (Y Φ : Matrix ι ι ℝ) (u f : Fin n → ι → ℝ) (i j k : ι) :
    ensembleFc3Flat Y u (ensembleForces Φ u f) i j k =
      ensembleFc3Flat Y u (ensembleForces Φ u f) j i k := by
  simp only [ensembleFc3Flat]
  congr 2
  exact Finset.sum_congr rfl fun l _ => by ring

/-- **C141**. The sum over the atoms of the third index vanishes for every sample if no force has a
drift and the force constants obey the sum rule. -/
theorem C141_third_index_sum {N : Nat} (Y Φ : Matrix (AtomDir N) (AtomDir N) ℝ)
    (u f : Fin n → AtomDir N → ℝ) (c : Fin 3) (hf : ∀ l, ∑ k, f l (k, c) = 0)
    (hΦ : ∀ p, ∑ k, Φ p (k, c) = 0) (i j : Fin N) (a b : Fin 3) :
    ∑ k, ensembleFc3 Φ Y u f i j k a b c = 0 := by
  have hg : ∀ l, ∑ k, ensembleForces Φ u f l (k, c) = 0 := by
    intro l
    simp only [ensembleForces, Finset.sum_add_distrib, Finset.sum_sub_distrib, hf l]
    rw [← Finset.sum_div, Finset.sum_comm, Finset.sum_comm (γ := Fin N)]
    simp [hf, ← Finset.mul_sum, hΦ]
  simp only [ensembleFc3, ensembleFc3Flat]
  rw [← Finset.sum_div, Finset.sum_neg_distrib, Finset.sum_comm]
  simp [← Finset.mul_sum, hg]

/-- **C141**. The sum over the atoms of the first index vanishes for every sample whose snapshots do
not move the supercell as a whole. -/
theorem C141_first_index_sum {N : Nat} (hn : 0 < n) {Y : Matrix (AtomDir N) (AtomDir N) ℝ}
    {u : Fin n → AtomDir N → ℝ} (h : PseudoInverse (snapshotCovariance u) Y)
    (Φ : Matrix (AtomDir N) (AtomDir N) ℝ) (f : Fin n → AtomDir N → ℝ) (a : Fin 3)
    (hu : ∀ l, ∑ i, u l (i, a) = 0) (j k : Fin N) (b c : Fin 3) :
    ∑ i, ensembleFc3 Φ Y u f i j k a b c = 0 := by
  have hY := h.symm_of_symm (snapshotCovariance_symm u)
  -- a translation is orthogonal to the range of the covariance
  have hC : ∀ q, ∑ i, snapshotCovariance u (i, a) q = 0 := by
    intro q
    simp only [snapshotCovariance]
    rw [← Finset.sum_div, Finset.sum_comm]
    simp [← Finset.sum_mul, hu]
  have hYC : Y = snapshotCovariance u * Y * Y := by
    have e1 : Y.transpose * snapshotCovariance u = snapshotCovariance u * Y := by
      have := h.left; rwa [Matrix.transpose_mul, snapshotCovariance_symm] at this
    rw [hY] at e1
    rw [← e1, h.second]
  have hY0 : ∀ p, ∑ i, Y p (i, a) = 0 := by
    intro p
    have hs : ∀ i, Y p (i, a) = Y (i, a) p := fun i => by
      conv_lhs => rw [← hY]
      rfl
    rw [Finset.sum_congr rfl fun i _ => hs i]
    rw [hYC]
    simp only [Matrix.mul_assoc, Matrix.mul_apply (M := snapshotCovariance u)]
    rw [Finset.sum_comm]
    simp [← Finset.sum_mul, hC]
  have hv : ∀ l, ∑ i, snapshotInverse Y u l (i, a) = 0 := by
    intro l
    simp only [snapshotInverse]
    rw [Finset.sum_comm]
    simp [← Finset.mul_sum, hY0]
  simp only [ensembleFc3, ensembleFc3Flat]
  rw [← Finset.sum_div, Finset.sum_neg_distrib, Finset.sum_comm]
  simp [← Finset.sum_mul, hv]

end

/-! ### C141: concrete samples -/

/-- Six snapshots of one coordinate with the moments of a normal distribution of variance one third. -/
def sixSnapshots : Fin 6 → Unit → ℝ := fun l _ => if l = 0 then 1 else if l = 1 then -1 else 0

/-- The matrix with one entry. -/
def oneEntry (r : ℝ) : Matrix Unit Unit ℝ := fun _ _ => r

theorem oneEntry_mul (r t : ℝ) : oneEntry r * oneEntry t = oneEntry (r * t) := by
  ext a b
  rw [Matrix.mul_apply]
  simp [oneEntry]

theorem oneEntry_one : oneEntry 1 = 1 := by
  ext a b
  simp [oneEntry, Matrix.one_apply]

theorem sixSnapshots_cov : snapshotCovariance sixSnapshots = oneEntry (1 / 3) := by
  funext a b
  simp [snapshotCovariance, sixSnapshots, Fin.sum_univ_succ, oneEntry]
  norm_num

/-- Non-vacuity of C141_cubic_fc3: anharmonic forces of one coordinate. -/
example : ensembleFc3Flat (oneEntry 3) sixSnapshots
    (ensembleForces (oneEntry 5) sixSnapshots
      (fun l _ => -5 * sixSnapshots l () - 7 / 2 * (sixSnapshots l () * sixSnapshots l ()))) () () ()
    = 7 := by
  have hC := sixSnapshots_cov
  have h1 : oneEntry (1 / 3) * oneEntry 3 = 1 := by
    rw [oneEntry_mul, ← oneEntry_one]; norm_num
  have h2 : oneEntry 3 * oneEntry (1 / 3) = 1 := by
    rw [oneEntry_mul, ← oneEntry_one]; norm_num
  refine C141_cubic_fc3 (Ψ := fun _ _ _ => 7) (by decide) ⟨?_, ?_, ?_, ?_⟩ ?_ ⟨?_, ?_⟩
    (fun _ _ _ => rfl) ?_ () () ()
  · rw [hC, h1, Matrix.one_mul]
  · rw [hC, h2, Matrix.one_mul]
  · rw [hC, h1, Matrix.transpose_one]
  · rw [hC, h2, Matrix.transpose_one]
  · rw [hC, h1]
  · intro a; simp [sixSnapshots, Fin.sum_univ_succ]
  · intro a b c d
    rw [hC]
    simp [sixSnapshots, Fin.sum_univ_succ, oneEntry]
    norm_num
  · intro l k
    simp [oneEntry]
    ring

/-- Non-vacuity of C141_harmonic_fc2. -/
example : ensembleFc2Flat firstDirection oneSnapshot
    (fun l y => -∑ p, oneSnapshot l p * firstDirection p y) = firstDirection :=
  C141_harmonic_fc2 (by decide) oneSnapshot_pinv (fun _ _ => rfl)
    ⟨fun _ y => if y = 0 then 1 else 0, fun p y => by
      fin_cases p <;> fin_cases y <;> simp [firstDirection, oneSnapshot]⟩

/-! ## C142 -/

section
variable {E ι : Type}

/-- **C142**, the part that holds: numpy's handling of floating-point errors is left as it was
whenever the mean square displacements are returned. -/
theorem C142_restored_partial (c : BoseUnits) (raiseAll st : E) (x : ι → ℝ) (T : ℝ)
    {st' : E} {v : ι → ℝ} (h : sigmaSquared c raiseAll st x T = (st', some v)) : st' = st := by
  unfold sigmaSquared at h
  split at h
  · exact (congrArg Prod.fst h).symm
  · exact absurd (congrArg Prod.snd h) (by simp)

/-- **C142**, the violation: whenever the call fails, every later floating-point error of the process
raises, whatever the handling was before. -/
theorem C142_failure (c : BoseUnits) (raiseAll st : E) (x : ι → ℝ) (T : ℝ)
    {st' : E} (h : sigmaSquared c raiseAll st x T = (st', none)) : st' = raiseAll := by
  unfold sigmaSquared at h
  split at h
  · exact absurd (congrArg Prod.snd h) (by simp)
  · exact (congrArg Prod.fst h).symm

/-- **C142**. At zero temperature the call always fails. -/
theorem C142_zero_temperature [Nonempty ι] (c : BoseUnits) (raiseAll st : E) (x : ι → ℝ) :
    sigmaSquared c raiseAll st x 0 = (raiseAll, none) := by
  unfold sigmaSquared
  rw [if_neg]
  intro h
  have := h (Classical.arbitrary ι)
  simp [boseEinsteinRaise] at this

/-- **C142**. It also fails at every temperature so low that the occupation underflows. -/
theorem C142_low_temperature (c : BoseUnits) (raiseAll st : E) (x : ι → ℝ) (T : ℝ) (i : ι)
    (hi : ¬ c.expOk (c.thzToEv * x i / (c.kb * T))) :
    sigmaSquared c raiseAll st x T = (raiseAll, none) := by
  unfold sigmaSquared
  rw [if_neg]
  intro h
  have := h i
  simp [boseEinsteinRaise, hi] at this

/-- **C142**. It succeeds, and returns the variance of each mode, if the temperature and all
frequencies are positive and no exponential overflows. -/
theorem C142_succeeds {c : BoseUnits} (hc : BoseUnits.Positive c) (raiseAll st : E) (x : ι → ℝ)
    {T : ℝ} (hT : 0 < T) (hx : ∀ i, 0 < x i)
    (hok : ∀ i, c.expOk (c.thzToEv * x i / (c.kb * T))) :
    sigmaSquared c raiseAll st x T =
      (st, some fun i => oscillatorVariance c T (x i)) := by
  obtain ⟨h1, h2, h3⟩ := hc
  have hk : 0 < c.kb * T := mul_pos h2 hT
  have hall : ∀ i, (boseEinsteinRaise c (x i) T).isSome := by
    intro i
    have he : 1 < Real.exp (c.thzToEv * x i / (c.kb * T)) :=
      Real.one_lt_exp_iff.2 (div_pos (mul_pos h1 (hx i)) hk)
    simp only [boseEinsteinRaise]
    rw [if_neg hk.ne', if_neg (not_not.2 (hok i)), if_neg (by linarith)]
    rfl
  have h : sigmaSquared c raiseAll st x T = (st, some fun i =>
      (0.5 + (boseEinsteinRaise c (x i) T).getD 0) / x i * c.factor) := by
    unfold sigmaSquared
    rw [if_pos hall]
  rw [h]
  obtain ⟨-, hv⟩ := sigmaSquared_some h
  congr 2
  funext i
  exact (hv i).1

/-- **C142**. `DispCorrMatrix.run(0)` raises and leaves numpy raising. -/
theorem C142_run_zero {N : Nat} (hN : 0 < N) (c : BoseUnits) (raiseAll st : E)
    (masses : Fin N → ℝ) (cutoff : ℝ) (freqs : AtomDir N → ℝ)
    (eigvecs : Matrix (AtomDir N) (AtomDir N) ℝ) :
    dispCorrRun c raiseAll st masses cutoff freqs eigvecs 0 = (raiseAll, none) := by
  have : Nonempty (AtomDir N) := ⟨(⟨0, hN⟩, 0)⟩
  unfold dispCorrRun
  simp only [C142_zero_temperature, Option.map_none]

end

/-! ### C140 and C142: a concrete crystal -/

/-- Units in which exponentials up to 700 do not overflow. -/
noncomputable def sampleUnits : BoseUnits where
  thzToEv := 1
  kb := 1
  factor := 1
  expOk := fun y => |y| < 700

theorem sampleUnits_positive : BoseUnits.Positive sampleUnits := by
  simp [BoseUnits.Positive, sampleUnits]

/-- Two atoms of different mass joined by springs. -/
noncomputable def springFc2 : Fin 2 → Fin 2 → Fin 3 → Fin 3 → ℝ :=
  fun i j a b => if a = b then (if i = j then 2 else -2) else 0

/-- Eigenvectors of two equal atoms: the last three modes are the optical ones. -/
noncomputable def springModes : Matrix (AtomDir 2) (AtomDir 2) ℝ :=
  fun x s => if x.2 = s.2 then (if s.1 = 1 ∧ x.1 = 1 then -1 else 1) / Real.sqrt 2 else 0

/-- Non-vacuity of the hypotheses of C140: the springs have these eigenvectors, with three translations
and three optical modes, and `DispCorrMatrix.run` returns. -/
theorem spring_eigh : EighResult (supercellDynmat (fun _ : Fin 2 => 1) (flatFc2 springFc2))
    (fun s => if s.1 = 1 then 4 else 0) springModes := by
  have h2 : Real.sqrt 2 * Real.sqrt 2 = 2 := Real.mul_self_sqrt (by norm_num)
  have h2' : Real.sqrt 2 ≠ 0 := by positivity
  constructor
  · rintro ⟨i, a⟩ ⟨j, b⟩
    rw [Fintype.sum_prod_type]
    simp only [Fin.sum_univ_two, Fin.sum_univ_three, supercellDynmat, flatFc2, springFc2, springModes]
    fin_cases i <;> fin_cases a <;> fin_cases j <;> fin_cases b <;> simp <;> try field_simp <;>
      try norm_num
  · rintro ⟨i, a⟩ ⟨j, b⟩
    rw [Fintype.sum_prod_type]
    simp only [Fin.sum_univ_two, Fin.sum_univ_three, springModes]
    fin_cases i <;> fin_cases a <;> fin_cases j <;> fin_cases b <;> simp <;> try field_simp <;>
      try norm_num

theorem spring_run : ∃ d, dispCorrRun sampleUnits true false (fun _ : Fin 2 => 1) (1 / 100)
    (fun s => if s.1 = 1 then 2 else 0) springModes 300 = (false, some d) := by
  unfold dispCorrRun
  dsimp only
  rw [C142_succeeds sampleUnits_positive true false _ (T := 300) (by norm_num)]
  · exact ⟨_, rfl⟩
  · rintro ⟨i, a⟩
    fin_cases i <;> norm_num
  · rintro ⟨i, a⟩
    fin_cases i <;> norm_num [sampleUnits, abs_lt]

/-- The springs meet the hypotheses of C140_translations and C140_density. -/
example : ∃ d : DispCorr (AtomDir 2), (∀ (t : Fin 3 → ℝ) x, ∑ y, d.upsilon x y * t y.2 = 0) ∧
    d.psi * d.upsilon * d.psi = d.psi ∧ d.psi ≠ 0 := by
  obtain ⟨d, h⟩ := spring_run
  refine ⟨d, fun t x => ?_, ?_, ?_⟩
  · refine (C140_translations (factor := 1) one_pos (by norm_num) (fun _ => one_pos) spring_eigh ?_ ?_
      h t x).1
    · rintro ⟨i, a⟩
      fin_cases i
      · simp [supercellFrequency]
      · have : Real.sqrt 4 = 2 := by
          rw [show (4 : ℝ) = 2 * 2 by norm_num]; exact Real.sqrt_mul_self (by norm_num)
        simp [supercellFrequency, this, Real.sign_of_pos]
    · intro i a b
      fin_cases i <;> by_cases hab : a = b <;> simp [springFc2, hab]
  · exact (C140_inverse sampleUnits_positive (by norm_num) spring_eigh (fun _ => one_pos) h).1
  · intro h0
    have hm := (C140_modes spring_eigh (fun _ => one_pos) h (1, 0)).2 (0, 0)
    rw [h0] at hm
    simp only [Matrix.zero_apply, zero_mul, Finset.sum_const_zero] at hm
    have hp := oscillatorVariance_pos sampleUnits_positive (T := 300) (ν := 2) (by norm_num)
      (by norm_num)
    have : modeVariance sampleUnits 300 (1 / 100) (fun s : AtomDir 2 => if s.1 = 1 then 2 else 0)
        (1, 0) = oscillatorVariance sampleUnits 300 2 := by
      unfold modeVariance
      rw [if_pos (by norm_num)]
      simp
    rw [this] at hm
    have h2 : springModes (0, 0) (1, 0) = 1 / Real.sqrt 2 := by simp [springModes]
    rw [h2] at hm
    have : 0 < oscillatorVariance sampleUnits 300 2 * (1 / Real.sqrt 2 / Real.sqrt 1) := by positivity
    linarith

end Phono3py.Props
