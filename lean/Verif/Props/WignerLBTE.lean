/-
C152: the direct solution of the Wigner transport equation against its relaxation time
approximation.
-/
import Verif.Model.WignerLBTE
import Verif.Props.LBTEModes
import Verif.Props.VelocityProducts

namespace Phono3py.Props
open Finset Phono3py.Spec Matrix

section
variable {K : Type} [Field K] [LinearOrder K] [IsStrictOrderedRing K] {n : Nat}

/-! ### Coherences -/

/-- **C152 (units).** The conversion factors of the two classes differ by the energy of 1 THz, as
the linewidths in eV and in THz do. -/
theorem C152_units (thz angstrom ev planck pi volume : K) (ht : thz ≠ 0) (ha : angstrom ≠ 0)
    (hp : pi ≠ 0) (hv : volume ≠ 0) :
    conversionWTE thz angstrom ev (planck / (2 * pi)) volume =
      unitToWmK thz angstrom ev pi volume * (planck * thz) := by
  unfold conversionWTE unitToWmK
  field_simp

/-- Pairs of bands above the cutoff whose frequencies differ by exactly the tolerance. -/
def PairAtTolerance (k : WignerInput K) (i l m : Nat) : Prop :=
  PairAbove k i l m ∧ |k.frequencies i l - k.frequencies i m| = k.degenerate

instance (k : WignerInput K) (i l m : Nat) : Decidable (PairAtTolerance k i l m) := by
  unfold PairAtTolerance; infer_instance

theorem lbteModeC_re (k : WignerInput K) (i l m : Nat) (hi : i < k.numGp) (hl : l < k.numBand)
    (hm : m < k.numBand) (c : Fin 6) :
    (lbteModeC k (fun _ _ _ _ => 0) i l m c).re +
      (if PairAtTolerance k i l m then wignerContribution k i l m c else 0) =
      coherencesTerm k i l m c := by
  unfold lbteModeC coherencesTerm
  rw [if_pos ⟨hi, hl, hm⟩]
  by_cases h1 : PairAbove k i l m
  · rcases lt_trichotomy (|k.frequencies i l - k.frequencies i m|) k.degenerate with h | h | h
    · have ht : ¬ PairAtTolerance k i l m := fun e => h.ne e.2
      have hd : ¬ (PairAbove k i l m ∧ ¬ PairDegenerate k i l m) := fun e => e.2 h
      rw [if_neg fun e => absurd e.2 (not_lt.2 h.le), if_neg ht, if_neg hd]
      simp
    · have ht : PairAtTolerance k i l m := ⟨h1, h⟩
      have hd : PairAbove k i l m ∧ ¬ PairDegenerate k i l m := ⟨h1, not_lt.2 h.ge⟩
      rw [if_neg fun e => absurd e.2 (not_lt.2 h.le), if_pos ht, if_pos hd]
      simp
    · have ht : ¬ PairAtTolerance k i l m := fun e => h.ne' e.2
      have hd : PairAbove k i l m ∧ ¬ PairDegenerate k i l m := ⟨h1, not_lt.2 h.le⟩
      rw [if_pos ⟨h1, h⟩, if_neg ht, if_pos hd, add_zero]
      unfold wignerContribution
      simp only [Cplx.scale, mul_comm (2 : K)]
  · have ht : ¬ PairAtTolerance k i l m := fun e => h1 e.1
    have hd : ¬ (PairAbove k i l m ∧ ¬ PairDegenerate k i l m) := fun e => h1 e.1
    rw [if_neg fun e => h1 e.1, if_neg ht, if_neg hd]
    simp

theorem lbteKappaC_sum (k : WignerInput K) (m : Nat → Nat → Nat → Fin 6 → Cplx K) (c : Fin 6) :
    lbteKappaC k m c = (∑ i ∈ range k.numGp, ∑ l ∈ range k.numBand,
      ∑ j ∈ range k.numBand, (m i l j c).re) / k.n := by
  unfold lbteKappaC
  simp only [sumLoop_eq]
  congr 1
  rw [Finset.sum_comm]
  calc _ = ∑ l ∈ range k.numBand, ∑ i ∈ range k.numGp, ∑ j ∈ range k.numBand,
        (m i l j c).re := Finset.sum_congr rfl fun l _ => Finset.sum_comm
    _ = _ := Finset.sum_comm

/-- **C152 (coherences).** The coherences' part of the direct solution, together with the pairs
whose frequencies differ by exactly the tolerance, is that of the relaxation time approximation. -/
theorem C152_coherences_difference (k : WignerInput K) (c : Fin 6) :
    lbteKappaC k (lbteModeC k fun _ _ _ _ => 0) c +
      (∑ i ∈ range k.numGp, ∑ l ∈ range k.numBand, ∑ m ∈ range k.numBand,
        if PairAtTolerance k i l m then wignerContribution k i l m c else 0) / k.n =
      wignerKappaC k (wignerKappa k wignerZero) c := by
  rw [lbteKappaC_sum, kappaC_sum, ← add_div]
  congr 1
  simp only [← Finset.sum_add_distrib]
  exact Finset.sum_congr rfl fun i hi => Finset.sum_congr rfl fun l hl =>
    Finset.sum_congr rfl fun m hm => lbteModeC_re k i l m (mem_range.1 hi) (mem_range.1 hl)
      (mem_range.1 hm) c

/-- **C152 (coherences).** When no two frequencies above the cutoff differ by exactly the tolerance,
the direct solution reports the same coherences' conductivity as the relaxation time
approximation. -/
theorem C152_coherences (k : WignerInput K)
    (h : ∀ i < k.numGp, ∀ l < k.numBand, ∀ m < k.numBand, ¬ PairAtTolerance k i l m) (c : Fin 6) :
    lbteKappaC k (lbteModeC k fun _ _ _ _ => 0) c =
      wignerKappaC k (wignerKappa k wignerZero) c := by
  rw [← C152_coherences_difference, Finset.sum_eq_zero, zero_div, add_zero]
  intro i hi
  refine Finset.sum_eq_zero fun l hl => Finset.sum_eq_zero fun m hm => ?_
  rw [if_neg (h i (mem_range.1 hi) l (mem_range.1 hl) m (mem_range.1 hm))]

/-- **C152 (again).** Calculating the coherences' part again does not change it. -/
theorem C152_coherences_again (k : WignerInput K) (old : Nat → Nat → Nat → Fin 6 → Cplx K) :
    lbteModeC k (lbteModeC k old) = lbteModeC k old := by
  funext i l m c
  unfold lbteModeC
  split
  · split
    · rfl
    · rfl
  · rfl

/-! ### Group velocities of degenerate bands -/

/-- First band and number of bands of each set. -/
def setRanges : Nat → List Nat → List (Nat × Nat)
  | _, [] => []
  | pos, d :: ds => (pos, d) :: setRanges (pos + d) ds

/-- The real numbers `lam` are the eigenvalues of `D` in ascending order. -/
structure EigenvaluesOf {m : Nat} (D : BandMatrix m K) (lam : Fin m → K) : Prop where
  sorted : Monotone lam
  vectors : ∃ E, Diagonalises D E lam

theorem setRanges_ge : ∀ (ds : List Nat) (p : Nat) (b : Nat × Nat), b ∈ setRanges p ds → p ≤ b.1
  | [], _, _, h => by cases h
  | d :: ds, p, b, h => by
    rcases List.mem_cons.1 h with rfl | h
    · exact le_rfl
    · exact le_trans (Nat.le_add_right p d) (setRanges_ge ds (p + d) b h)

theorem wignerVelocity_single (eigvalsh : (m : Nat) → BandMatrix m K → Fin m → K)
    (v : BandMatrix n K) (l : Nat) (hl : l < n) : ∀ (ds : List Nat) (p : Nat),
    (∀ b ∈ setRanges p ds, b.1 ≤ l → l < b.1 + b.2 → b.2 ≤ 1) →
    wignerVelocity eigvalsh v l p ds = (v ⟨l, hl⟩ ⟨l, hl⟩).re
  | [], p, _ => by
    unfold wignerVelocity
    rw [dif_pos hl]
  | d :: ds, p, h => by
    unfold wignerVelocity
    rw [dif_neg fun e => absurd (h (p, d) List.mem_cons_self e.2.1 e.2.2) (not_le.2 e.1)]
    exact wignerVelocity_single eigvalsh v l hl ds (p + d) fun b hb =>
      h b (List.mem_cons_of_mem _ hb)

theorem wignerVelocity_block (eigvalsh : (m : Nat) → BandMatrix m K → Fin m → K)
    (v : BandMatrix n K) : ∀ (ds : List Nat) (p : Nat) (b : Nat × Nat), b ∈ setRanges p ds →
    1 < b.2 → ∀ s : Fin b.2,
    wignerVelocity eigvalsh v (b.1 + s.val) p ds = eigvalsh b.2 (operatorBlock v b.1 b.2) s
  | [], _, _, h, _, _ => by cases h
  | d :: ds, p, b, h, hb, s => by
    have hs := s.2
    rcases List.mem_cons.1 h with rfl | h
    · unfold wignerVelocity
      dsimp only at hb hs ⊢
      rw [dif_pos ⟨hb, Nat.le_add_right _ _, by omega⟩]
      congr 1
      ext1
      simp
    · have h1 := setRanges_ge ds (p + d) b h
      unfold wignerVelocity
      rw [dif_neg fun e => absurd e.2.2 (by omega)]
      exact wignerVelocity_block eigvalsh v ds (p + d) b h hb s

theorem trace_eigen {m : Nat} {D E : BandMatrix m K} {lam : Fin m → K} (h : Diagonalises D E lam) :
    D.trace = ∑ s, (⟨lam s, 0⟩ : Cplx K) := by
  conv_lhs => rw [h.rebuild]
  rw [Matrix.trace_mul_comm, Matrix.mul_assoc, h.orthonormal, Matrix.mul_one, Matrix.trace_diagonal]

theorem trace_square {m : Nat} {D E : BandMatrix m K} {lam : Fin m → K} (h : Diagonalises D E lam) :
    (D * D).trace = ∑ s, (⟨lam s, 0⟩ : Cplx K) * ⟨lam s, 0⟩ := by
  have e : D * D = E * ((Matrix.diagonal fun s => (⟨lam s, 0⟩ : Cplx K) * ⟨lam s, 0⟩) * Eᴴ) := by
    conv_lhs => rw [h.rebuild]
    rw [← Matrix.diagonal_mul_diagonal]
    simp only [Matrix.mul_assoc]
    rw [← Matrix.mul_assoc Eᴴ E, h.orthonormal, Matrix.one_mul]
  rw [e, Matrix.trace_mul_comm, Matrix.mul_assoc, h.orthonormal, Matrix.mul_one,
    Matrix.trace_diagonal]

theorem csum_re {ι : Type} (s : Finset ι) (f : ι → Cplx K) :
    (∑ i ∈ s, f i).re = ∑ i ∈ s, (f i).re := by
  classical
  induction s using Finset.induction_on with
  | empty => simp
  | insert a s ha ih => rw [Finset.sum_insert ha, Finset.sum_insert ha, Cplx.add_re, ih]

/-- Squared modulus. -/
def modSq (z : Cplx K) : K := z.re * z.re + z.im * z.im

theorem eigenvalues_sum {m : Nat} {D : BandMatrix m K} {lam : Fin m → K}
    (h : EigenvaluesOf D lam) : ∑ s, lam s = ∑ s, (D s s).re := by
  obtain ⟨E, hE⟩ := h.vectors
  have := congrArg Cplx.re (trace_eigen hE)
  rw [Matrix.trace, csum_re, csum_re] at this
  exact this.symm

theorem eigenvalues_squares {m : Nat} {D : BandMatrix m K} (hD : Dᴴ = D) {lam : Fin m → K}
    (h : EigenvaluesOf D lam) : ∑ s, lam s * lam s = ∑ s, ∑ t, modSq (D s t) := by
  obtain ⟨E, hE⟩ := h.vectors
  have e := congrArg Cplx.re (trace_square hE)
  rw [Matrix.trace, csum_re, csum_re] at e
  simp only [Matrix.diag_apply, Matrix.mul_apply, csum_re, Cplx.mul_re, mul_zero, sub_zero] at e
  rw [← e]
  refine Finset.sum_congr rfl fun s _ => Finset.sum_congr rfl fun t _ => ?_
  have h1 : D t s = Star.star (D s t) := by
    rw [← Matrix.conjTranspose_apply, hD]
  rw [h1, star_re, star_im]
  unfold modSq
  ring

/-- **C152 (squares).** For the bands of a degenerate set the squares of the velocities along an
axis, which the direct solution takes from the eigenvalues of the block of the velocity operator,
add up to the squared moduli of all elements of the block, which the relaxation time approximation
takes. -/
theorem C152_squares (eigvalsh : (m : Nat) → BandMatrix m K → Fin m → K) (v : BandMatrix n K)
    (hv : vᴴ = v) (ds : List Nat) (b : Nat × Nat) (hb : b ∈ setRanges 0 ds) (h1 : 1 < b.2)
    (hE : EigenvaluesOf (operatorBlock v b.1 b.2) (eigvalsh b.2 (operatorBlock v b.1 b.2))) :
    ∑ s : Fin b.2, wignerVelocity eigvalsh v (b.1 + s.val) 0 ds ^ 2 =
      ∑ s : Fin b.2, ∑ t : Fin b.2, modSq (operatorBlock v b.1 b.2 s t) := by
  have hD : (operatorBlock v b.1 b.2)ᴴ = operatorBlock v b.1 b.2 := by
    ext1 s t
    rw [Matrix.conjTranspose_apply]
    unfold operatorBlock
    by_cases h : b.1 + s.val < n ∧ b.1 + t.val < n
    · rw [dif_pos h, dif_pos h.symm, ← Matrix.conjTranspose_apply, hv]
    · rw [dif_neg h, dif_neg fun e => h e.symm, star_zero]
  rw [← eigenvalues_squares hD hE]
  refine Finset.sum_congr rfl fun s _ => ?_
  rw [wignerVelocity_block eigvalsh v ds 0 b hb h1 s, sq]

/-! ### Populations -/

/-- The crystal as seen by the relaxation time approximation of phonons with the velocities of the
direct solution. -/
def crystalEnv (x : WignerCrystal n K) : CondEnv K where
  numGp := x.numGp
  numOps := x.numOps
  numBand := n
  numSigma := 1
  numTemp := 1
  rotations := x.rotations
  multi := x.multi
  velocity := x.modes.gv
  heatCapacity := fun _ => x.cv
  linewidth := fun _ _ => x.g
  isotopeLinewidth := fun _ _ _ => 0
  isIsotope := false
  readGamma := false
  readGammaIso := false

/-- Its input for the conductivity. -/
def crystalRTA (x : WignerCrystal n K) : KappaInput K where
  numGp := x.numGp
  numBand := n
  frequencies := x.frequencies
  cutoff := x.cutoff
  gSum := x.g
  cv := x.cv
  gvSum2 := fun i l c => gvByGv (crystalEnv x) i (x.modes.gv i l) (voigt c).1 (voigt c).2
  factor := x.factor
  n := x.numSampling

/-- What holds for the crystals and settings of a run. -/
structure CrystalValid (x : WignerCrystal n K) : Prop where
  hermitian : ∀ i a, (x.op i a)ᴴ = x.op i a
  kb : 0 < x.kb
  t : 0 < x.t
  toEv : 0 < x.toEv
  cutoff : 0 ≤ x.cutoff
  degenerate : 0 < x.degenerate
  factor : x.factorWTE = x.factor * x.toEv
  sinh : ∀ f, x.cutoff < f → 0 < x.sinh (f * x.toEv / (2 * x.kb * x.t))
  cv : ∀ i l, x.cv i l = sinhHeatCapacity x.modes (x.frequencies i l)
  weights : ∀ i < x.numGp, x.weights i * x.weights i = 1 / (x.multi i : K)
  acoustic : ∀ i < x.numGp, ∀ l < n, x.gammaAddress i = true → l < 3 → x.frequencies i l ≤ x.cutoff

/-- `kappa_P_RTA` of the direct solution on new arrays. -/
def directPopulations (x : WignerCrystal n K) : Fin 6 → K :=
  (lbteKappa false x.modes (lbteX x.modes) (lbteRTAIr x.modes x.g) fun _ _ _ => 0).2

theorem directPopulations_eq (x : WignerCrystal n K) (hx : CrystalValid x) (c : Fin 6) :
    directPopulations x c = kappaRTA (crystalRTA x) c :=
  C108_rta (crystalEnv x) (crystalRTA x) x.modes _
    ⟨fun i hi l hl => hx.acoustic i hi l hl, fun _ _ _ _ _ _ _ => rfl⟩
    (fun _ _ _ _ _ => rfl) hx.kb hx.t hx.sinh rfl rfl rfl rfl hx.cv rfl rfl rfl rfl hx.weights c

/-- The band is alone: no other band is closer than the tolerance, and its degenerate set is the
band itself. -/
structure Alone (x : WignerCrystal n K) (i l : Nat) : Prop where
  apart : ∀ m < n, m ≠ l → ¬ PairDegenerate x.pairs i l m
  set : ∀ b ∈ setRanges 0 (x.degSizes i), b.1 ≤ l → l < b.1 + b.2 → b.2 ≤ 1

theorem rotateC_real (r : Fin 3 → Fin 3 → K) (v : Fin 3 → Cplx K) (hv : ∀ k, (v k).im = 0)
    (a : Fin 3) : rotateC r v a = ⟨rotateVector r (fun k => (v k).re) a, 0⟩ := by
  unfold rotateC rotateVector
  rw [Fin.sum_univ_three]
  ext <;> simp [hv]

theorem sum2_diagonal (x : WignerCrystal n K) (hx : CrystalValid x) (i l : Nat) (hl : l < n)
    (hs : ∀ b ∈ setRanges 0 (x.degSizes i), b.1 ≤ l → l < b.1 + b.2 → b.2 ≤ 1) (c : Fin 6) :
    (x.sum2 i l l c).re = (crystalRTA x).gvSum2 i l c := by
  have him : ∀ a, (x.op i a ⟨l, hl⟩ ⟨l, hl⟩).im = 0 := by
    intro a
    have h := congrFun (congrFun (hx.hermitian i a) ⟨l, hl⟩) ⟨l, hl⟩
    rw [Matrix.conjTranspose_apply] at h
    have h' := congrArg Cplx.im h
    rw [star_im] at h'
    linarith
  have hv : x.modes.gv i l = fun a => (x.op i a ⟨l, hl⟩ ⟨l, hl⟩).re := by
    funext a
    exact wignerVelocity_single x.eigvalsh (x.op i a) l hl (x.degSizes i) 0 hs
  unfold WignerCrystal.sum2 crystalRTA gvByGv
  rw [dif_pos ⟨hl, hl⟩, C105_products]
  simp only [rotateC_real _ _ him, star_real]
  rw [hv, List.map_map, sumLoop_eq]
  show _ * (1 / _) = _
  rw [mul_one_div]
  congr 1
  show _ = ∑ j ∈ range x.numOps, _
  induction x.numOps with
  | zero => rfl
  | succ k ih =>
    rw [List.range_succ, List.map_append, List.sum_append, Finset.sum_range_succ, Cplx.add_re, ih]
    congr 1
    simp
    rfl

/-- **C152 (populations).** When the bands above the cutoff are not degenerate, the direct solution
reports the same populations' conductivity of the relaxation time approximation as the class for
that approximation. -/
theorem C152_populations_partial (x : WignerCrystal n K) (hx : CrystalValid x)
    (ha : ∀ i < x.numGp, ∀ l < n, x.cutoff < x.frequencies i l → Alone x i l)
    (hg : ∀ i < x.numGp, ∀ l < n, x.cutoff < x.frequencies i l → x.g i l ≠ 0) (c : Fin 6) :
    directPopulations x c = wignerKappaP x.pairs (wignerKappa x.pairs wignerZero) c := by
  rw [directPopulations_eq x hx]
  unfold kappaRTA kappaOf wignerKappaP
  simp only [sumLoop_eq]
  show (∑ l ∈ range n, ∑ i ∈ range x.numGp, _) / x.numSampling =
    (∑ l ∈ range n, ∑ i ∈ range x.numGp, _) / x.numSampling
  congr 1
  refine Finset.sum_congr rfl fun l hl => Finset.sum_congr rfl fun i hi => ?_
  have hl := mem_range.1 hl
  have hi := mem_range.1 hi
  by_cases hf : x.cutoff < x.frequencies i l
  · have hA := ha i hi l hl hf
    have hgn := hg i hi l hl hf
    rw [C83_rta x.pairs i l hi hl hx.degenerate hA.apart hf (lt_of_le_of_lt hx.cutoff hf) hx.toEv
      hgn c]
    unfold modeKappaRTA
    rw [if_pos ⟨hi, hl⟩,
      if_neg (show ¬ (crystalRTA x).frequencies i l < (crystalRTA x).cutoff from not_lt.2 hf.le),
      if_neg (show ¬ (crystalRTA x).gSum i l * 2 = 0 from mul_ne_zero hgn two_ne_zero),
      if_pos ⟨hi, hl⟩,
      if_neg (show ¬ (wignerAsRTA x.pairs).frequencies i l < (wignerAsRTA x.pairs).cutoff from
        not_lt.2 hf.le),
      if_neg (show ¬ (wignerAsRTA x.pairs).gSum i l * 2 = 0 from
        mul_ne_zero (mul_ne_zero hgn hx.toEv.ne') two_ne_zero)]
    rw [← sum2_diagonal x hx i l hl hA.set]
    show (x.sum2 i l l c).re * x.cv i l / (x.g i l * 2) * x.factor =
      (x.sum2 i l l c).re * x.cv i l / (x.g i l * x.toEv * 2) * x.factorWTE
    rw [hx.factor]
    have := hx.toEv.ne'
    field_simp
  · have hcv : x.cv i l = 0 := by
      rw [hx.cv]
      exact if_pos (not_lt.1 hf)
    have h0 : modeKappaRTA (crystalRTA x) (fun _ _ _ => 0) i l c = 0 := by
      unfold modeKappaRTA
      split
      · split
        · rfl
        · split
          · rfl
          · rw [show (crystalRTA x).cv i l = 0 from hcv]
            simp
      · rfl
    rw [h0, C83_populations x.pairs wignerZero i l hi hl]
    have h1 : ∀ m, populationsTerm x.pairs i l m c = 0 := fun m =>
      if_neg fun e => hf e.1.1
    have h2 : ∀ m, populationsTerm x.pairs i m l c = 0 := fun m =>
      if_neg fun e => hf e.1.2
    simp [h1, h2, wignerZero]

/-! ### Attributes and files -/

/-- A number of evaluations one after another, at any inputs. -/
def wignerHistory (s : LBTESettings K) : List (LBTEInput K × WignerInput K) → WignerLbteState K →
    Option (WignerLbteState K)
  | [], st => some st
  | x :: xs, st => (wignerLbteEvaluate s x.1 x.2 st).bind (wignerHistory s xs)

theorem evaluate_total (s : LBTESettings K) (p : LBTEInput K) (k : WignerInput K)
    (st st' : WignerLbteState K) (h : wignerLbteEvaluate s p k st = some st') :
    st'.kappaTotExact = st.kappaTotExact ∧ st'.kappaTotRTA = st.kappaTotRTA := by
  unfold wignerLbteEvaluate at h
  obtain ⟨l, _, rfl⟩ := Option.map_eq_some_iff.1 h
  unfold wignerLbteCoherences
  split
  · split <;> exact ⟨rfl, rfl⟩
  · exact ⟨rfl, rfl⟩

/-- **C152 (totals, finding).** The attributes `kappa_TOT_exact` and `kappa_TOT_RTA` of the direct
solution are zero after any evaluations, whatever the conductivities are. The totals in the files
are the sums of the parts. -/
theorem C152_totals (s : LBTESettings K) (colmat : Nat → Nat → K)
    (xs : List (LBTEInput K × WignerInput K)) (st : WignerLbteState K)
    (h : wignerHistory s xs (wignerLbteNew colmat) = some st) (c : Fin 6) :
    (st.kappaTotExact c = 0 ∧ st.kappaTotRTA c = 0) ∧
      (wignerLbteFile st).totExact c = (wignerLbteFile st).pExact c + (wignerLbteFile st).c c ∧
      (wignerLbteFile st).totRTA c = (wignerLbteFile st).pRTA c + (wignerLbteFile st).c c := by
  refine ⟨?_, rfl, rfl⟩
  have : ∀ (xs : List (LBTEInput K × WignerInput K)) (a b : WignerLbteState K),
      wignerHistory s xs a = some b →
      b.kappaTotExact = a.kappaTotExact ∧ b.kappaTotRTA = a.kappaTotRTA := by
    intro xs
    induction xs with
    | nil =>
      intro a b h
      cases h
      exact ⟨rfl, rfl⟩
    | cons x xs ih =>
      intro a b h
      obtain ⟨m, hm, hb⟩ := Option.bind_eq_some_iff.1 h
      have h1 := evaluate_total s x.1 x.2 a m hm
      have h2 := ih m b hb
      exact ⟨h2.1.trans h1.1, h2.2.trans h1.2⟩
  have h1 := this xs _ st h
  exact ⟨congrFun h1.1 c, congrFun h1.2 c⟩

/-- **C152 (parts).** One evaluation of a new object at a positive temperature gives the populations'
parts of the solution of the Boltzmann equation and, in the irreducible layout, the coherences' part
above; with a reducible collision matrix (finding) the coherences' part is zero. -/
theorem C152_parts (s : LBTESettings K) (colmat : Nat → Nat → K) (p : LBTEInput K)
    (k : WignerInput K) (ht : 0 < p.t) (st : WignerLbteState K)
    (h : wignerLbteEvaluate s p k (wignerLbteNew colmat) = some st) :
    lbteEvaluate s p (wignerLbteNew colmat).lbte = some st.lbte ∧
      st.kappaC = if s.reducible then fun _ => 0
        else lbteKappaC k (lbteModeC k fun _ _ _ _ => 0) := by
  unfold wignerLbteEvaluate at h
  obtain ⟨l, hl, rfl⟩ := Option.map_eq_some_iff.1 h
  rw [if_pos ht]
  refine ⟨hl, ?_⟩
  unfold wignerLbteCoherences
  cases s.reducible <;> rfl

end

/-! ### Witnesses -/

/-- Two degenerate bands at one point, without symmetry. One moves along `(1, -1, 0)`, the other
against it. -/
noncomputable def crossCrystal (eigvalsh : (m : Nat) → BandMatrix m ℝ → Fin m → ℝ) :
    WignerCrystal 2 ℝ where
  numGp := 1
  numOps := 1
  rotations := fun _ i j => if i = j then 1 else 0
  multi := fun _ => 1
  weights := fun _ => 1
  frequencies := fun _ _ => 2
  cutoff := 1
  degenerate := 1 / 10000
  op := fun _ a s t => if s = t then ⟨(if s = 0 then 1 else -1) *
    (if a = 0 then 1 else if a = 1 then -1 else 0), 0⟩ else 0
  degSizes := fun _ => [2]
  eigvalsh := eigvalsh
  g := fun _ _ => 1 / 2
  cv := fun _ _ => (1 / Real.sinh 1) ^ 2
  gammaAddress := fun _ => false
  t := 1
  kb := 1
  toEv := 1
  sinh := Real.sinh
  factor := 1
  factorWTE := 1
  numSampling := 1

/-- `np.linalg.eigvalsh` on the blocks of the crystal. -/
def CrossEigenvalues (eigvalsh : (m : Nat) → BandMatrix m ℝ → Fin m → ℝ) : Prop :=
  ∀ a : Fin 3, EigenvaluesOf (operatorBlock ((crossCrystal eigvalsh).op 0 a) 0 2)
    (eigvalsh 2 (operatorBlock ((crossCrystal eigvalsh).op 0 a) 0 2))

theorem crossValid (eigvalsh : (m : Nat) → BandMatrix m ℝ → Fin m → ℝ) :
    CrystalValid (crossCrystal eigvalsh) where
  hermitian := by
    intro i a
    ext1 s t
    rw [Matrix.conjTranspose_apply]
    show Star.star (if t = s then _ else _) = if s = t then _ else _
    by_cases h : s = t
    · subst h
      rw [if_pos rfl, star_real]
    · rw [if_neg h, if_neg fun e => h e.symm, star_zero]
  kb := one_pos
  t := one_pos
  toEv := one_pos
  cutoff := zero_le_one
  degenerate := by norm_num [crossCrystal]
  factor := by norm_num [crossCrystal]
  sinh := by
    intro f hf
    have hf : (1 : ℝ) < f := hf
    exact Real.sinh_pos_iff.2 (by simp [crossCrystal]; linarith)
  cv := by
    intro i l
    unfold sinhHeatCapacity
    rw [if_neg (by simp [crossCrystal, WignerCrystal.modes])]
    simp [crossCrystal, WignerCrystal.modes]
  weights := by simp [crossCrystal]
  acoustic := by simp [crossCrystal]

theorem two_eigenvalues (D : BandMatrix 2 ℝ) (lam : Fin 2 → ℝ) (hD : Dᴴ = D)
    (h : EigenvaluesOf D lam) (h0 : (D 0 0).re + (D 1 1).re = 0)
    (h2 : ∑ s, ∑ t, modSq (D s t) = 2) : lam 0 = -1 ∧ lam 1 = 1 := by
  have e1 := eigenvalues_sum h
  have e2 := eigenvalues_squares hD h
  have e3 := h.sorted (show (0 : Fin 2) ≤ 1 by decide)
  rw [Fin.sum_univ_two, Fin.sum_univ_two, h0] at e1
  rw [h2, Fin.sum_univ_two] at e2
  have e4 : lam 0 = -lam 1 := by linarith
  rw [e4] at e2 e3 ⊢
  have e5 : (lam 1 - 1) * (lam 1 + 1) = 0 := by linarith
  rcases mul_eq_zero.1 e5 with h | h
  · constructor <;> linarith
  · exfalso
    linarith

theorem cross_velocity (eigvalsh : (m : Nat) → BandMatrix m ℝ → Fin m → ℝ)
    (hE : CrossEigenvalues eigvalsh) (a : Fin 3) (ha : a = 0 ∨ a = 1) (l : Nat) (hl : l < 2) :
    (crossCrystal eigvalsh).modes.gv 0 l a = if l = 0 then -1 else 1 := by
  have hb := wignerVelocity_block eigvalsh ((crossCrystal eigvalsh).op 0 a) [2] 0 (0, 2)
    List.mem_cons_self (by norm_num) ⟨l, hl⟩
  rw [Nat.zero_add] at hb
  have h2 := two_eigenvalues _ _ (by
    ext1 s t
    rw [Matrix.conjTranspose_apply]
    have := congrFun (congrFun ((crossValid eigvalsh).hermitian 0 a) s) t
    rw [Matrix.conjTranspose_apply] at this
    unfold operatorBlock
    rw [dif_pos ⟨by omega, by omega⟩, dif_pos ⟨by omega, by omega⟩]
    simpa using this) (hE a) (by
      rcases ha with rfl | rfl <;> simp [operatorBlock, crossCrystal]) (by
      rcases ha with rfl | rfl <;>
        simp [operatorBlock, crossCrystal, modSq, Fin.sum_univ_two] <;> norm_num)
  refine Eq.trans hb ?_
  interval_cases l
  · exact h2.1
  · exact h2.2

/-- **C152 (finding).** For degenerate bands the direct solution gives every axis the eigenvalues of
the velocity operator in ascending order, so that velocities along different axes are combined that
do not belong to the same band. In this crystal the populations' part `xy` of the relaxation time
approximation has the opposite sign in the two classes. -/
theorem C152_degenerate_differ (eigvalsh : (m : Nat) → BandMatrix m ℝ → Fin m → ℝ)
    (hE : CrossEigenvalues eigvalsh) :
    wignerKappaP (crossCrystal eigvalsh).pairs (wignerKappa (crossCrystal eigvalsh).pairs
        wignerZero) 5 < 0 ∧
      directPopulations (crossCrystal eigvalsh) 5 =
        -wignerKappaP (crossCrystal eigvalsh).pairs (wignerKappa (crossCrystal eigvalsh).pairs
          wignerZero) 5 := by
  have hs : 0 < Real.sinh 1 := Real.sinh_pos_iff.2 one_pos
  have hp : 0 < (1 / Real.sinh 1) ^ 2 := by positivity
  have h1 : directPopulations (crossCrystal eigvalsh) 5 = 2 * (1 / Real.sinh 1) ^ 2 := by
    rw [directPopulations_eq _ (crossValid eigvalsh)]
    have hv := cross_velocity eigvalsh hE
    have h00 := hv 0 (Or.inl rfl) 0 (by norm_num)
    have h01 := hv 0 (Or.inl rfl) 1 (by norm_num)
    have h10 := hv 1 (Or.inr rfl) 0 (by norm_num)
    have h11 := hv 1 (Or.inr rfl) 1 (by norm_num)
    unfold kappaRTA kappaOf
    simp only [sumLoop_eq]
    show (∑ l ∈ range 2, ∑ i ∈ range 1, _) / (1 : ℝ) = _
    rw [Finset.sum_range_succ, Finset.sum_range_one, Finset.sum_range_one, Finset.sum_range_one]
    unfold modeKappaRTA
    have e : ∀ l < 2, ((if 0 < (crystalRTA (crossCrystal eigvalsh)).numGp ∧
        l < (crystalRTA (crossCrystal eigvalsh)).numBand then
      if (crystalRTA (crossCrystal eigvalsh)).frequencies 0 l <
          (crystalRTA (crossCrystal eigvalsh)).cutoff then (fun _ _ _ => 0 : Nat → Nat → Fin 6 → ℝ) 0 l 5
      else if (crystalRTA (crossCrystal eigvalsh)).gSum 0 l * 2 = 0 then
        (fun _ _ _ => 0 : Nat → Nat → Fin 6 → ℝ) 0 l 5
      else (crystalRTA (crossCrystal eigvalsh)).gvSum2 0 l 5 *
        (crystalRTA (crossCrystal eigvalsh)).cv 0 l /
        ((crystalRTA (crossCrystal eigvalsh)).gSum 0 l * 2) *
          (crystalRTA (crossCrystal eigvalsh)).factor
      else (fun _ _ _ => 0 : Nat → Nat → Fin 6 → ℝ) 0 l 5)) =
        (crossCrystal eigvalsh).modes.gv 0 l 0 * (crossCrystal eigvalsh).modes.gv 0 l 1 *
          (1 / Real.sinh 1) ^ 2 := by
      intro l hl
      rw [if_pos ⟨one_pos, hl⟩, if_neg (by simp [crystalRTA, crossCrystal]),
        if_neg (by simp [crystalRTA, crossCrystal])]
      simp [crystalRTA, crystalEnv, gvByGv, sumLoop_eq, rotateVector, voigt, crossCrystal]
    rw [e 0 (by norm_num), e 1 (by norm_num), h00, h01, h10, h11]
    norm_num
    ring
  have h2 : wignerKappaP (crossCrystal eigvalsh).pairs (wignerKappa (crossCrystal eigvalsh).pairs
      wignerZero) 5 = -2 * (1 / Real.sinh 1) ^ 2 := by
    rw [kappaP_sum]
    show (∑ i ∈ range 1, ∑ l ∈ range 2, ∑ m ∈ range 2, _) / (1 : ℝ) = _
    have e : ∀ l < 2, ∀ m < 2, populationsTerm (crossCrystal eigvalsh).pairs 0 l m 5 =
        if l = m then -(1 / Real.sinh 1) ^ 2 else 0 := by
      intro l hl m hm
      unfold populationsTerm
      rw [if_pos (by
        constructor
        · constructor <;> norm_num [crossCrystal, WignerCrystal.pairs]
        · unfold PairDegenerate
          norm_num [crossCrystal, WignerCrystal.pairs])]
      unfold wignerContribution
      have hv : ((crossCrystal eigvalsh).pairs.gvoSum2 0 l m 5).re = if l = m then -1 else 0 := by
        show ((crossCrystal eigvalsh).sum2 0 l m 5).re = _
        unfold WignerCrystal.sum2
        rw [dif_pos ⟨hl, hm⟩, C105_products]
        interval_cases l <;> interval_cases m <;>
          simp [crossCrystal, rotateC, Fin.sum_univ_three, voigt, Cplx.scale, star_re, star_im]
      rw [hv]
      norm_num [crossCrystal, WignerCrystal.pairs]
    simp only [Finset.sum_range_succ, Finset.sum_range_zero]
    rw [e 0 (by norm_num) 0 (by norm_num), e 0 (by norm_num) 1 (by norm_num),
      e 1 (by norm_num) 0 (by norm_num), e 1 (by norm_num) 1 (by norm_num)]
    norm_num
    try ring
  rw [h1, h2]
  constructor
  · linarith
  · ring

/-- The eigenvalues exist. -/
example : CrossEigenvalues fun m D s => if (D s s).re = 0 then 0 else if s.val = 0 then -1 else 1 := by
  intro a
  constructor
  · intro s t hst
    fin_cases a <;> fin_cases s <;> fin_cases t <;> simp_all [operatorBlock, crossCrystal]
  · by_cases ha : a = 0
    · subst ha
      refine ⟨Matrix.of fun s t => if s = t then 0 else 1, ?_, ?_⟩
      · ext1 s t
        fin_cases s <;> fin_cases t <;>
          simp [Matrix.mul_apply, Fin.sum_univ_two, Matrix.conjTranspose_apply]
      · ext1 s t
        fin_cases s <;> fin_cases t <;>
          (ext <;> simp [Matrix.mul_apply, Fin.sum_univ_two, operatorBlock, crossCrystal])
    · refine ⟨1, by simp, ?_⟩
      rw [Matrix.mul_one, Matrix.one_mul]
      ext1 s t
      fin_cases a
      · exact absurd rfl ha
      all_goals
        fin_cases s <;> fin_cases t <;>
          (ext <;> simp [operatorBlock, crossCrystal])

/-- The same bands at different frequencies. -/
noncomputable def apartCrystal : WignerCrystal 2 ℝ :=
  { crossCrystal (fun _ _ _ => 0) with
    frequencies := fun _ l => (l : ℝ) + 2
    degSizes := fun _ => [1, 1]
    cv := fun i l => sinhHeatCapacity (crossCrystal fun _ _ _ => 0).modes ((l : ℝ) + 2) }

theorem apartValid : CrystalValid apartCrystal where
  hermitian := (crossValid fun _ _ _ => 0).hermitian
  kb := one_pos
  t := one_pos
  toEv := one_pos
  cutoff := zero_le_one
  degenerate := (crossValid fun _ _ _ => 0).degenerate
  factor := (crossValid fun _ _ _ => 0).factor
  sinh := (crossValid fun _ _ _ => 0).sinh
  cv := fun _ _ => rfl
  weights := (crossValid fun _ _ _ => 0).weights
  acoustic := by simp [apartCrystal, crossCrystal]

/-- The hypotheses of C152 (populations and coherences) are met. -/
example (c : Fin 6) :
    directPopulations apartCrystal c = wignerKappaP apartCrystal.pairs
      (wignerKappa apartCrystal.pairs wignerZero) c ∧
    lbteKappaC apartCrystal.pairs (lbteModeC apartCrystal.pairs fun _ _ _ _ => 0) c =
      wignerKappaC apartCrystal.pairs (wignerKappa apartCrystal.pairs wignerZero) c := by
  have hd : ∀ l : Nat, l < 2 → ∀ m : Nat, m < 2 → m ≠ l → |(l : ℝ) + 2 - ((m : ℝ) + 2)| = 1 := by
    intro l hl m hm h
    interval_cases l <;> interval_cases m <;> simp_all
  constructor
  · refine C152_populations_partial apartCrystal apartValid (fun i hi l hl _ => ⟨?_, ?_⟩) ?_ c
    · intro m hm hne h
      have h : |(l : ℝ) + 2 - ((m : ℝ) + 2)| < 1 / 10000 := h
      rw [hd l hl m hm hne] at h
      norm_num at h
    · intro b hb _ _
      have hb : b ∈ [(0, 1), (0 + 1, 1)] := hb
      fin_cases hb <;> exact le_rfl
    · intro _ _ _ _ _
      show (1 / 2 : ℝ) ≠ 0
      norm_num
  · refine C152_coherences apartCrystal.pairs (fun i hi l hl m hm h => ?_) c
    have h : |(l : ℝ) + 2 - ((m : ℝ) + 2)| = 1 / 10000 := h.2
    by_cases e : m = l
    · subst e
      simp at h
    · rw [hd l hl m hm e] at h
      norm_num at h

/-- C152 (totals): the attribute is zero although the file holds a conductivity. -/
example : ∃ st, wignerHistory historySettings [(historyInput,
      ⟨1, 1, fun _ _ => 1, 0, 1 / 10000, 1, fun _ _ => 1, fun _ _ => 1, fun _ _ _ _ => 0, 1, 1⟩)]
      (wignerLbteNew fun _ _ => 0) = some st ∧
    st.kappaTotExact 0 = 0 ∧ (wignerLbteFile st).totExact 0 = 1 / 16 := by
  refine ⟨_, rfl, rfl, ?_⟩
  decide +kernel

end Phono3py.Props
