/- Concrete crystals for the theorems on Grueneisen parameters, and counterexamples. -/
import Verif.Props.Gruneisen
import Verif.Props.DynMatReal

namespace Phono3py.Props
open Phono3py.Spec Finset

/-- Two atoms with masses 9 and 16 joined by an isotropic spring, in a supercell of one primitive
cell. The second atom sits at `(1/4, 1/4, 1/4)`. The spring gets harder along `x` when it is
shortened. -/
noncomputable def dumbbell : GrunCell ℝ where
  numPatom := 2
  numSatom := 2
  fc2 a := if a % 9 = 0 ∨ a % 9 = 4 ∨ a % 9 = 8 then
    (if a / 9 = 0 ∨ a / 9 = 3 then 144 else -144) else 0
  svecs a d := if a = 1 then -1 / 4 else if a = 2 then 1 / 4 else 0
  multi a := (1, a)
  mass i := if i = 0 then 9 else 16
  p2s i := i
  s2p s := s
  fc3 r p m i j a := if i = 0 ∧ j = 0 ∧ a = 0 then
    (if r = 0 then 1 else -1) * (if p = 0 then 1 else -1) * (if m = 0 then 1 else -1) else 0
  lat d k := if d = k then 4 else 0
  p2p s := s.toNat

theorem dumbbell_good : GoodGrunCell dumbbell where
  inj := by
    intro i _ j _ h
    exact Int.ofNat_inj.1 h
  cover := by
    intro s hs
    exact ⟨s, hs, rfl⟩
  vecs := by
    intro i _ s _
    exact Nat.one_pos
  mass := by
    intro i _
    simp only [dumbbell]
    split_ifs <;> norm_num
  atoms := by decide
  p2p := by
    intro j _
    simp [dumbbell]

theorem dumbbell_fc {i k j l : Nat} (hi : i < 2) (hk : k < 3) (hj : j < 2) (hl : l < 3) :
    classFc dumbbell.toFc2Cell (fun _ _ _ _ => 0) i k j l =
      if k = l then (if i = j then 144 else -144) else 0 := by
  have hi : i = 0 ∨ i = 1 := by omega
  have hj : j = 0 ∨ j = 1 := by omega
  have hk : k = 0 ∨ k = 1 ∨ k = 2 := by omega
  have hl : l = 0 ∨ l = 1 ∨ l = 2 := by omega
  rcases hi with rfl | rfl <;> rcases hj with rfl | rfl <;> rcases hk with rfl | rfl | rfl <;>
    rcases hl with rfl | rfl | rfl <;>
      simp [classFc, dumbbell, Finset.sum_range_succ, fc2At] <;> norm_num

theorem dumbbell_noDrift : NoDrift dumbbell.toFc2Cell where
  second := by
    intro i hi k hk l hl
    have hi : i = 0 ∨ i = 1 := by have : dumbbell.numPatom = 2 := rfl; omega
    have hk : k = 0 ∨ k = 1 ∨ k = 2 := by omega
    have hl : l = 0 ∨ l = 1 ∨ l = 2 := by omega
    rcases hi with rfl | rfl <;> rcases hk with rfl | rfl | rfl <;> rcases hl with rfl | rfl | rfl <;>
      simp [dumbbell, Finset.sum_range_succ, fc2At] <;> norm_num
  first := by
    intro j hj k hk l hl
    have h : ∀ i ∈ range 2, ∑ s ∈ range dumbbell.numSatom, (if dumbbell.s2p s = dumbbell.p2s j then
        dumbbell.fc2 (fc2At dumbbell.numSatom (dumbbell.p2s i) s k l) else 0) =
        if k = l then (if i = j then 144 else -144) else 0 := by
      intro i hi
      rw [← dumbbell_fc (mem_range.1 hi) hk hj hl]
      simp only [classFc, add_zero]
    refine (Finset.sum_congr rfl h).trans ?_
    have hj : j = 0 ∨ j = 1 := by have : dumbbell.numPatom = 2 := rfl; omega
    rcases hj with rfl | rfl <;> simp [Finset.sum_range_succ]

theorem dumbbell_symmetric : SymmetricFc dumbbell.toFc2Cell := by
  intro i hi k hk j hj l hl
  rw [dumbbell_fc hi hk hj hl, dumbbell_fc hj hl hi hk]
  simp only [eq_comm]

/-- Eigenvalues of the dynamical matrix at the zone centre. -/
noncomputable def dumbbellVals (s : Nat) : ℝ := if s < 3 then 0 else 25

/-- Its eigenvectors: three translations, then three optical modes. -/
noncomputable def dumbbellVecs (row s : Nat) : ℝ :=
  if row % 3 = s % 3 then
    (if s < 3 then (if row < 3 then 3 / 5 else 4 / 5) else (if row < 3 then 4 / 5 else -3 / 5))
  else 0

theorem sqrt9 : Real.sqrt 9 = 3 := by
  rw [show (9 : ℝ) = 3 * 3 by norm_num]; exact Real.sqrt_mul_self (by norm_num)
theorem sqrt16 : Real.sqrt 16 = 4 := by
  rw [show (16 : ℝ) = 4 * 4 by norm_num]; exact Real.sqrt_mul_self (by norm_num)

theorem dumbbell_mass {i : Nat} (hi : i < 2) : Real.sqrt (dumbbell.mass i) = 3 + i := by
  have hi : i = 0 ∨ i = 1 := by omega
  rcases hi with rfl | rfl
  · simp [dumbbell, sqrt9]
  · simp [dumbbell, sqrt16]; norm_num

/-- The dynamical matrix at the zone centre. -/
theorem dumbbell_matrix (mem : Int → Cplx ℝ) {a b : Nat} (ha : a < 6) (hb : b < 6) :
    (dynamicalMatrixAtQ Real.sqrt realPhase dumbbell.toFc2Cell none (fun _ => 0) mem
      ((a * (dumbbell.numPatom * 3) + b : Nat) : Int)).re =
    if a % 3 = b % 3 then
      (if a / 3 = b / 3 then (144 : ℝ) else -144) /
        ((3 + ((a / 3 : Nat) : ℝ)) * (3 + ((b / 3 : Nat) : ℝ))) else 0 := by
  have h := gamma_matrix (sqrt := Real.sqrt) (expi := realPhase) realPhase_isPhase.zero
    dumbbell_good.toGoodCell dumbbell_symmetric mem (i := a / 3) (k := a % 3) (j := b / 3)
    (l := b % 3) (by show _ < 2; omega) (by omega) (by show _ < 2; omega) (by omega)
  rw [dumbbell_fc (by omega) (by omega) (by omega) (by omega),
    sqrt_mul realSqrt_isSqrt (dumbbell_good.mass _ (by show _ < 2; omega))
      (dumbbell_good.mass _ (by show _ < 2; omega)),
    dumbbell_mass (by omega), dumbbell_mass (by omega)] at h
  unfold dynBlock at h
  have ea : a / 3 * 3 + a % 3 = a := by omega
  have eb : b / 3 * 3 + b % 3 = b := by omega
  rw [ea, eb] at h
  rw [h]
  split_ifs <;> simp

theorem dumbbell_columns {a s : Nat} (ha : a < 6) (hs : s < 6) : ∑ b ∈ range 6,
    (if a % 3 = b % 3 then (if a / 3 = b / 3 then (144 : ℝ) else -144) /
      ((3 + ((a / 3 : Nat) : ℝ)) * (3 + ((b / 3 : Nat) : ℝ))) else 0) * dumbbellVecs b s =
    dumbbellVals s * dumbbellVecs a s := by
  have h1 : a / 3 = 0 ∨ a / 3 = 1 := by omega
  have h2 : a % 3 = 0 ∨ a % 3 = 1 ∨ a % 3 = 2 := by omega
  have h3 : a < 3 ↔ a / 3 = 0 := by omega
  have h4 : s < 3 ∨ ¬s < 3 := by omega
  have h5 : s % 3 = 0 ∨ s % 3 = 1 ∨ s % 3 = 2 := by omega
  simp only [Finset.sum_range_succ, Finset.sum_range_zero, dumbbellVecs, dumbbellVals, h3]
  rcases h1 with h1 | h1 <;> rcases h4 with h4 | h4 <;> rcases h2 with h2 | h2 | h2 <;>
    rcases h5 with h5 | h5 | h5 <;> simp [h1, h2, h4, h5] <;> norm_num

theorem dumbbell_orthonormal {s t : Nat} (hs : s < 6) (ht : t < 6) :
    ∑ a ∈ range 6, dumbbellVecs a s * dumbbellVecs a t = if s = t then 1 else 0 := by
  have h : s = t ↔ (s < 3 ↔ t < 3) ∧ s % 3 = t % 3 := by omega
  have h1 : s % 3 = 0 ∨ s % 3 = 1 ∨ s % 3 = 2 := by omega
  have h2 : t % 3 = 0 ∨ t % 3 = 1 ∨ t % 3 = 2 := by omega
  simp only [Finset.sum_range_succ, Finset.sum_range_zero, dumbbellVecs, h]
  by_cases h3 : s < 3 <;> by_cases h4 : t < 3 <;> rcases h1 with h1 | h1 | h1 <;>
    rcases h2 with h2 | h2 | h2 <;> simp [h1, h2, h3, h4] <;> norm_num

theorem dumbbell_complete {a b : Nat} (ha : a < 6) (hb : b < 6) :
    ∑ s ∈ range 6, dumbbellVecs a s * dumbbellVecs b s = if a = b then 1 else 0 := by
  have h : a = b ↔ (a < 3 ↔ b < 3) ∧ a % 3 = b % 3 := by omega
  have h1 : a % 3 = 0 ∨ a % 3 = 1 ∨ a % 3 = 2 := by omega
  have h2 : b % 3 = 0 ∨ b % 3 = 1 ∨ b % 3 = 2 := by omega
  simp only [Finset.sum_range_succ, Finset.sum_range_zero, dumbbellVecs, h]
  by_cases h3 : a < 3 <;> by_cases h4 : b < 3 <;> rcases h1 with h1 | h1 | h1 <;>
    rcases h2 with h2 | h2 | h2 <;> simp [h1, h2, h3, h4] <;> norm_num

theorem dumbbell_eigen (mem : Int → Cplx ℝ) : RealEigen (dumbbell.numPatom * 3)
    (fun a b => (dynamicalMatrixAtQ Real.sqrt realPhase dumbbell.toFc2Cell none (fun _ => 0) mem
      ((a * (dumbbell.numPatom * 3) + b : Nat) : Int)).re) dumbbellVals dumbbellVecs where
  eigen := by
    intro s hs a ha
    refine Eq.trans (Finset.sum_congr rfl fun b hb => ?_) (dumbbell_columns ha hs)
    beta_reduce
    rw [dumbbell_matrix mem ha (mem_range.1 hb)]
  orthonormal := fun s hs t ht => dumbbell_orthonormal hs ht
  complete := fun a ha b hb => dumbbell_complete ha hb

/-- Hypotheses of `C102_equilibrium`: every strain of the dumbbell. -/
example (mem : Int → Cplx ℝ) (ε : Nat → Nat → ℝ) {ν l : Nat} (hν : ν < 2) (hl : l < 3) :
    forceOn dumbbell (strained dumbbell
      (grunXOf Real.sqrt dumbbell false dumbbellVals dumbbellVecs) ε ν) ν l = 0 := by
  refine C102_equilibrium realSqrt_isSqrt realPhase_isPhase.zero dumbbell_good dumbbell_noDrift
    dumbbell_symmetric mem _ _ (dumbbell_eigen mem) ?_ ε ?_ hν hl
  · intro s h3 _
    simp [dumbbellVals, not_lt.2 h3]
  · intro l hl
    have hl : l = 0 ∨ l = 1 ∨ l = 2 := by omega
    rcases hl with rfl | rfl | rfl <;>
      simp [forceOn, strained, meanVector, dumbbell, Finset.sum_range_succ, fc2At] <;> ring

/-! ### A polarised mode under strain, and modes of equal frequency

A chain of one atom with two neighbours, over the rational numbers. The masses are one, and all
phases are one, as at the zone centre. -/

/-- One atom; supercell atoms 0, 1, 2 at 0, 1, -1. Isolated oscillators with `fc2 = 1`; the
third-order constants couple the strain to `x` displacements. -/
def einstein : GrunCell ℚ where
  numPatom := 1
  numSatom := 3
  fc2 a := if a = 0 ∨ a = 4 ∨ a = 8 then 1 else 0
  svecs a d := if d = 0 then (if a = 1 then 1 else if a = 2 then -1 else 0) else 0
  multi a := (1, a)
  mass _ := 1
  p2s i := i
  s2p _ := 0
  fc3 r p m i j a := if p = 0 ∧ i = 0 ∧ j = 0 ∧ a = 0 then
    (if m = 1 then 1 else if m = 2 then -1 else 0) else 0
  lat d k := if d = k then 1 else 0
  p2p _ := 0

/-- Plane-wave factor and square root on this crystal. -/
def onePhase (_ : ℚ) : Cplx ℚ := 1

/-- Polarisation along the axes. -/
def axisModes (row s : Nat) : Cplx ℚ := if row = s then 1 else 0

/-- Polarisation along axes turned about `z`. -/
def turnedModes (row s : Nat) : Cplx ℚ :=
  ⟨if 2 ≤ row ∨ s = 2 then (if row = s then 1 else 0)
    else if row = s then 3 / 5 else if row < s then -4 / 5 else 4 / 5, 0⟩

/-- A wave vector away from the zone centre. -/
def halfX (d : Nat) : ℚ := if d = 0 then 1 / 2 else 0

theorem einstein_eigen (mem : Int → Cplx ℚ) {s : Nat} (hs : s < 3) :
    EigenPair 1 (dynamicalMatrixAtQ id onePhase einstein.toFc2Cell none halfX mem) 1
      (fun j m => axisModes (j * 3 + m) s) ∧
    EigenPair 1 (dynamicalMatrixAtQ id onePhase einstein.toFc2Cell none halfX mem) 1
      (fun j m => turnedModes (j * 3 + m) s) ∧
    Normalised 1 (fun j m => axisModes (j * 3 + m) s) ∧
    Normalised 1 (fun j m => turnedModes (j * 3 + m) s) := by
  have h : ∀ k < 3, ∀ l < 3, dynBlock 1 (dynamicalMatrixAtQ id onePhase einstein.toFc2Cell none
      halfX mem) 0 k 0 l = if k = l then 1 else 0 := by
    intro k hk l hl
    refine (dynmat_block (i := 0) (j := 0) _ _ einstein.toFc2Cell _ _ _ Nat.one_pos hk Nat.one_pos
      hl).trans ?_
    interval_cases k <;> interval_cases l <;> decide +kernel
  have key : ∀ e : Nat → Nat → Cplx ℚ, EigenPair 1 (dynamicalMatrixAtQ id onePhase
      einstein.toFc2Cell none halfX mem) 1 e := by
    intro e i hi k hk
    have hi : i = 0 := by omega
    subst hi
    rw [Finset.sum_range_one]
    rw [Finset.sum_congr rfl fun l hl => by rw [h k hk l (mem_range.1 hl)]]
    interval_cases k <;> ext <;> simp [Finset.sum_range_succ, Cplx.scale]
  refine ⟨key _, key _, ?_, ?_⟩ <;> unfold Normalised <;> interval_cases s <;> decide +kernel

/-- Hypotheses of `C101_strain`: all modes of this crystal, every strain. -/
example (mem mem' : Int → Cplx ℚ) (ε : Nat → Nat → ℚ) (t : ℚ) {s : Nat} (hs : s < 3) :
    ∃ f : Int → ℚ, (∀ P < 3, ∀ i < 3, ∀ j < 3, f (fc2At 3 0 P i j) =
      einstein.fc2 (fc2At 3 0 P i j) +
        t * fc2Change einstein (strained einstein (fun _ _ _ _ => 0) ε 0) 0 P i j) ∧
    rayleigh 1 (dynamicalMatrixAtQ id onePhase { einstein.toFc2Cell with fc2 := f } none halfX mem')
      (fun j m => turnedModes (j * 3 + m) s) =
      ⟨1 * (1 - 2 * t * contract (grunTensor id onePhase einstein (fun _ _ _ _ => 0) halfX
        (fun _ => 1) turnedModes s) ε), 0⟩ := by
  obtain ⟨f, hf⟩ := exists_strained einstein
    (fun i hi j hj _ => by have : einstein.numPatom = 1 := rfl; omega)
    (fun ν P i j => t * fc2Change einstein (strained einstein (fun _ _ _ _ => 0) ε ν) ν P i j)
  refine ⟨f, fun P hP i hi j hj => hf 0 (by decide) P hP i hi j hj, ?_⟩
  refine C101_strain id onePhase einstein none (fun _ _ _ _ => 0) halfX (fun _ => 1) turnedModes s
    mem mem' (by decide +kernel +revert) one_ne_zero (einstein_eigen mem hs).2.2.2
    (einstein_eigen mem hs).2.1 ε t f hf

/-- C103: the parameters of single modes of the same frequency depend on which eigenvectors are
taken; only their sum does not. Both bases consist of normalised eigenvectors
(`einstein_eigen`). -/
theorem C103_not_unique :
    (List.range 3).map (fun s => grunTensor id onePhase einstein (fun _ _ _ _ => 0) halfX
      (fun _ => 1) axisModes s 0 0) = [-1, 0, 0] ∧
    (List.range 3).map (fun s => grunTensor id onePhase einstein (fun _ _ _ _ => 0) halfX
      (fun _ => 1) turnedModes s 0 0) = [-9 / 25, -16 / 25, 0] := by
  constructor <;> decide +kernel

/-- Hypotheses of `C103_degenerate`: these two bases. -/
example : ∑ s ∈ range 3, grunTensor id onePhase einstein (fun _ _ _ _ => 0) halfX (fun _ => 1)
      turnedModes s 0 0 =
    ∑ s ∈ range 3, grunTensor id onePhase einstein (fun _ _ _ _ => 0) halfX (fun _ => 1)
      axisModes s 0 0 := by
  refine C103_degenerate id onePhase einstein _ halfX _ axisModes turnedModes (range 3) 1
    (fun _ _ => rfl) (by decide +kernel) (fun s t => turnedModes t s) (by decide +kernel) ?_ 0 0
  intro s hs row
  have hs := mem_range.1 hs
  have h : ∀ t ∈ range 3, turnedModes t s * axisModes row t =
      if row = t then turnedModes row s else 0 := by
    intro t _
    simp only [axisModes]
    split_ifs with h
    · rw [h, mul_one]
    · rw [mul_zero]
  rw [Finset.sum_congr rfl h, Finset.sum_ite_eq]
  split_ifs with hr
  · rfl
  · have hr : ¬row < 3 := fun h => hr (mem_range.2 h)
    have h1 : 2 ≤ row ∨ s = 2 := Or.inl (by omega)
    have h2 : row ≠ s := by omega
    simp only [turnedModes, if_pos h1, if_neg h2]
    rfl

/-- Hypotheses of `C103_shift`: the force constants of this crystal have no drift. -/
example : ∀ ν < einstein.numPatom, ∀ P < einstein.numSatom, ∀ i < 3, ∀ j < 3, ∀ a < 3,
    ∑ M ∈ range einstein.numSatom, einstein.fc3 (einstein.p2s ν) P M i j a = 0 := by
  decide +kernel

end Phono3py.Props
