import Verif.Props.Isotope
import Verif.Props.JointDos

/-!
C155: isotope linewidths, the choice of eigenvectors and the symmetry of the crystal.
-/

set_option linter.unusedSectionVars false

namespace Phono3py.Props
open Phono3py Phono3py.Spec Finset

section
variable {K : Type} [Field K] [LinearOrder K] [IsStrictOrderedRing K]

/-! ### Pairs of wave vectors -/

/-- Sum over the modes `b` of one wave vector and `k` of another of a function of the two frequencies
times the overlaps of the eigenvectors at the atoms, weighted by the mass variances `mv`. -/
def isoPair (n : Nat) (mv : Nat → K) (f : Nat → K) (v : Int → Cplx K) (f' : Nat → K)
    (v' : Int → Cplx K) (Ψ : K → K → K) : K :=
  ∑ b ∈ range (n * 3), ∑ k ∈ range (n * 3), Ψ (f b) (f' k) * ∑ l ∈ range n, mv l *
    overlapSq (fun c => v ((c * (3 * n) + b : Nat) : Int)) (fun c => v' ((c * (3 * n) + k : Nat) : Int)) l

theorem isoPair_congr {n : Nat} {mv mv' : Nat → K} {f f' : Nat → K} {v v' w w' : Int → Cplx K}
    {Ψ : K → K → K} (h : ∀ b < n * 3, ∀ k < n * 3, ∑ l ∈ range n, mv l *
      overlapSq (fun c => w ((c * (3 * n) + b : Nat) : Int))
        (fun c => w' ((c * (3 * n) + k : Nat) : Int)) l = ∑ l ∈ range n, mv' l *
      overlapSq (fun c => v ((c * (3 * n) + b : Nat) : Int))
        (fun c => v' ((c * (3 * n) + k : Nat) : Int)) l) :
    isoPair n mv f w f' w' Ψ = isoPair n mv' f v f' v' Ψ := by
  unfold isoPair
  exact Finset.sum_congr rfl fun b hb => Finset.sum_congr rfl fun k hk => by
    rw [h b (Finset.mem_range.1 hb) k (Finset.mem_range.1 hk)]

/-- The overlap at an atom as the square modulus of a sum over all components. -/
theorem overlap_row {n l : Nat} (hl : l < n) (w v : Nat → Cplx K) :
    overlapSq w v l =
      (∑ p ∈ range (n * 3), (if p / 3 = l then conj (w p) else 0) * v p).normSq := by
  unfold overlapSq
  rw [sum_range_three (n := n), Finset.sum_eq_single (s := range n) l]
  · congr 1
    refine Finset.sum_congr rfl fun m hm => ?_
    have : m < 3 := Finset.mem_range.1 hm
    rw [if_pos (by omega), mul_comm 3 l]
  · intro i _ hi
    refine Finset.sum_eq_zero fun m hm => ?_
    have : m < 3 := Finset.mem_range.1 hm
    rw [if_neg (by omega), zero_mul]
  · exact fun h => absurd (Finset.mem_range.2 hl) h

theorem overlap_swap (w v : Nat → Cplx K) (l : Nat) : overlapSq w v l = overlapSq v w l := by
  unfold overlapSq
  rw [← normSq_conj]
  congr 1
  rw [conj_sum]
  refine Finset.sum_congr rfl fun m _ => ?_
  rw [conj_mul, conj_conj, mul_comm]

theorem isoPair_swap (n : Nat) (mv f : Nat → K) (v : Int → Cplx K) (f' : Nat → K)
    (v' : Int → Cplx K) (Ψ : K → K → K) :
    isoPair n mv f v f' v' Ψ = isoPair n mv f' v' f v (fun x y => Ψ y x) := by
  unfold isoPair
  rw [Finset.sum_comm]
  refine Finset.sum_congr rfl fun k _ => Finset.sum_congr rfl fun b _ => ?_
  congr 1
  exact Finset.sum_congr rfl fun l _ => by rw [overlap_swap]

/-- Any two sets of modes of the second wave vector give the same. -/
theorem isoPair_choice_right {n : Nat} {a : Int → Cplx K} (hH : HermitianMatrix n a)
    {lam : K → K} (hlam : ∀ x y, lam x = lam y → x = y) {g g' : Nat → K} {w w' : Int → Cplx K}
    (h : Modes n lam a g w) (h' : Modes n lam a g' w') (mv f : Nat → K) (v : Int → Cplx K)
    (Ψ : K → K → K) : isoPair n mv f v g' w' Ψ = isoPair n mv f v g w Ψ := by
  unfold isoPair
  refine Finset.sum_congr rfl fun b _ => ?_
  have comm : ∀ (g : Nat → K) (w : Int → Cplx K),
      ∑ k ∈ range (n * 3), Ψ (f b) (g k) * ∑ l ∈ range n, mv l *
        overlapSq (fun c => v ((c * (3 * n) + b : Nat) : Int))
          (fun c => w ((c * (3 * n) + k : Nat) : Int)) l =
      ∑ l ∈ range n, mv l * ∑ k ∈ range (n * 3), Ψ (f b) (g k) *
        (∑ p ∈ range (n * 3), (if p / 3 = l then conj (v ((p * (3 * n) + b : Nat) : Int)) else 0) *
          w ((p * (3 * n) + k : Nat) : Int)).normSq := by
    intro g w
    simp only [Finset.mul_sum]
    rw [Finset.sum_comm]
    refine Finset.sum_congr rfl fun l hl => Finset.sum_congr rfl fun k _ => ?_
    rw [overlap_row (Finset.mem_range.1 hl)]
    ring
  rw [comm, comm]
  refine Finset.sum_congr rfl fun l _ => ?_
  rw [modes_sum hH hlam h h' (fun y => Ψ (f b) y)]

theorem isoPair_choice {n : Nat} {a a' : Int → Cplx K} (hH : HermitianMatrix n a)
    (hH' : HermitianMatrix n a') {lam : K → K} (hlam : ∀ x y, lam x = lam y → x = y)
    {f f' g g' : Nat → K} {v v' w w' : Int → Cplx K} (h : Modes n lam a f v)
    (h' : Modes n lam a f' v') (k : Modes n lam a' g w) (k' : Modes n lam a' g' w') (mv : Nat → K)
    (Ψ : K → K → K) : isoPair n mv f' v' g' w' Ψ = isoPair n mv f v g w Ψ := by
  rw [isoPair_choice_right hH' hlam k k', isoPair_swap, isoPair_choice_right hH hlam h h',
    ← isoPair_swap n mv f v g w Ψ]

/-- Factors of modulus one at the atoms do not matter. -/
theorem isoPair_phases {n : Nat} (mv f f' : Nat → K) (v v' : Int → Cplx K) (Ψ : K → K → K)
    (u u' : Nat → Cplx K) (hu : ∀ j, (u j).normSq = 1) (hu' : ∀ j, (u' j).normSq = 1) :
    isoPair n mv f (fun x => u (x.toNat / (3 * n) / 3) * v x) f'
      (fun x => u' (x.toNat / (3 * n) / 3) * v' x) Ψ = isoPair n mv f v f' v' Ψ := by
  refine isoPair_congr fun b hb k hk => Finset.sum_congr rfl fun l _ => ?_
  have idx : ∀ m b, m < 3 → b < n * 3 →
      (((l * 3 + m) * (3 * n) + b : Nat) : Int).toNat / (3 * n) / 3 = l := by
    intro m b hm hb
    have h0 : 0 < 3 * n := by omega
    have h1 : b < 3 * n := by omega
    rw [Int.toNat_natCast, mul_comm (l * 3 + m), Nat.mul_add_div h0, Nat.div_eq_of_lt h1]
    omega
  congr 1
  unfold overlapSq
  have : ∀ m ∈ range 3, conj (u ((((l * 3 + m) * (3 * n) + b : Nat) : Int).toNat / (3 * n) / 3) *
        v (((l * 3 + m) * (3 * n) + b : Nat) : Int)) *
      (u' ((((l * 3 + m) * (3 * n) + k : Nat) : Int).toNat / (3 * n) / 3) *
        v' (((l * 3 + m) * (3 * n) + k : Nat) : Int)) =
      (conj (u l) * u' l) * (conj (v (((l * 3 + m) * (3 * n) + b : Nat) : Int)) *
        v' (((l * 3 + m) * (3 * n) + k : Nat) : Int)) := by
    intro m hm
    rw [idx m b (Finset.mem_range.1 hm) hb, idx m k (Finset.mem_range.1 hm) hk, conj_mul]
    ring
  rw [Finset.sum_congr rfl this, ← Finset.mul_sum, normSq_mul, normSq_mul, normSq_conj, hu, hu', one_mul,
    one_mul]

/-- Conjugate eigenvectors at both wave vectors. -/
theorem isoPair_conj {n : Nat} (mv f f' : Nat → K) (v v' : Int → Cplx K) (Ψ : K → K → K) :
    isoPair n mv f (fun x => conj (v x)) f' (fun x => conj (v' x)) Ψ = isoPair n mv f v f' v' Ψ := by
  refine isoPair_congr fun b hb k hk => Finset.sum_congr rfl fun l _ => ?_
  congr 1
  unfold overlapSq
  rw [← normSq_conj, conj_sum]
  congr 1
  exact Finset.sum_congr rfl fun m _ => by simp only [conj_mul, conj_conj]

/-- Eigenvectors turned by an operation that respects mass variances. -/
theorem isoPair_turned {n : Nat} {C : RM K}
    (hC : ∀ a < 3, ∀ b < 3, ∑ k ∈ range 3, natRM C k a * natRM C k b = if a = b then 1 else 0)
    {g : Nat → Nat} (hg : PermutesBelow n g) {mv : Nat → K} (hmv : ∀ l < n, mv (g l) = mv l)
    (f f' : Nat → K) (v v' : Int → Cplx K) (Ψ : K → K → K) :
    isoPair n mv f (rotateEigvecs n (transposeRM C) g 1 v) f' (rotateEigvecs n (transposeRM C) g 1 v') Ψ =
      isoPair n mv f v f' v' Ψ := by
  refine isoPair_congr fun b hb k hk => ?_
  rw [← sum_permuted hg (fun l => mv l * overlapSq (fun c => v ((c * (3 * n) + b : Nat) : Int))
    (fun c => v' ((c * (3 * n) + k : Nat) : Int)) l)]
  refine Finset.sum_congr rfl fun l hl => ?_
  rw [hmv l (Finset.mem_range.1 hl)]
  congr 1
  unfold overlapSq
  congr 1
  have e : ∀ m ∈ range 3, conj (rotateEigvecs n (transposeRM C) g 1 v
        (((l * 3 + m) * (3 * n) + b : Nat) : Int)) *
      rotateEigvecs n (transposeRM C) g 1 v' (((l * 3 + m) * (3 * n) + k : Nat) : Int) =
      ∑ a ∈ range 3, ∑ a' ∈ range 3, (conj (v (((g l * 3 + a) * (3 * n) + b : Nat) : Int)) *
        v' (((g l * 3 + a') * (3 * n) + k : Nat) : Int)).scale (natRM C a m * natRM C a' m) := by
    intro m hm
    rw [rotateEigvecs_value _ _ _ _ _ (Finset.mem_range.1 hm) (by omega),
      rotateEigvecs_value _ _ _ _ _ (Finset.mem_range.1 hm) (by omega), conj_sum, Finset.sum_mul_sum]
    refine Finset.sum_congr rfl fun a _ => Finset.sum_congr rfl fun a' _ => ?_
    ext <;> simp [Cplx.scale, conj] <;> ring
  rw [Finset.sum_congr rfl e, Finset.sum_comm]
  refine Finset.sum_congr rfl fun a ha => ?_
  rw [Finset.sum_comm]
  have e3 : ∀ d ∈ range 3, ∑ m ∈ range 3,
      (conj (v (((g l * 3 + a) * (3 * n) + b : Nat))) *
        v' (((g l * 3 + d) * (3 * n) + k : Nat))).scale (natRM C a m * natRM C d m) =
      if a = d then conj (v (((g l * 3 + a) * (3 * n) + b : Nat))) *
        v' (((g l * 3 + d) * (3 * n) + k : Nat)) else 0 := by
    intro d hd
    rw [← scale_sum_right, rows_orthogonal hC (Finset.mem_range.1 ha) (Finset.mem_range.1 hd)]
    split
    · ext <;> simp [Cplx.scale]
    · ext <;> simp [Cplx.scale]
  rw [Finset.sum_congr rfl e3, Finset.sum_ite_eq, if_pos ha]

/-! ### Sums of linewidths -/

/-- Sum over the modes at the grid point of a run of a function of the frequency times the linewidth. -/
def linewidthSum (gaussian : K → K → K) (pi : K) (s : IsoArgs K) (sigma prodD : K) (φ : K → K) : K :=
  ∑ i ∈ range s.numBand0, φ (isoF0 s i) * isoRunC gaussian pi s sigma prodD i

/-- All bands are computed, in order, for a crystal with `n` atoms in the primitive cell. -/
def AllBands (n : Nat) (s : IsoArgs K) : Prop :=
  s.numBand = n * 3 ∧ s.numBand0 = n * 3 ∧ ∀ i < n * 3, s.bandIndices i = ((i : Nat) : Int)

/-- Function of two frequencies in the linewidth with smearing. -/
def isoWeight (gaussian : K → K → K) (cutoff sigma : K) (φ : K → K) (x y : K) : K :=
  if x < cutoff ∨ y < cutoff then 0 else φ x * x ^ 2 * gaussian (y - x) sigma

theorem linewidthSum_pairs (gaussian : K → K → K) (pi : K) {n : Nat} {s : IsoArgs K}
    (hs : AllBands n s) (sigma prodD : K) (φ : K → K) :
    linewidthSum gaussian pi s sigma prodD φ = pi / 4 / prodD * ∑ q ∈ range s.numGridPoints,
      isoPair n s.massVariances (fun b => s.frequencies (s.gridPoint * s.numBand + b))
        (fun x => s.eigenvectors (s.gridPoint * s.numBand * s.numBand + x))
        (fun b => s.frequencies (s.irGridPoints q * s.numBand + b))
        (fun x => s.eigenvectors (s.irGridPoints q * s.numBand * s.numBand + x))
        (isoWeight gaussian s.cutoff sigma φ) := by
  obtain ⟨h1, h2, h3⟩ := hs
  unfold linewidthSum isoPair
  rw [Finset.sum_comm, h2, Finset.mul_sum]
  refine Finset.sum_congr rfl fun i hi => ?_
  have hi' := Finset.mem_range.1 hi
  rw [run_value gaussian pi s sigma prodD i (by omega)]
  unfold isotopeLinewidth
  have e0 : isoF0 s i = s.frequencies (s.gridPoint * s.numBand + (i : Nat)) := by
    unfold isoF0; rw [h3 i hi']
  have e1 : isoE0 s i = fun c => s.eigenvectors
      (s.gridPoint * s.numBand * s.numBand + ((c * (3 * n) + i : Nat) : Int)) := by
    funext c
    unfold isoE0
    rw [h3 i hi']
    congr 1
    rw [h1]
    push_cast
    ring
  have e2 : ∀ q k, isoMode s q k = fun c => s.eigenvectors
      (s.irGridPoints q * s.numBand * s.numBand + ((c * (3 * n) + k : Nat) : Int)) := by
    intro q k
    funext c
    unfold isoMode
    congr 1
    rw [h1]
    push_cast
    ring
  have e3 : s.numBand / 3 = n := by omega
  rw [e3, e1, e0]
  simp only [e2, isoFreq]
  rw [h1]
  by_cases hc : s.frequencies (s.gridPoint * (n * 3 : Nat) + (i : Nat)) < s.cutoff
  · rw [if_pos hc]
    simp only [isoWeight, hc, true_or, if_true, zero_mul, Finset.sum_const_zero, zero_div, mul_zero]
  · rw [if_neg hc]
    simp only [isoWeight, hc, false_or, Finset.mul_sum, Finset.sum_div]
    refine Finset.sum_congr rfl fun q _ => Finset.sum_congr rfl fun k _ => ?_
    split
    · simp
    · simp only [← Finset.mul_sum]
      ring

section
variable {sqrt : K → K} {expi : K → Cplx K} {fc : Fc2Cell K} {recip : Nat → Nat → K} {lam : K → K}

/-- **C155 (choice of eigenvectors).** Whatever eigenvectors the solver returned at the grid point of
the run and at its partners, the sum over all modes of a function of the frequency times the
linewidth is the same. Two runs for one crystal. -/
theorem C155_choice (gaussian : K → K → K) (pi : K) (hlam : ∀ x y, lam x = lam y → x = y)
    (nac : Option (NacParams K)) {s : IsoArgs K} (hs : AllBands fc.numPatom s)
    {addresses : Int → V3} {D : V3} {Q : M3} {frequencies : Int → K} {eigenvectors : Int → Cplx K}
    (h0 : PhononsAt sqrt expi fc nac recip lam s.numBand s.frequencies s.eigenvectors addresses D Q
      s.gridPoint)
    (h0' : PhononsAt sqrt expi fc nac recip lam s.numBand frequencies eigenvectors addresses D Q
      s.gridPoint)
    (h : ∀ q < s.numGridPoints, PhononsAt sqrt expi fc nac recip lam s.numBand s.frequencies
      s.eigenvectors addresses D Q (s.irGridPoints q))
    (h' : ∀ q < s.numGridPoints, PhononsAt sqrt expi fc nac recip lam s.numBand frequencies
      eigenvectors addresses D Q (s.irGridPoints q)) (sigma prodD : K) (φ : K → K) :
    linewidthSum gaussian pi { s with frequencies := frequencies, eigenvectors := eigenvectors }
      sigma prodD φ = linewidthSum gaussian pi s sigma prodD φ := by
  rw [linewidthSum_pairs gaussian pi hs, linewidthSum_pairs (n := fc.numPatom) gaussian pi
    (s := { s with frequencies := frequencies, eigenvectors := eigenvectors }) hs]
  congr 1
  refine Finset.sum_congr rfl fun q hq => ?_
  have hq' := Finset.mem_range.1 hq
  exact isoPair_choice (C86_hermitian _ _ _ _ _ _ _ _) (C86_hermitian _ _ _ _ _ _ _ _) hlam h0 h0'
    (h q hq') (h' q hq') _ _

/-- A rotation of grid addresses that comes from an operation of the space group which takes atoms to
atoms of the same mass variance. -/
def IsotopeOperation (fc : Fc2Cell K) (mv : Nat → K) (D : V3) (Q R : M3) : Prop :=
  ∃ (W C : RM K) (g : Nat → Nat),
    (∀ a, (gridQ (R.mulVec a) D Q : Fin 3 → K) = turned (natRM W) (gridQ a D Q)) ∧
    IsSymmetry fc (natRM W) (natRM C) g ∧ ∀ l < fc.numPatom, mv (g l) = mv l

/-- Modes at all q-points can be turned along with the rotation of addresses, and pair sums keep. -/
def TurnsModes (sqrt : K → K) (expi : K → Cplx K) (fc : Fc2Cell K) (recip : Nat → Nat → K) (lam : K → K)
    (mv : Nat → K) (D : V3) (Q R : M3) : Prop :=
  ∃ T : (Int → Cplx K) → Int → Cplx K,
    (∀ a f v, ModesAt sqrt expi fc none recip lam (gridQ a D Q) f v →
      ModesAt sqrt expi fc none recip lam (gridQ (R.mulVec a) D Q) f (T v)) ∧
    ∀ f f' v v' Ψ, isoPair fc.numPatom mv f (T v) f' (T v') Ψ = isoPair fc.numPatom mv f v f' v' Ψ

theorem turnsModes_one (mv : Nat → K) (D : V3) (Q : M3) :
    TurnsModes sqrt expi fc recip lam mv D Q M3.one :=
  ⟨id, fun a f v h => by
    rwa [show M3.one.mulVec a = a by ext <;> simp [M3.one, M3.mulVec]], fun _ _ _ _ _ => rfl⟩

theorem turnsModes_operation {mv : Nat → K} {D : V3} {Q R : M3}
    (h : IsotopeOperation fc mv D Q R) : TurnsModes sqrt expi fc recip lam mv D Q R := by
  obtain ⟨W, C, g, hW, hs, hmv⟩ := h
  refine ⟨rotateEigvecs fc.numPatom (transposeRM C) g 1, fun a f v hm => ?_, fun f f' v v' Ψ =>
    isoPair_turned hs.orthogonal hs.atoms hmv f f' v v' Ψ⟩
  rw [hW]
  unfold ModesAt
  rw [natQ_turned]
  exact modes_turn sqrt expi hs none recip (fun p hp => nomatch hp) _ _ _ lam _ _ 1
    (by rw [mul_one, conj_one]) hm

theorem turnsModes_reversal (he : IsPhase expi) {mv : Nat → K} {D : V3} {Q S : M3}
    (h : TurnsModes sqrt expi fc recip lam mv D Q S) :
    TurnsModes sqrt expi fc recip lam mv D Q (M3.negOne.mul S) := by
  obtain ⟨T, h1, h2⟩ := h
  refine ⟨fun v x => conj (T v x), fun a f v hm => ?_, fun f f' v v' Ψ => by
    rw [isoPair_conj, h2]⟩
  have := modes_conj sqrt expi he.neg fc none recip (natQ (gridQ (S.mulVec a) D Q)) _ (fun _ => 0) lam
    _ _ (h1 a f v hm)
  have e : (gridQ ((M3.negOne.mul S).mulVec a) D Q : Fin 3 → K) =
      fun d => -gridQ (S.mulVec a) D Q d := by
    funext d
    rw [← gridQ_neg]
    congr 1
    ext <;> simp [M3.negOne, M3.mul, M3.mulVec] <;> ring
  rw [e]
  exact this

theorem phase_modulus (he : IsPhase expi) (x : K) : (conj (expi x)).normSq = 1 := by
  rw [normSq_conj]
  have h := he.add x (-x)
  rw [add_neg_cancel, he.zero, he.neg] at h
  have := congrArg Cplx.re h
  simp [conj] at this
  unfold Cplx.normSq
  linarith

/-- Pairs of grid points that a rotation takes into each other up to translations of the mesh. -/
theorem isoPair_equivalent (he : IsPhase expi) (hlam : ∀ x y, lam x = lam y → x = y)
    {τ : Nat → Fin 3 → K} (hτ : LatticeVectors fc fun j d => τ j (Fin.ofNat 3 d)) {numBand : Nat}
    {frequencies : Int → K} {eigenvectors : Int → Cplx K}
    {addresses : Int → V3} {D : V3} (hD : PosMesh D) {Q : M3} {mv : Nat → K} {R : M3}
    (hR : TurnsModes sqrt expi fc recip lam mv D Q R) {g g' k k' : Int}
    (hg : SamePoint D (addresses g') (R.mulVec (addresses g)))
    (hk : SamePoint D (addresses k') (R.mulVec (addresses k)))
    (h1 : PhononsAt sqrt expi fc none recip lam numBand frequencies eigenvectors addresses D Q g)
    (h1' : PhononsAt sqrt expi fc none recip lam numBand frequencies eigenvectors addresses D Q g')
    (h2 : PhononsAt sqrt expi fc none recip lam numBand frequencies eigenvectors addresses D Q k)
    (h2' : PhononsAt sqrt expi fc none recip lam numBand frequencies eigenvectors addresses D Q k')
    (Ψ : K → K → K) :
    isoPair fc.numPatom mv (fun b => frequencies (g' * numBand + b))
        (fun x => eigenvectors (g' * numBand * numBand + x))
        (fun b => frequencies (k' * numBand + b))
        (fun x => eigenvectors (k' * numBand * numBand + x)) Ψ =
      isoPair fc.numPatom mv (fun b => frequencies (g * numBand + b))
        (fun x => eigenvectors (g * numBand * numBand + x))
        (fun b => frequencies (k * numBand + b))
        (fun x => eigenvectors (k * numBand * numBand + x)) Ψ := by
  obtain ⟨T, hT, hT2⟩ := hR
  obtain ⟨z, hz⟩ := gridQ_same (K := K) hD Q hg
  obtain ⟨y, hy⟩ := gridQ_same (K := K) hD Q hk
  have m1 := modes_translate he hτ z (hT _ _ _ h1)
  have m2 := modes_translate he hτ y (hT _ _ _ h2)
  have m1' : ModesAt sqrt expi fc none recip lam
      (fun d => gridQ (R.mulVec (addresses g)) D Q d + z d)
      (fun b => frequencies (g' * numBand + b))
      (fun x => eigenvectors (g' * numBand * numBand + x)) := by
    rw [← funext hz]
    exact h1'
  have m2' : ModesAt sqrt expi fc none recip lam
      (fun d => gridQ (R.mulVec (addresses k)) D Q d + y d)
      (fun b => frequencies (k' * numBand + b))
      (fun x => eigenvectors (k' * numBand * numBand + x)) := by
    rw [← funext hy]
    exact h2'
  have key := isoPair_choice (C86_hermitian _ _ _ _ _ _ _ _) (C86_hermitian _ _ _ _ _ _ _ _) hlam m1 m1'
    m2 m2' mv Ψ
  refine key.trans ?_
  refine Eq.trans ?_ (hT2 _ _ _ _ _)
  exact isoPair_phases (n := fc.numPatom) mv _ _
    (T fun x => eigenvectors (g * numBand * numBand + x))
    (T fun x => eigenvectors (k * numBand * numBand + x)) Ψ
    (fun j => conj (expi (dot (fun d => (z d : K)) (τ j))))
    (fun j => conj (expi (dot (fun d => (y d : K)) (τ j)))) (fun _ => phase_modulus he _)
    fun _ => phase_modulus he _

/-- The partners of a run: one representative of each grid point of the mesh, in the order of their
indices. -/
def WholeGrid (s : IsoArgs K) (addresses : Int → V3) (D : V3) : Prop :=
  (s.numGridPoints : Int) = D.x * D.y * D.z ∧
  ∀ i < s.numGridPoints, SamePoint D (addresses (s.irGridPoints i)) (gridAddressFromIndex i D)

theorem sum_turned (he : IsPhase expi) (hlam : ∀ x y, lam x = lam y → x = y)
    {τ : Nat → Fin 3 → K} (hτ : LatticeVectors fc fun j d => τ j (Fin.ofNat 3 d))
    (gaussian : K → K → K) (pi : K) {s : IsoArgs K} (hs : AllBands fc.numPatom s)
    {addresses : Int → V3} {D : V3} (hD : PosMesh D) (hw : WholeGrid s addresses D) {Q : M3} {R : M3}
    (hR : TurnsModes sqrt expi fc recip lam s.massVariances D Q R) (hdet : R.det.natAbs = 1)
    (hm : MeshCompat D R) {gp' : Int}
    (hsame : SamePoint D (addresses gp') (R.mulVec (addresses s.gridPoint)))
    (h0 : PhononsAt sqrt expi fc none recip lam s.numBand s.frequencies s.eigenvectors addresses D Q
      s.gridPoint)
    (h0' : PhononsAt sqrt expi fc none recip lam s.numBand s.frequencies s.eigenvectors addresses D Q
      gp')
    (h : ∀ q < s.numGridPoints, PhononsAt sqrt expi fc none recip lam s.numBand s.frequencies
      s.eigenvectors addresses D Q (s.irGridPoints q)) (sigma prodD : K) (φ : K → K) :
    linewidthSum gaussian pi { s with gridPoint := gp' } sigma prodD φ =
      linewidthSum gaussian pi s sigma prodD φ := by
  rw [linewidthSum_pairs gaussian pi hs, linewidthSum_pairs (n := fc.numPatom) gaussian pi
    (s := { s with gridPoint := gp' }) hs]
  congr 1
  have hN := hw.1
  have hsc : ShiftCompat ⟨0, 0, 0⟩ R := by
    unfold ShiftCompat; simp [M3.mulVec]
  have bnd : ∀ g, 0 ≤ rotateGridIndex g R D ⟨0, 0, 0⟩ ∧ rotateGridIndex g R D ⟨0, 0, 0⟩ < D.x * D.y * D.z :=
    fun g => rotateGridIndex_bounds g R D ⟨0, 0, 0⟩ hD
  have perm : PermutesBelow s.numGridPoints fun i => (rotateGridIndex i R D ⟨0, 0, 0⟩).toNat := by
    refine ⟨fun i hi => ?_, fun i hi j hj hij => ?_⟩
    · have := bnd i
      show (rotateGridIndex i R D ⟨0, 0, 0⟩).toNat < _
      omega
    · have b1 := bnd i
      have b2 := bnd j
      have := (C03_rotation_bijective D ⟨0, 0, 0⟩ hD R hdet hm hsc).1 i j (by omega) (by omega)
        (by omega) (by omega) (by dsimp only at hij; omega)
      omega
  rw [← sum_permuted perm]
  refine Finset.sum_congr rfl fun q hq => ?_
  have hq' := Finset.mem_range.1 hq
  have b1 := bnd q
  have hlt : (rotateGridIndex q R D ⟨0, 0, 0⟩).toNat < s.numGridPoints := by omega
  have hrot : SamePoint D (addresses (s.irGridPoints (rotateGridIndex q R D ⟨0, 0, 0⟩).toNat))
      (R.mulVec (addresses (s.irGridPoints q))) := by
    have a1 := hw.2 _ hlt
    rw [Int.toNat_of_nonneg b1.1] at a1
    have a2 := ((C03_rotation_spec D ⟨0, 0, 0⟩ hD R hsc q _ b1.1 b1.2).2).1 rfl
    have a3 : SamePoint D (gridAddressFromIndex (rotateGridIndex q R D ⟨0, 0, 0⟩) D)
        (R.mulVec (gridAddressFromIndex q D)) := by
      obtain ⟨⟨a, ha⟩, ⟨b, hb⟩, ⟨c, hc⟩⟩ := a2
      simp only [V3.smul, V3.sub_x, V3.sub_y, V3.sub_z, V3.add_x, V3.add_y, V3.add_z, M3.mulVec,
        add_zero] at ha hb hc
      refine ⟨⟨a, ?_⟩, ⟨b, ?_⟩, ⟨c, ?_⟩⟩ <;>
        simp only [V3.sub_x, V3.sub_y, V3.sub_z, M3.mulVec]
      · linarith
      · linarith
      · linarith
    exact (a1.trans a3).trans ((hw.2 q hq').symm.mulVec hm)
  exact isoPair_equivalent he hlam hτ hD hR hsame hrot h0 h0' (h q hq') (h _ hlt) _

theorem reversed_det (S : M3) : (M3.negOne.mul S).det.natAbs = S.det.natAbs := by
  rw [M3.det_mul, Int.natAbs_mul]
  simp [M3.negOne, M3.det]

/-- **C155 (symmetry).** At grid points that an operation of the space group takes into each other,
with or without time reversal and up to translations of the mesh, the sum over all modes of a
function of the frequency times the isotope linewidth is the same. `_partial`: see
`C155_degenerate_modes`; the linewidths of single degenerate modes need not be the same. -/
theorem C155_symmetry_partial (he : IsPhase expi) (hlam : ∀ x y, lam x = lam y → x = y)
    {τ : Nat → Fin 3 → K} (hτ : LatticeVectors fc fun j d => τ j (Fin.ofNat 3 d))
    (gaussian : K → K → K) (pi : K) {s : IsoArgs K} (hs : AllBands fc.numPatom s)
    {addresses : Int → V3} {D : V3} (hw : WholeGrid s addresses D) {Q : M3}
    {rots : List M3} (hG : GridGroup rots D ⟨0, 0, 0⟩)
    (hrots : ∀ R ∈ rots, IsotopeOperation fc s.massVariances D Q R) {tr : Bool} {R : M3}
    (hR : R ∈ withTimeReversal rots tr) {gp' : Int}
    (hsame : SamePoint D (addresses gp') (R.mulVec (addresses s.gridPoint)))
    (h0 : PhononsAt sqrt expi fc none recip lam s.numBand s.frequencies s.eigenvectors addresses D Q
      s.gridPoint)
    (h0' : PhononsAt sqrt expi fc none recip lam s.numBand s.frequencies s.eigenvectors addresses D Q
      gp')
    (h : ∀ q < s.numGridPoints, PhononsAt sqrt expi fc none recip lam s.numBand s.frequencies
      s.eigenvectors addresses D Q (s.irGridPoints q)) (sigma prodD : K) (φ : K → K) :
    linewidthSum gaussian pi { s with gridPoint := gp' } sigma prodD φ =
      linewidthSum gaussian pi s sigma prodD φ := by
  have hdet : ∀ S ∈ rots, S.det.natAbs = 1 := by
    intro S hS
    obtain ⟨T, -, hT⟩ := hG.grp.inv_mem S hS
    have := congrArg M3.det hT
    rw [M3.det_mul, show M3.one.det = 1 from rfl] at this
    exact Int.isUnit_iff_natAbs_eq.1 (IsUnit.of_mul_eq_one _ (mul_comm _ T.det ▸ this))
  have hmem : R ∈ rots ∨ ∃ S ∈ rots, R = M3.negOne.mul S := by
    unfold withTimeReversal at hR
    split at hR
    · rcases List.mem_append.1 hR with h | h
      · exact Or.inl h
      · obtain ⟨S, hS, rfl⟩ := List.mem_map.1 h
        exact Or.inr ⟨S, hS, rfl⟩
    · exact Or.inl hR
  have hmesh := withTimeReversal_mesh hG tr R hR
  rcases hmem with hR' | ⟨S, hS, rfl⟩
  · exact sum_turned he hlam hτ gaussian pi hs hG.pos hw (turnsModes_operation (hrots R hR'))
      (hdet R hR') hmesh hsame h0 h0' h sigma prodD φ
  · exact sum_turned he hlam hτ gaussian pi hs hG.pos hw
      (turnsModes_reversal he (turnsModes_operation (hrots S hS)))
      (by rw [reversed_det, hdet S hS]) hmesh hsame h0 h0' h sigma prodD φ

/-- **C155 (translates).** Copies of a grid point on the surface of the Brillouin zone. -/
theorem C155_translate (he : IsPhase expi) (hlam : ∀ x y, lam x = lam y → x = y)
    {τ : Nat → Fin 3 → K} (hτ : LatticeVectors fc fun j d => τ j (Fin.ofNat 3 d))
    (gaussian : K → K → K) (pi : K) {s : IsoArgs K} (hs : AllBands fc.numPatom s)
    {addresses : Int → V3} {D : V3} (hD : PosMesh D) (hw : WholeGrid s addresses D) {Q : M3} {gp' : Int}
    (hsame : SamePoint D (addresses gp') (addresses s.gridPoint))
    (h0 : PhononsAt sqrt expi fc none recip lam s.numBand s.frequencies s.eigenvectors addresses D Q
      s.gridPoint)
    (h0' : PhononsAt sqrt expi fc none recip lam s.numBand s.frequencies s.eigenvectors addresses D Q
      gp')
    (h : ∀ q < s.numGridPoints, PhononsAt sqrt expi fc none recip lam s.numBand s.frequencies
      s.eigenvectors addresses D Q (s.irGridPoints q)) (sigma prodD : K) (φ : K → K) :
    linewidthSum gaussian pi { s with gridPoint := gp' } sigma prodD φ =
      linewidthSum gaussian pi s sigma prodD φ := by
  have e : ∀ a, M3.one.mulVec a = a := fun a => by ext <;> simp [M3.one, M3.mulVec]
  exact sum_turned he hlam hτ gaussian pi hs hD hw (turnsModes_one _ D Q) rfl
    (fun v hv => by rwa [e]) (by rwa [e]) h0 h0' h sigma prodD φ

/-- What the sums say of one mode: when no other mode at the two grid points has its frequency, the
linewidths themselves agree. -/
theorem C155_single_mode (gaussian : K → K → K) (pi sigma prodD : K) {s s' : IsoArgs K}
    (h : ∀ φ : K → K, linewidthSum gaussian pi s' sigma prodD φ = linewidthSum gaussian pi s sigma prodD φ)
    {i i' : Nat} (hi : i < s.numBand0) (hi' : i' < s'.numBand0) (hf : isoF0 s' i' = isoF0 s i)
    (hs : ∀ j < s.numBand0, isoF0 s j = isoF0 s i → j = i)
    (hs' : ∀ j < s'.numBand0, isoF0 s' j = isoF0 s' i' → j = i') :
    isoRunC gaussian pi s' sigma prodD i' = isoRunC gaussian pi s sigma prodD i := by
  have := h fun x => if x = isoF0 s i then 1 else 0
  unfold linewidthSum at this
  dsimp only at this
  rw [Finset.sum_eq_single i', Finset.sum_eq_single i] at this
  · rwa [if_pos hf, if_pos rfl, one_mul, one_mul] at this
  · intro j hj hne
    rw [if_neg fun e => hne (hs j (Finset.mem_range.1 hj) e), zero_mul]
  · exact fun hc => absurd (Finset.mem_range.2 hi) hc
  · intro j hj hne
    rw [if_neg fun e => hne (hs' j (Finset.mem_range.1 hj) (e.trans hf.symm)), zero_mul]
  · exact fun hc => absurd (Finset.mem_range.2 hi') hc

end

end
/-! ### Single degenerate modes -/

/-- Two atoms of the same mass, each in the same harmonic well. -/
def twinCell : Fc2Cell ℚ where
  numPatom := 2
  numSatom := 2
  fc2 := fun x => if x = 0 ∨ x = 4 ∨ x = 8 ∨ x = 27 ∨ x = 31 ∨ x = 35 then 2 else 0
  svecs := fun _ _ => 0
  multi := fun _ => (1, 0)
  mass := fun _ => 1
  p2s := fun i => i
  s2p := fun i => i

theorem twin_matrix (recip : Nat → Nat → ℚ) (q : Nat → ℚ) (mem : Int → Cplx ℚ) {i k j l : Nat}
    (hi : i < 2) (hk : k < 3) (hj : j < 2) (hl : l < 3) :
    dynBlock 2 (wangMatrix id (fun _ => 1) twinCell none recip q none mem) i k j l =
      if i = j ∧ k = l then ⟨2, 0⟩ else 0 := by
  have := C86_formula id (fun _ => (1 : Cplx ℚ)) twinCell none recip q none mem
    (i := i) (k := k) (j := j) (l := l) hi hk hj hl
  have hn1 : twinCell.numPatom = 2 := rfl
  rw [hn1] at this
  rw [this]
  simp only [fourierBlock, extraTerm, meanPhaseN, twinCell, fc2At]
  interval_cases i <;> interval_cases j <;> interval_cases k <;> interval_cases l <;>
    (ext <;> norm_num [Finset.sum_range_succ, Cplx.scale, conj])

/-- Every orthonormal set of six vectors is a set of modes. -/
theorem twin_modes (recip : Nat → Nat → ℚ) (q : Nat → ℚ) (mem : Int → Cplx ℚ) (v : Int → Cplx ℚ)
    (hv : ∀ b < 6, ∀ b' < 6, ∑ j ∈ range 2, ∑ l ∈ range 3,
      conj (v (((j * 3 + l) * 6 + b : Nat))) * v (((j * 3 + l) * 6 + b' : Nat)) =
        if b = b' then 1 else 0) :
    Modes 2 id (wangMatrix id (fun _ => 1) twinCell none recip q none mem) (fun _ => 2) v := by
  refine ⟨fun b hb i hi k hk => ?_, hv⟩
  have h : ∀ j ∈ range 2, ∀ l ∈ range 3, dynBlock 2 (wangMatrix id (fun _ => 1) twinCell none recip q none
      mem) i k j l * v (((j * 3 + l) * (3 * 2) + b : Nat)) = if l = k then (if j = i then
        (⟨2, 0⟩ : Cplx ℚ) * v (((i * 3 + k) * (3 * 2) + b : Nat)) else 0) else 0 := by
    intro j hj l hl
    rw [twin_matrix recip q mem hi hk (Finset.mem_range.1 hj) (Finset.mem_range.1 hl)]
    by_cases h1 : j = i
    · by_cases h2 : l = k
      · subst h1 h2; simp
      · rw [if_neg fun h => h2 h.2.symm, if_neg h2, zero_mul]
    · rw [if_neg fun h => h1 h.1.symm, if_neg h1, ite_self, zero_mul]
  dsimp only
  rw [Finset.sum_congr rfl fun j hj => Finset.sum_congr rfl (h j hj)]
  simp only [Finset.sum_ite_eq', Finset.mem_range, hi, hk, if_true]
  ext <;> simp [Cplx.scale, mul_comm]

/-- Modes localised at one atom each. -/
def twinLocal (x : Int) : Cplx ℚ :=
  if x % 36 = 0 ∨ x % 36 = 7 ∨ x % 36 = 14 ∨ x % 36 = 21 ∨ x % 36 = 28 ∨ x % 36 = 35 then 1 else 0

/-- The same with the first and the fourth of them mixed. -/
def twinMixed (x : Int) : Cplx ℚ :=
  if x % 36 = 0 then ⟨3 / 5, 0⟩ else if x % 36 = 18 then ⟨4 / 5, 0⟩
  else if x % 36 = 3 then ⟨-4 / 5, 0⟩ else if x % 36 = 21 then ⟨3 / 5, 0⟩
  else if x % 36 = 7 ∨ x % 36 = 14 ∨ x % 36 = 28 ∨ x % 36 = 35 then 1 else 0

/-- A run for all modes; only the first atom has isotopes. -/
def twinArgs : IsoArgs ℚ where
  gridPoint := 0
  irGridPoints := fun j => (j : Int)
  weights := fun _ => 1
  massVariances := fun l => if l = 0 then 1 / 10 else 0
  frequencies := fun _ => 2
  eigenvectors := twinLocal
  numGridPoints := 1
  bandIndices := fun i => (i : Int)
  numBand := 6
  numBand0 := 6
  cutoff := 1

theorem twin_orthonormal : (∀ b < 6, ∀ b' < 6, ∑ j ∈ range 2, ∑ l ∈ range 3,
      conj (twinLocal (((j * 3 + l) * 6 + b : Nat))) * twinLocal (((j * 3 + l) * 6 + b' : Nat)) =
        if b = b' then 1 else 0) ∧
    ∀ b < 6, ∀ b' < 6, ∑ j ∈ range 2, ∑ l ∈ range 3,
      conj (twinMixed (((j * 3 + l) * 6 + b : Nat))) * twinMixed (((j * 3 + l) * 6 + b' : Nat)) =
        if b = b' then 1 else 0 := by
  refine ⟨?_, ?_⟩ <;> decide +kernel

/-- **C155 (violation).** The linewidth of a single degenerate mode depends on which eigenvectors the
solver happened to return: two sets of eigenvectors of the same crystal at the same grid point give two
values for the first mode, and scattering or none for the fourth. -/
theorem C155_degenerate_modes :
    AllBands twinCell.numPatom twinArgs ∧
    (∀ gp, gp = 0 → ∀ ev ∈ [twinLocal, twinMixed], PhononsAt id (fun _ => 1) twinCell none
      (fun _ _ => 0) id twinArgs.numBand twinArgs.frequencies ev (fun _ => ⟨0, 0, 0⟩) ⟨1, 1, 1⟩
      M3.one gp) ∧
    isoRunC isoGauss 1 twinArgs 1 1 0 = 1 / 10 ∧
    isoRunC isoGauss 1 { twinArgs with eigenvectors := twinMixed } 1 1 0 = 9 / 250 ∧
    isoRunC isoGauss 1 twinArgs 1 1 3 = 0 ∧
    isoRunC isoGauss 1 { twinArgs with eigenvectors := twinMixed } 1 1 3 = 16 / 250 := by
  refine ⟨⟨rfl, rfl, fun _ _ => rfl⟩, ?_, by decide +kernel, by decide +kernel, by decide +kernel,
    by decide +kernel⟩
  rintro gp rfl ev hev
  have : ∀ ev : Int → Cplx ℚ, (fun x => ev (0 * (6 : Nat) * (6 : Nat) + x)) = ev := fun ev => by
    funext x; simp
  unfold PhononsAt
  have e : (fun x => ev (0 * (twinArgs.numBand : Int) * (twinArgs.numBand : Int) + x)) = ev := this ev
  rw [e]
  refine twin_modes _ _ _ ev ?_
  simp only [List.mem_cons, List.not_mem_nil, or_false] at hev
  rcases hev with rfl | rfl
  · exact twin_orthonormal.1
  · exact twin_orthonormal.2

/-- The sum agrees, as `C155_choice` says. -/
example (gaussian : ℚ → ℚ → ℚ) (pi sigma prodD : ℚ) (φ : ℚ → ℚ) :
    linewidthSum gaussian pi { twinArgs with eigenvectors := twinMixed } sigma prodD φ =
      linewidthSum gaussian pi twinArgs sigma prodD φ := by
  obtain ⟨h1, h2, -⟩ := C155_degenerate_modes
  have h := fun ev hev gp hgp => h2 gp hgp ev hev
  exact C155_choice (frequencies := twinArgs.frequencies) gaussian pi (fun _ _ h => h) none h1
    (h twinLocal (by simp) 0 rfl) (h twinMixed (by simp) 0 rfl)
    (fun q hq => h twinLocal (by simp) _ (by
      have : q < 1 := hq
      show ((q : Nat) : Int) = 0
      omega))
    (fun q hq => h twinMixed (by simp) _ (by
      have : q < 1 := hq
      show ((q : Nat) : Int) = 0
      omega)) sigma prodD φ

/-! ### Symmetry, a concrete case -/

/-- The six points of a mesh. -/
def sixPoints : BZGridOut where
  addresses := fun k => gridAddressFromIndex k exampleCubic.D
  gpMap := fun i => i
  bzg2grg := fun i => i
  size := 6

/-- A run at the point `(1, 1, 0)` for the crystal with one atom. -/
def sixArgs : IsoArgs ℚ where
  gridPoint := 4
  irGridPoints := fun j => (j : Int)
  weights := fun _ => 1
  massVariances := fun _ => 1 / 10
  frequencies := (pointSetting sixPoints).frequencies
  eigenvectors := (pointSetting sixPoints).eigenvectors
  numGridPoints := 6
  bandIndices := fun i => (i : Int)
  numBand := 3
  numBand0 := 3
  cutoff := 1

/-- C155: the hypotheses of `C155_symmetry_partial` hold; the two-fold axis with time reversal takes the
point `(1, 1, 0)` to `(2, 1, 0)`. -/
example (gaussian : ℚ → ℚ → ℚ) (pi sigma prodD : ℚ) (φ : ℚ → ℚ) :
    linewidthSum gaussian pi { sixArgs with gridPoint := 5 } sigma prodD φ =
      linewidthSum gaussian pi sixArgs sigma prodD φ := by
  have hp : ∀ gp, PhononsAt id (fun _ => 1) pointCell none (fun _ _ => 0) id sixArgs.numBand
      sixArgs.frequencies sixArgs.eigenvectors sixPoints.addresses exampleCubic.D exampleCubic.Q gp :=
    fun gp => point_phonons sixPoints gp
  refine C155_symmetry_partial (sqrt := id) (expi := fun _ => 1) (fc := pointCell) (s := sixArgs)
    (recip := fun _ _ => 0) (lam := id) (addresses := sixPoints.addresses) (D := exampleCubic.D)
    (Q := exampleCubic.Q) (rots := exampleTwoFold) (tr := true)
    (R := M3.negOne.mul ⟨1, 0, 0, 0, -1, 0, 0, 0, -1⟩)
    ⟨rfl, fun _ _ => by ext <;> simp, fun _ => by ext <;> simp [conj], fun _ => rfl⟩ (fun _ _ h => h)
    (τ := fun _ _ => 0) (fun _ _ _ _ _ _ _ _ _ _ _ => ⟨0, by simp [pointCell]⟩) gaussian pi
    ⟨rfl, rfl, fun _ _ => rfl⟩ ⟨by decide, fun i _ => SamePoint.refl _ _⟩
    { pos := by decide
      grp := ⟨by decide, by decide, by decide⟩
      mesh := by
        intro R hR v ⟨⟨a, ha⟩, ⟨b, hb⟩, ⟨c, hc⟩⟩
        simp only [exampleTwoFold, List.mem_cons, List.not_mem_nil, or_false] at hR
        rcases hR with rfl | rfl
        · exact ⟨⟨a, by simp [M3.one, M3.mulVec, ha]⟩, ⟨b, by simp [M3.one, M3.mulVec, hb]⟩,
            ⟨c, by simp [M3.one, M3.mulVec, hc]⟩⟩
        · exact ⟨⟨a, by simp [M3.mulVec, ha]⟩, ⟨-b, by simp [M3.mulVec, hb]⟩,
            ⟨-c, by simp [M3.mulVec, hc]⟩⟩
      shift := by decide }
    (fun R hR => by
      obtain ⟨W, C, g, h1, h2, -⟩ := point_operation hR
      exact ⟨W, C, g, h1, h2, fun _ _ => rfl⟩)
    (by simp [withTimeReversal, exampleTwoFold]) (by unfold SamePoint; decide)
    (hp _) (hp _) (fun q _ => hp _) sigma prodD φ

example : gridAddressFromIndex 4 exampleCubic.D = ⟨1, 1, 0⟩ ∧
    gridAddressFromIndex 5 exampleCubic.D = ⟨2, 1, 0⟩ ∧
    isoRunC isoGauss 1 sixArgs 1 1 0 = 6 / 10 := by decide +kernel

/-- `isoExample` with its two bands in the other order. -/
def isoSwapped : IsoArgs ℚ := { isoExample with bandIndices := fun i => if i = 0 then 0 else 1 }

/-- C155: modes without degenerate companions in `C155_single_mode`. -/
example : isoRunC isoGauss 1 isoSwapped 1 2 0 = isoRunC isoGauss 1 isoExample 1 2 1 := by
  have v : isoRunC isoGauss 1 isoSwapped 1 2 0 = isoRunC isoGauss 1 isoExample 1 2 1 ∧
      isoRunC isoGauss 1 isoSwapped 1 2 1 = isoRunC isoGauss 1 isoExample 1 2 0 ∧
      isoF0 isoSwapped 0 = isoF0 isoExample 1 ∧ isoF0 isoSwapped 1 = isoF0 isoExample 0 := by
    decide +kernel
  refine C155_single_mode isoGauss 1 1 2 (fun φ => ?_) (by decide) (by decide) (by decide +kernel)
    (by decide +kernel) (by decide +kernel)
  have h1 : isoSwapped.numBand0 = 2 := rfl
  have h2 : isoExample.numBand0 = 2 := rfl
  unfold linewidthSum
  rw [h1, h2, Finset.sum_range_succ, Finset.sum_range_one, Finset.sum_range_succ, Finset.sum_range_one,
    v.1, v.2.1, v.2.2.1, v.2.2.2, add_comm]

end Phono3py.Props
