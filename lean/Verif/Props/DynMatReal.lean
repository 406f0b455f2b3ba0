import Verif.Props.DynMat
import Mathlib.Analysis.SpecialFunctions.Trigonometric.Basic
import Mathlib.Analysis.SpecialFunctions.Sqrt

/-!
# The dynamical matrix with real numbers

The functions that the model leaves open, taken to be the real square root, exponential, cosine and
sine, have the properties assumed in the theorems.  Concrete cells meet the hypotheses.
-/

namespace Phono3py
namespace Props

open Finset Spec

/-- `cos(2 pi x) + i sin(2 pi x)`. -/
noncomputable def realPhase (x : ℝ) : Cplx ℝ :=
  ⟨Real.cos (2 * Real.pi * x), Real.sin (2 * Real.pi * x)⟩

theorem realPhase_isPhase : IsPhase realPhase where
  zero := by ext <;> simp [realPhase]
  add x y := by
    ext
    · simp [realPhase, mul_add, Real.cos_add]
    · simp [realPhase, mul_add, Real.sin_add]
  neg x := by ext <;> simp [realPhase, conj]
  int z := by
    ext
    · simp only [realPhase, Cplx.one_re]
      rw [mul_comm]
      exact Real.cos_int_mul_two_pi z
    · simp only [realPhase, Cplx.one_im]
      rw [show 2 * Real.pi * (z : ℝ) = ((2 * z : ℤ) : ℝ) * Real.pi by push_cast; ring]
      exact Real.sin_int_mul_pi _

theorem realSqrt_isSqrt : IsSqrt Real.sqrt where
  nonneg := Real.sqrt_nonneg
  sq _ h := Real.mul_self_sqrt h

/-- A chain of two atoms with masses 1 and 4 and springs between neighbours, in a supercell of two
primitive cells.  Supercell atoms 0 and 2 are atom 0 of the primitive cell, 1 and 3 are atom 1.  Only
motion along the chain costs energy. -/
noncomputable def springChain : Fc2Cell ℝ where
  numPatom := 2
  numSatom := 4
  fc2 a :=
    if a = fc2At 4 0 0 0 0 ∨ a = fc2At 4 1 1 0 0 then 2
    else if a = fc2At 4 0 1 0 0 ∨ a = fc2At 4 0 3 0 0 ∨ a = fc2At 4 1 0 0 0 ∨ a = fc2At 4 1 2 0 0
      then -1 else 0
  svecs a d :=
    if d = 0 then
      (if a = 0 then 0 else if a = 1 then -1 / 2 else if a = 2 then 1 / 2 else if a = 3 then 0
      else if a = 4 then 1 else if a = 5 then -1 else if a = 6 then 1 / 2 else if a = 7 then -1 / 2
      else if a = 8 then -1 / 2 else if a = 9 then 1 else -1)
    else 0
  multi a := if a = 4 then (2, 4) else if a = 7 then (2, 9)
    else if a = 5 then (1, 6) else if a = 6 then (1, 8) else (1, a)
  mass i := if i = 0 then 1 else 4
  p2s i := i
  s2p s := if s = 0 ∨ s = 2 then 0 else 1

theorem springChain_good : GoodCell springChain where
  inj := by
    intro i _ j _ h
    exact Int.ofNat_inj.1 h
  cover := by
    intro s hs
    by_cases h : s = 0 ∨ s = 2
    · exact ⟨0, by decide, by simp [springChain, h]⟩
    · exact ⟨1, by decide, by simp [springChain, h]⟩
  vecs := by
    intro i hi s hs
    simp only [springChain] at *
    split_ifs <;> simp
  mass := by
    intro i hi
    simp only [springChain]
    split_ifs <;> norm_num

theorem springChain_noDrift : NoDrift springChain where
  second := by
    intro i hi k hk l hl
    have hi : i = 0 ∨ i = 1 := by have : springChain.numPatom = 2 := rfl; omega
    have hk : k = 0 ∨ k = 1 ∨ k = 2 := by omega
    have hl : l = 0 ∨ l = 1 ∨ l = 2 := by omega
    rcases hi with rfl | rfl <;> rcases hk with rfl | rfl | rfl <;> rcases hl with rfl | rfl | rfl <;>
      simp [springChain, Finset.sum_range_succ, fc2At] <;> norm_num
  first := by
    intro i hi k hk l hl
    have hi : i = 0 ∨ i = 1 := by have : springChain.numPatom = 2 := rfl; omega
    have hk : k = 0 ∨ k = 1 ∨ k = 2 := by omega
    have hl : l = 0 ∨ l = 1 ∨ l = 2 := by omega
    rcases hi with rfl | rfl <;> rcases hk with rfl | rfl | rfl <;> rcases hl with rfl | rfl | rfl <;>
      simp [springChain, Finset.sum_range_succ, fc2At] <;> norm_num

/-- Hypotheses of `C88_acoustic`. -/
example (mem : Int → Cplx ℝ) : EigenPair 2 (wangMatrix Real.sqrt realPhase springChain none
    (fun _ _ => 0) (fun _ => 0) none mem) 0 (rigid Real.sqrt springChain 0) :=
  C88_acoustic realSqrt_isSqrt realPhase_isPhase.zero springChain_good springChain_noDrift _ _ _ (by decide)

/-- Opposite charges of the two atoms. -/
noncomputable def chainNac : NacParams ℝ where
  born j m k := if m = k then (if j = 0 then 1 else -1) else 0
  dielectric m k := if m = k then 2 else 0
  factor := 3

/-- Hypotheses of `C88_acoustic_wang`. -/
example (mem : Int → Cplx ℝ) : EigenPair 2 (wangMatrix Real.sqrt realPhase springChain (some chainNac)
    (fun i j => if i = j then 1 else 0) (fun _ => 0) (some fun _ => 1) mem) 0
    (rigid Real.sqrt springChain 2) := by
  refine C88_acoustic_wang realSqrt_isSqrt realPhase_isPhase.zero springChain_good springChain_noDrift chainNac
    ?_ (N := 2) ?_ _ _ _ (by decide)
  · intro m _ k _
    simp only [springChain, chainNac, Finset.sum_range_succ, Finset.sum_range_zero]
    split <;> norm_num
  · intro j hj
    have hj : j = 0 ∨ j = 1 := by have : springChain.numPatom = 2 := rfl; omega
    rcases hj with rfl | rfl <;>
      (simp only [springChain, Finset.sum_range_succ, Finset.sum_range_zero]; norm_num)

/-- Hypotheses of `C89_blocks` and `C89_spectrum`. -/
example : LatticeVectors springChain (fun i d => if i = 1 ∧ d = 0 then 1 / 2 else 0) := by
  intro i hi j hj s hs h x hx d hd
  have hi : i = 0 ∨ i = 1 := by have : springChain.numPatom = 2 := rfl; omega
  have hj : j = 0 ∨ j = 1 := by have : springChain.numPatom = 2 := rfl; omega
  have hs : s = 0 ∨ s = 1 ∨ s = 2 ∨ s = 3 := by have : springChain.numSatom = 4 := rfl; omega
  by_cases hd0 : d = 0
  · subst hd0
    rcases hi with rfl | rfl <;> rcases hj with rfl | rfl <;> rcases hs with rfl | rfl | rfl | rfl <;>
      simp [springChain] at h hx ⊢
    all_goals
      first
      | (subst hx; refine ⟨0, ?_⟩; norm_num; done)
      | (subst hx; refine ⟨-1, ?_⟩; norm_num; done)
      | (subst hx; refine ⟨1, ?_⟩; norm_num; done)
      | (have hx : x = 0 ∨ x = 1 := by omega
         rcases hx with rfl | rfl
         · exact ⟨1, by norm_num⟩
         · exact ⟨-1, by norm_num⟩)
  · exact ⟨0, by simp [springChain, hd0]⟩

/-- Two opposite reciprocal-lattice points, and atoms at `0`, `1/2`, `1/4`. -/
noncomputable def twoPoints : DipoleSum ℝ where
  numG := 2
  bigG g d := if d = 0 then (if g = 0 then 1 else -1) else 0
  pos i d := if d = 0 then (if i = 1 then 1 / 2 else if i = 2 then 1 / 4 else 0) else 0
  lambda := 1
  tolerance := 1 / 100000

theorem twoPoints_norm (g : Nat) : dotN (twoPoints.bigG g) (twoPoints.bigG g) = 1 := by
  simp only [dotN, twoPoints, Finset.sum_range_succ, Finset.sum_range_zero]
  split_ifs <;> norm_num at *

theorem twoPoints_short : OnlyZeroShort Real.sqrt twoPoints := by
  intro g _ h
  rw [twoPoints_norm, Real.sqrt_one] at h
  norm_num [twoPoints] at h

/-- Hypotheses of `C87_reversal_gonze`. -/
theorem twoPoints_symmetric : SymmetricList twoPoints (fun g => 1 - g) := by
  intro g hg
  have hg : g = 0 ∨ g = 1 := by have : twoPoints.numG = 2 := rfl; omega
  have h2 : twoPoints.numG = 2 := rfl
  refine ⟨?_, ?_, ?_⟩
  · beta_reduce
    omega
  · beta_reduce
    omega
  · intro d _
    by_cases hd : d = 0 <;> rcases hg with rfl | rfl <;> simp [twoPoints, hd]

/-- The factor of `K K` at both points. -/
theorem twoPoints_kk (eps : Nat → Nat → ℝ) (heps : eps 0 0 = 1) (g k l : Nat) :
    kk Real.sqrt Real.exp eps twoPoints.lambda twoPoints.tolerance (fun _ => 0) none
      (twoPoints.bigG g) k l = if k = 0 ∧ l = 0 then Real.exp (-1 / 4) else 0 := by
  have hn : (sumLoop 3 fun d => (twoPoints.bigG g d + 0) * (twoPoints.bigG g d + 0)) = 1 := by
    simp only [add_zero, sumLoop_eq]
    exact twoPoints_norm g
  have hp : dielectricPart (fun d => twoPoints.bigG g d + 0) eps = 1 := by
    rw [dielectricPart_eq]
    by_cases hg : g = 0 <;> simp [quadForm, twoPoints, Finset.sum_range_succ, heps, hg]
  unfold kk
  dsimp only
  rw [hn, hp, Real.sqrt_one, if_neg (by norm_num [twoPoints])]
  by_cases hk : k = 0 <;> by_cases hl : l = 0 <;> simp [hk, hl, twoPoints]
  split_ifs <;> norm_num

theorem twoPoints_sum (eps : Nat → Nat → ℝ) (heps : eps 0 0 = 1) (i k j l : Nat) :
    ddSum Real.sqrt Real.exp realPhase twoPoints eps (fun _ => 0) none i k j l =
      if k = 0 ∧ l = 0 then
        ⟨2 * Real.cos (2 * Real.pi * (twoPoints.pos i 0 - twoPoints.pos j 0)) * Real.exp (-1 / 4), 0⟩
      else 0 := by
  unfold ddSum
  simp only [twoPoints_kk eps heps]
  split
  · have h2 : twoPoints.numG = 2 := rfl
    have hx : ∀ g, ∑ d ∈ range 3, (twoPoints.pos i d - twoPoints.pos j d) * twoPoints.bigG g d =
        (twoPoints.pos i 0 - twoPoints.pos j 0) * (if g = 0 then 1 else -1) := by
      intro g
      simp [twoPoints, Finset.sum_range_succ]
    simp only [h2, hx]
    generalize twoPoints.pos i 0 - twoPoints.pos j 0 = x
    ext
    · simp [Finset.sum_range_succ, realPhase, Cplx.scale]
      ring
    · simp [Finset.sum_range_succ, realPhase, Cplx.scale]
  · have : ∀ z : Cplx ℝ, z.scale 0 = 0 := by
      intro z
      ext <;> simp [Cplx.scale]
    simp only [this]
    simp

/-- Charges of three atoms, adding up to zero. -/
noncomputable def threeNac : NacParams ℝ where
  born j m k :=
    if m = 0 then
      (if j = 0 then (if k = 0 ∨ k = 1 then -1 else 0)
       else if j = 1 then (if k = 0 then 1 else 0) else (if k = 1 then 1 else 0))
    else 0
  dielectric m k := if m = k then 1 else 0
  factor := 1

/-- Three atoms that do not interact but for their charges. -/
noncomputable def threeAtoms : Fc2Cell ℝ where
  numPatom := 3
  numSatom := 3
  fc2 _ := 0
  svecs _ _ := 0
  multi _ := (1, 0)
  mass _ := 1
  p2s i := i
  s2p i := i

theorem threeAtoms_good : GoodCell threeAtoms where
  inj _ _ _ _ h := Int.ofNat_inj.1 h
  cover s hs := ⟨s, hs, rfl⟩
  vecs _ _ _ _ := Nat.one_pos
  mass _ _ := one_pos

theorem threeAtoms_noDrift : NoDrift threeAtoms where
  second := by simp [threeAtoms]
  first := by simp [threeAtoms]

theorem threeNac_neutral : ∀ m < 3, ∀ k < 3, ∑ j ∈ range threeAtoms.numPatom,
    threeNac.born j m k = 0 := by
  intro m _ k hk
  have : threeAtoms.numPatom = 3 := rfl
  rw [this]
  have hk : k = 0 ∨ k = 1 ∨ k = 2 := by omega
  rcases hk with rfl | rfl | rfl <;> simp [threeNac, Finset.sum_range_succ]

theorem rowSum_eq (np : Nat) (p : NacParams ℝ) (heps : p.dielectric 0 0 = 1) {i k l : Nat}
    (hi : i < np) (hk : k < 3) (hl : l < 3) :
    dipoleQ0Sum Real.sqrt Real.exp realPhase np twoPoints p (i * 9 + k * 3 + l : Nat) =
      ∑ j ∈ range np,
        (⟨2 * Real.cos (2 * Real.pi * (twoPoints.pos i 0 - twoPoints.pos j 0)) *
          Real.exp (-1 / 4) * (p.born i 0 k * p.born j 0 l), 0⟩ : Cplx ℝ) := by
  rw [dipoleQ0Sum_entry _ _ _ _ _ _ hi hk hl]
  refine Finset.sum_congr rfl fun j hj => ?_
  rw [Finset.mem_range] at hj
  rw [multiplyBorns_block _ _ _ hi hk hj hl]
  have : ∀ m ∈ range 3, ∀ n ∈ range 3, (dynBlock np (getDd Real.sqrt Real.exp realPhase np twoPoints
      p.dielectric (fun _ => 0) none) i m j n).scale (p.born i m k * p.born j n l) =
      if m = 0 ∧ n = 0 then
        (⟨2 * Real.cos (2 * Real.pi * (twoPoints.pos i 0 - twoPoints.pos j 0)) *
          Real.exp (-1 / 4) * (p.born i 0 k * p.born j 0 l), 0⟩ : Cplx ℝ) else 0 := by
    intro m hm n hn
    rw [Finset.mem_range] at hm hn
    rw [getDd_block _ _ _ _ _ _ _ _ hi hm hj hn, twoPoints_sum _ heps]
    split
    · next h =>
      rw [h.1, h.2]
      ext <;> simp [Cplx.scale]
    · ext <;> simp [Cplx.scale]
  rw [Finset.sum_congr rfl fun m hm => Finset.sum_congr rfl (this m hm)]
  simp [Finset.sum_range_succ]

/-- C88 fails for the correction of Gonze and Lee: force constants without drift, neutral charges
and a symmetric list of reciprocal-lattice points, and yet a rigid translation is not a solution with
frequency zero. -/
theorem C88_gonze_not_acoustic (mem : Int → Cplx ℝ) :
    GoodCell threeAtoms ∧ NoDrift threeAtoms ∧
      (∀ m < 3, ∀ k < 3, ∑ j ∈ range threeAtoms.numPatom, threeNac.born j m k = 0) ∧
      OnlyZeroShort Real.sqrt twoPoints ∧ SymmetricList twoPoints (fun g => 1 - g) ∧
      ¬EigenPair threeAtoms.numPatom (gonzeMatrix Real.sqrt Real.exp realPhase threeAtoms threeNac
        twoPoints (dipoleQ0 Real.sqrt Real.exp realPhase threeAtoms.numPatom twoPoints threeNac)
        (fun i j => if i = j then 1 else 0) (fun _ => 0) none mem) 0
        (rigid Real.sqrt threeAtoms 1) := by
  refine ⟨threeAtoms_good, threeAtoms_noDrift, threeNac_neutral, twoPoints_short,
    twoPoints_symmetric, ?_⟩
  intro h
  have h1 := h 0 (by decide) 0 (by decide)
  rw [gonze_residual realSqrt_isSqrt realPhase_isPhase.zero threeAtoms_good threeAtoms_noDrift
    threeNac threeNac_neutral twoPoints twoPoints_short _ _ _ (by decide) (by decide) (by decide)] at h1
  have hnp : threeAtoms.numPatom = 3 := rfl
  rw [hnp, rowSum_eq 3 threeNac (by simp [threeNac]) (by decide) (by decide) (by decide),
    rowSum_eq 3 threeNac (by simp [threeNac]) (by decide) (by decide) (by decide)] at h1
  have h2 := congrArg Cplx.re h1
  have he := Real.exp_pos (-1 / 4)
  simp [Finset.sum_range_succ, threeNac, twoPoints, Cplx.scale, conj, rigid, threeAtoms] at h2
  have hq : Real.cos (2 * Real.pi * 4⁻¹) = 0 := by
    rw [show 2 * Real.pi * 4⁻¹ = Real.pi / 2 by ring, Real.cos_pi_div_two]
  have hp : Real.cos (2 * Real.pi * 2⁻¹) = -1 := by
    rw [show 2 * Real.pi * 2⁻¹ = Real.pi by ring, Real.cos_pi]
  rw [hq, hp] at h2
  linarith

/-- Hypotheses of `C88_acoustic_gonze_partial`: two atoms with opposite charges. -/
example (mem : Int → Cplx ℝ) :
    let p : NacParams ℝ := { chainNac with dielectric := fun m k => if m = k then 1 else 0 }
    EigenPair springChain.numPatom (gonzeMatrix Real.sqrt Real.exp realPhase springChain p twoPoints
      (dipoleQ0 Real.sqrt Real.exp realPhase springChain.numPatom twoPoints p)
      (fun i j => if i = j then 1 else 0) (fun _ => 0) (some fun _ => 1) mem) 0
      (rigid Real.sqrt springChain 0) := by
  intro p
  have hnp : springChain.numPatom = 2 := rfl
  refine C88_acoustic_gonze_partial realSqrt_isSqrt realPhase_isPhase.zero springChain_good springChain_noDrift
    p ?_ twoPoints twoPoints_short ?_ _ _ _ (by decide)
  · intro m _ k _
    rw [hnp]
    simp only [p, chainNac, Finset.sum_range_succ, Finset.sum_range_zero]
    split <;> norm_num
  · intro i hi k hk l hl
    rw [rowSum_eq _ p (by simp [p]) hi hk hl, rowSum_eq _ p (by simp [p]) hi hl hk, hnp]
    ext
    · simp only [Finset.sum_range_succ, Finset.sum_range_zero, conj, p, chainNac, Cplx.add_re,
        Cplx.zero_re]
      split_ifs <;> ring
    · simp [Finset.sum_range_succ, conj]

/-- Hypotheses of `C92_compact`: the primitive cell is atom 1 of a supercell of two atoms. -/
example : (1 ≠ 2) ∧ (∀ i < 1, ∀ s < 2, ∀ a < 3, ∀ b < 3,
      (fun x : Int => (x + 18 : ℝ)) (fc2At 2 (i : Nat) s a b) =
        (fun x : Int => (x : ℝ)) (fc2At 2 ((fun _ => 1 : Nat → Int) i) s a b)) ∧
    (∀ i < 1, ∀ j < 1, (fun _ => 1 : Nat → Int) i = (fun _ => 1 : Nat → Int) j → i = j) ∧
    (∀ i < 1, (fun _ => 0 : Int → Int) ((fun _ => 1 : Nat → Int) i) = i) ∧
    ∀ s < 2, ∃ j < 1, (fun _ : Nat => (1 : Int)) s = (fun _ => 1 : Nat → Int) j := by
  refine ⟨by decide, ?_, by omega, ?_, ?_⟩
  · intro i hi s _ a _ b _
    have : i = 0 := by omega
    subst this
    simp only [fc2At]
    push_cast
    ring
  · intro i hi
    have : i = 0 := by omega
    subst this
    rfl
  · intro s _
    exact ⟨0, by decide, rfl⟩

end Props
end Phono3py
