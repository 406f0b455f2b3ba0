/- Mode Grueneisen parameters: C101 to C104. -/
import Verif.Spec.Gruneisen
import Verif.Lemmas.DynMat
import Verif.Lemmas.Gruneisen
import Verif.Props.DynMat
import Verif.Props.RealSelfEnergy
import Mathlib.Tactic.Linarith
import Mathlib.Tactic.LinearCombination
import Mathlib.Tactic.FieldSimp

namespace Phono3py.Props
open Phono3py.Spec Finset

section
variable {K : Type} [Field K] [LinearOrder K] [IsStrictOrderedRing K]

theorem grunR_eq (c : GrunCell K) (ν N k : Nat) : grunR c ν N k = meanVector c ν N k := by
  simp only [grunR, meanVector, sumLoop_eq]

theorem grunPhase_eq (expi : K → Cplx K) (c : GrunCell K) (q : Nat → K) (ν P : Nat) :
    grunPhase expi c q ν P = pairPhase expi c.toFc2Cell q ν P := by
  rw [pairPhase_eq]
  simp only [grunPhase, meanPhaseN, sumLoop_eq, dotN, mul_comm]

/-- Linear in the strain: the change of force constants under a strained configuration. -/
theorem grunDPhi_contract (c : GrunCell K) (X : Nat → Nat → Nat → Nat → K) (ε : Nat → Nat → K)
    (ν P i j : Nat) :
    contract (grunDPhi c X ν P i j) ε = fc2Change c (strained c X ε ν) ν P i j := by
  simp only [contract, grunDPhi, fc2Change, sumLoop_eq, Finset.sum_mul]
  have h1 : ∀ M, ∀ a ∈ range 3, c.fc3 (c.p2s ν) P M i j a * strained c X ε ν M a =
      ∑ k ∈ range 3, ∑ l ∈ range 3, c.fc3 (c.p2s ν) P M i j a * grunY c X ν M a k l * ε k l := by
    intro M a ha
    simp only [strained, grunY, grunR_eq]
    have h2 : ∑ b ∈ range 3, ε a b * meanVector c ν M b =
        ∑ k ∈ range 3, ∑ l ∈ range 3, (if a = k then meanVector c ν M l else 0) * ε k l := by
      refine ((sum_one (Finset.mem_range.1 ha) (fun k => ∑ l ∈ range 3,
        (if a = k then meanVector c ν M l else 0) * ε k l) ?_).trans ?_).symm
      · intro k _ hk
        simp [Ne.symm hk]
      · simp [mul_comm]
    rw [h2, ← Finset.sum_add_distrib, Finset.mul_sum]
    refine Finset.sum_congr rfl fun k _ => ?_
    rw [← Finset.sum_add_distrib, Finset.mul_sum]
    refine Finset.sum_congr rfl fun l _ => ?_
    ring
  have h3 : ∀ M, ∑ a ∈ range 3, c.fc3 (c.p2s ν) P M i j a * strained c X ε ν M a =
      ∑ a ∈ range 3, ∑ k ∈ range 3, ∑ l ∈ range 3,
        c.fc3 (c.p2s ν) P M i j a * grunY c X ν M a k l * ε k l :=
    fun M => Finset.sum_congr rfl (h1 M)
  simp only [h3]
  simp only [Finset.sum_range_succ, Finset.sum_range_zero, Finset.sum_add_distrib, zero_add]
  ring

theorem grunDD_eq (sqrt : K → K) (expi : K → Cplx K) (c : GrunCell K)
    (X : Nat → Nat → Nat → Nat → K) (q : Nat → K) (ν π i j k l : Nat) :
    grunDD sqrt expi c X q ν π i j k l = (∑ P ∈ range c.numSatom, if c.s2p P = c.p2s π then
      (pairPhase expi c.toFc2Cell q ν P).scale (grunDPhi c X ν P i j k l) else 0).scale
        (1 / sqrt (c.mass ν * c.mass π)) := by
  unfold grunDD
  congr 1
  have : ∀ (n : Nat) (z : Cplx K), (List.range n).foldl (fun s P =>
      if c.s2p P = c.p2s π then
        s + (grunPhase expi c q ν P).scale (grunDPhi c X ν P i j k l) else s) z =
      z + ∑ P ∈ range n, if c.s2p P = c.p2s π then
        (pairPhase expi c.toFc2Cell q ν P).scale (grunDPhi c X ν P i j k l) else 0 := by
    intro n z
    induction n with
    | zero => simp
    | succ n ih =>
      rw [List.range_succ, List.foldl_append, ih, Finset.sum_range_succ]
      simp only [List.foldl_cons, List.foldl_nil, grunPhase_eq]
      split_ifs
      · rw [add_assoc]
      · rw [add_zero]
  rw [this, zero_add]

theorem scale_add (z w : Cplx K) (r : K) : (z + w).scale r = z.scale r + w.scale r := by
  ext <;> simp [Cplx.scale] <;> ring

theorem scale_scale (z : Cplx K) (r s : K) : (z.scale r).scale s = z.scale (r * s) := by
  ext <;> simp [Cplx.scale] <;> ring

theorem scale_distrib (z : Cplx K) (r s : K) : z.scale (r + s) = z.scale r + z.scale s := by
  ext <;> simp [Cplx.scale] <;> ring

/-- The matrix before Hermitization changes by `t` times the contracted derivative. -/
theorem rawBlock_strained (sqrt : K → K) (expi : K → Cplx K) (c : GrunCell K)
    (charge : Option (Nat → Nat → Nat → K)) (X : Nat → Nat → Nat → Nat → K) (q : Nat → K)
    (ε : Nat → Nat → K) (t : K) (f : Int → K)
    (hf : ∀ ν < c.numPatom, ∀ P < c.numSatom, ∀ i < 3, ∀ j < 3,
      f (fc2At c.numSatom (c.p2s ν) P i j) = c.fc2 (fc2At c.numSatom (c.p2s ν) P i j) +
        t * fc2Change c (strained c X ε ν) ν P i j)
    {ν i π j : Nat} (hν : ν < c.numPatom) (hi : i < 3) (hj : j < 3) :
    rawBlock sqrt expi { c.toFc2Cell with fc2 := f } charge q ν i π j =
      rawBlock sqrt expi c.toFc2Cell charge q ν i π j +
        (∑ k ∈ range 3, ∑ l ∈ range 3,
          (grunDD sqrt expi c X q ν π i j k l).scale (ε k l)).scale t := by
  have hraw : ∀ c' : Fc2Cell K, rawBlock sqrt expi c' charge q ν i π j =
      (∑ s ∈ range c'.numSatom, if c'.s2p s = c'.p2s π then
        (pairPhase expi c' q ν s).scale (fcElem c' charge ν π s i j) else 0).scale
        (1 / sqrt (c'.mass ν * c'.mass π)) := by
    intro c'
    rw [← dmElem_eq]
    ext <;> simp [rawBlock, Cplx.scale, div_eq_mul_inv]
  rw [hraw, hraw]
  have hDD : (∑ k ∈ range 3, ∑ l ∈ range 3,
      (grunDD sqrt expi c X q ν π i j k l).scale (ε k l)) =
      (∑ P ∈ range c.numSatom, if c.s2p P = c.p2s π then
        (pairPhase expi c.toFc2Cell q ν P).scale (fc2Change c (strained c X ε ν) ν P i j) else 0).scale
        (1 / sqrt (c.mass ν * c.mass π)) := by
    simp only [grunDD_eq, ← grunDPhi_contract]
    simp only [scale_sum, scale_scale]
    have : ∀ k l, ∑ P ∈ range c.numSatom, (if c.s2p P = c.p2s π then
        (pairPhase expi c.toFc2Cell q ν P).scale (grunDPhi c X ν P i j k l) else 0).scale
          (1 / sqrt (c.mass ν * c.mass π) * ε k l) =
        ∑ P ∈ range c.numSatom, (if c.s2p P = c.p2s π then
        (pairPhase expi c.toFc2Cell q ν P).scale (grunDPhi c X ν P i j k l * ε k l) else 0).scale
          (1 / sqrt (c.mass ν * c.mass π)) := by
      intro k l
      refine Finset.sum_congr rfl fun P _ => ?_
      split_ifs
      · rw [scale_scale, scale_scale]
        congr 1
        ring
      · ext <;> simp [Cplx.scale]
    simp only [this]
    have hswap : ∀ G : Nat → Nat → Nat → Cplx K,
        ∑ k ∈ range 3, ∑ l ∈ range 3, ∑ P ∈ range c.numSatom, G k l P =
        ∑ P ∈ range c.numSatom, ∑ k ∈ range 3, ∑ l ∈ range 3, G k l P := by
      intro G
      simp only [Finset.sum_range_succ, Finset.sum_range_zero, Finset.sum_add_distrib, zero_add]
    rw [hswap]
    refine Finset.sum_congr rfl fun P _ => ?_
    simp only [← scale_sum]
    congr 1
    split_ifs
    · ext <;> simp [Cplx.scale, re_sum, im_sum, contract, Finset.mul_sum]
    · simp
  rw [hDD]
  have hfc : ∀ s ∈ range c.numSatom,
      fcElem { c.toFc2Cell with fc2 := f } charge ν π s i j =
        fcElem c.toFc2Cell charge ν π s i j + fc2Change c (strained c X ε ν) ν s i j * t := by
    intro s hs
    have := hf ν hν s (by simpa using hs) i hi j hj
    rw [← fc2At_eq] at this
    cases charge <;> simp only [fcElem, this] <;> ring
  have hphase : ∀ s, pairPhase expi { c.toFc2Cell with fc2 := f } q ν s =
      pairPhase expi c.toFc2Cell q ν s := fun _ => rfl
  rw [scale_scale, mul_comm _ t, ← scale_scale, ← scale_add]
  congr 1
  rw [scale_sum, ← Finset.sum_add_distrib]
  refine Finset.sum_congr rfl fun s hs => ?_
  simp only [hfc s hs, hphase]
  split_ifs
  · rw [scale_distrib, scale_scale]
  · ext <;> simp [Cplx.scale]

theorem sum4_pairs {α : Type _} [AddCommMonoid α] (n : Nat) (F : Nat → Nat → Nat → Nat → α) :
    ∑ i ∈ range n, ∑ k ∈ range 3, ∑ j ∈ range n, ∑ l ∈ range 3, F i k j l =
      ∑ p ∈ range n ×ˢ range 3, ∑ r ∈ range n ×ˢ range 3, F p.1 p.2 r.1 r.2 := by
  simp only [Finset.sum_product]

theorem sum4_swap {α : Type _} [AddCommMonoid α] (n : Nat) (F : Nat → Nat → Nat → Nat → α) :
    ∑ i ∈ range n, ∑ k ∈ range 3, ∑ j ∈ range n, ∑ l ∈ range 3, F i k j l =
      ∑ i ∈ range n, ∑ k ∈ range 3, ∑ j ∈ range n, ∑ l ∈ range 3, F j l i k := by
  rw [sum4_pairs, sum4_pairs n fun i k j l => F j l i k, Finset.sum_comm]

theorem sum4_congr {α : Type _} [AddCommMonoid α] {n : Nat} {F G : Nat → Nat → Nat → Nat → α}
    (h : ∀ i < n, ∀ k < 3, ∀ j < n, ∀ l < 3, F i k j l = G i k j l) :
    ∑ i ∈ range n, ∑ k ∈ range 3, ∑ j ∈ range n, ∑ l ∈ range 3, F i k j l =
      ∑ i ∈ range n, ∑ k ∈ range 3, ∑ j ∈ range n, ∑ l ∈ range 3, G i k j l :=
  Finset.sum_congr rfl fun i hi => Finset.sum_congr rfl fun k hk => Finset.sum_congr rfl fun j hj =>
    Finset.sum_congr rfl fun l hl => h i (mem_range.1 hi) k (mem_range.1 hk) j (mem_range.1 hj) l
      (mem_range.1 hl)

/-- The real part of `e† B e`. -/
def formRe (n : Nat) (B : Nat → Nat → Nat → Nat → Cplx K) (e : Nat → Nat → Cplx K) : K :=
  ∑ i ∈ range n, ∑ k ∈ range 3, ∑ j ∈ range n, ∑ l ∈ range 3,
    (conj (e i k) * B i k j l * e j l).re

theorem rayleigh_herm {n : Nat} {A : Int → Cplx K} {B : Nat → Nat → Nat → Nat → Cplx K}
    (h : ∀ i < n, ∀ k < 3, ∀ j < n, ∀ l < 3,
      dynBlock n A i k j l = herm (B i k j l) (B j l i k)) (e : Nat → Nat → Cplx K) :
    rayleigh n A e = ⟨formRe n B e, 0⟩ := by
  have h1 : rayleigh n A e = ∑ i ∈ range n, ∑ k ∈ range 3, ∑ j ∈ range n, ∑ l ∈ range 3,
      conj (e i k) * herm (B i k j l) (B j l i k) * e j l := by
    unfold rayleigh
    exact sum4_congr fun i hi k hk j hj l hl => by rw [h i hi k hk j hj l hl]
  rw [h1]
  ext
  · simp only [re_sum]
    have h2 : ∀ i k j l, (conj (e i k) * herm (B i k j l) (B j l i k) * e j l).re =
        (conj (e i k) * B i k j l * e j l).re / 2 + (conj (e j l) * B j l i k * e i k).re / 2 := by
      intro i k j l
      simp [conj, herm]
      ring
    simp only [h2, Finset.sum_add_distrib]
    rw [sum4_swap n fun i k j l => (conj (e j l) * B j l i k * e i k).re / 2]
    simp only [← Finset.sum_div]
    unfold formRe
    ring
  · simp only [im_sum]
    have h2 : ∀ i k j l, (conj (e i k) * herm (B i k j l) (B j l i k) * e j l).im =
        (conj (e i k) * B i k j l * e j l).im / 2 - (conj (e j l) * B j l i k * e i k).im / 2 := by
      intro i k j l
      simp [conj, herm]
      ring
    simp only [h2, Finset.sum_sub_distrib]
    rw [sum4_swap n fun i k j l => (conj (e j l) * B j l i k * e i k).im / 2]
    ring

theorem grunTensor_eq (sqrt : K → K) (expi : K → Cplx K) (c : GrunCell K)
    (X : Nat → Nat → Nat → Nat → K) (q : Nat → K) (omega2 : Nat → K) (w : Nat → Nat → Cplx K)
    (s k l : Nat) (hs : ¬(nearGamma q = true ∧ s < 3)) :
    grunTensor sqrt expi c X q omega2 w s k l =
      formRe c.numPatom (fun ν i π j => grunDD sqrt expi c X q ν π i j k l)
        (fun j m => w (j * 3 + m) s) * (-1 / 2 / omega2 s) := by
  unfold grunTensor
  rw [if_neg hs]
  congr 1
  have hsum : (List.range 3).foldl (fun g i => (List.range 3).foldl (fun g j =>
      (List.range c.numPatom).foldl (fun g nu => (List.range c.numPatom).foldl (fun g pi =>
        g + (grunConj (w (nu * 3 + i) s) * grunDD sqrt expi c X q nu pi i j k l *
          w (pi * 3 + j) s).re) g) g) g) 0 =
      0 + ∑ i ∈ range 3, ∑ j ∈ range 3, ∑ ν ∈ range c.numPatom, ∑ π ∈ range c.numPatom,
        (conj (w (ν * 3 + i) s) * grunDD sqrt expi c X q ν π i j k l * w (π * 3 + j) s).re :=
    foldl_range_sum _ _ _ (fun g i _ => foldl_range_sum _ _ _ (fun g j _ =>
      foldl_range_sum _ _ _ (fun g ν _ => foldl_range_sum _ _ _ (fun g π _ => rfl) g) g) g) 0
  rw [hsum, zero_add]
  unfold formRe
  have h1 : ∀ F : Nat → Nat → Nat → Nat → K,
      ∑ i ∈ range 3, ∑ j ∈ range 3, ∑ ν ∈ range c.numPatom, ∑ π ∈ range c.numPatom, F i j ν π =
      ∑ ν ∈ range c.numPatom, ∑ i ∈ range 3, ∑ π ∈ range c.numPatom, ∑ j ∈ range 3, F i j ν π := by
    intro F
    simp only [Finset.sum_range_succ _ 2, Finset.sum_range_succ _ 1, Finset.sum_range_one,
      Finset.sum_add_distrib]
  exact h1 _

theorem formRe_add (n : Nat) (A B : Nat → Nat → Nat → Nat → Cplx K) (e : Nat → Nat → Cplx K) :
    formRe n (fun i k j l => A i k j l + B i k j l) e = formRe n A e + formRe n B e := by
  unfold formRe
  simp only [← Finset.sum_add_distrib]
  refine sum4_congr fun i _ k _ j _ l _ => ?_
  simp [conj]
  ring

theorem formRe_scale (n : Nat) (A : Nat → Nat → Nat → Nat → Cplx K) (t : K)
    (e : Nat → Nat → Cplx K) :
    formRe n (fun i k j l => (A i k j l).scale t) e = formRe n A e * t := by
  unfold formRe
  simp only [Finset.sum_mul]
  refine sum4_congr fun i _ k _ j _ l _ => ?_
  simp [conj, Cplx.scale]
  ring

theorem formRe_sum (n m : Nat) (A : Nat → Nat → Nat → Nat → Nat → Cplx K)
    (e : Nat → Nat → Cplx K) :
    formRe n (fun i k j l => ∑ x ∈ range m, A x i k j l) e = ∑ x ∈ range m, formRe n (A x) e := by
  induction m with
  | zero =>
    simp [formRe, conj]
  | succ m ih =>
    rw [Finset.sum_range_succ, ← ih, ← formRe_add]
    simp only [Finset.sum_range_succ]

theorem rayleigh_eigen {n : Nat} {A : Int → Cplx K} {lam : K} {e : Nat → Nat → Cplx K}
    (h : EigenPair n A lam e) (he : Normalised n e) : rayleigh n A e = ⟨lam, 0⟩ := by
  have h1 : rayleigh n A e = ∑ i ∈ range n, ∑ k ∈ range 3, conj (e i k) * (e i k).scale lam := by
    unfold rayleigh
    refine Finset.sum_congr rfl fun i hi => Finset.sum_congr rfl fun k hk => ?_
    rw [← h i (mem_range.1 hi) k (mem_range.1 hk), Finset.mul_sum]
    refine Finset.sum_congr rfl fun j _ => ?_
    rw [Finset.mul_sum]
    exact Finset.sum_congr rfl fun l _ => by ring
  rw [h1]
  have h2 : ∀ i k, conj (e i k) * (e i k).scale lam =
      ⟨((e i k).re * (e i k).re + (e i k).im * (e i k).im) * lam, 0⟩ := by
    intro i k
    ext <;> simp [conj, Cplx.scale] <;> ring
  simp only [h2]
  ext
  · simp only [re_sum, ← Finset.sum_mul]
    unfold Normalised at he
    rw [he, one_mul]
  · simp [im_sum]

/-- C101: deform the crystal by a small strain `t ε`, let the atoms move accordingly (with or
without the internal relaxation `X`), and let the second-order force constants change as given by
the third-order ones.  Then the expectation value of the dynamical matrix in the unperturbed mode
changes from `ω²` to `ω² (1 - 2 t γ : ε)`, with the tensor `γ` of the program.  `charge` is any
correction that is not changed by the strain. -/
theorem C101_strain (sqrt : K → K) (expi : K → Cplx K) (c : GrunCell K)
    (charge : Option (Nat → Nat → Nat → K)) (X : Nat → Nat → Nat → Nat → K) (q : Nat → K)
    (omega2 : Nat → K) (w : Nat → Nat → Cplx K) (s : Nat) (mem mem' : Int → Cplx K)
    (hacoustic : ¬(nearGamma q = true ∧ s < 3)) (hω : omega2 s ≠ 0)
    (hw : Normalised c.numPatom fun j m => w (j * 3 + m) s)
    (heig : EigenPair c.numPatom (dynamicalMatrixAtQ sqrt expi c.toFc2Cell charge q mem) (omega2 s)
      fun j m => w (j * 3 + m) s)
    (ε : Nat → Nat → K) (t : K) (f : Int → K)
    (hf : ∀ ν < c.numPatom, ∀ P < c.numSatom, ∀ i < 3, ∀ j < 3,
      f (fc2At c.numSatom (c.p2s ν) P i j) = c.fc2 (fc2At c.numSatom (c.p2s ν) P i j) +
        t * fc2Change c (strained c X ε ν) ν P i j) :
    rayleigh c.numPatom
        (dynamicalMatrixAtQ sqrt expi { c.toFc2Cell with fc2 := f } charge q mem')
        (fun j m => w (j * 3 + m) s) =
      ⟨omega2 s * (1 - 2 * t * contract (grunTensor sqrt expi c X q omega2 w s) ε), 0⟩ := by
  have h0 := rayleigh_eigen heig hw
  rw [rayleigh_herm (B := rawBlock sqrt expi c.toFc2Cell charge q)
    (fun i hi k hk j hj l hl => dynmat_block _ _ _ _ _ _ hi hk hj hl)] at h0
  have h0' := congrArg Cplx.re h0
  simp only at h0'
  rw [rayleigh_herm (B := rawBlock sqrt expi { c.toFc2Cell with fc2 := f } charge q)
    (fun i hi k hk j hj l hl => dynmat_block _ _ { c.toFc2Cell with fc2 := f } _ _ _ hi hk hj hl)]
  congr 1
  have h1 : formRe c.numPatom (rawBlock sqrt expi { c.toFc2Cell with fc2 := f } charge q)
      (fun j m => w (j * 3 + m) s) = formRe c.numPatom (fun i k j l =>
        rawBlock sqrt expi c.toFc2Cell charge q i k j l + (∑ x ∈ range 3, ∑ y ∈ range 3,
          (grunDD sqrt expi c X q i j k l x y).scale (ε x y)).scale t)
      (fun j m => w (j * 3 + m) s) := by
    unfold formRe
    refine sum4_congr fun i hi k hk j hj l hl => ?_
    rw [rawBlock_strained sqrt expi c charge X q ε t f hf hi hk hl]
  rw [h1, formRe_add, h0', formRe_scale, formRe_sum]
  have h2 : ∀ x, formRe c.numPatom (fun i k j l => ∑ y ∈ range 3,
      (grunDD sqrt expi c X q i j k l x y).scale (ε x y)) (fun j m => w (j * 3 + m) s) =
      ∑ y ∈ range 3, formRe c.numPatom (fun i k j l => grunDD sqrt expi c X q i j k l x y)
        (fun j m => w (j * 3 + m) s) * ε x y := by
    intro x
    rw [formRe_sum]
    simp only [formRe_scale]
  simp only [h2, contract, grunTensor_eq sqrt expi c X q omega2 w s _ _ hacoustic]
  have h3 : ∀ x, ∑ y ∈ range 3, formRe c.numPatom
      (fun ν i π j => grunDD sqrt expi c X q ν π i j x y) (fun j m => w (j * 3 + m) s) *
        (-1 / 2 / omega2 s) * ε x y =
      (-1 / 2 / omega2 s) * ∑ y ∈ range 3, formRe c.numPatom
      (fun ν i π j => grunDD sqrt expi c X q ν π i j x y) (fun j m => w (j * 3 + m) s) * ε x y := by
    intro x
    rw [Finset.mul_sum]
    exact Finset.sum_congr rfl fun y _ => by ring
  simp only [h3]
  rw [← Finset.mul_sum]
  generalize (∑ x ∈ range 3, ∑ y ∈ range 3, formRe c.numPatom
      (fun ν i π j => grunDD sqrt expi c X q ν π i j x y) (fun j m => w (j * 3 + m) s) * ε x y) = S
  field_simp
  ring

/-! ### Internal relaxation -/

/-- The sum of force constants times distance vectors: minus the force on atom `ν` caused by a unit
strain without relaxation. -/
def strainForce (c : GrunCell K) (ν l j k : Nat) : K :=
  ∑ N ∈ range c.numSatom, c.fc2 (fc2At c.numSatom (c.p2s ν) N l j) * meanVector c ν N k

theorem grunX_eq (sqrt : K → K) (c : GrunCell K) (vals : Nat → K) (vecs : Nat → Nat → K)
    (μ i j k : Nat) : grunX sqrt c vals vecs μ i j k =
      -∑ ν ∈ range c.numPatom, ∑ l ∈ range 3, (1 / sqrt (c.mass μ * c.mass ν) *
        ∑ s ∈ range (c.numPatom * 3 - 3),
          vecs (μ * 3 + i) (3 + s) * vecs (ν * 3 + l) (3 + s) / vals (3 + s)) *
        strainForce c ν l j k := by
  unfold grunX
  have h : ∀ (x : K) (ν : Nat), ν < c.numPatom →
      (List.range 3).foldl (fun x ll => x - grunGamma sqrt c vals vecs μ ν i ll *
        sumLoop c.numSatom fun N =>
          c.fc2 (c.p2s ν * c.numSatom * 9 + N * 9 + ll * 3 + j) * grunR c ν N k) x =
      x + -∑ l ∈ range 3, (1 / sqrt (c.mass μ * c.mass ν) *
        ∑ s ∈ range (c.numPatom * 3 - 3),
          vecs (μ * 3 + i) (3 + s) * vecs (ν * 3 + l) (3 + s) / vals (3 + s)) *
        strainForce c ν l j k := by
    intro x ν _
    rw [← Finset.sum_neg_distrib]
    refine foldl_range_sum _ _ _ (fun x l _ => ?_) x
    rw [sub_eq_add_neg]
    simp only [grunGamma, strainForce, sumLoop_eq, grunR_eq, fc2At_eq]
  rw [foldl_range_sum _ _ _ h 0, zero_add, Finset.sum_neg_distrib]

/-- Atom maps of the whole cell fit together. -/
structure GoodGrunCell (c : GrunCell K) : Prop extends GoodCell c.toFc2Cell where
  atoms : 0 < c.numPatom
  p2p : ∀ j < c.numPatom, c.p2p (c.p2s j) = j

theorem sum_over_classes {c : GrunCell K} (hc : GoodGrunCell c) (f g : Nat → K) :
    ∑ N ∈ range c.numSatom, f N * g (c.p2p (c.s2p N)) =
      ∑ μ ∈ range c.numPatom, (∑ N ∈ range c.numSatom, if c.s2p N = c.p2s μ then f N else 0) * g μ := by
  rw [← sum_classes hc.toGoodCell]
  refine Finset.sum_congr rfl fun μ hμ => ?_
  rw [Finset.sum_mul]
  refine Finset.sum_congr rfl fun N _ => ?_
  split_ifs with h
  · rw [h, hc.p2p μ (mem_range.1 hμ)]
  · rw [zero_mul]

/-- The force on an atom of the strained crystal, per unit strain. -/
theorem forceOn_strained {c : GrunCell K} (hc : GoodGrunCell c)
    (X : Nat → Nat → Nat → Nat → K) (ε : Nat → Nat → K) (ν l : Nat) :
    forceOn c (strained c X ε ν) ν l = -∑ j ∈ range 3, ∑ k ∈ range 3, (strainForce c ν l j k +
      ∑ μ ∈ range c.numPatom, ∑ a ∈ range 3,
        classFc c.toFc2Cell (fun _ _ _ _ => 0) ν l μ a * X μ a j k) * ε j k := by
  unfold forceOn
  congr 1
  have h1 : ∀ N a, c.fc2 (fc2At c.numSatom (c.p2s ν) N l a) * strained c X ε ν N a =
      ∑ b ∈ range 3, c.fc2 (fc2At c.numSatom (c.p2s ν) N l a) * meanVector c ν N b * ε a b +
      ∑ j ∈ range 3, ∑ k ∈ range 3,
        c.fc2 (fc2At c.numSatom (c.p2s ν) N l a) * X (c.p2p (c.s2p N)) a j k * ε j k := by
    intro N a
    unfold strained
    rw [mul_add, Finset.mul_sum, Finset.mul_sum]
    congr 1
    · exact Finset.sum_congr rfl fun b _ => by ring
    · refine Finset.sum_congr rfl fun j _ => ?_
      rw [Finset.mul_sum]
      exact Finset.sum_congr rfl fun k _ => by ring
  simp only [h1, Finset.sum_add_distrib, add_mul]
  congr 1
  · rw [Finset.sum_comm]
    refine Finset.sum_congr rfl fun a _ => ?_
    rw [Finset.sum_comm]
    refine Finset.sum_congr rfl fun b _ => ?_
    rw [strainForce, Finset.sum_mul]
  · have hswap : ∀ F : Nat → Nat → Nat → Nat → K,
        ∑ N ∈ range c.numSatom, ∑ a ∈ range 3, ∑ j ∈ range 3, ∑ k ∈ range 3, F N a j k =
        ∑ j ∈ range 3, ∑ k ∈ range 3, ∑ a ∈ range 3, ∑ N ∈ range c.numSatom, F N a j k := by
      intro F
      simp only [Finset.sum_range_succ _ 2, Finset.sum_range_succ _ 1, Finset.sum_range_one,
        Finset.sum_add_distrib]
      ring
    rw [hswap]
    refine Finset.sum_congr rfl fun j _ => Finset.sum_congr rfl fun k _ => ?_
    rw [Finset.sum_comm (s := range c.numPatom), Finset.sum_mul]
    refine Finset.sum_congr rfl fun a _ => ?_
    rw [← Finset.sum_mul]
    congr 1
    rw [sum_over_classes hc (fun N => c.fc2 (fc2At c.numSatom (c.p2s ν) N l a))
      (fun μ => X μ a j k)]
    refine Finset.sum_congr rfl fun μ _ => ?_
    simp only [classFc, add_zero]

/-- Sum over atoms and directions as a sum over the rows of the matrix. -/
theorem sum_rows (n : Nat) (f : Nat → K) :
    ∑ b ∈ range (n * 3), f b = ∑ μ ∈ range n, ∑ i ∈ range 3, f (μ * 3 + i) := sum_pairs n 3 f

/-- The pair of force constants summed over translations is symmetric. -/
def SymmetricFc (c : Fc2Cell K) : Prop :=
  ∀ i < c.numPatom, ∀ k < 3, ∀ j < c.numPatom, ∀ l < 3,
    classFc c (fun _ _ _ _ => 0) i k j l = classFc c (fun _ _ _ _ => 0) j l i k

theorem gamma_matrix {sqrt : K → K} {expi : K → Cplx K} (h0 : expi 0 = 1) {c : Fc2Cell K}
    (hc : GoodCell c) (hsym : SymmetricFc c) (mem : Int → Cplx K) {i k j l : Nat}
    (hi : i < c.numPatom) (hk : k < 3) (hj : j < c.numPatom) (hl : l < 3) :
    (dynBlock c.numPatom (dynamicalMatrixAtQ sqrt expi c none (fun _ => 0) mem) i k j l).re =
      classFc c (fun _ _ _ _ => 0) i k j l / sqrt (c.mass i * c.mass j) := by
  have h := C86_formula sqrt expi c none (fun _ _ => 0) (fun _ => 0) none mem hi hk hj hl
  unfold wangMatrix at h
  simp only [Option.map_none] at h
  rw [h, fourier_zero h0 hc _ hi, fourier_zero h0 hc _ hj]
  have he : (extraTerm c none (fun _ _ => 0) (fun _ => 0) none) = fun _ _ _ _ => (0 : K) := rfl
  simp only [he, Cplx.scale, Cplx.add_re, conj]
  rw [hsym j hj l hl i hi k hk, mul_comm (c.mass j)]
  ring

/-- C102: the internal relaxation of the program balances the forces.  When a strained crystal is
relaxed by `X`, the force on every atom is its share, by mass, of the total force; it vanishes if
the strain causes no total force. The hypotheses: force constants without drift and symmetric; `vals`
and `vecs` the eigenvalues and orthonormal eigenvectors of the dynamical matrix at the zone centre,
of which all but the first three eigenvalues do not vanish. -/
theorem C102_relaxed {sqrt : K → K} (hs : IsSqrt sqrt) {expi : K → Cplx K} (h0 : expi 0 = 1)
    {c : GrunCell K} (hc : GoodGrunCell c) (hd : NoDrift c.toFc2Cell)
    (hsym : SymmetricFc c.toFc2Cell) (mem : Int → Cplx K) (vals : Nat → K) (vecs : Nat → Nat → K)
    (heig : RealEigen (c.numPatom * 3) (fun a b => (dynamicalMatrixAtQ sqrt expi c.toFc2Cell none
      (fun _ => 0) mem ((a * (c.numPatom * 3) + b : Nat) : Int)).re) vals vecs)
    (hvals : ∀ s, 3 ≤ s → s < c.numPatom * 3 → vals s ≠ 0) (ε : Nat → Nat → K) {ν l : Nat}
    (hν : ν < c.numPatom) (hl : l < 3) :
    forceOn c (strained c (grunX sqrt c vals vecs) ε ν) ν l =
      c.mass ν / (∑ κ ∈ range c.numPatom, c.mass κ) *
        ∑ κ ∈ range c.numPatom, forceOn c (strained c (fun _ _ _ _ => 0) ε κ) κ l := by
  set A : Nat → Nat → K := fun a b => (dynamicalMatrixAtQ sqrt expi c.toFc2Cell none
      (fun _ => 0) mem ((a * (c.numPatom * 3) + b : Nat) : Int)).re with hA
  set M : K := ∑ κ ∈ range c.numPatom, c.mass κ with hMdef
  have hM : 0 < M := by
    refine Finset.sum_pos (fun κ hκ => hc.mass κ (mem_range.1 hκ)) ⟨0, mem_range.2 hc.atoms⟩
  have hsM := sqrt_pos hs hM
  have hsm : ∀ κ < c.numPatom, 0 < sqrt (c.mass κ) := fun κ hκ => sqrt_pos hs (hc.mass κ hκ)
  have hsqm : ∀ κ < c.numPatom, sqrt (c.mass κ) * sqrt (c.mass κ) = c.mass κ :=
    fun κ hκ => hs.sq _ (hc.mass κ hκ).le
  have hAe : ∀ i < c.numPatom, ∀ k < 3, ∀ j < c.numPatom, ∀ m < 3, A (i * 3 + k) (j * 3 + m) =
      classFc c.toFc2Cell (fun _ _ _ _ => 0) i k j m / (sqrt (c.mass i) * sqrt (c.mass j)) := by
    intro i hi k hk j hj m hm
    rw [← sqrt_mul hs (hc.mass i hi) (hc.mass j hj)]
    exact gamma_matrix h0 hc.toGoodCell hsym mem hi hk hj hm
  -- the three rigid translations
  let r : Nat → Nat → K := fun α b => if b % 3 = α then sqrt (c.mass (b / 3)) / sqrt M else 0
  have hrv : ∀ α μ i, i < 3 → r α (μ * 3 + i) = if i = α then sqrt (c.mass μ) / sqrt M else 0 := by
    intro α μ i hi
    have e1 : (μ * 3 + i) % 3 = i := by omega
    have e2 : (μ * 3 + i) / 3 = μ := by omega
    simp only [r, e1, e2]
  have hn : 3 ≤ c.numPatom * 3 := by have := hc.atoms; omega
  have hP : ∀ a < c.numPatom * 3, ∀ b < c.numPatom * 3,
      ∑ s ∈ range 3, vecs a s * vecs b s = ∑ α ∈ range 3, r α a * r α b := by
    intro a ha b hb
    refine acoustic_projector hn heig hvals r ?_ ?_ ha hb
    · intro α hα a ha
      rw [sum_rows]
      have ea : a = a / 3 * 3 + a % 3 := by omega
      have hi : a / 3 < c.numPatom := by omega
      have hk : a % 3 < 3 := by omega
      have hterm : ∀ μ ∈ range c.numPatom, ∑ i ∈ range 3, A a (μ * 3 + i) * r α (μ * 3 + i) =
          classFc c.toFc2Cell (fun _ _ _ _ => 0) (a / 3) (a % 3) μ α *
            (1 / (sqrt (c.mass (a / 3)) * sqrt M)) := by
        intro μ hμ
        have hμ' := mem_range.1 hμ
        rw [sum_one hα]
        · rw [hrv α μ α hα, if_pos rfl]
          conv_lhs => rw [ea]
          rw [hAe _ hi _ hk μ hμ' α hα]
          have := hsm μ hμ'
          field_simp
        · intro i hi' hne
          rw [hrv α μ i hi', if_neg hne, mul_zero]
      rw [Finset.sum_congr rfl hterm, ← Finset.sum_mul]
      simp only [classFc, add_zero]
      rw [sum_classes hc.toGoodCell, hd.second _ hi _ hk _ hα, zero_mul]
    · intro α hα β hβ
      rw [sum_rows]
      have hterm : ∀ μ ∈ range c.numPatom, ∑ i ∈ range 3, r α (μ * 3 + i) * r β (μ * 3 + i) =
          (if α = β then c.mass μ else 0) / M := by
        intro μ hμ
        have hμ' := mem_range.1 hμ
        rw [sum_one hα]
        · rw [hrv α μ α hα, hrv β μ α hα, if_pos rfl]
          split_ifs
          · rw [div_mul_div_comm, hsqm μ hμ', hs.sq M hM.le]
          · simp
        · intro i hi hne
          rw [hrv α μ i hi, if_neg hne, zero_mul]
      rw [Finset.sum_congr rfl hterm, ← Finset.sum_div]
      split_ifs
      · exact div_self hM.ne'
      · simp
  -- force constants times relaxation
  have hX : ∀ j k, ∑ μ ∈ range c.numPatom, ∑ a ∈ range 3,
      classFc c.toFc2Cell (fun _ _ _ _ => 0) ν l μ a * grunX sqrt c vals vecs μ a j k =
      -strainForce c ν l j k + c.mass ν / M * ∑ κ ∈ range c.numPatom, strainForce c κ l j k := by
    intro j k
    have hpi := fun (x y : Nat) (hx : x < c.numPatom * 3) (hy : y < c.numPatom * 3) =>
      pseudo_inverse hn heig hvals hx hy
    have e1 : ∀ μ ∈ range c.numPatom, ∀ a ∈ range 3,
        classFc c.toFc2Cell (fun _ _ _ _ => 0) ν l μ a * grunX sqrt c vals vecs μ a j k =
        -∑ κ ∈ range c.numPatom, ∑ m ∈ range 3, (sqrt (c.mass ν) / sqrt (c.mass κ) *
          strainForce c κ m j k) * (A (ν * 3 + l) (μ * 3 + a) *
            ∑ s ∈ range (c.numPatom * 3 - 3),
              vecs (μ * 3 + a) (3 + s) * vecs (κ * 3 + m) (3 + s) / vals (3 + s)) := by
      intro μ hμ a ha
      have hμ' := mem_range.1 hμ
      rw [grunX_eq, mul_neg, Finset.mul_sum]
      congr 1
      refine Finset.sum_congr rfl fun κ hκ => ?_
      rw [Finset.mul_sum]
      refine Finset.sum_congr rfl fun m _ => ?_
      have hκ' := mem_range.1 hκ
      rw [hAe ν hν l hl μ hμ' a (mem_range.1 ha), sqrt_mul hs (hc.mass μ hμ') (hc.mass κ hκ')]
      have := hsm μ hμ'
      have := hsm κ hκ'
      have := hsm ν hν
      field_simp
    rw [Finset.sum_congr rfl fun μ hμ => Finset.sum_congr rfl (e1 μ hμ)]
    simp only [Finset.sum_neg_distrib]
    have hswap : ∑ μ ∈ range c.numPatom, ∑ a ∈ range 3, ∑ κ ∈ range c.numPatom, ∑ m ∈ range 3,
          (sqrt (c.mass ν) / sqrt (c.mass κ) * strainForce c κ m j k) *
          (A (ν * 3 + l) (μ * 3 + a) * ∑ s ∈ range (c.numPatom * 3 - 3),
              vecs (μ * 3 + a) (3 + s) * vecs (κ * 3 + m) (3 + s) / vals (3 + s)) =
        ∑ κ ∈ range c.numPatom, ∑ m ∈ range 3, (sqrt (c.mass ν) / sqrt (c.mass κ) *
          strainForce c κ m j k) * ((if ν * 3 + l = κ * 3 + m then 1 else 0) -
            ∑ α ∈ range 3, r α (ν * 3 + l) * r α (κ * 3 + m)) := by
      rw [sum4_swap]
      refine Finset.sum_congr rfl fun κ hκ => Finset.sum_congr rfl fun m hm => ?_
      have hκ' := mem_range.1 hκ
      have hm' := mem_range.1 hm
      rw [← hP _ (by omega) _ (by omega), ← hpi _ _ (by omega) (by omega), sum_rows,
        Finset.mul_sum]
      refine Finset.sum_congr rfl fun μ _ => ?_
      rw [Finset.mul_sum]
    rw [hswap]
    have e2 : ∀ κ ∈ range c.numPatom, ∑ m ∈ range 3, (sqrt (c.mass ν) / sqrt (c.mass κ) *
          strainForce c κ m j k) * ((if ν * 3 + l = κ * 3 + m then 1 else 0) -
            ∑ α ∈ range 3, r α (ν * 3 + l) * r α (κ * 3 + m)) =
        (if κ = ν then strainForce c ν l j k else 0) - c.mass ν / M * strainForce c κ l j k := by
      intro κ hκ
      have hκ' := mem_range.1 hκ
      rw [sum_one hl]
      · rw [sum_one hl (fun α => r α (ν * 3 + l) * r α (κ * 3 + l))]
        · rw [hrv l ν l hl, hrv l κ l hl, if_pos rfl, if_pos rfl]
          have h1 := hsm ν hν
          have h2 := hsm κ hκ'
          have h3 := hsqm ν hν
          have h4 := hs.sq M hM.le
          by_cases hκν : κ = ν
          · subst hκν
            rw [if_pos rfl, if_pos rfl, div_self h1.ne', div_mul_div_comm, h3, h4]
            ring
          · rw [if_neg hκν, if_neg (by omega), div_mul_div_comm, h4, zero_sub, zero_sub]
            have h5 : sqrt (c.mass ν) / sqrt (c.mass κ) * (sqrt (c.mass ν) * sqrt (c.mass κ)) =
                c.mass ν := by
              rw [div_mul_eq_mul_div, ← mul_assoc, h3, mul_div_assoc, div_self h2.ne', mul_one]
            linear_combination (-strainForce c κ l j k / M) * h5
        · intro α hα hne
          rw [hrv α ν l hl, if_neg (Ne.symm hne), zero_mul]
      · intro m hm hne
        rw [if_neg (by omega), Finset.sum_eq_zero, sub_zero, mul_zero]
        intro α hα
        rw [hrv α ν l hl, hrv α κ m hm]
        split_ifs with h1 h2
        · omega
        · rw [mul_zero]
        · rw [zero_mul]
        · rw [zero_mul]
    rw [Finset.sum_congr rfl e2, Finset.sum_sub_distrib, ← Finset.mul_sum,
      sum_one hν (fun κ => if κ = ν then strainForce c ν l j k else 0)
        (fun κ _ hne => if_neg hne), if_pos rfl]
    ring
  rw [forceOn_strained hc]
  simp only [hX, forceOn_strained hc, mul_zero, Finset.sum_const_zero, add_zero,
    Finset.sum_neg_distrib, mul_neg]
  congr 1
  rw [Finset.sum_comm (s := range c.numPatom), Finset.mul_sum]
  refine Finset.sum_congr rfl fun j _ => ?_
  rw [Finset.sum_comm (s := range c.numPatom), Finset.mul_sum]
  refine Finset.sum_congr rfl fun k _ => ?_
  rw [← Finset.sum_mul]
  ring

/-- C102: without a total force every atom is in equilibrium after the relaxation. -/
theorem C102_equilibrium {sqrt : K → K} (hs : IsSqrt sqrt) {expi : K → Cplx K} (h0 : expi 0 = 1)
    {c : GrunCell K} (hc : GoodGrunCell c) (hd : NoDrift c.toFc2Cell)
    (hsym : SymmetricFc c.toFc2Cell) (mem : Int → Cplx K) (vals : Nat → K) (vecs : Nat → Nat → K)
    (heig : RealEigen (c.numPatom * 3) (fun a b => (dynamicalMatrixAtQ sqrt expi c.toFc2Cell none
      (fun _ => 0) mem ((a * (c.numPatom * 3) + b : Nat) : Int)).re) vals vecs)
    (hvals : ∀ s, 3 ≤ s → s < c.numPatom * 3 → vals s ≠ 0) (ε : Nat → Nat → K)
    (htotal : ∀ l < 3, ∑ κ ∈ range c.numPatom,
      forceOn c (strained c (fun _ _ _ _ => 0) ε κ) κ l = 0)
    {ν l : Nat} (hν : ν < c.numPatom) (hl : l < 3) :
    forceOn c (strained c (grunXOf sqrt c false vals vecs) ε ν) ν l = 0 := by
  have : grunXOf sqrt c false vals vecs = grunX sqrt c vals vecs := rfl
  rw [this, C102_relaxed hs h0 hc hd hsym mem vals vecs heig hvals ε hν hl, htotal l hl, mul_zero]

/-- C102: with clamped ions the atoms follow the strain. -/
theorem C102_clamped (sqrt : K → K) (c : GrunCell K) (vals : Nat → K) (vecs : Nat → Nat → K)
    (ε : Nat → Nat → K) (ν N a : Nat) :
    strained c (grunXOf sqrt c true vals vecs) ε ν N a =
      ∑ b ∈ range 3, ε a b * meanVector c ν N b := by
  simp [strained, grunXOf]

/-! ### What the parameters do not depend on -/

theorem formRe_congr {n : Nat} {A B : Nat → Nat → Nat → Nat → Cplx K} {e e' : Nat → Nat → Cplx K}
    (h : ∀ i < n, ∀ k < 3, ∀ j < n, ∀ l < 3,
      (conj (e i k) * A i k j l * e j l).re = (conj (e' i k) * B i k j l * e' j l).re) :
    formRe n A e = formRe n B e' := sum4_congr h

theorem grunTensor_congr (sqrt : K → K) (expi expi' : K → Cplx K) (c c' : GrunCell K)
    (hnp : c.numPatom = c'.numPatom)
    (X X' : Nat → Nat → Nat → Nat → K) (q q' : Nat → K) (omega2 : Nat → K)
    (w w' : Nat → Nat → Cplx K) (s k l : Nat) (hq : nearGamma q = nearGamma q')
    (h : ∀ ν < c.numPatom, ∀ i < 3, ∀ π < c.numPatom, ∀ j < 3,
      (conj (w (ν * 3 + i) s) * grunDD sqrt expi c X q ν π i j k l * w (π * 3 + j) s).re =
      (conj (w' (ν * 3 + i) s) * grunDD sqrt expi' c' X' q' ν π i j k l * w' (π * 3 + j) s).re) :
    grunTensor sqrt expi c X q omega2 w s k l = grunTensor sqrt expi' c' X' q' omega2 w' s k l := by
  by_cases hs : nearGamma q = true ∧ s < 3
  · unfold grunTensor
    rw [if_pos hs, if_pos (by rw [← hq]; exact hs)]
  · rw [grunTensor_eq _ _ _ _ _ _ _ _ _ _ hs, grunTensor_eq _ _ _ _ _ _ _ _ _ _ (by rw [← hq]; exact hs)]
    congr 1
    rw [← hnp]
    exact formRe_congr h

/-- C103: with third-order force constants without drift, a rigid shift of all atoms in the
relaxation changes nothing. -/
theorem C103_shift (sqrt : K → K) (expi : K → Cplx K) (c : GrunCell K)
    (hdrift : ∀ ν < c.numPatom, ∀ P < c.numSatom, ∀ i < 3, ∀ j < 3, ∀ a < 3,
      ∑ M ∈ range c.numSatom, c.fc3 (c.p2s ν) P M i j a = 0)
    (X : Nat → Nat → Nat → Nat → K) (shift : Nat → Nat → Nat → K) (q : Nat → K)
    (omega2 : Nat → K) (w : Nat → Nat → Cplx K) (s k l : Nat) :
    grunTensor sqrt expi c (fun μ a j k => X μ a j k + shift a j k) q omega2 w s k l =
      grunTensor sqrt expi c X q omega2 w s k l := by
  refine grunTensor_congr _ _ _ _ _ rfl _ _ _ _ _ _ _ _ _ _ rfl ?_
  intro ν hν i hi π hπ j hj
  have hphi : ∀ P ∈ range c.numSatom,
      grunDPhi c (fun μ a j k => X μ a j k + shift a j k) ν P i j k l = grunDPhi c X ν P i j k l := by
    intro P hP
    simp only [grunDPhi, sumLoop_eq]
    have h1 : ∀ M a, c.fc3 (c.p2s ν) P M i j a *
        grunY c (fun μ a j k => X μ a j k + shift a j k) ν M a k l =
        c.fc3 (c.p2s ν) P M i j a * grunY c X ν M a k l +
          c.fc3 (c.p2s ν) P M i j a * shift a k l := by
      intro M a
      simp only [grunY]
      ring
    simp only [h1, Finset.sum_add_distrib]
    rw [Finset.sum_comm (f := fun M a => c.fc3 (c.p2s ν) P M i j a * shift a k l)]
    rw [Finset.sum_eq_zero (s := range 3), add_zero]
    intro a ha
    rw [← Finset.sum_mul, hdrift ν hν P (mem_range.1 hP) i hi j hj a (mem_range.1 ha), zero_mul]
  rw [grunDD_eq, grunDD_eq]
  have : ∀ P ∈ range c.numSatom, (if c.s2p P = c.p2s π then
      (pairPhase expi c.toFc2Cell q ν P).scale
        (grunDPhi c (fun μ a j k => X μ a j k + shift a j k) ν P i j k l) else 0) =
      if c.s2p P = c.p2s π then
        (pairPhase expi c.toFc2Cell q ν P).scale (grunDPhi c X ν P i j k l) else 0 := by
    intro P hP
    rw [hphi P hP]
  rw [Finset.sum_congr rfl this]

/-- C103: the phase of an eigenvector does not matter. -/
theorem C103_phase (sqrt : K → K) (expi : K → Cplx K) (c : GrunCell K)
    (X : Nat → Nat → Nat → Nat → K) (q : Nat → K) (omega2 : Nat → K) (w : Nat → Nat → Cplx K)
    (u : Cplx K) (hu : u.re * u.re + u.im * u.im = 1) (s k l : Nat) :
    grunTensor sqrt expi c X q omega2 (fun row s => u * w row s) s k l =
      grunTensor sqrt expi c X q omega2 w s k l := by
  refine grunTensor_congr _ _ _ _ _ rfl _ _ _ _ _ _ _ _ _ _ rfl ?_
  intro ν _ i _ π _ j _
  have : conj (u * w (ν * 3 + i) s) * grunDD sqrt expi c X q ν π i j k l * (u * w (π * 3 + j) s) =
      conj (w (ν * 3 + i) s) * grunDD sqrt expi c X q ν π i j k l * w (π * 3 + j) s := by
    have hcu : conj u * u = 1 := by
      ext
      · simp [conj]
        linear_combination hu
      · simp [conj]
        ring
    have hc : conj (u * w (ν * 3 + i) s) = conj u * conj (w (ν * 3 + i) s) := by
      ext <;> simp [conj] <;> ring
    rw [hc]
    linear_combination (conj (w (ν * 3 + i) s) * grunDD sqrt expi c X q ν π i j k l *
      w (π * 3 + j) s) * hcu
  rw [this]

/-- C103: at the opposite wave vector the parameters are the same (with the complex conjugate
eigenvectors, see C87). -/
theorem C103_reversal (sqrt : K → K) (expi : K → Cplx K) (hneg : ∀ x, expi (-x) = conj (expi x))
    (c : GrunCell K) (X : Nat → Nat → Nat → Nat → K) (q : Nat → K) (omega2 : Nat → K)
    (w : Nat → Nat → Cplx K) (s k l : Nat) :
    grunTensor sqrt expi c X (fun d => -q d) omega2 (fun row s => conj (w row s)) s k l =
      grunTensor sqrt expi c X q omega2 w s k l := by
  refine grunTensor_congr _ _ _ _ _ rfl _ _ _ _ _ _ _ _ _ _ (by simp [nearGamma]) ?_
  intro ν _ i _ π _ j _
  have hph : ∀ P, pairPhase expi c.toFc2Cell (fun d => -q d) ν P =
      conj (pairPhase expi c.toFc2Cell q ν P) := by
    intro P
    rw [pairPhase_eq, pairPhase_eq]
    simp only [meanPhaseN, dotN_neg_left, hneg]
    ext
    · simp [Cplx.scale, conj, re_sum]
    · simp [Cplx.scale, conj, im_sum]
  have hDD : grunDD sqrt expi c X (fun d => -q d) ν π i j k l =
      conj (grunDD sqrt expi c X q ν π i j k l) := by
    rw [grunDD_eq, grunDD_eq, conj_scale]
    congr 1
    ext
    · simp only [re_sum, conj]
      refine Finset.sum_congr rfl fun P _ => ?_
      split_ifs <;> simp [hph, Cplx.scale, conj]
    · simp only [im_sum, conj, ← Finset.sum_neg_distrib]
      refine Finset.sum_congr rfl fun P _ => ?_
      split_ifs <;> simp [hph, Cplx.scale, conj]
  rw [hDD]
  simp [conj]
  ring

/-- C103: for degenerate modes the sum over the modes does not depend on the choice of
eigenvectors: they may be mixed by any unitary matrix `U`. -/
theorem C103_degenerate (sqrt : K → K) (expi : K → Cplx K) (c : GrunCell K)
    (X : Nat → Nat → Nat → Nat → K) (q : Nat → K) (omega2 : Nat → K) (w w' : Nat → Nat → Cplx K)
    (S : Finset Nat) (lam : K) (hdeg : ∀ s ∈ S, omega2 s = lam)
    (hacoustic : ∀ s ∈ S, ¬(nearGamma q = true ∧ s < 3)) (U : Nat → Nat → Cplx K)
    (hU : ∀ t ∈ S, ∀ t' ∈ S, ∑ s ∈ S, conj (U s t) * U s t' = if t = t' then 1 else 0)
    (hw : ∀ s ∈ S, ∀ row, w' row s = ∑ t ∈ S, U s t * w row t) (k l : Nat) :
    ∑ s ∈ S, grunTensor sqrt expi c X q omega2 w' s k l =
      ∑ s ∈ S, grunTensor sqrt expi c X q omega2 w s k l := by
  have h1 : ∀ v : Nat → Nat → Cplx K, ∑ s ∈ S, grunTensor sqrt expi c X q omega2 v s k l =
      (∑ s ∈ S, formRe c.numPatom (fun ν i π j => grunDD sqrt expi c X q ν π i j k l)
        (fun j m => v (j * 3 + m) s)) * (-1 / 2 / lam) := by
    intro v
    rw [Finset.sum_mul]
    refine Finset.sum_congr rfl fun s hs => ?_
    rw [grunTensor_eq _ _ _ _ _ _ _ _ _ _ (hacoustic s hs), hdeg s hs]
  rw [h1, h1]
  congr 1
  have h2 : ∀ v : Nat → Nat → Cplx K, ∑ s ∈ S, formRe c.numPatom
      (fun ν i π j => grunDD sqrt expi c X q ν π i j k l) (fun j m => v (j * 3 + m) s) =
      ∑ i ∈ range c.numPatom, ∑ x ∈ range 3, ∑ j ∈ range c.numPatom, ∑ y ∈ range 3,
        ((∑ s ∈ S, conj (v (i * 3 + x) s) * v (j * 3 + y) s) *
          grunDD sqrt expi c X q i j x y k l).re := by
    intro v
    simp only [formRe]
    rw [Finset.sum_comm]
    refine Finset.sum_congr rfl fun i _ => ?_
    rw [Finset.sum_comm]
    refine Finset.sum_congr rfl fun x _ => ?_
    rw [Finset.sum_comm]
    refine Finset.sum_congr rfl fun j _ => ?_
    rw [Finset.sum_comm]
    refine Finset.sum_congr rfl fun y _ => ?_
    rw [← re_sum, Finset.sum_mul]
    congr 1
    exact Finset.sum_congr rfl fun s _ => by ring
  rw [h2, h2]
  refine sum4_congr fun i _ x _ j _ y _ => ?_
  congr 2
  have hconj : ∀ (T : Finset Nat) (f : Nat → Cplx K), conj (∑ t ∈ T, f t) = ∑ t ∈ T, conj (f t) := by
    intro T f
    ext
    · simp [conj, re_sum]
    · simp [conj, im_sum]
  have hmul : ∀ a b : Cplx K, conj (a * b) = conj a * conj b := by
    intro a b
    ext <;> simp [conj] <;> ring
  have h3 : ∀ s ∈ S, conj (w' (i * 3 + x) s) * w' (j * 3 + y) s =
      ∑ t ∈ S, ∑ t' ∈ S, conj (U s t) * U s t' * (conj (w (i * 3 + x) t) * w (j * 3 + y) t') := by
    intro s hs
    rw [hw s hs, hw s hs, hconj, Finset.sum_mul_sum]
    refine Finset.sum_congr rfl fun t _ => Finset.sum_congr rfl fun t' _ => ?_
    rw [hmul]
    ring
  rw [Finset.sum_congr rfl h3, Finset.sum_comm]
  refine Finset.sum_congr rfl fun t ht => ?_
  rw [Finset.sum_comm]
  have h4 : ∀ t' ∈ S, ∑ s ∈ S, conj (U s t) * U s t' *
      (conj (w (i * 3 + x) t) * w (j * 3 + y) t') =
      (if t = t' then 1 else 0) * (conj (w (i * 3 + x) t) * w (j * 3 + y) t') := by
    intro t' ht'
    rw [← Finset.sum_mul, hU t ht t' ht']
  rw [Finset.sum_congr rfl h4, Finset.sum_eq_single t]
  · simp
  · intro t' _ hne
    simp [Ne.symm hne]
  · intro hn
    exact absurd ht hn

/-- The strained force constants exist: the addresses of different elements differ. -/
theorem exists_strained (c : GrunCell K) (hinj : ∀ i < c.numPatom, ∀ j < c.numPatom,
    c.p2s i = c.p2s j → i = j) (δ : Nat → Nat → Nat → Nat → K) :
    ∃ f : Int → K, ∀ ν < c.numPatom, ∀ P < c.numSatom, ∀ i < 3, ∀ j < 3,
      f (fc2At c.numSatom (c.p2s ν) P i j) = c.fc2 (fc2At c.numSatom (c.p2s ν) P i j) + δ ν P i j := by
  classical
  let good : Int → Nat × Nat × Nat × Nat → Prop := fun x v =>
    v.1 < c.numPatom ∧ v.2.1 < c.numSatom ∧ v.2.2.1 < 3 ∧ v.2.2.2 < 3 ∧
      x = fc2At c.numSatom (c.p2s v.1) v.2.1 v.2.2.1 v.2.2.2
  refine ⟨fun x => if h : ∃ v, good x v then
    c.fc2 x + δ h.choose.1 h.choose.2.1 h.choose.2.2.1 h.choose.2.2.2 else 0, ?_⟩
  intro ν hν P hP i hi j hj
  have hex : ∃ v, good (fc2At c.numSatom (c.p2s ν) P i j) v :=
    ⟨(ν, P, i, j), hν, hP, hi, hj, rfl⟩
  beta_reduce
  rw [dif_pos hex]
  have hspec := hex.choose_spec
  generalize hex.choose = v at hspec
  obtain ⟨ν', P', i', j'⟩ := v
  obtain ⟨g1, g2, g3, g4, g5⟩ := hspec
  simp only [fc2At] at g1 g2 g3 g4 g5 ⊢
  have e1 : (c.p2s ν * c.numSatom + P) * 3 + i = (c.p2s ν' * c.numSatom + P') * 3 + i' ∧
      j = j' := by omega
  have e2 : c.p2s ν * c.numSatom + P = c.p2s ν' * c.numSatom + P' ∧ i = i' := by omega
  have e3 : c.p2s ν = c.p2s ν' ∧ P = P' := by
    have hn : (0 : Int) < c.numSatom := by omega
    have a1 : (c.p2s ν * c.numSatom + P) / (c.numSatom : Int) = c.p2s ν := by
      rw [Int.add_comm, Int.add_mul_ediv_right _ _ hn.ne', Int.ediv_eq_zero_of_lt (by omega) (by omega),
        zero_add]
    have a2 : (c.p2s ν' * c.numSatom + P') / (c.numSatom : Int) = c.p2s ν' := by
      rw [Int.add_comm, Int.add_mul_ediv_right _ _ hn.ne', Int.ediv_eq_zero_of_lt (by omega) (by omega),
        zero_add]
    have a3 : c.p2s ν = c.p2s ν' := by rw [← a1, ← a2, e2.1]
    refine ⟨a3, ?_⟩
    have := e2.1
    rw [a3] at this
    omega
  have e4 := hinj ν hν ν' g1 e3.1
  rw [← e4, ← e3.2, ← e2.2, ← e1.2]

/-- C101: within `1e-5` of the zone centre the parameters of the three lowest eigenvalues are zero.
They are meant to be the acoustic modes; an unstable optical mode takes the place of one of them. -/
theorem C101_lowest_at_gamma (sqrt : K → K) (expi : K → Cplx K) (c : GrunCell K)
    (X : Nat → Nat → Nat → Nat → K) (q : Nat → K) (omega2 : Nat → K) (w : Nat → Nat → Cplx K)
    {s : Nat} (hs : s < 3) (hq : ∀ d < 3, |q d| < 1 / 100000) (k l : Nat) :
    grunTensor sqrt expi c X q omega2 w s k l = 0 := by
  unfold grunTensor
  rw [if_pos ⟨by simpa [nearGamma] using hq, hs⟩]

end
end Phono3py.Props
