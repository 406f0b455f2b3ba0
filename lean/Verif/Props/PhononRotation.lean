import Mathlib.Tactic.IntervalCases
import Mathlib.Algebra.Order.Field.Rat
import Verif.Spec.PhononRotation
import Verif.Props.DynMat
import Mathlib.LinearAlgebra.Matrix.NonsingularInverse
import Mathlib.Algebra.BigOperators.Fin

/-!
# C126: dynamical matrices and symmetry operations
-/

namespace Phono3py.Props
open Phono3py Phono3py.Spec Finset

section
variable {K : Type} [Field K] [LinearOrder K] [IsStrictOrderedRing K]

theorem sum_permuted {M : Type _} [AddCommMonoid M] {n : Nat} {f : Nat → Nat} (h : PermutesBelow n f)
    (F : Nat → M) : ∑ i ∈ range n, F (f i) = ∑ i ∈ range n, F i := by
  have hinj : Set.InjOn f (range n : Set Nat) := by
    intro i hi j hj e
    exact h.2 i (by simpa using hi) j (by simpa using hj) e
  have himg : (range n).image f = range n := by
    refine Finset.eq_of_subset_of_card_le ?_ ?_
    · intro x hx
      obtain ⟨i, hi, rfl⟩ := Finset.mem_image.1 hx
      exact Finset.mem_range.2 (h.1 i (Finset.mem_range.1 hi))
    · rw [Finset.card_image_of_injOn hinj]
  rw [← Finset.sum_image (f := F) hinj, himg]

theorem dotN_turned (W : Nat → Nat → K) (q v : Nat → K) :
    dotN (turnedQ W q) v = dotN q (fun d => ∑ e ∈ range 3, W d e * v e) := by
  simp only [dotN, turnedQ, Finset.sum_range_succ, Finset.sum_range_zero]
  ring

theorem meanPhaseN_turned (e : K → Cplx K) (W : Nat → Nat → K) (q : Nat → K) (vecs : Int → Nat → K)
    (n : Nat) (s s' : Int) (π : Nat → Nat) (hπ : PermutesBelow n π)
    (hv : ∀ x < n, ∀ d < 3, vecs (s' + π x) d = ∑ e ∈ range 3, W d e * vecs (s + x) e) :
    meanPhaseN e (turnedQ W q) vecs n s = meanPhaseN e q vecs n s' := by
  unfold meanPhaseN
  rw [← sum_permuted hπ (fun x => e (dotN q (vecs (s' + x))))]
  congr 1
  refine Finset.sum_congr rfl fun x hx => ?_
  rw [dotN_turned]
  congr 1
  unfold dotN
  refine Finset.sum_congr rfl fun d hd => ?_
  rw [hv x (Finset.mem_range.1 hx) d (Finset.mem_range.1 hd)]

/-- Turning back a turned tensor. -/
theorem turn_back {R : Nat → Nat → K}
    (ho : ∀ a < 3, ∀ b < 3, ∑ k ∈ range 3, R k a * R k b = if a = b then 1 else 0)
    (T : Nat → Nat → K) {k l : Nat} (hk : k < 3) (hl : l < 3) :
    ∑ a ∈ range 3, ∑ b ∈ range 3, R a k * R b l *
      (∑ m ∈ range 3, ∑ n ∈ range 3, R a m * R b n * T m n) = T k l := by
  have e : ∑ a ∈ range 3, ∑ b ∈ range 3, R a k * R b l *
      (∑ m ∈ range 3, ∑ n ∈ range 3, R a m * R b n * T m n) =
      ∑ m ∈ range 3, ∑ n ∈ range 3,
        (∑ a ∈ range 3, R a k * R a m) * (∑ b ∈ range 3, R b l * R b n) * T m n := by
    simp only [Finset.sum_range_succ, Finset.sum_range_zero]
    ring
  rw [e]
  have : ∀ m ∈ range 3, ∑ n ∈ range 3,
      (∑ a ∈ range 3, R a k * R a m) * (∑ b ∈ range 3, R b l * R b n) * T m n =
      if k = m then T m l else 0 := by
    intro m hm
    rw [ho k hk m (Finset.mem_range.1 hm)]
    have : ∀ n ∈ range 3, (if k = m then (1 : K) else 0) * (∑ b ∈ range 3, R b l * R b n) * T m n =
        if l = n then (if k = m then T m n else 0) else 0 := by
      intro n hn
      rw [ho l hl n (Finset.mem_range.1 hn)]
      split <;> split <;> simp
    rw [Finset.sum_congr rfl this, Finset.sum_ite_eq, if_pos (Finset.mem_range.2 hl)]
  rw [Finset.sum_congr rfl this, Finset.sum_ite_eq, if_pos (Finset.mem_range.2 hk)]

/-- The rows of an orthogonal matrix are orthonormal as well. -/
theorem rows_orthogonal {R : Nat → Nat → K}
    (ho : ∀ a < 3, ∀ b < 3, ∑ k ∈ range 3, R k a * R k b = if a = b then 1 else 0) {a b : Nat}
    (ha : a < 3) (hb : b < 3) : ∑ k ∈ range 3, R a k * R b k = if a = b then 1 else 0 := by
  let A : Matrix (Fin 3) (Fin 3) K := fun i j => R i j
  have h1 : A.transpose * A = 1 := by
    ext i j
    have := ho i i.isLt j j.isLt
    rw [Finset.sum_range] at this
    rw [Matrix.mul_apply, Matrix.one_apply]
    simpa [A, Fin.ext_iff, Matrix.transpose_apply, Matrix.transpose, Matrix.of_apply] using this
  have h2 := mul_eq_one_comm.1 h1
  have := congrFun (congrFun h2 ⟨a, ha⟩) ⟨b, hb⟩
  rw [Matrix.mul_apply, Matrix.one_apply] at this
  rw [Finset.sum_range]
  simpa [A, Fin.ext_iff, Matrix.transpose_apply, Matrix.transpose, Matrix.of_apply] using this

theorem scale_add_right (z : Cplx K) (x y : K) : z.scale (x + y) = z.scale x + z.scale y := by
  ext <;> simp [Cplx.scale, mul_add]

theorem scale_scale (z : Cplx K) (x y : K) : (z.scale x).scale y = z.scale (x * y) := by
  ext <;> simp [Cplx.scale, mul_assoc]

theorem scale_sum_right {ι : Type _} (t : Finset ι) (z : Cplx K) (f : ι → K) :
    z.scale (∑ i ∈ t, f i) = ∑ i ∈ t, z.scale (f i) := by
  ext <;> simp [Cplx.scale, re_sum, im_sum, Finset.mul_sum]

theorem zero_scale (x : K) : (0 : Cplx K).scale x = 0 := by
  ext <;> simp [Cplx.scale]

/-- The Fourier transform at the turned wave vector. -/
theorem fourierBlock_turned (sqrt : K → K) (e : K → Cplx K) {c : Fc2Cell K} {W R : Nat → Nat → K}
    {g : Nat → Nat} (h : IsSymmetry c W R g) (extra extra' : Nat → Nat → Nat → Nat → K)
    (q : Nat → K) {i k j l : Nat} (hi : i < c.numPatom) (hk : k < 3) (hj : j < c.numPatom)
    (hl : l < 3)
    (hx : extra' i k j l = ∑ a ∈ range 3, ∑ b ∈ range 3, R a k * R b l * extra (g i) a (g j) b) :
    fourierBlock sqrt e c extra' (turnedQ W q) i k j l =
      ∑ a ∈ range 3, ∑ b ∈ range 3,
        (fourierBlock sqrt e c extra q (g i) a (g j) b).scale (R a k * R b l) := by
  obtain ⟨σ, hσ, hcls, hfc, hsv⟩ := h.supercell i hi
  have hterm : ∀ s ∈ range c.numSatom,
      (if c.s2p s = c.p2s j then
        (meanPhaseN e (turnedQ W q) c.svecs (c.multi (s * c.numPatom + i)).1
          (c.multi (s * c.numPatom + i)).2).scale
          (c.fc2 (fc2At c.numSatom (c.p2s i) s k l) + extra' i k j l) else 0) =
      ∑ a ∈ range 3, ∑ b ∈ range 3, (if c.s2p (σ s) = c.p2s (g j) then
        (meanPhaseN e q c.svecs (c.multi (σ s * c.numPatom + g i)).1
          (c.multi (σ s * c.numPatom + g i)).2).scale
          (c.fc2 (fc2At c.numSatom (c.p2s (g i)) (σ s) a b) + extra (g i) a (g j) b)
        else 0).scale (R a k * R b l) := by
    intro s hs
    have hs' := Finset.mem_range.1 hs
    by_cases hc : c.s2p s = c.p2s j
    · have hc' := (hcls s hs' j hj).2 hc
      obtain ⟨hm, π, hπ, hv⟩ := hsv s hs'
      simp only [if_pos hc, if_pos hc', scale_scale]
      rw [hm, meanPhaseN_turned e W q c.svecs _ _ _ π hπ hv]
      simp only [← scale_sum_right]
      congr 1
      have e1 : ∑ a ∈ range 3, ∑ b ∈ range 3,
          (c.fc2 (fc2At c.numSatom (c.p2s (g i)) (σ s) a b) + extra (g i) a (g j) b) *
            (R a k * R b l) =
          ∑ a ∈ range 3, ∑ b ∈ range 3, R a k * R b l *
            c.fc2 (fc2At c.numSatom (c.p2s (g i)) (σ s) a b) +
          ∑ a ∈ range 3, ∑ b ∈ range 3, R a k * R b l * extra (g i) a (g j) b := by
        rw [← Finset.sum_add_distrib]
        refine Finset.sum_congr rfl fun a _ => ?_
        rw [← Finset.sum_add_distrib]
        exact Finset.sum_congr rfl fun b _ => by ring
      rw [e1, ← hx, ← turn_back h.orthogonal
        (fun m n => c.fc2 (fc2At c.numSatom (c.p2s i) s m n)) hk hl]
      congr 1
      refine Finset.sum_congr rfl fun a ha => Finset.sum_congr rfl fun b hb => ?_
      rw [hfc s hs' a (Finset.mem_range.1 ha) b (Finset.mem_range.1 hb)]
    · have hc' : ¬ c.s2p (σ s) = c.p2s (g j) := fun h => hc ((hcls s hs' j hj).1 h)
      simp [if_neg hc, if_neg hc', zero_scale]
  unfold fourierBlock
  rw [Finset.sum_congr rfl hterm, h.mass i hi, h.mass j hj]
  rw [sum_permuted hσ (fun s => ∑ a ∈ range 3, ∑ b ∈ range 3, (if c.s2p s = c.p2s (g j) then
        (meanPhaseN e q c.svecs (c.multi (s * c.numPatom + g i)).1
          (c.multi (s * c.numPatom + g i)).2).scale
          (c.fc2 (fc2At c.numSatom (c.p2s (g i)) s a b) + extra (g i) a (g j) b)
        else 0).scale (R a k * R b l))]
  rw [Finset.sum_comm, scale_sum]
  refine Finset.sum_congr rfl fun a _ => ?_
  rw [Finset.sum_comm, scale_sum]
  refine Finset.sum_congr rfl fun b _ => ?_
  simp only [scale_sum, scale_scale]
  refine Finset.sum_congr rfl fun s _ => ?_
  rw [mul_comm (R a k * R b l)]

/-! ### The non-analytical term -/

theorem nacVector_turned {c : Fc2Cell K} {p : NacParams K} {recip W R : Nat → Nat → K} {g : Nat → Nat}
    (h : IsNacSymmetry c p recip W R g) (q : Nat → K) {d : Nat} (hd : d < 3) :
    nacVector recip (turnedQ W q) none d = ∑ e ∈ range 3, R e d * nacVector recip q none e := by
  have e1 : nacVector recip (turnedQ W q) none d =
      ∑ f ∈ range 3, (∑ e ∈ range 3, recip d e * W f e) * q f := by
    simp only [nacVector, dotN, turnedQ, Option.getD, Finset.sum_range_succ, Finset.sum_range_zero]
    ring
  rw [e1]
  have : ∀ f ∈ range 3, (∑ e ∈ range 3, recip d e * W f e) * q f =
      (∑ e ∈ range 3, R e d * recip e f) * q f := fun f hf => by
    rw [h.basis d hd f (Finset.mem_range.1 hf)]
  rw [Finset.sum_congr rfl this]
  simp only [nacVector, dotN, Option.getD, Finset.sum_range_succ, Finset.sum_range_zero]
  ring

/-- A tensor turned in both indices, contracted with turned vectors. -/
theorem contract_turned {R : Nat → Nat → K} (v w : Nat → K) (T T' : Nat → Nat → K)
    (hT : ∀ a < 3, ∀ b < 3, T' a b = ∑ k ∈ range 3, ∑ l ∈ range 3, R a k * R b l * T k l)
    (hw : ∀ d < 3, w d = ∑ e ∈ range 3, R e d * v e) :
    (∀ l < 3, (∀ a < 3, ∀ b < 3, ∑ k ∈ range 3, R k a * R k b = if a = b then 1 else 0) →
      ∑ m ∈ range 3, w m * T m l = ∑ b ∈ range 3, R b l * ∑ m ∈ range 3, v m * T' m b) ∧
    quadForm w T = quadForm v T' := by
  constructor
  · intro l hl ho
    have e1 : ∑ b ∈ range 3, R b l * ∑ m ∈ range 3, v m * T' m b =
        ∑ n ∈ range 3, (∑ b ∈ range 3, R b l * R b n) *
          ∑ k ∈ range 3, (∑ m ∈ range 3, R m k * v m) * T k n := by
      have : ∀ b ∈ range 3, R b l * ∑ m ∈ range 3, v m * T' m b = R b l * ∑ m ∈ range 3, v m *
          ∑ k ∈ range 3, ∑ n ∈ range 3, R m k * R b n * T k n := fun b hb => by
        congr 1
        exact Finset.sum_congr rfl fun m hm => by
          rw [hT m (Finset.mem_range.1 hm) b (Finset.mem_range.1 hb)]
      rw [Finset.sum_congr rfl this]
      simp only [Finset.sum_range_succ, Finset.sum_range_zero]
      ring
    rw [e1]
    have : ∀ n ∈ range 3, (∑ b ∈ range 3, R b l * R b n) *
        ∑ k ∈ range 3, (∑ m ∈ range 3, R m k * v m) * T k n =
        if l = n then ∑ m ∈ range 3, w m * T m n else 0 := by
      intro n hn
      rw [ho l hl n (Finset.mem_range.1 hn)]
      split
      · rw [one_mul]
        exact Finset.sum_congr rfl fun k hk => by rw [hw k (Finset.mem_range.1 hk)]
      · rw [zero_mul]
    rw [Finset.sum_congr rfl this, Finset.sum_ite_eq, if_pos (Finset.mem_range.2 hl)]
  · unfold quadForm
    have h1 : ∑ i ∈ range 3, ∑ j ∈ range 3, w i * T i j * w j =
        ∑ i ∈ range 3, ∑ j ∈ range 3,
          (∑ e ∈ range 3, R e i * v e) * T i j * (∑ e ∈ range 3, R e j * v e) :=
      Finset.sum_congr rfl fun i hi => Finset.sum_congr rfl fun j hj => by
        rw [hw i (Finset.mem_range.1 hi), hw j (Finset.mem_range.1 hj)]
    have h2 : ∑ i ∈ range 3, ∑ j ∈ range 3, v i * T' i j * v j =
        ∑ i ∈ range 3, ∑ j ∈ range 3,
          v i * (∑ k ∈ range 3, ∑ l ∈ range 3, R i k * R j l * T k l) * v j :=
      Finset.sum_congr rfl fun i hi => Finset.sum_congr rfl fun j hj => by
        rw [hT i (Finset.mem_range.1 hi) j (Finset.mem_range.1 hj)]
    rw [h1, h2]
    simp only [Finset.sum_range_succ, Finset.sum_range_zero]
    ring

theorem wangTerm_turned {c : Fc2Cell K} {p : NacParams K} {recip W R : Nat → Nat → K} {g : Nat → Nat}
    (hs : IsSymmetry c W R g) (h : IsNacSymmetry c p recip W R g) (q : Nat → K) {i k j l : Nat}
    (hi : i < c.numPatom) (hk : k < 3) (hj : j < c.numPatom) (hl : l < 3) :
    wangTerm c p (nacVector recip (turnedQ W q) none) i k j l =
      ∑ a ∈ range 3, ∑ b ∈ range 3,
        R a k * R b l * wangTerm c p (nacVector recip q none) (g i) a (g j) b := by
  have hv : ∀ d < 3, nacVector recip (turnedQ W q) none d =
      ∑ e ∈ range 3, R e d * nacVector recip q none e := fun d hd => nacVector_turned h q hd
  have c1 := (contract_turned _ _ (p.born i) (p.born (g i)) (h.charges i hi) hv).1 k hk hs.orthogonal
  have c2 := (contract_turned _ _ (p.born j) (p.born (g j)) (h.charges j hj) hv).1 l hl hs.orthogonal
  have c3 := (contract_turned _ _ p.dielectric p.dielectric h.dielectric hv).2
  unfold wangTerm
  rw [c1, c2, c3]
  generalize quadForm (nacVector recip q none) p.dielectric = x
  simp only [Finset.sum_range_succ, Finset.sum_range_zero, div_eq_mul_inv]
  ring

/-! ### C126 -/

theorem conj_smul (z : Cplx K) (x : K) : conj (z.scale x) = (conj z).scale x := by
  ext <;> simp [conj, Cplx.scale]

/-- **C126**. An operation of the space group under which force constants, masses and, with the
correction of Wang, Born charges and dielectric tensor are invariant turns the dynamical matrix: the
matrix at `Wᵀ q` is that at `q` with atoms permuted and Cartesian indices turned. -/
theorem C126_matrix (sqrt : K → K) (expi : K → Cplx K) {c : Fc2Cell K} {W R : Nat → Nat → K}
    {g : Nat → Nat} (h : IsSymmetry c W R g) (nac : Option (NacParams K)) (recip : Nat → Nat → K)
    (hn : ∀ p, nac = some p → IsNacSymmetry c p recip W R g) (q : Nat → K) (mem mem' : Int → Cplx K)
    {i k j l : Nat} (hi : i < c.numPatom) (hk : k < 3) (hj : j < c.numPatom) (hl : l < 3) :
    dynBlock c.numPatom (wangMatrix sqrt expi c nac recip (turnedQ W q) none mem') i k j l =
      ∑ a ∈ range 3, ∑ b ∈ range 3,
        (dynBlock c.numPatom (wangMatrix sqrt expi c nac recip q none mem) (g i) a (g j) b).scale
          (R a k * R b l) := by
  have hx : ∀ {i k j l : Nat}, i < c.numPatom → k < 3 → j < c.numPatom → l < 3 →
      extraTerm c nac recip (turnedQ W q) none i k j l = ∑ a ∈ range 3, ∑ b ∈ range 3,
        R a k * R b l * extraTerm c nac recip q none (g i) a (g j) b := by
    intro i k j l hi hk hj hl
    cases nac with
    | none => simp [extraTerm]
    | some p => exact wangTerm_turned h (hn p rfl) q hi hk hj hl
  rw [C86_formula sqrt expi c nac recip _ none mem' hi hk hj hl,
    fourierBlock_turned sqrt expi h _ _ q hi hk hj hl (hx hi hk hj hl),
    fourierBlock_turned sqrt expi h _ _ q hj hl hi hk (hx hj hl hi hk)]
  rw [Finset.sum_comm (s := range 3) (t := range 3) (f := fun a b =>
    (fourierBlock sqrt expi c (extraTerm c nac recip q none) q (g j) a (g i) b).scale (R a l * R b k)),
    conj_sum, ← Finset.sum_add_distrib, scale_sum]
  refine Finset.sum_congr rfl fun a ha => ?_
  rw [conj_sum, ← Finset.sum_add_distrib, scale_sum]
  refine Finset.sum_congr rfl fun b hb => ?_
  rw [C86_formula sqrt expi c nac recip _ none mem (h.atoms.1 i hi) (Finset.mem_range.1 ha)
    (h.atoms.1 j hj) (Finset.mem_range.1 hb), conj_smul]
  ext <;> simp [Cplx.scale] <;> ring

/-- **C126**. If `e` is an eigenvector at `q`, then `e` with atoms permuted and turned, times any
complex number, is an eigenvector at `Wᵀ q` with the same eigenvalue. -/
theorem C126_eigenvector (sqrt : K → K) (expi : K → Cplx K) {c : Fc2Cell K} {W R : Nat → Nat → K}
    {g : Nat → Nat} (h : IsSymmetry c W R g) (nac : Option (NacParams K)) (recip : Nat → Nat → K)
    (hn : ∀ p, nac = some p → IsNacSymmetry c p recip W R g) (q : Nat → K) (mem mem' : Int → Cplx K)
    (lam : K) (e : Nat → Nat → Cplx K) (z : Cplx K)
    (he : EigenPair c.numPatom (wangMatrix sqrt expi c nac recip q none mem) lam e) :
    EigenPair c.numPatom (wangMatrix sqrt expi c nac recip (turnedQ W q) none mem') lam
      (fun i k => ∑ a ∈ range 3, (e (g i) a * z).scale (R a k)) := by
  intro i hi k hk
  have hstep : ∀ j ∈ range c.numPatom, (∑ l ∈ range 3,
      dynBlock c.numPatom (wangMatrix sqrt expi c nac recip (turnedQ W q) none mem') i k j l *
        ∑ a ∈ range 3, (e (g j) a * z).scale (R a l)) =
      ∑ a ∈ range 3, ((∑ b ∈ range 3,
        dynBlock c.numPatom (wangMatrix sqrt expi c nac recip q none mem) (g i) a (g j) b *
          e (g j) b) * z).scale (R a k) := by
    intro j hj
    have hj' := Finset.mem_range.1 hj
    have e1 : ∀ l ∈ range 3,
        dynBlock c.numPatom (wangMatrix sqrt expi c nac recip (turnedQ W q) none mem') i k j l *
          ∑ a ∈ range 3, (e (g j) a * z).scale (R a l) =
        ∑ a ∈ range 3, ∑ b ∈ range 3, ∑ m ∈ range 3,
          (dynBlock c.numPatom (wangMatrix sqrt expi c nac recip q none mem) (g i) a (g j) b *
            (e (g j) m * z)).scale (R a k * (R b l * R m l)) := by
      intro l hl
      rw [C126_matrix sqrt expi h nac recip hn q mem mem' hi hk hj' (Finset.mem_range.1 hl),
        Finset.sum_mul]
      refine Finset.sum_congr rfl fun a _ => ?_
      rw [Finset.sum_mul]
      refine Finset.sum_congr rfl fun b _ => ?_
      rw [Finset.mul_sum]
      refine Finset.sum_congr rfl fun m _ => ?_
      ext <;> simp [Cplx.scale] <;> ring
    rw [Finset.sum_congr rfl e1, Finset.sum_comm]
    refine Finset.sum_congr rfl fun a _ => ?_
    rw [Finset.sum_comm, Finset.sum_mul, scale_sum]
    refine Finset.sum_congr rfl fun b hb => ?_
    rw [Finset.sum_comm]
    have e2 : ∀ m ∈ range 3, ∑ l ∈ range 3,
        (dynBlock c.numPatom (wangMatrix sqrt expi c nac recip q none mem) (g i) a (g j) b *
          (e (g j) m * z)).scale (R a k * (R b l * R m l)) =
        if b = m then (dynBlock c.numPatom (wangMatrix sqrt expi c nac recip q none mem) (g i) a
          (g j) b * (e (g j) m * z)).scale (R a k) else 0 := by
      intro m hm
      rw [← scale_sum_right, ← Finset.mul_sum,
        rows_orthogonal h.orthogonal (Finset.mem_range.1 hb) (Finset.mem_range.1 hm)]
      split
      · rw [mul_one]
      · ext <;> simp [Cplx.scale]
    rw [Finset.sum_congr rfl e2, Finset.sum_ite_eq, if_pos hb]
    congr 1
    ring
  rw [Finset.sum_congr rfl hstep, Finset.sum_comm, scale_sum]
  refine Finset.sum_congr rfl fun a ha => ?_
  rw [← scale_sum, ← Finset.sum_mul]
  rw [sum_permuted h.atoms (fun j => ∑ b ∈ range 3,
    dynBlock c.numPatom (wangMatrix sqrt expi c nac recip q none mem) (g i) a j b * e j b)]
  rw [he (g i) (h.atoms.1 i hi) a (Finset.mem_range.1 ha)]
  ext <;> simp [Cplx.scale] <;> ring

end

/-! ### A concrete case -/

/-- Two equal atoms, a quarter of the first axis apart, joined by a spring. -/
def dimerCell : Fc2Cell ℚ where
  numPatom := 2
  numSatom := 2
  fc2 := fun x => (if x / 9 = 0 ∨ x / 9 = 3 then 1 else -1) *
    (if x % 9 = 0 then 3 else if x % 9 = 4 then 1 else if x % 9 = 8 then 1 else 0)
  svecs := fun x d => if d = 0 then (if x = 1 then -1 / 4 else if x = 2 then 1 / 4 else 0) else 0
  multi := fun k => (1, k)
  mass := fun _ => 2
  p2s := fun i => i
  s2p := fun s => s

/-- Its charges and dielectric tensor. -/
def dimerNac : NacParams ℚ where
  born := fun i a b => if a = b then (if a = 0 then 2 else 1) else 0
  dielectric := fun a b => if a = b then (if a = 0 then 5 else 3) else 0
  factor := 7

/-- Inversion at the middle of the dimer. -/
def inversion : Nat → Nat → ℚ := fun i j => if i = j then -1 else 0

/-- C126: inversion exchanges the atoms of the dimer and is a symmetry of its force constants, vectors
and charges. -/
example : IsSymmetry dimerCell inversion inversion (fun i => 1 - i) ∧
    IsNacSymmetry dimerCell dimerNac (fun i j => if i = j then 1 else 0) inversion inversion
      (fun i => 1 - i) := by
  have hp : PermutesBelow 2 fun i => 1 - i :=
    ⟨fun i _ => by dsimp only; omega, fun i hi j hj h => by dsimp only at h; omega⟩
  refine ⟨⟨by decide +kernel, hp, fun _ _ => rfl, fun i hi => ⟨fun i => 1 - i, hp, ?_, ?_, ?_⟩⟩,
    ⟨?_, by decide +kernel, by decide +kernel⟩⟩
  · show ∀ s < 2, ∀ j < 2, _
    decide +kernel
  · have hi : i < 2 := hi
    show ∀ s < 2, _
    interval_cases i <;> decide +kernel
  · have hi : i < 2 := hi
    intro s hs
    have hs : s < 2 := hs
    refine ⟨rfl, id, ⟨fun _ h => h, fun _ _ _ _ h => h⟩, ?_⟩
    show ∀ x < 1, _
    interval_cases i <;> interval_cases s <;> decide +kernel
  · show ∀ i < 2, _
    decide +kernel

end Phono3py.Props
