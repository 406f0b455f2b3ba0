import Verif.Spec.Fc3Symmetry
import Verif.Lemmas.Strength
import Verif.Props.PhononRotation
import Mathlib.Tactic.LinearCombination

/-!
Lemmas for C128: the lattice Fourier transform of third-order force constants under operations of
the space group.
-/

set_option linter.unusedSectionVars false

namespace Phono3py.Props
open Phono3py Phono3py.Spec Finset

section
variable {K : Type} [Field K] [LinearOrder K] [IsStrictOrderedRing K]

/-- One index turned and turned back. -/
theorem turn_back1 {R : Nat → Nat → K}
    (ho : ∀ a < 3, ∀ b < 3, ∑ k ∈ range 3, R k a * R k b = if a = b then 1 else 0)
    (F : Nat → K) {x : Nat} (hx : x < 3) :
    ∑ a ∈ range 3, R a x * ∑ l ∈ range 3, R a l * F l = F x := by
  have : ∀ a ∈ range 3, R a x * ∑ l ∈ range 3, R a l * F l = ∑ l ∈ range 3, R a x * R a l * F l :=
    fun a _ => by rw [Finset.mul_sum]; exact Finset.sum_congr rfl fun l _ => by ring
  rw [Finset.sum_congr rfl this, Finset.sum_comm]
  have : ∀ l ∈ range 3, ∑ a ∈ range 3, R a x * R a l * F l = if x = l then F l else 0 := by
    intro l hl
    rw [← Finset.sum_mul, ho x hx l (Finset.mem_range.1 hl)]
    split <;> simp
  rw [Finset.sum_congr rfl this, Finset.sum_ite_eq, if_pos (Finset.mem_range.2 hx)]

/-- Three indices turned and turned back. -/
theorem turn_back3 {R : Nat → Nat → K}
    (ho : ∀ a < 3, ∀ b < 3, ∑ k ∈ range 3, R k a * R k b = if a = b then 1 else 0)
    (T : Nat → Nat → Nat → K) {x y z : Nat} (hx : x < 3) (hy : y < 3) (hz : z < 3) :
    ∑ a ∈ range 3, ∑ b ∈ range 3, ∑ c ∈ range 3, R a x * R b y * R c z *
      (∑ l ∈ range 3, ∑ m ∈ range 3, ∑ n ∈ range 3, R a l * R b m * R c n * T l m n) = T x y z := by
  have h1 : ∀ a b, ∑ c ∈ range 3, R a x * R b y * R c z *
      (∑ l ∈ range 3, ∑ m ∈ range 3, ∑ n ∈ range 3, R a l * R b m * R c n * T l m n) =
      R a x * R b y * ∑ l ∈ range 3, ∑ m ∈ range 3, R a l * R b m * T l m z := by
    intro a b
    rw [← turn_back1 ho (fun n => ∑ l ∈ range 3, ∑ m ∈ range 3, R a l * R b m * T l m n) hz,
      Finset.mul_sum]
    refine Finset.sum_congr rfl fun c _ => ?_
    simp only [Finset.sum_range_succ, Finset.sum_range_zero]
    ring
  simp only [h1]
  exact turn_back ho (fun l m => T l m z) hx hy

theorem dot_turned (W : Nat → Nat → K) (q v : Fin 3 → K) :
    dot (turned W q) v = dot q (fun d => ∑ e : Fin 3, W d e * v e) := by
  simp only [dot, turned, Fin.sum_univ_three]
  ring

theorem meanPhase_turned (e : K → Cplx K) (W : Nat → Nat → K) (q : Fin 3 → K) (vecs : Int → Fin 3 → K)
    (n : Nat) (s s' : Int) (π : Nat → Nat) (hπ : PermutesBelow n π)
    (hv : ∀ x < n, ∀ d : Fin 3, vecs (s' + π x) d = ∑ e : Fin 3, W d e * vecs (s + x) e) :
    meanPhase e (turned W q) vecs n s = meanPhase e q vecs n s' := by
  unfold meanPhase
  rw [← sum_permuted hπ (fun x => e (dot q (vecs (s' + x))))]
  congr 1
  refine Finset.sum_congr rfl fun x hx => ?_
  rw [dot_turned]
  congr 1
  unfold dot
  exact Finset.sum_congr rfl fun d _ => by rw [hv x (Finset.mem_range.1 hx) d]

theorem scale_sum3 (z : Cplx K) (F : Nat → Nat → Nat → K) :
    ∑ a ∈ range 3, ∑ b ∈ range 3, ∑ c ∈ range 3, z.scale (F a b c) =
      z.scale (∑ a ∈ range 3, ∑ b ∈ range 3, ∑ c ∈ range 3, F a b c) := by
  simp only [scale_sum_right]

/-- The sums over the supercell at the turned wave vectors. -/
theorem element_turned (expi : K → Cplx K) {c : Crystal K} {W R : Nat → Nat → K} {g : Nat → Nat}
    (h : IsFc3Symmetry c W R g) (q : Fin 3 → Fin 3 → K) (ma mb : Fin 3) (leg : Nat)
    {i j k x y z : Nat} (hi : i < c.atoms.numPatom) (hj : j < c.atoms.numPatom)
    (hk : k < c.atoms.numPatom) (hx : x < 3) (hy : y < 3) (hz : z < 3) :
    r2rElement c.atoms (phaseTable expi c.atoms (fun m => turned W (q m)) ma i)
      (phaseTable expi c.atoms (fun m => turned W (q m)) mb i) c.fc3 c.isCompact i j k leg
      (x * 9 + y * 3 + z) =
    ∑ a ∈ range 3, ∑ b ∈ range 3, ∑ d ∈ range 3,
      (r2rElement c.atoms (phaseTable expi c.atoms q ma (g i)) (phaseTable expi c.atoms q mb (g i))
        c.fc3 c.isCompact (g i) (g j) (g k) leg (a * 9 + b * 3 + d)).scale
          (R a x * R b y * R d z) := by
  obtain ⟨σ, hσ, hcls, hfc, hsv, hsh⟩ := h.supercell i hi
  set n := c.atoms.numSatom with hn
  have pos : ∀ (r : Int) (s t a b d : Nat), r * 27 * n * n + s * 27 * n + t * 27 +
      ((a * 9 + b * 3 + d : Nat) : Int) = fc3At n r s t a b d := by
    intro r s t a b d
    unfold fc3At
    push_cast
    ring
  have hleg : ∀ s < n, ∀ t < n, legFactor c.atoms (g i) leg (σ s) (σ t) =
      legFactor c.atoms i leg s t := by
    intro s hs t ht
    have e : ∀ (i s t : Nat), (i : Int) * n * n + s * n + t = (at3 n n i s t : Nat) := by
      intro i s t; unfold at3; push_cast; ring
    unfold legFactor
    rw [← hn, e, e, hsh s hs t ht]
  have hph : ∀ (m : Fin 3), ∀ s < n, phaseTable expi c.atoms (fun m => turned W (q m)) m i s =
      phaseTable expi c.atoms q m (g i) (σ s) := by
    intro m s hs
    obtain ⟨hcount, π, hπ, hv⟩ := hsv s hs
    unfold phaseTable
    rw [phaseFactor_eq, phaseFactor_eq]
    unfold shortestCount at hcount hπ hv
    rw [hcount]
    exact meanPhase_turned expi W (q m) _ _ _ _ π hπ hv
  simp only [r2rElement_eq, ← hn, pos]
  have hrow : ∀ i : Nat, (if c.isCompact then (i : Int) else c.atoms.p2s i) = fc3Row c i := fun i => rfl
  simp only [hrow]
  symm
  simp only [scale_sum]
  have comm : ∀ F : Nat → Nat → Nat → Nat → Nat → Cplx K,
      ∑ a ∈ range 3, ∑ b ∈ range 3, ∑ d ∈ range 3, ∑ s ∈ range n, ∑ t ∈ range n, F a b d s t =
      ∑ s ∈ range n, ∑ t ∈ range n, ∑ a ∈ range 3, ∑ b ∈ range 3, ∑ d ∈ range 3, F a b d s t := by
    intro F
    simp only [Finset.sum_range_succ (n := 2), Finset.sum_range_succ (n := 1),
      Finset.sum_range_succ (n := 0), Finset.sum_range_zero, Finset.sum_add_distrib, zero_add]
  rw [comm, ← sum_permuted hσ]
  refine Finset.sum_congr rfl fun s hs => ?_
  have hs := Finset.mem_range.1 hs
  rw [← sum_permuted hσ]
  refine Finset.sum_congr rfl fun t ht => ?_
  have ht := Finset.mem_range.1 ht
  rw [hph ma s hs, hph mb t ht]
  by_cases hc : c.atoms.s2p s = c.atoms.p2s j ∧ c.atoms.s2p t = c.atoms.p2s k
  · have hc' : c.atoms.s2p (σ s) = c.atoms.p2s (g j) ∧ c.atoms.s2p (σ t) = c.atoms.p2s (g k) :=
      ⟨(hcls s hs j hj).2 hc.1, (hcls t ht k hk).2 hc.2⟩
    simp only [if_pos hc, if_pos hc', scale_scale]
    rw [scale_sum3]
    congr 1
    have e : ∀ a ∈ range 3, ∀ b ∈ range 3, ∀ d ∈ range 3,
        c.fc3 (fc3At n (fc3Row c (g i)) (σ s) (σ t) a b d) * legFactor c.atoms (g i) leg (σ s) (σ t) *
          (R a x * R b y * R d z) =
        R a x * R b y * R d z * (∑ l ∈ range 3, ∑ m ∈ range 3, ∑ o ∈ range 3, R a l * R b m * R d o *
          (c.fc3 (fc3At n (fc3Row c i) s t l m o) * legFactor c.atoms i leg s t)) := by
      intro a ha b hb d hd
      rw [hleg s hs t ht, hfc s hs t ht a (Finset.mem_range.1 ha) b (Finset.mem_range.1 hb) d
        (Finset.mem_range.1 hd)]
      simp only [← mul_assoc, ← Finset.sum_mul]
      ring
    rw [Finset.sum_congr rfl fun a ha => Finset.sum_congr rfl fun b hb =>
      Finset.sum_congr rfl fun d hd => e a ha b hb d hd]
    exact turn_back3 h.orthogonal
      (fun l m o => c.fc3 (fc3At n (fc3Row c i) s t l m o) * legFactor c.atoms i leg s t) hx hy hz
  · have hc' : ¬(c.atoms.s2p (σ s) = c.atoms.p2s (g j) ∧ c.atoms.s2p (σ t) = c.atoms.p2s (g k)) :=
      fun h => hc ⟨(hcls s hs j hj).1 h.1, (hcls t ht k hk).1 h.2⟩
    simp only [if_neg hc, if_neg hc', zero_scale, Finset.sum_const_zero]

/-- The phase of the first atom. -/
theorem pre_turned {expi : K → Cplx K} (he : IsPhase expi) {c : Crystal K} {W : Nat → Nat → K}
    {g : Nat → Nat} {shift : Fin 3 → K} (q : Fin 3 → Fin 3 → K)
    (hG : ∀ d, ∃ z : Int, q 0 d + q 1 d + q 2 d = z) {i : Nat}
    (ho : ∃ z : Fin 3 → Int, ∀ d : Fin 3, shortest c 0 (c.atoms.p2s (g i)) 0 d =
      ∑ e : Fin 3, W d e * shortest c 0 (c.atoms.p2s i) 0 e + shift d + z d) :
    prePhaseFactor expi c.atoms (fun m => turned W (q m)) i *
      expi (dot shift fun d => q 0 d + q 1 d + q 2 d) = prePhaseFactor expi c.atoms q (g i) := by
  obtain ⟨z, hz⟩ := ho
  choose G hG using hG
  unfold prePhaseFactor
  simp only [dot3_eq]
  have hv : ∀ s : Int, c.atoms.svecs (c.atoms.multiplicity (s * c.atoms.numPatom)).2 =
      shortest c 0 s 0 := by
    intro s
    unfold shortest
    simp
  rw [hv, hv, ← he.add]
  have e : dot (shortest c 0 (c.atoms.p2s (g i)) 0) (fun j => q 0 j + q 1 j + q 2 j) =
      dot (shortest c 0 (c.atoms.p2s i) 0)
        (fun j => turned W (q 0) j + turned W (q 1) j + turned W (q 2) j) +
      dot shift (fun d => q 0 d + q 1 d + q 2 d) + ((∑ d, z d * G d : Int) : K) := by
    have : ((∑ d, z d * G d : Int) : K) = ∑ d, (z d : K) * (q 0 d + q 1 d + q 2 d) := by
      push_cast
      exact Finset.sum_congr rfl fun d _ => by rw [hG]
    rw [this]
    simp only [dot, turned, hz, Fin.sum_univ_three]
    ring
  rw [e, he.add _ ((∑ d, z d * G d : Int) : K), he.int, mul_one]

/-- An entry of the transform at the turned wave vectors. -/
theorem entry_turned {expi : K → Cplx K} (he : IsPhase expi) {c : Crystal K} {W R : Nat → Nat → K}
    {g : Nat → Nat} (h : IsFc3Symmetry c W R g) (q : Fin 3 → Fin 3 → K)
    (hG : ∀ d, ∃ z : Int, q 0 d + q 1 d + q 2 d = z) :
    ∃ κ : Cplx K, κ.normSq = 1 ∧ ∀ i < c.atoms.numPatom, ∀ j < c.atoms.numPatom,
      ∀ k < c.atoms.numPatom, ∀ x < 3, ∀ y < 3, ∀ z < 3,
      r2rEntry expi c.atoms (fun m => turned W (q m)) c.fc3 c.isCompact i j k x y z * κ =
      ∑ a ∈ range 3, ∑ b ∈ range 3, ∑ d ∈ range 3,
        (r2rEntry expi c.atoms q c.fc3 c.isCompact (g i) (g j) (g k) a b d).scale
          (R a x * R b y * R d z) := by
  obtain ⟨shift, ho⟩ := h.origin
  refine ⟨expi (dot shift fun d => q 0 d + q 1 d + q 2 d), ?_, ?_⟩
  · have h1 := normSq_eq (expi (dot shift fun d => q 0 d + q 1 d + q 2 d))
    rw [← he.neg, ← he.add, add_neg_cancel, he.zero] at h1
    exact congrArg Cplx.re h1
  intro i hi j hj k hk x hx y hy z hz
  have mulr : ∀ (F : Nat → Nat → Nat → Cplx K) (w : Cplx K) (r : Nat → Nat → Nat → K),
      (∑ a ∈ range 3, ∑ b ∈ range 3, ∑ d ∈ range 3, (F a b d).scale (r a b d)) * w =
      ∑ a ∈ range 3, ∑ b ∈ range 3, ∑ d ∈ range 3, (F a b d * w).scale (r a b d) := by
    intro F w r
    simp only [Finset.sum_mul]
    refine Finset.sum_congr rfl fun a _ => Finset.sum_congr rfl fun b _ =>
      Finset.sum_congr rfl fun d _ => ?_
    rw [scale_eq, scale_eq]
    ring
  unfold r2rEntry
  split_ifs
  · rw [element_turned expi h q 1 2 1 hi hj hk hx hy hz,
      element_turned expi h q 0 2 2 hj hi hk hy hx hz,
      element_turned expi h q 1 0 3 hk hj hi hz hy hx]
    set κ := expi (dot shift fun d => q 0 d + q 1 d + q 2 d) with hκ
    have dist : ∀ A B C P Q S : Cplx K, (A * P + B * Q + C * S).scale (1 / 3) * κ =
        (A * (P * κ) + B * (Q * κ) + C * (S * κ)).scale (1 / 3) := by
      intro A B C P Q S
      rw [scale_eq, scale_eq]
      ring
    rw [dist, hκ, pre_turned he q hG (ho i hi), pre_turned he q hG (ho j hj),
      pre_turned he q hG (ho k hk), mulr, mulr, mulr]
    have s2 : ∀ F : Nat → Nat → Nat → Cplx K,
        ∑ b ∈ range 3, ∑ a ∈ range 3, ∑ d ∈ range 3, F a b d =
        ∑ a ∈ range 3, ∑ b ∈ range 3, ∑ d ∈ range 3, F a b d := fun F => Finset.sum_comm
    have s3 : ∀ F : Nat → Nat → Nat → Cplx K,
        ∑ d ∈ range 3, ∑ b ∈ range 3, ∑ a ∈ range 3, F a b d =
        ∑ a ∈ range 3, ∑ b ∈ range 3, ∑ d ∈ range 3, F a b d := by
      intro F
      rw [Finset.sum_comm]
      rw [Finset.sum_congr rfl fun b _ => Finset.sum_comm]
      exact Finset.sum_comm
    rw [s2 (fun a b d => (r2rElement c.atoms (phaseTable expi c.atoms q 0 (g j))
        (phaseTable expi c.atoms q 2 (g j)) c.fc3 c.isCompact (g j) (g i) (g k) 2
        (b * 9 + a * 3 + d) * prePhaseFactor expi c.atoms q (g j)).scale (R b y * R a x * R d z)),
      s3 (fun a b d => (r2rElement c.atoms (phaseTable expi c.atoms q 1 (g k))
        (phaseTable expi c.atoms q 0 (g k)) c.fc3 c.isCompact (g k) (g j) (g i) 3
        (d * 9 + b * 3 + a) * prePhaseFactor expi c.atoms q (g k)).scale (R d z * R b y * R a x)),
      ← Finset.sum_add_distrib, ← Finset.sum_add_distrib, scale_sum]
    refine Finset.sum_congr rfl fun a _ => ?_
    rw [← Finset.sum_add_distrib, ← Finset.sum_add_distrib, scale_sum]
    refine Finset.sum_congr rfl fun b _ => ?_
    rw [← Finset.sum_add_distrib, ← Finset.sum_add_distrib, scale_sum]
    refine Finset.sum_congr rfl fun d _ => ?_
    rw [scale_scale]
    ext <;> simp [Cplx.scale] <;> ring
  · rw [element_turned expi h q 1 2 0 hi hj hk hx hy hz, mul_assoc, pre_turned he q hG (ho i hi), mulr]

/-! ### Contraction with turned vectors -/

theorem sum_range_three {M : Type _} [AddCommMonoid M] (n : Nat) (F : Nat → M) :
    ∑ p ∈ range (n * 3), F p = ∑ i ∈ range n, ∑ x ∈ range 3, F (3 * i + x) := by
  induction n with
  | zero => simp
  | succ n ih =>
    rw [Finset.sum_range_succ, ← ih, show (n + 1) * 3 = n * 3 + 3 by ring]
    simp only [Finset.sum_range_succ, Finset.sum_range_zero, mul_comm 3 n, zero_add]
    simp only [add_zero, ← add_assoc]

theorem contract_vector {R : Nat → Nat → K} {g : Nat → Nat} {n : Nat}
    (ho : ∀ a < 3, ∀ b < 3, ∑ k ∈ range 3, R k a * R k b = if a = b then 1 else 0)
    (hg : PermutesBelow n g) (F G e : Nat → Cplx K)
    (hF : ∀ i < n, ∀ x < 3, F (3 * i + x) = ∑ a ∈ range 3, (G (3 * g i + a)).scale (R a x)) :
    ∑ p ∈ range (n * 3), F p * turnedVector R g e p = ∑ p ∈ range (n * 3), G p * e p := by
  rw [sum_range_three, sum_range_three,
    ← sum_permuted hg (fun i => ∑ x ∈ range 3, G (3 * i + x) * e (3 * i + x))]
  refine Finset.sum_congr rfl fun i hi => ?_
  have e1 : ∀ x ∈ range 3, F (3 * i + x) * turnedVector R g e (3 * i + x) =
      ∑ a ∈ range 3, ∑ b ∈ range 3, (G (3 * g i + a) * e (3 * g i + b)).scale (R a x * R b x) := by
    intro x hx
    have hx := Finset.mem_range.1 hx
    rw [hF i (Finset.mem_range.1 hi) x hx]
    unfold turnedVector
    rw [show (3 * i + x) / 3 = i by omega, show (3 * i + x) % 3 = x by omega, Finset.sum_mul]
    refine Finset.sum_congr rfl fun a _ => ?_
    rw [Finset.mul_sum]
    refine Finset.sum_congr rfl fun b _ => ?_
    ext <;> simp [Cplx.scale] <;> ring
  rw [Finset.sum_congr rfl e1, Finset.sum_comm]
  refine Finset.sum_congr rfl fun a ha => ?_
  rw [Finset.sum_comm]
  have e2 : ∀ b ∈ range 3, ∑ x ∈ range 3, (G (3 * g i + a) * e (3 * g i + b)).scale (R a x * R b x) =
      if a = b then G (3 * g i + a) * e (3 * g i + b) else 0 := by
    intro b hb
    rw [← scale_sum_right, rows_orthogonal ho (Finset.mem_range.1 ha) (Finset.mem_range.1 hb)]
    split <;> (ext <;> simp [Cplx.scale])
  rw [Finset.sum_congr rfl e2, Finset.sum_ite_eq, if_pos ha]

theorem contract_three {R : Nat → Nat → K} {g : Nat → Nat} {n : Nat}
    (ho : ∀ a < 3, ∀ b < 3, ∑ k ∈ range 3, R k a * R k b = if a = b then 1 else 0)
    (hg : PermutesBelow n g) (F G : Nat → Nat → Nat → Cplx K) (e0 e1 e2 : Nat → Cplx K)
    (hF : ∀ i < n, ∀ j < n, ∀ k < n, ∀ x < 3, ∀ y < 3, ∀ z < 3,
      F (3 * i + x) (3 * j + y) (3 * k + z) = ∑ a ∈ range 3, ∑ b ∈ range 3, ∑ d ∈ range 3,
        (G (3 * g i + a) (3 * g j + b) (3 * g k + d)).scale (R a x * R b y * R d z)) :
    ∑ p ∈ range (n * 3), ∑ q ∈ range (n * 3), ∑ r ∈ range (n * 3),
      F p q r * (turnedVector R g e0 p * turnedVector R g e1 q * turnedVector R g e2 r) =
    ∑ p ∈ range (n * 3), ∑ q ∈ range (n * 3), ∑ r ∈ range (n * 3),
      G p q r * (e0 p * e1 q * e2 r) := by
  have form : ∀ (H : Nat → Nat → Nat → Cplx K) (u v w : Nat → Cplx K),
      ∑ p ∈ range (n * 3), ∑ q ∈ range (n * 3), ∑ r ∈ range (n * 3), H p q r * (u p * v q * w r) =
      ∑ p ∈ range (n * 3), (∑ q ∈ range (n * 3), (∑ r ∈ range (n * 3), H p q r * w r) * v q) * u p := by
    intro H u v w
    refine Finset.sum_congr rfl fun p _ => ?_
    rw [Finset.sum_mul]
    refine Finset.sum_congr rfl fun q _ => ?_
    rw [Finset.sum_mul, Finset.sum_mul]
    exact Finset.sum_congr rfl fun r _ => by ring
  rw [form, form]
  refine contract_vector ho hg (fun p => ∑ q ∈ range (n * 3), (∑ r ∈ range (n * 3), F p q r *
    turnedVector R g e2 r) * turnedVector R g e1 q)
    (fun p => ∑ q ∈ range (n * 3), (∑ r ∈ range (n * 3), G p q r * e2 r) * e1 q) e0 ?_
  intro i hi x hx
  have h1 := contract_vector ho hg (fun q => ∑ r ∈ range (n * 3), F (3 * i + x) q r *
    turnedVector R g e2 r)
    (fun q => ∑ a ∈ range 3, (∑ r ∈ range (n * 3), G (3 * g i + a) q r * e2 r).scale (R a x)) e1 ?_
  · refine h1.trans ?_
    simp only [Finset.sum_mul, scale_sum]
    rw [Finset.sum_comm]
    refine Finset.sum_congr rfl fun a _ => Finset.sum_congr rfl fun q _ =>
      Finset.sum_congr rfl fun r _ => ?_
    rw [scale_eq, scale_eq]
    ring
  · intro j hj y hy
    have h2 := contract_vector ho hg (fun r => F (3 * i + x) (3 * j + y) r)
      (fun r => ∑ a ∈ range 3, ∑ b ∈ range 3, (G (3 * g i + a) (3 * g j + b) r).scale
        (R a x * R b y)) e2 ?_
    · refine h2.trans ?_
      simp only [Finset.sum_mul, scale_sum]
      rw [Finset.sum_comm]
      rw [Finset.sum_congr rfl fun a _ => Finset.sum_comm]
      rw [Finset.sum_comm]
      refine Finset.sum_congr rfl fun b _ => Finset.sum_congr rfl fun a _ =>
        Finset.sum_congr rfl fun r _ => ?_
      simp only [scale_eq]
      rw [show (⟨R a x * R b y, 0⟩ : Cplx K) = ⟨R a x, 0⟩ * ⟨R b y, 0⟩ by ext <;> simp]
      ring
    · intro k hk z hz
      rw [hF i hi j hj k hk x hx y hy z hz]
      simp only [scale_sum, scale_scale]
      have s3 : ∀ H : Nat → Nat → Nat → Cplx K,
          ∑ a ∈ range 3, ∑ b ∈ range 3, ∑ d ∈ range 3, H a b d =
          ∑ d ∈ range 3, ∑ a ∈ range 3, ∑ b ∈ range 3, H a b d := by
        intro H
        rw [Finset.sum_congr rfl fun a _ => Finset.sum_comm]
        exact Finset.sum_comm
      rw [s3]

/-- The amplitude of turned eigenvectors at turned wave vectors. -/
theorem amplitude_turned {expi : K → Cplx K} (he : IsPhase expi) {c : Crystal K}
    {W R : Nat → Nat → K} {g : Nat → Nat} (h : IsFc3Symmetry c W R g) (sqrt : K → K)
    (q : Fin 3 → Fin 3 → K) (hG : ∀ d, ∃ z : Int, q 0 d + q 1 d + q 2 d = z) {n : Nat}
    (hn : n = c.atoms.numPatom * 3) (e0 e1 e2 : Nat → Cplx K) :
    (amplitude n (fun a => sqrt (c.masses (a / 3)))
      (fun a b d => realToReciprocal expi c.atoms (fun m => turned W (q m)) c.fc3 c.isCompact
        (at3 n n a b d : Nat))
      (turnedVector R g e0) (turnedVector R g e1) (turnedVector R g e2)).normSq =
    (amplitude n (fun a => sqrt (c.masses (a / 3)))
      (fun a b d => realToReciprocal expi c.atoms q c.fc3 c.isCompact (at3 n n a b d : Nat))
      e0 e1 e2).normSq := by
  obtain ⟨κ, hκ, hent⟩ := entry_turned he h q hG
  set s : Nat → K := fun a => sqrt (c.masses (a / 3)) with hs
  have key := contract_three h.orthogonal h.atoms
    (fun a b d => (realToReciprocal expi c.atoms (fun m => turned W (q m)) c.fc3 c.isCompact
        (at3 n n a b d : Nat) * κ).scale (1 / (s a * s b * s d)))
    (fun a b d => (realToReciprocal expi c.atoms q c.fc3 c.isCompact
        (at3 n n a b d : Nat)).scale (1 / (s a * s b * s d))) e0 e1 e2 ?_
  · rw [← hn] at key
    have e1' : amplitude n s (fun a b d => realToReciprocal expi c.atoms q c.fc3 c.isCompact
        (at3 n n a b d : Nat)) e0 e1 e2 =
        amplitude n s (fun a b d => realToReciprocal expi c.atoms (fun m => turned W (q m)) c.fc3
          c.isCompact (at3 n n a b d : Nat)) (turnedVector R g e0) (turnedVector R g e1)
          (turnedVector R g e2) * κ := by
      unfold amplitude
      simp only [Finset.sum_mul]
      rw [show ∀ F G : Cplx K, F = G ↔ G = F from fun F G => ⟨Eq.symm, Eq.symm⟩]
      refine Eq.trans ?_ (key.trans ?_)
      · refine Finset.sum_congr rfl fun a _ => Finset.sum_congr rfl fun b _ =>
          Finset.sum_congr rfl fun d _ => ?_
        simp only [scale_eq]
        ring
      · refine Finset.sum_congr rfl fun a _ => Finset.sum_congr rfl fun b _ =>
          Finset.sum_congr rfl fun d _ => ?_
        simp only [scale_eq]
        ring
    rw [e1', normSq_mul, hκ, mul_one]
  · intro i hi j hj k hk x hx y hy z hz
    have lt : ∀ {i x : Nat}, i < c.atoms.numPatom → x < 3 → 3 * i + x < n := fun {i x} h1 h2 => by
      omega
    have d3 : ∀ {i x : Nat}, x < 3 → (3 * i + x) / 3 = i := fun {i x} h => by omega
    have m3 : ∀ {i x : Nat}, x < 3 → (3 * i + x) % 3 = x := fun {i x} h => by omega
    have sm : ∀ {i x a : Nat}, i < c.atoms.numPatom → x < 3 → a < 3 →
        s (3 * g i + a) = s (3 * i + x) := by
      intro i x a hi hx ha
      simp only [hs, d3 hx, d3 ha]
      rw [h.mass i hi]
    rw [r2r_at3 expi c.atoms _ _ _ hn (lt hi hx) (lt hj hy) (lt hk hz)]
    simp only [d3 hx, d3 hy, d3 hz, m3 hx, m3 hy, m3 hz]
    rw [hent i hi j hj k hk x hx y hy z hz]
    simp only [scale_sum]
    refine Finset.sum_congr rfl fun a ha => Finset.sum_congr rfl fun b hb =>
      Finset.sum_congr rfl fun d hd => ?_
    rw [Finset.mem_range] at ha hb hd
    rw [r2r_at3 expi c.atoms _ _ _ hn (lt (h.atoms.1 i hi) ha) (lt (h.atoms.1 j hj) hb)
      (lt (h.atoms.1 k hk) hd), sm hi hx ha, sm hj hy hb, sm hk hz hd]
    simp only [d3 ha, d3 hb, d3 hd, m3 ha, m3 hb, m3 hd, scale_scale]
    congr 1
    ring

/-! ### Wave vectors that differ by vectors of the reciprocal lattice -/

theorem dot_add (q G v : Fin 3 → K) : dot (fun d => q d + G d) v = dot q v + dot G v := by
  simp only [dot, Fin.sum_univ_three]
  ring

theorem dot_shift (G : Fin 3 → Int) (v t u : Fin 3 → K) (z : Fin 3 → Int)
    (h : ∀ d, v d = t d - u d + z d) :
    dot (fun d => (G d : K)) v = dot (fun d => (G d : K)) t - dot (fun d => (G d : K)) u +
      ((∑ d, G d * z d : Int) : K) := by
  push_cast
  simp only [dot, h, Fin.sum_univ_three]
  ring

theorem phase_sub {expi : K → Cplx K} (he : IsPhase expi) (x y : K) :
    expi (x - y) = expi x * conj (expi y) := by
  rw [sub_eq_add_neg, he.add, he.neg]

theorem phase_unit {expi : K → Cplx K} (he : IsPhase expi) (x : K) : expi x * conj (expi x) = 1 := by
  rw [← phase_sub he, sub_self, he.zero]

theorem phase_normSq {expi : K → Cplx K} (he : IsPhase expi) (x : K) : (expi x).normSq = 1 := by
  have h1 := normSq_eq (expi x)
  rw [phase_unit he] at h1
  exact congrArg Cplx.re h1

theorem phaseTable_translate {expi : K → Cplx K} (he : IsPhase expi) {c : Crystal K}
    {τ : Nat → Fin 3 → K} (h : HasPositions c τ) (q : Fin 3 → Fin 3 → K) (G : Fin 3 → Fin 3 → Int)
    (m : Fin 3) {i s j : Nat} (hi : i < c.atoms.numPatom) (hs : s < c.atoms.numSatom)
    (hj : j < c.atoms.numPatom) (hc : c.atoms.s2p s = c.atoms.p2s j) :
    phaseTable expi c.atoms (fun m d => q m d + G m d) m i s =
      phaseTable expi c.atoms q m i s *
        (expi (dot (fun d => (G m d : K)) (τ j)) * conj (expi (dot (fun d => (G m d : K)) (τ i)))) := by
  unfold phaseTable
  rw [phaseFactor_eq, phaseFactor_eq]
  unfold meanPhase
  set p := expi (dot (fun d => (G m d : K)) (τ j)) * conj (expi (dot (fun d => (G m d : K)) (τ i)))
    with hp
  have key : ∑ x ∈ range (c.atoms.multiplicity (s * c.atoms.numPatom + i)).1,
      expi (dot (fun d => q m d + G m d) (c.atoms.svecs
        ((c.atoms.multiplicity (s * c.atoms.numPatom + i)).2 + x))) =
      (∑ x ∈ range (c.atoms.multiplicity (s * c.atoms.numPatom + i)).1,
        expi (dot (q m) (c.atoms.svecs
          ((c.atoms.multiplicity (s * c.atoms.numPatom + i)).2 + x)))) * p := by
    rw [Finset.sum_mul]
    refine Finset.sum_congr rfl fun x hx => ?_
    obtain ⟨z, hz⟩ := h.vectors i hi s hs j hj hc x (Finset.mem_range.1 hx)
    rw [dot_add, he.add]
    congr 1
    rw [show c.atoms.svecs ((c.atoms.multiplicity (s * c.atoms.numPatom + i)).2 + x) =
      shortest c i s x from rfl, dot_shift (G m) _ _ _ z hz, he.add, he.int, mul_one, phase_sub he]
  rw [key, scale_eq, scale_eq]
  ring

theorem element_translate {expi : K → Cplx K} (he : IsPhase expi) {c : Crystal K}
    {τ : Nat → Fin 3 → K} (h : HasPositions c τ) (q : Fin 3 → Fin 3 → K) (G : Fin 3 → Fin 3 → Int)
    (ma mb : Fin 3) (leg l : Nat) {i j k : Nat} (hi : i < c.atoms.numPatom)
    (hj : j < c.atoms.numPatom) (hk : k < c.atoms.numPatom) :
    r2rElement c.atoms (phaseTable expi c.atoms (fun m d => q m d + G m d) ma i)
      (phaseTable expi c.atoms (fun m d => q m d + G m d) mb i) c.fc3 c.isCompact i j k leg l =
    r2rElement c.atoms (phaseTable expi c.atoms q ma i) (phaseTable expi c.atoms q mb i)
      c.fc3 c.isCompact i j k leg l *
      ((expi (dot (fun d => (G ma d : K)) (τ j)) * conj (expi (dot (fun d => (G ma d : K)) (τ i)))) *
      (expi (dot (fun d => (G mb d : K)) (τ k)) * conj (expi (dot (fun d => (G mb d : K)) (τ i))))) := by
  rw [r2rElement_eq, r2rElement_eq, Finset.sum_mul]
  refine Finset.sum_congr rfl fun s hs => ?_
  rw [Finset.sum_mul]
  refine Finset.sum_congr rfl fun t ht => ?_
  by_cases hc : c.atoms.s2p s = c.atoms.p2s j ∧ c.atoms.s2p t = c.atoms.p2s k
  · rw [if_pos hc, if_pos hc, phaseTable_translate he h q G ma hi (Finset.mem_range.1 hs) hj hc.1,
      phaseTable_translate he h q G mb hi (Finset.mem_range.1 ht) hk hc.2, scale_eq, scale_eq]
    ring
  · rw [if_neg hc, if_neg hc, zero_mul]

theorem pre_translate {expi : K → Cplx K} (he : IsPhase expi) {c : Crystal K}
    {τ : Nat → Fin 3 → K} (h : HasPositions c τ) (q : Fin 3 → Fin 3 → K) (G : Fin 3 → Fin 3 → Int)
    {i : Nat} (hi : i < c.atoms.numPatom) :
    prePhaseFactor expi c.atoms (fun m d => q m d + G m d) i =
      prePhaseFactor expi c.atoms q i *
      (expi (dot (fun d => (G 0 d : K)) (τ i)) * expi (dot (fun d => (G 1 d : K)) (τ i)) *
        expi (dot (fun d => (G 2 d : K)) (τ i)) *
        (conj (expi (dot (fun d => (G 0 d : K)) (τ 0))) * conj (expi (dot (fun d => (G 1 d : K)) (τ 0))) *
        conj (expi (dot (fun d => (G 2 d : K)) (τ 0))))) := by
  obtain ⟨z, hz⟩ := h.origin i hi
  unfold prePhaseFactor
  simp only [dot3_eq]
  have hv : c.atoms.svecs (c.atoms.multiplicity (c.atoms.p2s i * c.atoms.numPatom)).2 =
      shortest c 0 (c.atoms.p2s i) 0 := by
    unfold shortest
    simp
  rw [hv]
  have e : dot (shortest c 0 (c.atoms.p2s i) 0)
      (fun j => q 0 j + (G 0 j : K) + (q 1 j + G 1 j) + (q 2 j + G 2 j)) =
      dot (shortest c 0 (c.atoms.p2s i) 0) (fun j => q 0 j + q 1 j + q 2 j) +
      (dot (fun d => (G 0 d : K)) (shortest c 0 (c.atoms.p2s i) 0) +
      dot (fun d => (G 1 d : K)) (shortest c 0 (c.atoms.p2s i) 0) +
      dot (fun d => (G 2 d : K)) (shortest c 0 (c.atoms.p2s i) 0)) := by
    simp only [dot, Fin.sum_univ_three]
    ring
  have one : ∀ m : Fin 3, expi (dot (fun d => (G m d : K)) (shortest c 0 (c.atoms.p2s i) 0)) =
      expi (dot (fun d => (G m d : K)) (τ i)) * conj (expi (dot (fun d => (G m d : K)) (τ 0))) := by
    intro m
    rw [dot_shift (G m) _ _ _ z hz, he.add, he.int, mul_one, phase_sub he]
  rw [e, he.add, he.add, he.add, one, one, one]
  ring

/-- An entry of the transform at wave vectors that differ by vectors of the reciprocal lattice. -/
theorem entry_translate {expi : K → Cplx K} (he : IsPhase expi) {c : Crystal K}
    {τ : Nat → Fin 3 → K} (h : HasPositions c τ) (q : Fin 3 → Fin 3 → K) (G : Fin 3 → Fin 3 → Int)
    {i j k : Nat} (hi : i < c.atoms.numPatom) (hj : j < c.atoms.numPatom)
    (hk : k < c.atoms.numPatom) (x y z : Nat) :
    r2rEntry expi c.atoms (fun m d => q m d + G m d) c.fc3 c.isCompact i j k x y z =
      r2rEntry expi c.atoms q c.fc3 c.isCompact i j k x y z *
      (expi (dot (fun d => (G 0 d : K)) (τ i)) * expi (dot (fun d => (G 1 d : K)) (τ j)) *
        expi (dot (fun d => (G 2 d : K)) (τ k))) *
        (conj (expi (dot (fun d => (G 0 d : K)) (τ 0))) * conj (expi (dot (fun d => (G 1 d : K)) (τ 0))) *
        conj (expi (dot (fun d => (G 2 d : K)) (τ 0)))) := by
  have u : ∀ (m : Fin 3) (i : Nat), expi (dot (fun d => (G m d : K)) (τ i)) *
      conj (expi (dot (fun d => (G m d : K)) (τ i))) = 1 := fun m i => phase_unit he _
  unfold r2rEntry
  split_ifs
  · rw [element_translate he h q G 1 2 1 _ hi hj hk, element_translate he h q G 0 2 2 _ hj hi hk,
      element_translate he h q G 1 0 3 _ hk hj hi, pre_translate he h q G hi,
      pre_translate he h q G hj, pre_translate he h q G hk, scale_eq, scale_eq]
    generalize expi (dot (fun d => (G 0 d : K)) (τ 0)) = o0
    generalize expi (dot (fun d => (G 1 d : K)) (τ 0)) = o1
    generalize expi (dot (fun d => (G 2 d : K)) (τ 0)) = o2
    have u1i := u 1 i; have u2i := u 2 i; have u0j := u 0 j; have u2j := u 2 j
    have u1k := u 1 k; have u0k := u 0 k
    generalize expi (dot (fun d => (G 1 d : K)) (τ i)) = g1i at *
    generalize expi (dot (fun d => (G 2 d : K)) (τ i)) = g2i at *
    generalize expi (dot (fun d => (G 0 d : K)) (τ i)) = g0i at *
    generalize expi (dot (fun d => (G 1 d : K)) (τ j)) = g1j at *
    generalize expi (dot (fun d => (G 2 d : K)) (τ j)) = g2j at *
    generalize expi (dot (fun d => (G 0 d : K)) (τ j)) = g0j at *
    generalize expi (dot (fun d => (G 1 d : K)) (τ k)) = g1k at *
    generalize expi (dot (fun d => (G 2 d : K)) (τ k)) = g2k at *
    generalize expi (dot (fun d => (G 0 d : K)) (τ k)) = g0k at *
    have r1 : ∀ A P O : Cplx K, A * (g1j * conj g1i * (g2k * conj g2i)) * (P * (g0i * g1i * g2i * O)) =
        A * P * (g0i * g1j * g2k) * O := by
      intro A P O
      calc _ = A * P * (g0i * g1j * g2k) * O * (g1i * conj g1i) * (g2i * conj g2i) := by ring
        _ = _ := by rw [u1i, u2i, mul_one, mul_one]
    have r2 : ∀ A P O : Cplx K, A * (g0i * conj g0j * (g2k * conj g2j)) * (P * (g0j * g1j * g2j * O)) =
        A * P * (g0i * g1j * g2k) * O := by
      intro A P O
      calc _ = A * P * (g0i * g1j * g2k) * O * (g0j * conj g0j) * (g2j * conj g2j) := by ring
        _ = _ := by rw [u0j, u2j, mul_one, mul_one]
    have r3 : ∀ A P O : Cplx K, A * (g1j * conj g1k * (g0i * conj g0k)) * (P * (g0k * g1k * g2k * O)) =
        A * P * (g0i * g1j * g2k) * O := by
      intro A P O
      calc _ = A * P * (g0i * g1j * g2k) * O * (g1k * conj g1k) * (g0k * conj g0k) := by ring
        _ = _ := by rw [u1k, u0k, mul_one, mul_one]
    rw [r1, r2, r3]
    ring
  · rw [element_translate he h q G 1 2 0 _ hi hj hk, pre_translate he h q G hi]
    have u1i := u 1 i; have u2i := u 2 i
    generalize conj (expi (dot (fun d => (G 0 d : K)) (τ 0))) = o0
    generalize conj (expi (dot (fun d => (G 1 d : K)) (τ 0))) = o1
    generalize conj (expi (dot (fun d => (G 2 d : K)) (τ 0))) = o2
    generalize expi (dot (fun d => (G 1 d : K)) (τ i)) = g1i at *
    generalize expi (dot (fun d => (G 2 d : K)) (τ i)) = g2i at *
    generalize expi (dot (fun d => (G 0 d : K)) (τ i)) = g0i at *
    generalize expi (dot (fun d => (G 1 d : K)) (τ j)) = g1j at *
    generalize expi (dot (fun d => (G 2 d : K)) (τ k)) = g2k at *
    have r1 : ∀ A P O : Cplx K, A * (g1j * conj g1i * (g2k * conj g2i)) * (P * (g0i * g1i * g2i * O)) =
        A * P * (g0i * g1j * g2k) * O := by
      intro A P O
      calc _ = A * P * (g0i * g1j * g2k) * O * (g1i * conj g1i) * (g2i * conj g2i) := by ring
        _ = _ := by rw [u1i, u2i, mul_one, mul_one]
    rw [r1]

/-- The amplitude at such wave vectors, with eigenvectors times the phases of the atoms. -/
theorem amplitude_translate {expi : K → Cplx K} (he : IsPhase expi) {c : Crystal K}
    {τ : Nat → Fin 3 → K} (h : HasPositions c τ) (s : Nat → K) (q : Fin 3 → Fin 3 → K)
    (G : Fin 3 → Fin 3 → Int) {n : Nat} (hn : n = c.atoms.numPatom * 3) (e0 e1 e2 : Nat → Cplx K) :
    (amplitude n s
      (fun a b d => realToReciprocal expi c.atoms (fun m d => q m d + G m d) c.fc3 c.isCompact
        (at3 n n a b d : Nat))
      (fun a => conj (expi (dot (fun d => (G 0 d : K)) (τ (a / 3)))) * e0 a)
      (fun a => conj (expi (dot (fun d => (G 1 d : K)) (τ (a / 3)))) * e1 a)
      (fun a => conj (expi (dot (fun d => (G 2 d : K)) (τ (a / 3)))) * e2 a)).normSq =
    (amplitude n s
      (fun a b d => realToReciprocal expi c.atoms q c.fc3 c.isCompact (at3 n n a b d : Nat))
      e0 e1 e2).normSq := by
  have key : amplitude n s
      (fun a b d => realToReciprocal expi c.atoms (fun m d => q m d + G m d) c.fc3 c.isCompact
        (at3 n n a b d : Nat))
      (fun a => conj (expi (dot (fun d => (G 0 d : K)) (τ (a / 3)))) * e0 a)
      (fun a => conj (expi (dot (fun d => (G 1 d : K)) (τ (a / 3)))) * e1 a)
      (fun a => conj (expi (dot (fun d => (G 2 d : K)) (τ (a / 3)))) * e2 a) =
      amplitude n s (fun a b d => realToReciprocal expi c.atoms q c.fc3 c.isCompact
        (at3 n n a b d : Nat)) e0 e1 e2 *
        (conj (expi (dot (fun d => (G 0 d : K)) (τ 0))) * conj (expi (dot (fun d => (G 1 d : K)) (τ 0))) *
        conj (expi (dot (fun d => (G 2 d : K)) (τ 0)))) := by
    unfold amplitude
    simp only [Finset.sum_mul]
    refine Finset.sum_congr rfl fun a ha => Finset.sum_congr rfl fun b hb =>
      Finset.sum_congr rfl fun d hd => ?_
    rw [Finset.mem_range] at ha hb hd
    rw [r2r_at3 expi c.atoms _ _ _ hn ha hb hd, r2r_at3 expi c.atoms _ _ _ hn ha hb hd,
      entry_translate he h q G (by omega) (by omega) (by omega), scale_eq, scale_eq]
    have u0 := phase_unit he (dot (fun d => (G 0 d : K)) (τ (a / 3)))
    have u1 := phase_unit he (dot (fun d => (G 1 d : K)) (τ (b / 3)))
    have u2 := phase_unit he (dot (fun d => (G 2 d : K)) (τ (d / 3)))
    generalize conj (expi (dot (fun d => (G 0 d : K)) (τ 0))) = o0
    generalize conj (expi (dot (fun d => (G 1 d : K)) (τ 0))) = o1
    generalize conj (expi (dot (fun d => (G 2 d : K)) (τ 0))) = o2
    generalize expi (dot (fun d => (G 0 d : K)) (τ (a / 3))) = g0 at *
    generalize expi (dot (fun d => (G 1 d : K)) (τ (b / 3))) = g1 at *
    generalize expi (dot (fun d => (G 2 d : K)) (τ (d / 3))) = g2 at *
    generalize r2rEntry expi c.atoms q c.fc3 c.isCompact (a / 3) (b / 3) (d / 3) (a % 3) (b % 3)
      (d % 3) = r
    generalize (⟨1 / (s a * s b * s d), 0⟩ : Cplx K) = w
    calc _ = r * (e0 a * e1 b * e2 d) * w * (o0 * o1 * o2) * (g0 * conj g0) * (g1 * conj g1) *
          (g2 * conj g2) := by ring
      _ = _ := by rw [u0, u1, u2, mul_one, mul_one, mul_one]
  rw [key, normSq_mul, normSq_mul, normSq_mul, normSq_conj, normSq_conj, normSq_conj,
    phase_normSq he, phase_normSq he, phase_normSq he, mul_one, mul_one, mul_one]

end
end Phono3py.Props
