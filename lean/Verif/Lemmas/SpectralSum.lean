import Verif.Lemmas.Fc3Rotation
import Verif.Props.EigvecRotation
import Mathlib.LinearAlgebra.Matrix.NonsingularInverse

/-!
Sums over all modes do not depend on the choice of the eigenvectors.
-/

set_option linter.unusedSectionVars false

namespace Phono3py.Props
open Phono3py Phono3py.Spec Finset

section
variable {K : Type} [Field K] [LinearOrder K] [IsStrictOrderedRing K]

theorem conj_one : conj (1 : Cplx K) = 1 := by ext <;> simp [conj]

/-- An orthonormal set of as many vectors as there are components is complete. -/
theorem complete_of_orthonormal {n : Nat} {e : Nat → Nat → Cplx K}
    (h : ∀ b < n, ∀ b' < n, ∑ p ∈ range n, conj (e p b) * e p b' = if b = b' then 1 else 0)
    {p p' : Nat} (hp : p < n) (hp' : p' < n) :
    ∑ b ∈ range n, e p b * conj (e p' b) = if p = p' then 1 else 0 := by
  let A : Matrix (Fin n) (Fin n) (Cplx K) := fun b p => conj (e p b)
  let B : Matrix (Fin n) (Fin n) (Cplx K) := fun p b => e p b
  have h1 : A * B = 1 := by
    ext1 i j
    have := h i i.isLt j j.isLt
    rw [Finset.sum_range] at this
    rw [Matrix.mul_apply, Matrix.one_apply]
    simpa [A, B, Fin.ext_iff] using this
  have h2 := mul_eq_one_comm.1 h1
  have := congrFun (congrFun h2 ⟨p, hp⟩) ⟨p', hp'⟩
  rw [Matrix.mul_apply, Matrix.one_apply] at this
  rw [Finset.sum_range]
  simpa [A, B, Fin.ext_iff] using this

/-- Two complete sets of eigenvectors of one Hermitian matrix: sums over all modes of a function of the
eigenvalue times the square of a linear form agree. -/
theorem spectral_sum {n : Nat} (A : Nat → Nat → Cplx K)
    (hA : ∀ p < n, ∀ p' < n, A p p' = conj (A p' p)) {e e' : Nat → Nat → Cplx K} {f f' : Nat → K}
    (lam : K → K) (hlam : ∀ x y, lam x = lam y → x = y)
    (hs : ∀ b < n, ∀ p < n, ∑ p' ∈ range n, A p p' * e p' b = (e p b).scale (lam (f b)))
    (hs' : ∀ b < n, ∀ p < n, ∑ p' ∈ range n, A p p' * e' p' b = (e' p b).scale (lam (f' b)))
    (ho : ∀ b < n, ∀ b' < n, ∑ p ∈ range n, conj (e p b) * e p b' = if b = b' then 1 else 0)
    (ho' : ∀ b < n, ∀ b' < n, ∑ p ∈ range n, conj (e' p b) * e' p b' = if b = b' then 1 else 0)
    (Φ : K → K) (c : Nat → Cplx K) :
    ∑ b ∈ range n, Φ (f' b) * (∑ p ∈ range n, c p * e' p b).normSq =
      ∑ b ∈ range n, Φ (f b) * (∑ p ∈ range n, c p * e p b).normSq := by
  set U : Nat → Nat → Cplx K := fun i b => ∑ p ∈ range n, conj (e p i) * e' p b with hU
  set L : Nat → Cplx K := fun i => ∑ p ∈ range n, c p * e p i with hL
  -- modes of different frequency are orthogonal
  have horth : ∀ i < n, ∀ b < n, f i ≠ f' b → U i b = 0 := by
    intro i hi b hb hne
    have e1 : ∑ p ∈ range n, conj (e p i) * ∑ p' ∈ range n, A p p' * e' p' b =
        (U i b).scale (lam (f' b)) := by
      rw [hU, scale_sum]
      refine Finset.sum_congr rfl fun p hp => ?_
      rw [hs' b hb p (Finset.mem_range.1 hp), mul_scale]
    have e2 : ∑ p ∈ range n, conj (e p i) * ∑ p' ∈ range n, A p p' * e' p' b =
        (U i b).scale (lam (f i)) := by
      simp only [Finset.mul_sum]
      rw [Finset.sum_comm, hU, scale_sum]
      refine Finset.sum_congr rfl fun p' hp' => ?_
      have h1 := congrArg conj (hs i hi p' (Finset.mem_range.1 hp'))
      rw [conj_sum, Phono3py.conj_scale] at h1
      have : ∀ p ∈ range n, conj (e p i) * (A p p' * e' p' b) = conj (A p' p * e p i) * e' p' b := by
        intro p hp
        rw [conj_mul, hA p' (Finset.mem_range.1 hp') p (Finset.mem_range.1 hp), conj_conj]
        ring
      rw [Finset.sum_congr rfl this, ← Finset.sum_mul, h1, scale_eq, scale_eq]
      ring
    have e3 : (U i b).scale (lam (f' b)) = (U i b).scale (lam (f i)) := e1.symm.trans e2
    have hd : lam (f' b) - lam (f i) ≠ 0 := fun h0 => hne (hlam _ _ (sub_eq_zero.1 h0)).symm
    have e4 : ∀ x : K, x * lam (f' b) = x * lam (f i) → x = 0 := by
      intro x hx
      have : x * (lam (f' b) - lam (f i)) = 0 := by rw [mul_sub, hx, sub_self]
      exact (mul_eq_zero.1 this).resolve_right hd
    exact Cplx.ext (e4 _ (congrArg Cplx.re e3)) (e4 _ (congrArg Cplx.im e3))
  -- expansion of the new vectors
  have hexp : ∀ b < n, ∑ p ∈ range n, c p * e' p b = ∑ i ∈ range n, L i * U i b := by
    intro b hb
    have : ∀ i ∈ range n, L i * U i b =
        ∑ p ∈ range n, ∑ p' ∈ range n, c p * e' p' b * (e p i * conj (e p' i)) := by
      intro i _
      rw [hL, hU]
      dsimp only
      rw [Finset.sum_mul]
      refine Finset.sum_congr rfl fun p _ => ?_
      rw [Finset.mul_sum]
      exact Finset.sum_congr rfl fun p' _ => by ring
    rw [Finset.sum_congr rfl this, Finset.sum_comm]
    refine Finset.sum_congr rfl fun p hp => ?_
    rw [Finset.sum_comm]
    have h2 : ∀ p' ∈ range n, ∑ i ∈ range n, c p * e' p' b * (e p i * conj (e p' i)) =
        if p = p' then c p * e' p' b else 0 := by
      intro p' hp'
      rw [← Finset.mul_sum, complete_of_orthonormal ho (Finset.mem_range.1 hp)
        (Finset.mem_range.1 hp')]
      split <;> simp
    rw [Finset.sum_congr rfl h2, Finset.sum_ite_eq, if_pos hp]
  have hunit : ∀ i < n, ∀ j < n, ∑ b ∈ range n, U i b * conj (U j b) = if i = j then 1 else 0 := by
    intro i hi j hj
    have : ∀ b ∈ range n, U i b * conj (U j b) =
        ∑ p ∈ range n, ∑ p' ∈ range n, conj (e p i) * e p' j * (e' p b * conj (e' p' b)) := by
      intro b _
      rw [hU]
      dsimp only
      rw [conj_sum, Finset.sum_mul]
      refine Finset.sum_congr rfl fun p _ => ?_
      rw [Finset.mul_sum]
      refine Finset.sum_congr rfl fun p' _ => ?_
      rw [conj_mul, conj_conj]
      ring
    rw [Finset.sum_congr rfl this, Finset.sum_comm, ← ho i hi j hj]
    refine Finset.sum_congr rfl fun p hp => ?_
    rw [Finset.sum_comm]
    have h2 : ∀ p' ∈ range n, ∑ b ∈ range n, conj (e p i) * e p' j * (e' p b * conj (e' p' b)) =
        if p = p' then conj (e p i) * e p' j else 0 := by
      intro p' hp'
      rw [← Finset.mul_sum, complete_of_orthonormal ho' (Finset.mem_range.1 hp)
        (Finset.mem_range.1 hp')]
      split <;> simp
    rw [Finset.sum_congr rfl h2, Finset.sum_ite_eq, if_pos hp]
  have key : (⟨∑ b ∈ range n, Φ (f' b) * (∑ p ∈ range n, c p * e' p b).normSq, 0⟩ : Cplx K) =
      ⟨∑ b ∈ range n, Φ (f b) * (∑ p ∈ range n, c p * e p b).normSq, 0⟩ := by
    rw [ofReal_sum, ofReal_sum]
    have sp : ∀ (x : K) (w : Cplx K), (⟨x * w.normSq, 0⟩ : Cplx K) = ⟨x, 0⟩ * (w * conj w) := by
      intro x w
      rw [← normSq_eq]
      ext <;> simp
    simp only [sp]
    have e1 : ∀ b ∈ range n, (⟨Φ (f' b), 0⟩ : Cplx K) * ((∑ p ∈ range n, c p * e' p b) *
        conj (∑ p ∈ range n, c p * e' p b)) =
        ∑ i ∈ range n, ∑ j ∈ range n, (⟨Φ (f i), 0⟩ : Cplx K) * (L i * conj (L j)) *
          (U i b * conj (U j b)) := by
      intro b hb
      have hb := Finset.mem_range.1 hb
      rw [hexp b hb, conj_sum, Finset.sum_mul, Finset.mul_sum]
      refine Finset.sum_congr rfl fun i hi => ?_
      rw [Finset.mul_sum, Finset.mul_sum]
      refine Finset.sum_congr rfl fun j _ => ?_
      rw [conj_mul]
      by_cases hf : f i = f' b
      · rw [hf]
        ring
      · rw [horth i (Finset.mem_range.1 hi) b hb hf]
        ring
    rw [Finset.sum_congr rfl e1, Finset.sum_comm]
    refine Finset.sum_congr rfl fun i hi => ?_
    rw [Finset.sum_comm]
    have e2 : ∀ j ∈ range n, ∑ b ∈ range n, (⟨Φ (f i), 0⟩ : Cplx K) * (L i * conj (L j)) *
        (U i b * conj (U j b)) = if i = j then (⟨Φ (f i), 0⟩ : Cplx K) * (L i * conj (L j)) else 0 := by
      intro j hj
      rw [← Finset.mul_sum, hunit i (Finset.mem_range.1 hi) j (Finset.mem_range.1 hj)]
      split <;> simp
    rw [Finset.sum_congr rfl e2, Finset.sum_ite_eq, if_pos hi]
  exact congrArg Cplx.re key

/-- The same for the phonons of one wave vector. -/
theorem modes_sum {n : Nat} {a : Int → Cplx K} (hH : HermitianMatrix n a) {f f' : Nat → K}
    {v v' : Int → Cplx K} {lam : K → K} (hlam : ∀ x y, lam x = lam y → x = y)
    (h : Modes n lam a f v) (h' : Modes n lam a f' v') (Φ : K → K) (c : Nat → Cplx K) :
    ∑ b ∈ range (n * 3), Φ (f' b) *
        (∑ p ∈ range (n * 3), c p * v' ((p * (3 * n) + b : Nat) : Int)).normSq =
      ∑ b ∈ range (n * 3), Φ (f b) *
        (∑ p ∈ range (n * 3), c p * v ((p * (3 * n) + b : Nat) : Int)).normSq := by
  have sum3 : ∀ {M : Type} [AddCommMonoid M] (F : Nat → M),
      ∑ p ∈ range (n * 3), F p = ∑ i ∈ range n, ∑ x ∈ range 3, F (i * 3 + x) := by
    intro M _ F
    rw [sum_range_three]
    exact Finset.sum_congr rfl fun i _ => Finset.sum_congr rfl fun x _ => by rw [mul_comm]
  have idx : ∀ p, p < n * 3 → p / 3 < n ∧ p % 3 < 3 ∧ p / 3 * 3 + p % 3 = p := fun p hp => by omega
  refine spectral_sum (fun p p' => a ((p * (n * 3) + p' : Nat) : Int)) ?_ lam hlam ?_ ?_ ?_ ?_ Φ c
  · intro p hp p' hp'
    obtain ⟨h1, h2, h3⟩ := idx p hp
    obtain ⟨h4, h5, h6⟩ := idx p' hp'
    have := hH _ h1 _ h2 _ h4 _ h5
    unfold dynBlock at this
    rw [h3, h6] at this
    exact this
  · intro b hb p hp
    obtain ⟨h1, h2, h3⟩ := idx p hp
    have := h.solves b (by omega) _ h1 _ h2
    unfold dynBlock at this
    dsimp only at this
    rw [h3] at this
    rw [sum3]
    exact this
  · intro b hb p hp
    obtain ⟨h1, h2, h3⟩ := idx p hp
    have := h'.solves b (by omega) _ h1 _ h2
    unfold dynBlock at this
    dsimp only at this
    rw [h3] at this
    rw [sum3]
    exact this
  · intro b hb b' hb'
    rw [sum3]
    exact h.orthonormal b (by omega) b' (by omega)
  · intro b hb b' hb'
    rw [sum3]
    exact h'.orthonormal b (by omega) b' (by omega)

/-! ### Amplitudes -/

theorem amplitude_lin2 (n : Nat) (s : Nat → K) (Phi : Nat → Nat → Nat → Cplx K)
    (e0 e1 e2 : Nat → Cplx K) :
    amplitude n s Phi e0 e1 e2 = ∑ p ∈ range n, (∑ a ∈ range n, ∑ b ∈ range n,
      (Phi a b p * (e0 a * e1 b)).scale (1 / (s a * s b * s p))) * e2 p := by
  unfold amplitude
  rw [Finset.sum_congr rfl fun a _ => Finset.sum_comm, Finset.sum_comm]
  refine Finset.sum_congr rfl fun p _ => ?_
  rw [Finset.sum_mul]
  refine Finset.sum_congr rfl fun a _ => ?_
  rw [Finset.sum_mul]
  refine Finset.sum_congr rfl fun b _ => ?_
  simp only [scale_eq]
  ring

theorem amplitude_lin1 (n : Nat) (s : Nat → K) (Phi : Nat → Nat → Nat → Cplx K)
    (e0 e1 e2 : Nat → Cplx K) :
    amplitude n s Phi e0 e1 e2 = ∑ p ∈ range n, (∑ a ∈ range n, ∑ b ∈ range n,
      (Phi a p b * (e0 a * e2 b)).scale (1 / (s a * s b * s p))) * e1 p := by
  rw [← amplitude_swap, amplitude_lin2]

theorem amplitude_lin0 (n : Nat) (s : Nat → K) (Phi : Nat → Nat → Nat → Cplx K)
    (e0 e1 e2 : Nat → Cplx K) :
    amplitude n s Phi e0 e1 e2 = ∑ p ∈ range n, (∑ a ∈ range n, ∑ b ∈ range n,
      (Phi p a b * (e1 a * e2 b)).scale (1 / (s a * s b * s p))) * e0 p := by
  rw [← amplitude_rot, amplitude_lin1]

/-- The sum over all modes of three wave vectors does not depend on the choice of the eigenvectors. -/
theorem amplitude_total {n : Nat} {a : Fin 3 → Int → Cplx K} (hH : ∀ m, HermitianMatrix n (a m))
    {f f' : Fin 3 → Nat → K} {v v' : Fin 3 → Int → Cplx K} {lam : K → K}
    (hlam : ∀ x y, lam x = lam y → x = y) (h : ∀ m, Modes n lam (a m) (f m) (v m))
    (h' : ∀ m, Modes n lam (a m) (f' m) (v' m)) (s : Nat → K) (Phi : Nat → Nat → Nat → Cplx K)
    (Ψ : K → K → K → K) :
    ∑ x ∈ range (n * 3), ∑ y ∈ range (n * 3), ∑ z ∈ range (n * 3), Ψ (f' 0 x) (f' 1 y) (f' 2 z) *
      (amplitude (n * 3) s Phi (fun p => v' 0 ((p * (3 * n) + x : Nat) : Int))
        (fun p => v' 1 ((p * (3 * n) + y : Nat) : Int))
        (fun p => v' 2 ((p * (3 * n) + z : Nat) : Int))).normSq =
    ∑ x ∈ range (n * 3), ∑ y ∈ range (n * 3), ∑ z ∈ range (n * 3), Ψ (f 0 x) (f 1 y) (f 2 z) *
      (amplitude (n * 3) s Phi (fun p => v 0 ((p * (3 * n) + x : Nat) : Int))
        (fun p => v 1 ((p * (3 * n) + y : Nat) : Int))
        (fun p => v 2 ((p * (3 * n) + z : Nat) : Int))).normSq := by
  have s2 : ∀ (f0 f1 : K) (e0 e1 : Nat → Cplx K),
      ∑ z ∈ range (n * 3), Ψ f0 f1 (f' 2 z) * (amplitude (n * 3) s Phi e0 e1
        (fun p => v' 2 ((p * (3 * n) + z : Nat) : Int))).normSq =
      ∑ z ∈ range (n * 3), Ψ f0 f1 (f 2 z) * (amplitude (n * 3) s Phi e0 e1
        (fun p => v 2 ((p * (3 * n) + z : Nat) : Int))).normSq := by
    intro f0 f1 e0 e1
    simp only [amplitude_lin2]
    exact modes_sum (hH 2) hlam (h 2) (h' 2) (Ψ f0 f1) _
  have s1 : ∀ (f0 f2 : K) (e0 e2 : Nat → Cplx K),
      ∑ z ∈ range (n * 3), Ψ f0 (f' 1 z) f2 * (amplitude (n * 3) s Phi e0
        (fun p => v' 1 ((p * (3 * n) + z : Nat) : Int)) e2).normSq =
      ∑ z ∈ range (n * 3), Ψ f0 (f 1 z) f2 * (amplitude (n * 3) s Phi e0
        (fun p => v 1 ((p * (3 * n) + z : Nat) : Int)) e2).normSq := by
    intro f0 f2 e0 e2
    simp only [amplitude_lin1]
    exact modes_sum (hH 1) hlam (h 1) (h' 1) (fun w => Ψ f0 w f2) _
  have s0 : ∀ (f1 f2 : K) (e1 e2 : Nat → Cplx K),
      ∑ z ∈ range (n * 3), Ψ (f' 0 z) f1 f2 * (amplitude (n * 3) s Phi
        (fun p => v' 0 ((p * (3 * n) + z : Nat) : Int)) e1 e2).normSq =
      ∑ z ∈ range (n * 3), Ψ (f 0 z) f1 f2 * (amplitude (n * 3) s Phi
        (fun p => v 0 ((p * (3 * n) + z : Nat) : Int)) e1 e2).normSq := by
    intro f1 f2 e1 e2
    simp only [amplitude_lin0]
    exact modes_sum (hH 0) hlam (h 0) (h' 0) (fun w => Ψ w f1 f2) _
  simp only [s2]
  rw [Finset.sum_congr rfl fun x _ => Finset.sum_comm]
  simp only [s1]
  rw [Finset.sum_congr rfl fun x _ => Finset.sum_comm]
  rw [Finset.sum_comm, Finset.sum_congr rfl fun y _ => Finset.sum_comm]
  simp only [s0]
  rw [Finset.sum_congr rfl fun y _ => Finset.sum_comm, Finset.sum_comm]

end
end Phono3py.Props
