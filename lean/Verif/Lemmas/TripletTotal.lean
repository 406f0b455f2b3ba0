import Verif.Lemmas.SpectralSum

/-!
Lemmas for C128: sums over all modes of three wave vectors, for wave vectors related by a symmetry
operation, by a vector of the reciprocal lattice or by time reversal.
-/

set_option linter.unusedSectionVars false

namespace Phono3py.Props
open Phono3py Phono3py.Spec Finset

section
variable {K : Type} [Field K] [LinearOrder K] [IsStrictOrderedRing K]

/-- Column `b` of a matrix of eigenvectors for `n` atoms. -/
def column (n : Nat) (v : Int → Cplx K) (b : Nat) : Nat → Cplx K :=
  fun p => v ((p * (3 * n) + b : Nat) : Int)

/-- Sum over all modes of three wave vectors of a function of the frequencies times `|amplitude|²`. -/
def qTotal (sqrt : K → K) (expi : K → Cplx K) (c : Crystal K) (q : Fin 3 → Fin 3 → K)
    (f : Fin 3 → Nat → K) (v : Fin 3 → Int → Cplx K) (Ψ : K → K → K → K) : K :=
  ∑ x ∈ range (c.atoms.numPatom * 3), ∑ y ∈ range (c.atoms.numPatom * 3),
    ∑ z ∈ range (c.atoms.numPatom * 3), Ψ (f 0 x) (f 1 y) (f 2 z) *
      (amplitude (c.atoms.numPatom * 3) (fun a => sqrt (c.masses (a / 3)))
        (fun a b d => realToReciprocal expi c.atoms q c.fc3 c.isCompact
          (at3 (c.atoms.numPatom * 3) (c.atoms.numPatom * 3) a b d : Nat))
        (column c.atoms.numPatom (v 0) x) (column c.atoms.numPatom (v 1) y)
        (column c.atoms.numPatom (v 2) z)).normSq

/-- The wave vector as the dynamical matrix takes it. -/
def natQ (q : Fin 3 → K) : Nat → K := fun d => q (Fin.ofNat 3 d)

/-- `f` and `v` are the complete phonons at `q`. -/
def ModesAt (sqrt : K → K) (expi : K → Cplx K) (fc : Fc2Cell K) (nac : Option (NacParams K))
    (recip : Nat → Nat → K) (lam : K → K) (q : Fin 3 → K) (f : Nat → K) (v : Int → Cplx K) : Prop :=
  Modes fc.numPatom lam (wangMatrix sqrt expi fc nac recip (natQ q) none fun _ => 0) f v

theorem qTotal_choice {sqrt : K → K} {expi : K → Cplx K} {c : Crystal K} {fc : Fc2Cell K}
    (hp : fc.numPatom = c.atoms.numPatom) {nac : Option (NacParams K)} {recip : Nat → Nat → K}
    {lam : K → K} (hlam : ∀ x y, lam x = lam y → x = y) {q : Fin 3 → Fin 3 → K}
    {f f' : Fin 3 → Nat → K} {v v' : Fin 3 → Int → Cplx K}
    (h : ∀ m, ModesAt sqrt expi fc nac recip lam (q m) (f m) (v m))
    (h' : ∀ m, ModesAt sqrt expi fc nac recip lam (q m) (f' m) (v' m)) (Ψ : K → K → K → K) :
    qTotal sqrt expi c q f' v' Ψ = qTotal sqrt expi c q f v Ψ := by
  unfold qTotal column
  unfold ModesAt at h h'
  rw [hp] at h h'
  refine amplitude_total (fun m => ?_) hlam h h' _ _ Ψ
  rw [← hp]
  exact C86_hermitian _ _ _ _ _ _ _ _

theorem turnedVector_column {n : Nat} {R : RM K} {g : Nat → Nat} {v : Int → Cplx K} {b p : Nat}
    (hb : b < n * 3) :
    column n (rotateEigvecs n (transposeRM R) g 1 v) b p = turnedVector (natRM R) g (column n v b) p := by
  unfold column turnedVector
  conv_lhs => rw [show p = p / 3 * 3 + p % 3 by omega]
  rw [rotateEigvecs_value n R g 1 v (by omega) (by omega)]
  refine Finset.sum_congr rfl fun a _ => ?_
  rw [mul_one, mul_comm 3 (g (p / 3))]

theorem natQ_turned (W : RM K) (q : Fin 3 → K) :
    natQ (turned (natRM W) q) = turnedQ (natRM W) (natQ q) := by
  funext d
  simp only [natQ, turned, turnedQ, Finset.sum_range_succ, Finset.sum_range_zero, zero_add,
    Fin.sum_univ_three, natRM]
  have e : Fin.ofNat 3 ((Fin.ofNat 3 d : Fin 3) : Nat) = Fin.ofNat 3 d := by
    apply Fin.ext
    simp [Fin.ofNat]
  rw [e]
  rfl

theorem qTotal_turned {sqrt : K → K} {expi : K → Cplx K} (he : IsPhase expi) {c : Crystal K}
    {fc : Fc2Cell K} (hp : fc.numPatom = c.atoms.numPatom) {nac : Option (NacParams K)}
    {recip : Nat → Nat → K} {lam : K → K} {W R : RM K} {g : Nat → Nat}
    (hs : IsSymmetry fc (natRM W) (natRM R) g)
    (hn : ∀ p, nac = some p → IsNacSymmetry fc p recip (natRM W) (natRM R) g)
    (h3 : IsFc3Symmetry c (natRM W) (natRM R) g) {q : Fin 3 → Fin 3 → K}
    (hG : ∀ d, ∃ z : Int, q 0 d + q 1 d + q 2 d = z) {f : Fin 3 → Nat → K}
    {v : Fin 3 → Int → Cplx K} (h : ∀ m, ModesAt sqrt expi fc nac recip lam (q m) (f m) (v m)) :
    ∃ v', (∀ m, ModesAt sqrt expi fc nac recip lam (turned (natRM W) (q m)) (f m) (v' m)) ∧
      ∀ Ψ, qTotal sqrt expi c (fun m => turned (natRM W) (q m)) f v' Ψ =
        qTotal sqrt expi c q f v Ψ := by
  refine ⟨fun m => rotateEigvecs fc.numPatom (transposeRM R) g 1 (v m), fun m => ?_, fun Ψ => ?_⟩
  · unfold ModesAt
    rw [natQ_turned]
    exact modes_turn sqrt expi hs nac recip hn _ _ _ lam _ _ 1 (by rw [mul_one, conj_one]) (h m)
  · unfold qTotal
    refine Finset.sum_congr rfl fun x hx => Finset.sum_congr rfl fun y hy =>
      Finset.sum_congr rfl fun z hz => ?_
    have key := amplitude_turned he h3 sqrt q hG rfl (column c.atoms.numPatom (v 0) x)
      (column c.atoms.numPatom (v 1) y) (column c.atoms.numPatom (v 2) z)
    rw [← key, hp]
    congr 2
    refine amplitude_congr (fun _ _ _ _ _ _ => rfl) ?_ ?_ ?_
    · exact fun p _ => turnedVector_column (Finset.mem_range.1 hx)
    · exact fun p _ => turnedVector_column (Finset.mem_range.1 hy)
    · exact fun p _ => turnedVector_column (Finset.mem_range.1 hz)

/-- Phonons at a wave vector plus a vector of the reciprocal lattice. -/
theorem modes_translate {sqrt : K → K} {expi : K → Cplx K} (he : IsPhase expi) {fc : Fc2Cell K}
    {τ : Nat → Fin 3 → K} (hτ : LatticeVectors fc fun j => natQ (τ j)) {recip : Nat → Nat → K}
    {lam : K → K} {q : Fin 3 → K} (G : Fin 3 → Int) {f : Nat → K} {v : Int → Cplx K}
    (h : ModesAt sqrt expi fc none recip lam q f v) :
    ModesAt sqrt expi fc none recip lam (fun d => q d + G d) f
      (fun x => conj (expi (dot (fun d => (G d : K)) (τ (x.toNat / (3 * fc.numPatom) / 3)))) * v x) := by
  have idx : ∀ j l b : Nat, l < 3 → b < 3 * fc.numPatom →
      (((j * 3 + l) * (3 * fc.numPatom) + b : Nat) : Int).toNat / (3 * fc.numPatom) / 3 = j := by
    intro j l b hl hb
    rw [Int.toNat_natCast, mul_comm (j * 3 + l), Nat.mul_add_div (by omega), Nat.div_eq_of_lt hb]
    omega
  have hd : ∀ j, dotN (fun d => ((fun d : Nat => G (Fin.ofNat 3 d)) d : K)) (natQ (τ j)) =
      dot (fun d => (G d : K)) (τ j) := by
    intro j
    simp only [dotN, dot, natQ, Finset.sum_range_succ, Finset.sum_range_zero, zero_add,
      Fin.sum_univ_three]
    rfl
  refine ⟨fun b hb => ?_, fun b hb b' hb' => ?_⟩
  · have := C89_spectrum he hτ recip (natQ q) (fun d : Nat => G (Fin.ofNat 3 d)) none (fun _ => 0)
      (fun _ => 0) (lam (f b)) _ (h.solves b hb)
    intro i hi k hk
    have := this i hi k hk
    dsimp only at this ⊢
    rw [idx _ _ _ hk hb, ← he.neg, ← hd, ← this]
    refine Finset.sum_congr rfl fun j _ => Finset.sum_congr rfl fun l hl => ?_
    rw [idx _ _ _ (Finset.mem_range.1 hl) hb, ← he.neg, ← hd]
    rfl
  · rw [← h.orthonormal b hb b' hb']
    refine Finset.sum_congr rfl fun j _ => Finset.sum_congr rfl fun l hl => ?_
    rw [idx _ _ _ (Finset.mem_range.1 hl) hb, idx _ _ _ (Finset.mem_range.1 hl) hb', conj_mul,
      conj_conj]
    have := phase_unit he (dot (fun d => (G d : K)) (τ j))
    linear_combination conj (v (((j * 3 + l) * (3 * fc.numPatom) + b : Nat))) *
      v (((j * 3 + l) * (3 * fc.numPatom) + b' : Nat)) * this

theorem qTotal_translate {sqrt : K → K} {expi : K → Cplx K} (he : IsPhase expi) {c : Crystal K}
    {fc : Fc2Cell K} (hp : fc.numPatom = c.atoms.numPatom) {recip : Nat → Nat → K} {lam : K → K}
    {τ : Nat → Fin 3 → K} (hτ : LatticeVectors fc fun j => natQ (τ j)) (hτ3 : HasPositions c τ)
    {q : Fin 3 → Fin 3 → K} (G : Fin 3 → Fin 3 → Int) {f : Fin 3 → Nat → K}
    {v : Fin 3 → Int → Cplx K} (h : ∀ m, ModesAt sqrt expi fc none recip lam (q m) (f m) (v m)) :
    ∃ v', (∀ m, ModesAt sqrt expi fc none recip lam (fun d => q m d + G m d) (f m) (v' m)) ∧
      ∀ Ψ, qTotal sqrt expi c (fun m d => q m d + G m d) f v' Ψ = qTotal sqrt expi c q f v Ψ := by
  refine ⟨fun m x => conj (expi (dot (fun d => (G m d : K))
    (τ (x.toNat / (3 * fc.numPatom) / 3)))) * v m x, fun m => modes_translate he hτ (G m) (h m),
    fun Ψ => ?_⟩
  unfold qTotal
  refine Finset.sum_congr rfl fun x hx => Finset.sum_congr rfl fun y hy =>
    Finset.sum_congr rfl fun z hz => ?_
  have key := amplitude_translate he hτ3 (fun a => sqrt (c.masses (a / 3))) q G rfl
    (column c.atoms.numPatom (v 0) x) (column c.atoms.numPatom (v 1) y)
    (column c.atoms.numPatom (v 2) z)
  have col : ∀ m b p, b < c.atoms.numPatom * 3 → column c.atoms.numPatom (fun x =>
      conj (expi (dot (fun d => (G m d : K)) (τ (x.toNat / (3 * c.atoms.numPatom) / 3)))) * v m x) b p =
      conj (expi (dot (fun d => (G m d : K)) (τ (p / 3)))) * column c.atoms.numPatom (v m) b p := by
    intro m b p hb
    unfold column
    dsimp only
    rw [Int.toNat_natCast, mul_comm p, Nat.mul_add_div (by omega),
      Nat.div_eq_of_lt (show b < 3 * c.atoms.numPatom by omega), add_zero]
  rw [← key, hp]
  congr 2
  refine amplitude_congr (fun _ _ _ _ _ _ => rfl) ?_ ?_ ?_
  · exact fun p _ => col 0 x p (Finset.mem_range.1 hx)
  · exact fun p _ => col 1 y p (Finset.mem_range.1 hy)
  · exact fun p _ => col 2 z p (Finset.mem_range.1 hz)

theorem qTotal_reversed {sqrt : K → K} {expi : K → Cplx K} (hneg : ∀ x, expi (-x) = conj (expi x))
    {c : Crystal K} {fc : Fc2Cell K} {nac : Option (NacParams K)} {recip : Nat → Nat → K}
    {lam : K → K} {q : Fin 3 → Fin 3 → K} {f : Fin 3 → Nat → K} {v : Fin 3 → Int → Cplx K}
    (h : ∀ m, ModesAt sqrt expi fc nac recip lam (q m) (f m) (v m)) :
    ∃ v', (∀ m, ModesAt sqrt expi fc nac recip lam (fun d => -q m d) (f m) (v' m)) ∧
      ∀ Ψ, qTotal sqrt expi c (fun m d => -q m d) f v' Ψ = qTotal sqrt expi c q f v Ψ := by
  refine ⟨fun m x => conj (v m x),
    fun m => modes_conj sqrt expi hneg fc nac recip (natQ (q m)) _ _ lam _ _ (h m), fun Ψ => ?_⟩
  unfold qTotal
  refine Finset.sum_congr rfl fun x hx => Finset.sum_congr rfl fun y hy =>
    Finset.sum_congr rfl fun z hz => ?_
  have key : amplitude (c.atoms.numPatom * 3) (fun a => sqrt (c.masses (a / 3)))
      (fun a b d => realToReciprocal expi c.atoms (fun m d => -q m d) c.fc3 c.isCompact
        (at3 (c.atoms.numPatom * 3) (c.atoms.numPatom * 3) a b d : Nat))
      (fun p => conj (column c.atoms.numPatom (v 0) x p))
      (fun p => conj (column c.atoms.numPatom (v 1) y p))
      (fun p => conj (column c.atoms.numPatom (v 2) z p)) =
      conj (amplitude (c.atoms.numPatom * 3) (fun a => sqrt (c.masses (a / 3)))
        (fun a b d => realToReciprocal expi c.atoms q c.fc3 c.isCompact
          (at3 (c.atoms.numPatom * 3) (c.atoms.numPatom * 3) a b d : Nat))
        (column c.atoms.numPatom (v 0) x) (column c.atoms.numPatom (v 1) y)
        (column c.atoms.numPatom (v 2) z)) := by
    rw [← amplitude_conj]
    refine amplitude_congr ?_ (fun _ _ => rfl) (fun _ _ => rfl) (fun _ _ => rfl)
    intro i hi j hj k hk
    rw [r2r_at3 _ _ _ _ _ rfl hi hj hk, r2r_at3 _ _ _ _ _ rfl hi hj hk, r2rEntry_conj expi hneg]
  exact congrArg (Ψ (f 0 x) (f 1 y) (f 2 z) * ·) ((congrArg Cplx.normSq key).trans (normSq_conj _))

end
end Phono3py.Props
