/- Reduction of an invariant collision matrix to irreducible points, and its functions. -/
import Verif.Lemmas.LBTE
import Verif.Props.CollisionElements
import Verif.Props.KappaSymmetry

set_option linter.unusedSectionVars false

namespace Phono3py.Props
open Phono3py Phono3py.Spec Finset

section
variable {K : Type _} [Field K] [LinearOrder K] [IsStrictOrderedRing K]
variable {G : Type _} [Group G] [Fintype G] {nq nI : Nat} [MulAction G (Fin nq)]

/-- The matrix of the irreducible layout that belongs to the full matrix `S`. -/
def reducedMatrix (R : G →* Matrix (Fin 3) (Fin 3) K) (ir : Fin nI → Fin nq) (w : Fin nI → K)
    (S : Fin nq → Nat → Fin nq → Nat → K) (i : Fin nI) (l : Nat) (a : Fin 3) (i' : Fin nI) (l' : Nat)
    (b : Fin 3) : K :=
  w i * w i' * ∑ g : G, S (ir i) l (g • ir i') l' * R g a b

/-- From vectors of the irreducible layout to fields on the mesh. -/
def liftMatrix (R : G →* Matrix (Fin 3) (Fin 3) K) (ir : Fin nI → Fin nq) (w : Fin nI → K)
    (a : Fin 3) (q : Fin nq) (l : Nat) (i : Fin nI) (l' : Nat) (b : Fin 3) : K :=
  if l = l' then w i * ∑ g : G, if g • ir i = q then R g a b else 0 else 0

variable (R : G →* Matrix (Fin 3) (Fin 3) K) (ir : Fin nI → Fin nq) (h : StarsCover G ir)
  (w : Fin nI → K) (hw : ∀ k, w k * w k = ((star G (ir k)).card : K) / (Fintype.card G : K))

include h hw in
theorem star_weight (q : Fin nq) :
    ∑ i : Fin nI, w i * w i * ∑ g : G, (if g • ir i = q then (1 : K) else 0) = 1 := by
  obtain ⟨k, g0, rfl⟩ := h.cover q
  rw [Finset.sum_eq_single k]
  · rw [hw, weight_eq]
    have hc := card_stab_ne' (K := K) (G := G) (ir k)
    rw [← Finset.sum_boole] at *
    have e : ∑ g : G, (if g • ir k = g0 • ir k then (1 : K) else 0) =
        ∑ g : G, if g • ir k = ir k then (1 : K) else 0 := by
      rw [← Equiv.sum_comp (Equiv.mulLeft g0)]
      refine Finset.sum_congr rfl fun g _ => ?_
      refine if_congr ?_ rfl rfl
      rw [Equiv.coe_mulLeft, mul_smul, smul_left_cancel_iff]
    rw [e, one_div, inv_mul_cancel₀ hc]
  · intro i _ hne
    have : ∀ g : G, ¬ g • ir i = g0 • ir k := by
      intro g e
      refine hne (h.different i k ⟨g0⁻¹ * g, ?_⟩)
      rw [mul_smul, e, inv_smul_smul]
    simp [this]
  · intro hk
    exact absurd (Finset.mem_univ k) hk

include h hw in
theorem star_weight_sum (q : Fin nq) (F : Fin nI → G → K) (c : K)
    (hF : ∀ i g, g • ir i = q → F i g = c) :
    ∑ i : Fin nI, w i * w i * ∑ g : G, (if g • ir i = q then F i g else 0) = c := by
  have e : ∀ i : Fin nI, w i * w i * ∑ g : G, (if g • ir i = q then F i g else 0) =
      c * (w i * w i * ∑ g : G, if g • ir i = q then (1 : K) else 0) := by
    intro i
    rw [mul_left_comm]
    congr 1
    rw [Finset.mul_sum]
    refine Finset.sum_congr rfl fun g _ => ?_
    split_ifs with hg
    · rw [hF i g hg, mul_one]
    · rw [mul_zero]
  rw [Finset.sum_congr rfl fun i _ => e i, ← Finset.mul_sum, star_weight ir h w hw, mul_one]

variable (S : Fin nq → Nat → Fin nq → Nat → K)
  (hS : ∀ (g : G) q l q' l', S (g • q) l (g • q') l' = S q l q' l')

theorem full_lift (nb : Nat) (a : Fin 3) (q : Fin nq) (l : Nat) (i' : Fin nI) (l' : Nat)
    (hl' : l' < nb) (b : Fin 3) :
    ∑ q' : Fin nq, ∑ l'' ∈ range nb, S q l q' l'' * liftMatrix R ir w a q' l'' i' l' b =
      w i' * ∑ g : G, S q l (g • ir i') l' * R g a b := by
  have e1 : ∀ q' : Fin nq, ∑ l'' ∈ range nb, S q l q' l'' * liftMatrix R ir w a q' l'' i' l' b =
      ∑ g : G, w i' * (if g • ir i' = q' then S q l q' l' * R g a b else 0) := by
    intro q'
    rw [Finset.sum_eq_single l']
    · unfold liftMatrix
      rw [if_pos rfl, Finset.mul_sum, Finset.mul_sum]
      refine Finset.sum_congr rfl fun g _ => ?_
      split_ifs <;> ring
    · intro l'' _ hne
      unfold liftMatrix
      rw [if_neg hne, mul_zero]
    · intro hn
      exact absurd (Finset.mem_range.2 hl') hn
  rw [Finset.sum_congr rfl fun q' _ => e1 q', Finset.sum_comm, Finset.mul_sum]
  refine Finset.sum_congr rfl fun g _ => ?_
  rw [← Finset.mul_sum, Finset.sum_ite_eq, if_pos (Finset.mem_univ _)]

include h hw hS in
/-- The lift intertwines the full and the reduced matrix. -/
theorem lift_intertwines (nb : Nat) (a : Fin 3) (q : Fin nq) (l : Nat) (hl : l < nb) (i' : Fin nI)
    (l' : Nat) (b : Fin 3) :
    ∑ i : Fin nI, ∑ l'' ∈ range nb, ∑ c : Fin 3,
        liftMatrix R ir w a q l i l'' c * reducedMatrix R ir w S i l'' c i' l' b =
      w i' * ∑ g : G, S q l (g • ir i') l' * R g a b := by
  have e1 : ∀ i : Fin nI, (∑ l'' ∈ range nb, ∑ c : Fin 3,
        liftMatrix R ir w a q l i l'' c * reducedMatrix R ir w S i l'' c i' l' b) =
      w i * w i * ∑ x : G, (if x • ir i = q then
        w i' * ∑ g : G, S (ir i) l (g • ir i') l' * R (x * g) a b else 0) := by
    intro i
    rw [Finset.sum_eq_single l]
    · unfold liftMatrix reducedMatrix
      simp only [if_true]
      rw [Finset.mul_sum]
      have e2 : ∀ c : Fin 3, w i * (∑ g : G, if g • ir i = q then R g a c else 0) *
          (w i * w i' * ∑ g : G, S (ir i) l (g • ir i') l' * R g c b) =
          ∑ x : G, w i * w i * (if x • ir i = q then
            w i' * ∑ g : G, S (ir i) l (g • ir i') l' * (R x a c * R g c b) else 0) := by
        intro c
        rw [show ∀ A B : K, w i * A * (w i * w i' * B) = A * (w i * w i * w i' * B) by intros; ring,
          Finset.sum_mul]
        refine Finset.sum_congr rfl fun x _ => ?_
        split_ifs
        · rw [show ∀ A B C : K, A * (w i * w i * w i' * C) = w i * w i * (w i' * (A * C)) by
            intros; ring, Finset.mul_sum]
          congr 2
          exact Finset.sum_congr rfl fun g _ => by ring
          exact 0
        · ring
      rw [Finset.sum_congr rfl fun c _ => e2 c, Finset.sum_comm]
      refine Finset.sum_congr rfl fun x _ => ?_
      rw [← Finset.mul_sum]
      congr 1
      split_ifs
      · rw [← Finset.mul_sum, Finset.sum_comm]
        congr 1
        refine Finset.sum_congr rfl fun g _ => ?_
        rw [← Finset.mul_sum, map_mul, Matrix.mul_apply]
      · simp
    · intro l'' _ hne
      refine Finset.sum_eq_zero fun c _ => ?_
      unfold liftMatrix
      rw [if_neg (Ne.symm hne), zero_mul]
    · intro hn
      exact absurd (Finset.mem_range.2 hl) hn
  rw [Finset.sum_congr rfl fun i _ => e1 i]
  refine star_weight_sum ir h w hw q _ _ fun i x hx => ?_
  congr 1
  rw [← Equiv.sum_comp (Equiv.mulLeft x) fun g => S q l (g • ir i') l' * R g a b]
  refine Finset.sum_congr rfl fun g _ => ?_
  rw [Equiv.coe_mulLeft, ← hx, mul_smul, hS]

include h hw in
/-- Lifting the weighted restriction of a field with the symmetry of the crystal gives the field. -/
theorem lift_field (nb : Nat) (x : Fin nq → Nat → Fin 3 → K) (hx : Equivariant (R ·) x) (a : Fin 3)
    (q : Fin nq) (l : Nat) (hl : l < nb) :
    ∑ i : Fin nI, ∑ l' ∈ range nb, ∑ b : Fin 3,
        liftMatrix R ir w a q l i l' b * (w i * x (ir i) l' b) = x q l a := by
  have e1 : ∀ i : Fin nI, (∑ l' ∈ range nb, ∑ b : Fin 3,
        liftMatrix R ir w a q l i l' b * (w i * x (ir i) l' b)) =
      w i * w i * ∑ g : G, (if g • ir i = q then x (g • ir i) l a else 0) := by
    intro i
    rw [Finset.sum_eq_single l]
    · unfold liftMatrix
      simp only [if_true]
      have e2 : ∀ b : Fin 3, w i * (∑ g : G, if g • ir i = q then R g a b else 0) *
          (w i * x (ir i) l b) =
          ∑ g : G, w i * w i * (if g • ir i = q then R g a b * x (ir i) l b else 0) := by
        intro b
        rw [show ∀ A B : K, w i * A * (w i * B) = A * (w i * w i * B) by intros; ring,
          Finset.sum_mul]
        refine Finset.sum_congr rfl fun g _ => ?_
        split_ifs <;> ring
      rw [Finset.sum_congr rfl fun b _ => e2 b, Finset.sum_comm, Finset.mul_sum]
      refine Finset.sum_congr rfl fun g _ => ?_
      rw [← Finset.mul_sum]
      congr 1
      split_ifs
      · rw [hx g]
        rfl
      · simp
    · intro l' _ hne
      refine Finset.sum_eq_zero fun c _ => ?_
      unfold liftMatrix
      rw [if_neg (Ne.symm hne), zero_mul]
    · intro hn
      exact absurd (Finset.mem_range.2 hl) hn
  rw [Finset.sum_congr rfl fun i _ => e1 i]
  exact star_weight_sum ir h w hw q _ _ fun i g hg => by rw [hg]

/-- Lifted vectors are fields with the symmetry of the crystal. -/
theorem lift_equivariant (nb : Nat) (y : Fin nI → Nat → Fin 3 → K) :
    Equivariant (R ·) fun (q : Fin nq) l a => ∑ i : Fin nI, ∑ l' ∈ range nb, ∑ b : Fin 3,
      liftMatrix R ir w a q l i l' b * y i l' b := by
  have key : ∀ (g : G) (q : Fin nq) (l : Nat) (a : Fin 3) (i : Fin nI) (l' : Nat) (b : Fin 3),
      liftMatrix R ir w a (g • q) l i l' b = ∑ c : Fin 3, R g a c * liftMatrix R ir w c q l i l' b := by
    intro g q l a i l' b
    unfold liftMatrix
    by_cases hl : l = l'
    · simp only [if_pos hl]
      have e : ∀ c : Fin 3, R g a c * (w i * ∑ x : G, if x • ir i = q then R x c b else 0) =
          ∑ x : G, w i * (if x • ir i = q then R g a c * R x c b else 0) := by
        intro c
        rw [mul_left_comm, Finset.mul_sum, Finset.mul_sum]
        refine Finset.sum_congr rfl fun x _ => ?_
        split_ifs <;> ring
      rw [Finset.sum_congr rfl fun c _ => e c, Finset.sum_comm, Finset.mul_sum,
        ← Equiv.sum_comp (Equiv.mulLeft g)]
      refine Finset.sum_congr rfl fun x _ => ?_
      have hi : (Equiv.mulLeft g) x • ir i = g • q ↔ x • ir i = q := by
        rw [Equiv.coe_mulLeft, mul_smul, smul_left_cancel_iff]
      rw [← Finset.mul_sum]
      congr 1
      by_cases hx : x • ir i = q
      · rw [if_pos (hi.2 hx), Equiv.coe_mulLeft, map_mul, Matrix.mul_apply]
        exact Finset.sum_congr rfl fun c _ => by rw [if_pos hx]
      · rw [if_neg fun e => hx (hi.1 e)]
        exact (Finset.sum_eq_zero fun c _ => if_neg hx).symm
    · simp [hl]
  intro g q l
  funext a
  change (∑ i : Fin nI, ∑ l' ∈ range nb, ∑ b : Fin 3, liftMatrix R ir w a (g • q) l i l' b * y i l' b) =
    ∑ c : Fin 3, R g a c * ∑ i : Fin nI, ∑ l' ∈ range nb, ∑ b : Fin 3,
      liftMatrix R ir w c q l i l' b * y i l' b
  simp only [key, Finset.mul_sum, Finset.sum_mul]
  conv_rhs => rw [Finset.sum_comm]
  refine Finset.sum_congr rfl fun i _ => ?_
  conv_rhs => rw [Finset.sum_comm]
  refine Finset.sum_congr rfl fun l' _ => ?_
  conv_rhs => rw [Finset.sum_comm]
  refine Finset.sum_congr rfl fun b _ => Finset.sum_congr rfl fun c _ => ?_
  ring

include h in
/-- At an irreducible point only its own entries are lifted. -/
theorem lift_at_ir (i i' : Fin nI) (hne : i' ≠ i) (a b : Fin 3) (l l' : Nat) :
    liftMatrix R ir w a (ir i) l i' l' b = 0 := by
  unfold liftMatrix
  split_ifs
  · have : ∀ g : G, ¬ g • ir i' = ir i := fun g e => hne (h.different i' i ⟨g, e⟩)
    simp [this]
  · rfl

/-- Sum of a symmetric product over the mesh by stars. -/
theorem reduced_sum (nb : Nat) (x y : Fin nq → Nat → Fin 3 → K) (hx : Equivariant (R ·) x)
    (hy : Equivariant (R ·) y) (h : StarsCover G ir)
    (hw : ∀ k, w k * w k = ((star G (ir k)).card : K) / (Fintype.card G : K)) (a b : Fin 3) :
    ∑ i : Fin nI, ∑ l ∈ range nb, ∑ g : G,
        (R g).mulVec (fun c => w i * x (ir i) l c) a * (R g).mulVec (fun c => w i * y (ir i) l c) b =
      ∑ q : Fin nq, ∑ l ∈ range nb, x q l a * y q l b := by
  rw [sum_stars h fun q => ∑ l ∈ range nb, x q l a * y q l b]
  refine Finset.sum_congr rfl fun i _ => ?_
  have hc := card_stab_ne' (K := K) (G := G) (ir i)
  have e : ∀ l ∈ range nb, (∑ g : G, (R g).mulVec (fun c => w i * x (ir i) l c) a *
      (R g).mulVec (fun c => w i * y (ir i) l c) b) =
      w i * w i * ∑ g : G, x (g • ir i) l a * y (g • ir i) l b := by
    intro l _
    rw [Finset.mul_sum]
    refine Finset.sum_congr rfl fun g _ => ?_
    have hs : ∀ z : Fin 3 → K, (fun c => w i * z c) = w i • z := fun z => rfl
    rw [hs, hs, Matrix.mulVec_smul, Matrix.mulVec_smul, hx g, hy g, Pi.smul_apply, Pi.smul_apply,
      smul_eq_mul, smul_eq_mul]
    ring
  rw [Finset.sum_congr rfl e, ← Finset.mul_sum, Finset.sum_comm,
    sum_over_group (ir i) fun q => ∑ l ∈ range nb, x q l a * y q l b, nsmul_eq_mul, hw, weight_eq,
    ← mul_assoc, one_div, inv_mul_cancel₀ hc, one_mul]

/-- The average over the group changes nothing. -/
theorem full_sum (nb : Nat) (x y : Fin nq → Nat → Fin 3 → K) (hx : Equivariant (R ·) x)
    (hy : Equivariant (R ·) y) (a b : Fin 3) :
    (∑ q : Fin nq, ∑ l ∈ range nb, ∑ g : G, (R g).mulVec (x q l) a * (R g).mulVec (y q l) b) =
      (Fintype.card G : K) * ∑ q : Fin nq, ∑ l ∈ range nb, x q l a * y q l b := by
  have e : ∀ q : Fin nq, (∑ l ∈ range nb, ∑ g : G, (R g).mulVec (x q l) a * (R g).mulVec (y q l) b) =
      ∑ g : G, ∑ l ∈ range nb, x (g • q) l a * y (g • q) l b := by
    intro q
    rw [Finset.sum_comm]
    refine Finset.sum_congr rfl fun g _ => Finset.sum_congr rfl fun l _ => ?_
    rw [hx g, hy g]
  rw [Finset.sum_congr rfl fun q _ => e q, Finset.sum_comm]
  have e2 : ∀ g : G, ∑ q : Fin nq, ∑ l ∈ range nb, x (g • q) l a * y (g • q) l b =
      ∑ q : Fin nq, ∑ l ∈ range nb, x q l a * y q l b := fun g =>
    Equiv.sum_comp (MulAction.toPerm g) fun q : Fin nq => ∑ l ∈ range nb, x q l a * y q l b
  rw [Finset.sum_congr rfl fun g _ => e2 g, Finset.sum_const, nsmul_eq_mul, Finset.card_univ]

end
end Phono3py.Props
