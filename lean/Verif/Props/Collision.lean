/-
Property theorems C35-C38 and C75-C77: the collision matrix.
-/
import Verif.Lemmas.Collision
import Verif.Lemmas.Grid
import Mathlib.Algebra.Group.Action.End
import Mathlib.Data.Fintype.Perm
import Mathlib.Algebra.BigOperators.Field
import Mathlib.Algebra.BigOperators.Pi
import Mathlib.Algebra.Order.Field.Rat
import Mathlib.Tactic.FinCases

set_option linter.unusedSectionVars false

namespace Phono3py.Props
open Phono3py Phono3py.Spec

section
variable {K : Type _} [Field K] [LinearOrder K] [IsStrictOrderedRing K]

/-! ## C35 -/

/-- C35: in every block of sigma `i` and temperature `j` the matrix becomes `(M + Mᵀ) / 2`. -/
theorem C35_value (n T S : Nat) (a : Int → K) (i j k l : Nat) (hi : i < S) (hj : j < T)
    (hk : k < n) (hl : l < n) :
    symmetrizeCollisionMatrix n T S a (at4 T n n i j k l : Nat) =
      (a (at4 T n n i j k l : Nat) + a (at4 T n n i j l k : Nat)) / 2 :=
  symmetrize_value n T S a hi hj hk hl

/-- C35: the result is symmetric. -/
theorem C35_symmetric (n T S : Nat) (a : Int → K) (i j k l : Nat) (hi : i < S) (hj : j < T)
    (hk : k < n) (hl : l < n) :
    symmetrizeCollisionMatrix n T S a (at4 T n n i j k l : Nat) =
      symmetrizeCollisionMatrix n T S a (at4 T n n i j l k : Nat) := by
  rw [symmetrize_value n T S a hi hj hk hl, symmetrize_value n T S a hi hj hl hk, add_comm]

/-- C35: the diagonal, and with it the trace, keeps its values. -/
theorem C35_diagonal (n T S : Nat) (a : Int → K) (i j k : Nat) (hi : i < S) (hj : j < T)
    (hk : k < n) :
    symmetrizeCollisionMatrix n T S a (at4 T n n i j k k : Nat) = a (at4 T n n i j k k : Nat) := by
  rw [symmetrize_value n T S a hi hj hk hk]
  field_simp
  ring

/-- C35: only the memory of the matrices is written. -/
theorem C35_outside (n T S : Nat) (a : Int → K) (p : Int)
    (hp : p < 0 ∨ ((S * T * n * n : Nat) : Int) ≤ p) :
    symmetrizeCollisionMatrix n T S a p = a p :=
  symmetrize_outside n T S a hp

theorem at4_digits {n0 n1 n2 n3 p : Nat} (h : p < n0 * n1 * n2 * n3) :
    ∃ i < n0, ∃ j < n1, ∃ k < n2, ∃ l < n3, p = at4 n1 n2 n3 i j k l := by
  have c3 : 0 < n3 := Nat.pos_of_ne_zero fun e => by subst e; simp at h
  have h3 : p / n3 < n0 * n1 * n2 := Nat.div_lt_of_lt_mul (by rw [mul_comm]; exact h)
  have c2 : 0 < n2 := Nat.pos_of_ne_zero fun e => by subst e; simp at h3
  have h2 : p / n3 / n2 < n0 * n1 := Nat.div_lt_of_lt_mul (by rw [mul_comm]; exact h3)
  have c1 : 0 < n1 := Nat.pos_of_ne_zero fun e => by subst e; simp at h2
  have h1 : p / n3 / n2 / n1 < n0 := Nat.div_lt_of_lt_mul (by rw [mul_comm]; exact h2)
  refine ⟨_, h1, _, Nat.mod_lt (p / n3 / n2) c1, _, Nat.mod_lt (p / n3) c2, _,
    Nat.mod_lt p c3, ?_⟩
  have e1 := Nat.div_add_mod p n3
  have e2 := Nat.div_add_mod (p / n3) n2
  have e3 := Nat.div_add_mod (p / n3 / n2) n1
  unfold at4
  rw [mul_comm _ n1, e3, mul_comm _ n2, e2, mul_comm _ n3, e1]

/-- C35: symmetric matrices stay as they are, in the whole memory. -/
theorem C35_fixed (n T S : Nat) (a : Int → K)
    (h : ∀ i < S, ∀ j < T, ∀ k < n, ∀ l < n,
      a (at4 T n n i j k l : Nat) = a (at4 T n n i j l k : Nat)) :
    symmetrizeCollisionMatrix n T S a = a := by
  funext p
  by_cases hp : p < 0 ∨ ((S * T * n * n : Nat) : Int) ≤ p
  · exact symmetrize_outside n T S a hp
  · push Not at hp
    obtain ⟨q, rfl⟩ := Int.eq_ofNat_of_zero_le hp.1
    obtain ⟨i, hi, j, hj, k, hk, l, hl, rfl⟩ := at4_digits (Int.ofNat_lt.1 hp.2)
    rw [symmetrize_value n T S a hi hj hk hl, ← h i hi j hj k hk l hl]
    field_simp
    ring

/-- C35: a second symmetrisation changes nothing. -/
theorem C35_idempotent (n T S : Nat) (a : Int → K) :
    symmetrizeCollisionMatrix n T S (symmetrizeCollisionMatrix n T S a) =
      symmetrizeCollisionMatrix n T S a :=
  C35_fixed n T S _ fun i hi j hj k hk l hl => C35_symmetric n T S a i j k l hi hj hk hl

/-- C35: the rounds of the loops can run in any order, as in every OpenMP schedule. -/
theorem C35_schedule (n T S : Nat) (a : Int → K) (order : List (Nat × Nat × Nat × Nat))
    (h : (symmetrizeRounds n T S).Perm order) :
    order.foldl (symmetrizeStep n T) a = symmetrizeCollisionMatrix n T S a :=
  (foldl_blocks_perm (symmetrize_footprint n T) h (symmetrize_apart n T S) a).symm

/-- Two 2x2 matrices: only the off-diagonal elements change. -/
example : (List.range 8).map (fun (p : Nat) =>
    symmetrizeCollisionMatrix 2 2 1 (fun p => (p * p : ℚ)) p) = [0, 5/2, 5/2, 9, 16, 61/2, 61/2, 49] := by
  decide +kernel

/-! ## C36 -/

section expand
variable {G : Type _} [Group G] [Fintype G] {numGp numRot numIr : Nat} [MulAction G (Fin numGp)]

/-- Rows of star points other than the irreducible point itself are empty. -/
def StarRowsEmpty (G : Type _) [Group G] {numGp numIr : Nat} [MulAction G (Fin numGp)]
    (ir : Fin numIr → Fin numGp) (T nb i j : Nat) (a : Int → K) : Prop :=
  ∀ (k : Fin numIr) (g : G), g • ir k ≠ ir k → ∀ m < nb, ∀ n : Fin numGp, ∀ p < nb,
    a (at6 T numGp nb numGp nb i j (g • ir k : Fin numGp) m n p : Nat) = 0

/-- C36: the row of the star point `g • q` is the row of the irreducible point `q`, rotated
by `g` and averaged over the operations that fix `q`. -/
theorem C36_value (op : Fin numRot ≃ G) (rot irArr : Int → Int) (h : TableOf numGp op rot)
    (ir : Fin numIr → Fin numGp)
    (hir : ∀ k : Fin numIr, irArr ((k : Nat) : Int) = ((ir k : Nat) : Int))
    (hd : DifferentStars G ir) (S T nb i j : Nat) (hi : i < S) (hj : j < T) (a : Int → K)
    (hz : StarRowsEmpty G ir T nb i j a) (k : Fin numIr) (g : G) (n : Fin numGp) (m p : Nat)
    (hm : m < nb) (hp : p < nb) :
    expandCollisionMatrix rot irArr numIr numGp numRot S T nb a
        (at6 T numGp nb numGp nb i j (g • ir k : Fin numGp) m n p : Nat) =
      (∑ h ∈ Finset.univ.filter (fun h : G => h • ir k = ir k),
          a (at6 T numGp nb numGp nb i j (ir k) m ((g * h)⁻¹ • n : Fin numGp) p : Nat)) /
        ((Finset.univ.filter fun h : G => h • ir k = ir k).card : K) := by
  rw [expand_value h hir hd hi hj k a g n hm hp, sum_coset, Finset.sum_filter, Finset.sum_div,
    multiplicity_eq h, Finset.card_filter]
  have e : (if g • ir k = ir k then (0 : K) else
      a (at6 T numGp nb numGp nb i j (g • ir k : Fin numGp) m n p : Nat)) = 0 := by
    split_ifs with hg
    · rfl
    · exact hz k g hg m hm n p hp
  rw [e, zero_add]
  refine Finset.sum_congr rfl fun h _ => ?_
  split_ifs
  · rfl
  · rw [zero_div]

theorem card_stab_ne (r : Fin numGp) :
    ((Finset.univ.filter fun h : G => h • r = r).card : K) ≠ 0 := by
  have : 0 < (Finset.univ.filter fun h : G => h • r = r).card :=
    Finset.card_pos.2 ⟨1, by simp⟩
  positivity

/-- C36: when the row of the irreducible point has the symmetry of that point, the row of the
star point is exactly the rotated row. -/
theorem C36_rotated (op : Fin numRot ≃ G) (rot irArr : Int → Int) (h : TableOf numGp op rot)
    (ir : Fin numIr → Fin numGp)
    (hir : ∀ k : Fin numIr, irArr ((k : Nat) : Int) = ((ir k : Nat) : Int))
    (hd : DifferentStars G ir) (S T nb i j : Nat) (hi : i < S) (hj : j < T) (a : Int → K)
    (hz : StarRowsEmpty G ir T nb i j a) (k : Fin numIr) (g : G) (n : Fin numGp) (m p : Nat)
    (hm : m < nb) (hp : p < nb)
    (hs : ∀ h : G, h • ir k = ir k → ∀ n : Fin numGp,
      a (at6 T numGp nb numGp nb i j (ir k) m (h • n : Fin numGp) p : Nat) =
        a (at6 T numGp nb numGp nb i j (ir k) m n p : Nat)) :
    expandCollisionMatrix rot irArr numIr numGp numRot S T nb a
        (at6 T numGp nb numGp nb i j (g • ir k : Fin numGp) m (g • n : Fin numGp) p : Nat) =
      a (at6 T numGp nb numGp nb i j (ir k) m n p : Nat) := by
  rw [C36_value op rot irArr h ir hir hd S T nb i j hi hj a hz k g _ m p hm hp]
  rw [Finset.sum_congr rfl (g := fun _ => a (at6 T numGp nb numGp nb i j (ir k) m n p : Nat))]
  · rw [Finset.sum_const, nsmul_eq_mul, mul_comm, mul_div_assoc, div_self (card_stab_ne _), mul_one]
  · intro x hx
    have hx := (Finset.mem_filter.1 hx).2
    rw [mul_inv_rev, mul_smul, inv_smul_smul]
    have := hs x hx (x⁻¹ • n)
    rw [smul_inv_smul] at this
    exact this.symm

/-- C36: the expanded matrix is invariant under the group on all rows of the stars. -/
theorem C36_invariant (op : Fin numRot ≃ G) (rot irArr : Int → Int) (h : TableOf numGp op rot)
    (ir : Fin numIr → Fin numGp)
    (hir : ∀ k : Fin numIr, irArr ((k : Nat) : Int) = ((ir k : Nat) : Int))
    (hd : DifferentStars G ir) (S T nb i j : Nat) (hi : i < S) (hj : j < T) (a : Int → K)
    (hz : StarRowsEmpty G ir T nb i j a) (k : Fin numIr) (g g' : G) (n : Fin numGp) (m p : Nat)
    (hm : m < nb) (hp : p < nb) :
    expandCollisionMatrix rot irArr numIr numGp numRot S T nb a
        (at6 T numGp nb numGp nb i j (g' • g • ir k : Fin numGp) m (g' • n : Fin numGp) p : Nat) =
      expandCollisionMatrix rot irArr numIr numGp numRot S T nb a
        (at6 T numGp nb numGp nb i j (g • ir k : Fin numGp) m n p : Nat) := by
  rw [← mul_smul, C36_value op rot irArr h ir hir hd S T nb i j hi hj a hz k (g' * g) _ m p hm hp,
    C36_value op rot irArr h ir hir hd S T nb i j hi hj a hz k g _ m p hm hp]
  congr 1
  refine Finset.sum_congr rfl fun x _ => ?_
  rw [show (g' * g * x)⁻¹ • g' • n = (g * x)⁻¹ • n by
    rw [← mul_smul, mul_assoc g', mul_inv_rev, inv_mul_cancel_right]]

/-- C36: a matrix invariant under the group is restored from its irreducible rows. -/
theorem C36_restores (op : Fin numRot ≃ G) (rot irArr : Int → Int) (h : TableOf numGp op rot)
    (ir : Fin numIr → Fin numGp)
    (hir : ∀ k : Fin numIr, irArr ((k : Nat) : Int) = ((ir k : Nat) : Int))
    (hd : DifferentStars G ir) (S T nb i j : Nat) (hi : i < S) (hj : j < T) (a : Int → K)
    (hz : StarRowsEmpty G ir T nb i j a) (F : Fin numGp → Nat → Fin numGp → Nat → K)
    (hF : ∀ (g : G) r m n p, F (g • r) m (g • n) p = F r m n p)
    (hrow : ∀ k, ∀ m < nb, ∀ n : Fin numGp, ∀ p < nb,
      a (at6 T numGp nb numGp nb i j (ir k) m n p : Nat) = F (ir k) m n p)
    (k : Fin numIr) (g : G) (n : Fin numGp) (m p : Nat) (hm : m < nb) (hp : p < nb) :
    expandCollisionMatrix rot irArr numIr numGp numRot S T nb a
        (at6 T numGp nb numGp nb i j (g • ir k : Fin numGp) m n p : Nat) = F (g • ir k) m n p := by
  have e := C36_rotated op rot irArr h ir hir hd S T nb i j hi hj a hz k g (g⁻¹ • n) m p hm hp ?_
  · rw [smul_inv_smul, hrow k m hm _ p hp, ← hF g, smul_inv_smul] at e
    exact e
  · intro x hx n
    rw [hrow k m hm _ p hp, hrow k m hm _ p hp]
    conv_lhs => rw [← hx]
    rw [hF]

/-- C36: the sum of a row over the grid points is the same along the star. -/
theorem C36_row_sum (op : Fin numRot ≃ G) (rot irArr : Int → Int) (h : TableOf numGp op rot)
    (ir : Fin numIr → Fin numGp)
    (hir : ∀ k : Fin numIr, irArr ((k : Nat) : Int) = ((ir k : Nat) : Int))
    (hd : DifferentStars G ir) (S T nb i j : Nat) (hi : i < S) (hj : j < T) (a : Int → K)
    (hz : StarRowsEmpty G ir T nb i j a) (k : Fin numIr) (g : G) (m p : Nat)
    (hm : m < nb) (hp : p < nb) :
    ∑ n : Fin numGp, expandCollisionMatrix rot irArr numIr numGp numRot S T nb a
        (at6 T numGp nb numGp nb i j (g • ir k : Fin numGp) m n p : Nat) =
      ∑ n : Fin numGp, a (at6 T numGp nb numGp nb i j (ir k) m n p : Nat) := by
  have e : ∀ n : Fin numGp, expandCollisionMatrix rot irArr numIr numGp numRot S T nb a
        (at6 T numGp nb numGp nb i j (g • ir k : Fin numGp) m n p : Nat) = _ :=
    fun n => C36_value op rot irArr h ir hir hd S T nb i j hi hj a hz k g n m p hm hp
  simp only [e]
  rw [← Finset.sum_div, Finset.sum_comm]
  rw [Finset.sum_congr rfl (g := fun _ =>
    ∑ n : Fin numGp, a (at6 T numGp nb numGp nb i j (ir k) m n p : Nat))]
  · rw [Finset.sum_const, nsmul_eq_mul, mul_comm, mul_div_assoc, div_self (card_stab_ne _), mul_one]
  · intro x _
    exact Equiv.sum_comp (MulAction.toPerm (g * x)⁻¹)
      (fun n : Fin numGp => a (at6 T numGp nb numGp nb i j (ir k) m n p : Nat))

/-- C36: rows of points outside all stars, and memory outside the matrices, are untouched. -/
theorem C36_untouched (op : Fin numRot ≃ G) (rot irArr : Int → Int) (h : TableOf numGp op rot)
    (ir : Fin numIr → Fin numGp)
    (hir : ∀ k : Fin numIr, irArr ((k : Nat) : Int) = ((ir k : Nat) : Int)) (S T nb : Nat)
    (a : Int → K) (q : Int)
    (hq : ∀ i < S, ∀ j < T, ∀ (k : Fin numIr) (g : G), ∀ m < nb, ∀ n : Fin numGp, ∀ p < nb,
      q ≠ (at6 T numGp nb numGp nb i j (g • ir k : Fin numGp) m n p : Nat)) :
    expandCollisionMatrix rot irArr numIr numGp numRot S T nb a q = a q := by
  unfold expandCollisionMatrix
  apply foldl_untouched (expand_footprint h hir T nb)
  rintro ⟨i, j, k⟩ ht hc
  obtain ⟨h0, h1, h2⟩ := mem_expandRounds.1 ht
  obtain ⟨g, m, hm, n, p, hp, e⟩ := hc h2 h1
  exact hq i h0 j h1 ⟨k, h2⟩ g m hm n p hp e

/-- C36: the irreducible points can be treated in any order: stars do not interfere. -/
theorem C36_schedule (op : Fin numRot ≃ G) (rot irArr : Int → Int) (h : TableOf numGp op rot)
    (ir : Fin numIr → Fin numGp)
    (hir : ∀ k : Fin numIr, irArr ((k : Nat) : Int) = ((ir k : Nat) : Int))
    (hd : DifferentStars G ir) (S T nb : Nat) (a : Int → K) (order : List (Nat × Nat × Nat))
    (hp : (loop S fun i => loop T fun j => (List.range numIr).map fun k => (i, j, k)).Perm order) :
    order.foldl (expandStep rot irArr numGp numRot T nb) a =
      expandCollisionMatrix rot irArr numIr numGp numRot S T nb a :=
  (foldl_blocks_perm (expand_footprint h hir T nb) hp (expand_apart hd S T nb) a).symm

/-- C36: scalar properties (linewidth, isotope linewidth, heat capacity) are copied along the
star. -/
theorem C36_local (op : Fin numRot ≃ G) (rot : Int → Int) (h : TableOf numGp op rot)
    (ir : Fin numIr → Fin numGp) (hd : DifferentStars G ir) (a : Int → K)
    (hz : ∀ (k : Fin numIr) (g : G), g • ir k ≠ ir k → a ((g • ir k : Fin numGp) : Nat) = 0)
    (k : Fin numIr) (g : G) :
    expandLocal rot numGp numRot (fun _ v => v) (fun (v : K) (n : Nat) => v / (n : K))
        (List.ofFn fun k => ((ir k : Nat) : Int)) a ((g • ir k : Fin numGp) : Nat) =
      a ((ir k : Nat) : Int) := by
  rw [expandLocal_value h (fun _ (v : K) => v) (fun _ v => v) (fun _ => rfl) _ hd a k g]
  have e : (if g • ir k = ir k then (0 : K) else a ((g • ir k : Fin numGp) : Nat)) = 0 := by
    split_ifs with hg
    · rfl
    · exact hz k g hg
  rw [e, zero_add, sum_coset, ← Finset.sum_filter, Finset.sum_const, multiplicity_eq h,
    ← Finset.card_filter, nsmul_eq_mul, mul_comm, div_mul_cancel₀ _ (card_stab_ne _)]

/-- C36: group velocities are rotated along the star, after the average over the operations
that fix the irreducible point. `R g` is the Cartesian matrix of `g`. -/
theorem C36_velocity (op : Fin numRot ≃ G) (rot : Int → Int) (h : TableOf numGp op rot)
    (ir : Fin numIr → Fin numGp) (hd : DifferentStars G ir) (R : G → Fin 3 → Fin 3 → K)
    (a : Int → Fin 3 → K)
    (hz : ∀ (k : Fin numIr) (g : G), g • ir k ≠ ir k → a ((g • ir k : Fin numGp) : Nat) = 0)
    (k : Fin numIr) (g : G) (x : Fin 3) :
    expandLocal rot numGp numRot
        (fun l v x => if hl : l < numRot then ∑ y, v y * R (op ⟨l, hl⟩) x y else 0)
        (fun v n x => v x / (n : K))
        (List.ofFn fun k => ((ir k : Nat) : Int)) a ((g • ir k : Fin numGp) : Nat) x =
      (∑ h ∈ Finset.univ.filter (fun h : G => h • ir k = ir k),
          ∑ y, R (g * h) x y * a ((ir k : Nat) : Int) y) /
        ((Finset.univ.filter fun h : G => h • ir k = ir k).card : K) := by
  rw [expandLocal_value h _ (fun g v x => ∑ y, v y * R g x y) (fun l => ?_) _ hd a k g]
  · have e : (if g • ir k = ir k then (0 : Fin 3 → K) else a ((g • ir k : Fin numGp) : Nat)) = 0 := by
      split_ifs with hg
      · rfl
      · exact hz k g hg
    rw [e, zero_add, sum_coset, ← Finset.sum_filter, Finset.sum_apply, Finset.sum_div,
      multiplicity_eq h, ← Finset.card_filter]
    refine Finset.sum_congr rfl fun h _ => ?_
    congr 1
    exact Finset.sum_congr rfl fun y _ => mul_comm _ _
  · funext v x
    rw [dif_pos l.2]

/-- C36: the tables of rotated grid points that the grid routine makes from the point group
of a grid are tables of a group action, so the theorems above apply to them. -/
theorem C36_grid (L : List M3) (D PS : V3) (hG : GridGroup L D PS) (hL : L.Nodup) (numGp : Nat)
    (hn : (numGp : Int) = numGrid D) (rot : Int → Int)
    (hrot : ∀ (l : Nat) (hl : l < L.length) (n : Nat), n < numGp →
      rot ((l * numGp + n : Nat) : Int) = rotateGridIndex n L[l] D PS) :
    ∃ (_ : Group {R // R ∈ L}) (_ : MulAction {R // R ∈ L} (Fin numGp))
      (op : Fin L.length ≃ {R // R ∈ L}), TableOf numGp op rot ∧
        ∀ (R : {R // R ∈ L}) (n : Fin numGp),
          (((R • n : Fin numGp) : Nat) : Int) = rotateGridIndex (n : Nat) R.1 D PS := by
  let inv : {R // R ∈ L} → {R // R ∈ L} := fun R =>
    ⟨(hG.grp.inv_mem R.1 R.2).choose, (hG.grp.inv_mem R.1 R.2).choose_spec.1⟩
  let grp : Group {R // R ∈ L} :=
    { mul := fun a b => ⟨a.1.mul b.1, hG.grp.mul_mem _ a.2 _ b.2⟩
      one := ⟨M3.one, hG.grp.one_mem⟩
      inv := inv
      mul_assoc := fun a b c => Subtype.ext (M3.mul_assoc a.1 b.1 c.1)
      one_mul := fun a => Subtype.ext (M3.one_mul a.1)
      mul_one := fun a => Subtype.ext (M3.mul_one a.1)
      inv_mul_cancel := fun a => Subtype.ext (hG.grp.inv_mem a.1 a.2).choose_spec.2 }
  have hb : ∀ (R : M3) (n : Nat), rotateGridIndex n R D PS =
      ((rotateGridIndex n R D PS).toNat : Nat) ∧ (rotateGridIndex n R D PS).toNat < numGp := by
    intro R n
    have := rotateGridIndex_bounds n R D PS hG.pos
    omega
  let act : MulAction {R // R ∈ L} (Fin numGp) :=
    { smul := fun R n => ⟨(rotateGridIndex (n : Nat) R.1 D PS).toNat, (hb R.1 n).2⟩
      one_smul := fun n => by
        apply Fin.ext
        change (rotateGridIndex (n : Nat) M3.one D PS).toNat = n
        rw [rotate_one hG.pos n (by omega) (by omega)]
        simp
      mul_smul := fun a b n => by
        apply Fin.ext
        change (rotateGridIndex (n : Nat) (a.1.mul b.1) D PS).toNat =
          (rotateGridIndex ((rotateGridIndex (n : Nat) b.1 D PS).toNat : Nat) a.1 D PS).toNat
        rw [← (hb b.1 n).1, rotate_comp hG.pos (hG.mesh _ a.2) (hG.shift _ a.2) (hG.shift _ b.2)] }
  have hsm : ∀ (R : {R // R ∈ L}) (n : Fin numGp),
      (((R • n : Fin numGp) : Nat) : Int) = rotateGridIndex (n : Nat) R.1 D PS :=
    fun R n => (hb R.1 n).1.symm
  refine ⟨grp, act, hL.getEquiv, fun l n => ?_, hsm⟩
  rw [hrot l l.2 n n.2, hsm]
  rfl

end expand

/-- The six permutations of three points; the third one is the irreducible point. -/
def permutations3 : Fin 6 → Equiv.Perm (Fin 3) :=
  ![1, Equiv.swap 0 1, Equiv.swap 1 2, Equiv.swap 0 2, Equiv.swap 0 1 * Equiv.swap 1 2,
    Equiv.swap 1 2 * Equiv.swap 0 1]

/-- All hypotheses of the C36 theorems hold for the permutations of three grid points, one
irreducible point, and a matrix whose row at that point is `5, 7, 11`. -/
example : ∃ (op : Fin 6 ≃ Equiv.Perm (Fin 3)) (rot : Int → Int) (ir : Fin 1 → Fin 3) (a : Int → ℚ),
    TableOf 3 op rot ∧ DifferentStars (Equiv.Perm (Fin 3)) ir ∧
    StarRowsEmpty (Equiv.Perm (Fin 3)) ir 1 1 0 0 a ∧
    (List.range 9).map (fun (p : Nat) =>
      expandCollisionMatrix rot (fun _ => 2) 1 3 6 1 1 1 a p) =
        [11, 6, 6, 6, 11, 6, 6, 6, 11] := by
  refine ⟨Equiv.ofBijective permutations3 (by decide +kernel),
    fun p => (permutations3 (Fin.ofNat 6 (p.toNat / 3)) (Fin.ofNat 3 p.toNat) : Nat),
    fun _ => 2, fun p => if p = 6 then 5 else if p = 7 then 7 else if p = 8 then 11 else 0,
    ?_, ?_, ?_, by decide +kernel⟩
  · unfold TableOf
    decide +kernel
  · exact fun k k' _ => Subsingleton.elim k k'
  · unfold StarRowsEmpty
    decide +kernel

end

end Phono3py.Props
