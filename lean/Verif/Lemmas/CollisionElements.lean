/- Lemmas about the elements of the collision matrix. -/
import Verif.Lemmas.Collision
import Verif.Lemmas.TripletLookup
import Verif.Lemmas.Reciprocal
import Verif.Lemmas.Interaction
import Mathlib.Algebra.BigOperators.Field
import Mathlib.Algebra.Order.BigOperators.Group.Finset

namespace Phono3py
open Spec

section
variable {K : Type _} [Field K] [LinearOrder K] [IsStrictOrderedRing K]

theorem addsAt_loop_only {α : Type _} [AddCommMonoid α] {n : Nat} (body : Nat → List (Int × α))
    {k : Int} {i : Nat} (hi : i < n) (h : ∀ i' < n, i' ≠ i → ∀ w ∈ body i', w.1 ≠ k) :
    addsAt (loop n body) k = addsAt (body i) k := by
  rw [addsAt_loop]
  exact Finset.sum_eq_single_of_mem i (Finset.mem_range.2 hi) fun i' hi' hne =>
    addsAt_zero _ _ (h i' (Finset.mem_range.1 hi') hne)

theorem addsAt_perm {α : Type _} [AddCommMonoid α] {u w : List (Int × α)} (h : u.Perm w) (k : Int) :
    addsAt u k = addsAt w k := by
  unfold addsAt
  exact (h.map _).sum_eq

/-- The updates of the reducible matrix. -/
def reducibleAdds (c : CollisionInput K) (gp2tp : Int → Int) : List (Int × K) :=
  loop c.numGp fun i => loop c.numBand0 fun j => loop c.numBand fun k =>
    [(((j * c.numGp * c.numBand + i * c.numBand + k : Nat) : Int),
      collisionSum c gp2tp (i : Nat) j k)]

theorem mem_reducibleAdds {c : CollisionInput K} {gp2tp : Int → Int} {w : Int × K} :
    w ∈ reducibleAdds c gp2tp ↔ ∃ i < c.numGp, ∃ j < c.numBand0, ∃ k < c.numBand,
      w = (((at3 c.numGp c.numBand j i k : Nat) : Int), collisionSum c gp2tp (i : Nat) j k) := by
  have e : ∀ i j k, j * c.numGp * c.numBand + i * c.numBand + k = at3 c.numGp c.numBand j i k := by
    intros; unfold at3; ring
  unfold reducibleAdds
  simp only [e, mem_loop, List.mem_singleton]

theorem reducible_value (mem : Int → Int) (c : CollisionInput K) (a : Int → K) {j i k : Nat}
    (hj : j < c.numBand0) (hi : i < c.numGp) (hk : k < c.numBand) :
    reducibleCollisionMatrix mem c a (at3 c.numGp c.numBand j i k : Nat) =
      a (at3 c.numGp c.numBand j i k : Nat) +
        collisionSum c (createGp2tpMap mem c.tripletsMap c.numGp) (i : Nat) j k := by
  unfold reducibleCollisionMatrix
  rw [runAdds_value]
  congr 1
  have e : ∀ i j k, j * c.numGp * c.numBand + i * c.numBand + k = at3 c.numGp c.numBand j i k := by
    intros; unfold at3; ring
  simp only [e]
  rw [addsAt_loop_only _ hi, addsAt_loop_only _ hj, addsAt_loop_only _ hk, addsAt_single, if_pos rfl]
  · intro k' hk' hne w hw
    rw [List.mem_singleton.1 hw]
    intro q
    exact hne (at3_inj hi hk' hi hk (Int.ofNat.inj q)).2.2
  · intro j' hj' hne w hw
    obtain ⟨k', hk', hw⟩ := mem_loop.1 hw
    rw [List.mem_singleton.1 hw]
    intro q
    exact hne (at3_inj hi hk' hi hk (Int.ofNat.inj q)).1
  · intro i' hi' hne w hw
    obtain ⟨j', hj', hw⟩ := mem_loop.1 hw
    obtain ⟨k', hk', hw⟩ := mem_loop.1 hw
    rw [List.mem_singleton.1 hw]
    intro q
    exact hne (at3_inj hi' hk' hi hk (Int.ofNat.inj q)).2.1

theorem irreducible_value (mem : Int → Int) (c : CollisionInput K) (rotGp : Int → Int)
    (numIr numRot : Nat) (rotations a : Int → K) {k m i l n : Nat} (hk : k < c.numBand0)
    (hm : m < 3) (hi : i < numIr) (hl : l < c.numBand) (hn : n < 3) :
    collisionMatrix mem c rotGp numIr numRot rotations a
        (at5 3 numIr c.numBand 3 k m i l n : Nat) =
      a (at5 3 numIr c.numBand 3 k m i l n : Nat) +
        ∑ j ∈ Finset.range numRot,
          collisionSum c (createGp2tpMap mem c.tripletsMap c.numGp)
            (rotGp ((i * numRot + j : Nat) : Int)) k l *
          rotations ((j * 9 + m * 3 + n : Nat) : Int) := by
  unfold collisionMatrix
  rw [runAdds_value]
  congr 1
  have e : ∀ k m i l n, k * 3 * numIr * c.numBand * 3 + m * numIr * c.numBand * 3 +
      i * c.numBand * 3 + l * 3 + n = at5 3 numIr c.numBand 3 k m i l n := by
    intros; unfold at5; ring
  unfold collisionAdds
  simp only [e]
  rw [addsAt_loop_only _ hi, addsAt_loop]
  · refine Finset.sum_congr rfl fun j _ => ?_
    rw [addsAt_loop_only _ hk, addsAt_loop_only _ hl, addsAt_loop_only _ hm, addsAt_loop_only _ hn,
      addsAt_single, if_pos rfl]
    · intro n' hn' hne w hw
      rw [List.mem_singleton.1 hw]
      intro q
      exact hne (at5_inj hm hi hl hn' hm hi hl hn (Int.ofNat.inj q)).2.2.2.2
    · intro m' hm' hne w hw
      obtain ⟨n', hn', hw⟩ := mem_loop.1 hw
      rw [List.mem_singleton.1 hw]
      intro q
      exact hne (at5_inj hm' hi hl hn' hm hi hl hn (Int.ofNat.inj q)).2.1
    · intro l' hl' hne w hw
      obtain ⟨m', hm', hw⟩ := mem_loop.1 hw
      obtain ⟨n', hn', hw⟩ := mem_loop.1 hw
      rw [List.mem_singleton.1 hw]
      intro q
      exact hne (at5_inj hm' hi hl' hn' hm hi hl hn (Int.ofNat.inj q)).2.2.2.1
    · intro k' hk' hne w hw
      obtain ⟨l', hl', hw⟩ := mem_loop.1 hw
      obtain ⟨m', hm', hw⟩ := mem_loop.1 hw
      obtain ⟨n', hn', hw⟩ := mem_loop.1 hw
      rw [List.mem_singleton.1 hw]
      intro q
      exact hne (at5_inj hm' hi hl' hn' hm hi hl hn (Int.ofNat.inj q)).1
  · intro i' hi' hne w hw
    obtain ⟨j', hj', hw⟩ := mem_loop.1 hw
    obtain ⟨k', hk', hw⟩ := mem_loop.1 hw
    obtain ⟨l', hl', hw⟩ := mem_loop.1 hw
    obtain ⟨m', hm', hw⟩ := mem_loop.1 hw
    obtain ⟨n', hn', hw⟩ := mem_loop.1 hw
    rw [List.mem_singleton.1 hw]
    intro q
    exact hne (at5_inj hm' hi' hl' hn' hm hi hl hn (Int.ofNat.inj q)).2.2.1

/-! ### Stars -/

section star
variable {G : Type _} [Group G] [Fintype G] {X : Type _} [DecidableEq X] [MulAction G X]

/-- The arms of the star of `r`. -/
def star (G : Type _) [Group G] [Fintype G] {X : Type _} [DecidableEq X] [MulAction G X] (r : X) :
    Finset X := Finset.univ.image fun g : G => g • r

theorem sum_over_group {α : Type _} [AddCommMonoid α] (r : X) (F : X → α) :
    ∑ g : G, F (g • r) =
      (Finset.univ.filter fun g : G => g • r = r).card • ∑ q ∈ star G r, F q := by
  rw [← Finset.sum_fiberwise_of_maps_to (s := Finset.univ) (t := star G r)
    (g := fun g : G => g • r) (fun g _ => Finset.mem_image_of_mem _ (Finset.mem_univ g)),
    ← Finset.sum_nsmul]
  refine Finset.sum_congr rfl fun q hq => ?_
  obtain ⟨g0, _, rfl⟩ := Finset.mem_image.1 hq
  rw [Finset.sum_congr rfl (g := fun _ => F (g0 • r))
    (fun g hg => by rw [(Finset.mem_filter.1 hg).2]), Finset.sum_const]
  congr 1
  have := sum_coset (α := ℕ) r g0 (fun _ => 1)
  rwa [← Finset.card_filter, ← Finset.card_filter] at this

theorem card_group (r : X) :
    Fintype.card G = (Finset.univ.filter fun g : G => g • r = r).card * (star G r).card := by
  have := sum_over_group (G := G) r (fun _ => (1 : ℕ))
  simpa using this

end star

end
end Phono3py
