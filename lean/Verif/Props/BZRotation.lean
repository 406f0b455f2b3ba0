/-
C14 on grids of reduced bases: rotation by index is exact.
-/
import Verif.Props.Niggli
import Verif.Spec.PhononRotation
import Verif.Lemmas.Unimodular
import Verif.Lemmas.Triplet

namespace Phono3py.Props
open Phono3py Phono3py.Spec

section
variable {K : Type _} [Field K] [LinearOrder K] [IsStrictOrderedRing K] [FloorRing K]

/-- On a grid without translates in the range of the tolerance every stored address is nearest. -/
theorem HoldsNearest.nearest {c : BZInput K} {bz : BZGridOut} (hD : PosMesh c.D)
    (hN : HoldsNearest c bz) (hS : SurfaceSeparated c) {k : Int} (h0 : 0 ≤ k) (h1 : k < bz.size) (u : V3)
    (hu : SamePoint c.D u (bz.addresses k)) : qNorm c (bz.addresses k) ≤ qNorm c u := by
  have hb := gridIndex_bounds (bz.addresses k) c.D hD
  obtain ⟨l, l0, l1, -, hsame, hmin⟩ := hN.some _ hb.1 hb.2
  have hg : SamePoint c.D (bz.addresses k) (gridAddressFromIndex (gridIndex (bz.addresses k) c.D) c.D) := by
    rw [address_gridIndex _ _ hD]
    exact (gridIndex_eq_iff _ _ _ hD).1 (by
      unfold gridIndex; rw [reduce_of_inCell _ _ (reduce_inCell _ _ hD)])
  have hkl : SamePoint c.D (bz.addresses k) (bz.addresses l) := samePoint_trans hg hsame.symm
  rcases (hmin _ hg).lt_or_eq with hlt | heq
  · have := hS (bz.addresses l) (bz.addresses k) hkl
      (fun w hw => hmin w (samePoint_trans hw hsame)) hlt
    have := hN.near k h0 h1 _ hkl.symm
    linarith
  · rw [← heq]
    exact hmin u (samePoint_trans hu hg)

/-- C14 without exception: on a grid with all nearest translates and none in the range of the
tolerance, an operation that keeps lengths and the grid carries every stored address to a stored
address, and rotation by index returns its index. -/
theorem C14_rotation_exact (b : BZInput K) (hD : PosMesh b.D) (hl : ∃ i j, b.reclat i j ≠ 0)
    (dense : Bool) (init bz : BZGridOut) (h : bzGrid b dense init = some bz) (hPS : b.PS = ⟨0, 0, 0⟩)
    (c : BZInput K) (hc : c.D = b.D) (hN : HoldsNearest c bz) (hS : SurfaceSeparated c) (t : M3)
    (ht : MeshCompat b.D t) (hdet : t.det.natAbs = 1)
    (hiso : ∀ a, qNorm c (t.mulVec a) = qNorm c a) (k : Int) (h0 : 0 ≤ k) (h1 : k < bz.size) :
    let l := bzRotateGridIndex bz b.D b.PS dense k t
    0 ≤ l ∧ l < bz.size ∧ bz.addresses l = t.mulVec (bz.addresses k) := by
  have hcD : PosMesh c.D := hc ▸ hD
  obtain ⟨c1, c2⟩ := M3.cofactorsDiv_mul t hdet
  set t' := t.cofactorsDiv t.det with ht'
  have hcompat' : MeshCompat b.D t' := meshCompat_inverse hD ht hdet c1
  have hb := gridIndex_bounds (t.mulVec (bz.addresses k)) b.D hD
  have hg : SamePoint c.D (t.mulVec (bz.addresses k))
      (gridAddressFromIndex (gridIndex (t.mulVec (bz.addresses k)) c.D) c.D) := by
    rw [address_gridIndex _ _ hcD]
    exact (gridIndex_eq_iff _ _ _ hcD).1 (by
      unfold gridIndex; rw [reduce_of_inCell _ _ (reduce_inCell _ _ hcD)])
  rw [hc] at hg
  obtain ⟨l, l0, l1, -, hla⟩ := hN.stored (gridIndex (t.mulVec (bz.addresses k)) b.D) hb.1
    (by rw [hc]; exact hb.2) (t.mulVec (bz.addresses k)) (by rw [hc]; exact hg) (by
      intro u hu
      rw [hc] at hu
      have hu' : SamePoint b.D u (t.mulVec (bz.addresses k)) := samePoint_trans hu hg.symm
      have e1 : u = t.mulVec (t'.mulVec u) := by
        rw [← M3.mul_mulVec]
        rw [c2]
        simp
      have e2 : t'.mulVec (t.mulVec (bz.addresses k)) = bz.addresses k := by
        rw [← M3.mul_mulVec]
        rw [c1]
        simp
      rw [hiso, e1, hiso]
      refine hN.nearest hcD hS h0 h1 _ ?_
      have := hu'.mulVec hcompat'
      rw [e2] at this
      rwa [hc])
  have := C14_rotation_found_partial b hD hl dense init bz h t k (t.mulVec (bz.addresses k))
    (by rw [hPS]; ext <;> simp [M3.mulVec, V3.smul] <;> ring) l l0 l1 hla
  show 0 ≤ bzRotateGridIndex bz b.D b.PS dense k t ∧ _
  rw [this]
  exact ⟨l0, l1, hla⟩

omit [FloorRing K] in
/-- Translates are separated when the metric of the basis of the grid is an integer matrix with
diagonal elements up to 50, times a number, and the mesh numbers are equal: in cubic lattices, say. -/
theorem separated_of_metric (b : BZInput K) (n : Int) (hn : 0 < n) (hD : b.D = ⟨n, n, n⟩)
    (hPS : b.PS = ⟨0, 0, 0⟩) (g : K) (hg : 0 < g) (G : M3)
    (hG : ∀ i j, (G.e i j : K) * g =
      mulRM (transposeRM (mulRM b.reclat (castM b.Q))) (mulRM b.reclat (castM b.Q)) i j)
    (h50 : ∀ i, G.e i i ≤ 50) : SurfaceSeparated b := by
  have hn' : (0 : K) < n := by exact_mod_cast hn
  have hd : (0 : K) < (n : K) * n := mul_pos hn' hn'
  have hq : ∀ a : V3, qNorm b a = g / (n * n) *
      ((a.x * (G.mulVec a).x + a.y * (G.mulVec a).y + a.z * (G.mulVec a).z : Int) : K) := by
    intro a
    have key : qNorm b a = ((a.x : K) * a.x * (mulRM (transposeRM (mulRM b.reclat (castM b.Q)))
        (mulRM b.reclat (castM b.Q)) 0 0) + a.x * a.y * (mulRM (transposeRM (mulRM b.reclat (castM b.Q)))
        (mulRM b.reclat (castM b.Q)) 0 1) + a.x * a.z * (mulRM (transposeRM (mulRM b.reclat (castM b.Q)))
        (mulRM b.reclat (castM b.Q)) 0 2) + a.y * a.x * (mulRM (transposeRM (mulRM b.reclat (castM b.Q)))
        (mulRM b.reclat (castM b.Q)) 1 0) + a.y * a.y * (mulRM (transposeRM (mulRM b.reclat (castM b.Q)))
        (mulRM b.reclat (castM b.Q)) 1 1) + a.y * a.z * (mulRM (transposeRM (mulRM b.reclat (castM b.Q)))
        (mulRM b.reclat (castM b.Q)) 1 2) + a.z * a.x * (mulRM (transposeRM (mulRM b.reclat (castM b.Q)))
        (mulRM b.reclat (castM b.Q)) 2 0) + a.z * a.y * (mulRM (transposeRM (mulRM b.reclat (castM b.Q)))
        (mulRM b.reclat (castM b.Q)) 2 1) + a.z * a.z * (mulRM (transposeRM (mulRM b.reclat (castM b.Q)))
        (mulRM b.reclat (castM b.Q)) 2 2)) / (n * n) := by
      have d : ∀ i, (b.D.e i : K) = n := fun i => by rw [hD]; fin_cases i <;> rfl
      have s : ∀ i, (b.PS.e i : K) / 2 = 0 := fun i => by
        rw [hPS]; fin_cases i <;> exact (by norm_num : ((0 : Int) : K) / 2 = 0)
      have x : a.e 0 = a.x := rfl
      have y : a.e 1 = a.y := rfl
      have z : a.e 2 = a.z := rfl
      unfold qNorm qCoord
      simp only [d, s, x, y, z, add_zero]
      unfold mulRM transposeRM castM
      ring
    rw [key]
    simp only [← hG]
    obtain ⟨a0, a1, a2⟩ := a
    simp only [M3.mulVec, M3.e]
    push_cast
    ring
  have htol : 2 * tolerance b ≤ g / (n * n) := by
    have hi : ∀ i : Fin 3, (mulRM (transposeRM (mulRM b.reclat (castM b.Q)))
        (mulRM b.reclat (castM b.Q)) i i) / ((n : K) * n) ≤ 50 * g / (n * n) := by
      intro i
      rw [← hG]
      have : (G.e i i : K) ≤ 50 := by exact_mod_cast h50 i
      gcongr
    have e : tolerance b = max (max ((mulRM (transposeRM (mulRM b.reclat (castM b.Q)))
        (mulRM b.reclat (castM b.Q)) 0 0) / ((n : K) * n)) ((mulRM (transposeRM (mulRM b.reclat
        (castM b.Q))) (mulRM b.reclat (castM b.Q)) 1 1) / ((n : K) * n))) ((mulRM (transposeRM (mulRM
        b.reclat (castM b.Q))) (mulRM b.reclat (castM b.Q)) 2 2) / ((n : K) * n)) / 100 := by
      unfold tolerance
      rw [hD]
      rfl
    have := max_le (max_le (hi 0) (hi 1)) (hi 2)
    rw [e]
    have h2 : 50 * g / ((n : K) * n) = 50 * (g / (n * n)) := by ring
    rw [h2] at this
    linarith
  intro t u _ _ hlt
  rw [hq, hq] at hlt ⊢
  have hpos : 0 < g / ((n : K) * n) := div_pos hg hd
  have hz := Int.cast_lt.1 (lt_of_mul_lt_mul_left hlt hpos.le)
  have hz' : ((t.x * (G.mulVec t).x + t.y * (G.mulVec t).y + t.z * (G.mulVec t).z : Int) : K) + 1 ≤
      ((u.x * (G.mulVec u).x + u.y * (G.mulVec u).y + u.z * (G.mulVec u).z : Int) : K) := by
    exact_mod_cast hz
  have := mul_le_mul_of_nonneg_left hz' hpos.le
  rw [mul_add, mul_one] at this
  linarith

end

/-- The 2 x 2 x 2 grid of the unit cube. -/
def cubeInput : BZInput ℚ :=
  ⟨⟨2, 2, 2⟩, ⟨0, 0, 0⟩, ⟨1, 0, 0, 0, 1, 0, 0, 0, 1⟩, ![![1, 0, 0], ![0, 1, 0], ![0, 0, 1]]⟩

/-- C14: on that grid, which has 27 points, the rotation by 90 degrees is exact. -/
example (init bz : BZGridOut) (dense : Bool) (h : bzGrid cubeInput dense init = some bz) (k : Int)
    (h0 : 0 ≤ k) (h1 : k < bz.size) :
    bz.addresses (bzRotateGridIndex bz ⟨2, 2, 2⟩ ⟨0, 0, 0⟩ dense k ⟨0, -1, 0, 1, 0, 0, 0, 0, 1⟩) =
      M3.mulVec ⟨0, -1, 0, 1, 0, 0, 0, 0, 1⟩ (bz.addresses k) := by
  have hr : MinkowskiReduced 0 cubeInput.reclat := by
    refine ⟨by decide +kernel, by decide +kernel, by decide +kernel, by decide +kernel,
      by decide +kernel, ?_⟩
    intro s t hs ht
    rcases hs with rfl | rfl <;> rcases ht with rfl | rfl <;> decide +kernel
  have hN := C116_reduced_basis 0 le_rfl cubeInput (by decide) (by decide +kernel) hr
    (by decide +kernel) dense init bz h
  have hS : SurfaceSeparated cubeInput := separated_of_metric cubeInput 2 (by decide) rfl rfl 1 one_pos
    ⟨1, 0, 0, 0, 1, 0, 0, 0, 1⟩ (by decide +kernel) (by decide)
  refine (C14_rotation_exact cubeInput (by decide) ⟨0, 0, by decide +kernel⟩ dense init bz h rfl
    cubeInput rfl hN hS ⟨0, -1, 0, 1, 0, 0, 0, 0, 1⟩ ?_ (by decide) ?_ k h0 h1).2.2
  · rintro v ⟨⟨a, ha⟩, ⟨b, hb⟩, ⟨c, hc⟩⟩
    refine ⟨⟨-b, ?_⟩, ⟨a, ?_⟩, ⟨c, ?_⟩⟩ <;> simp [M3.mulVec, cubeInput] at ha hb hc ⊢ <;> omega
  · intro a
    simp [qNorm, cubeInput, M3.mulVec, qCoord, M3.e, V3.e]
    ring

example : (bzGrid cubeInput true ⟨fun _ => ⟨0, 0, 0⟩, fun _ => 0, fun _ => 0, 0⟩).map (·.size) = some 27 := by
  decide +kernel

end Phono3py.Props
