/-
Property theorems C60 (grid points at tetrahedron vertices) and the sufficient condition of C59.
-/
import Verif.Lemmas.Neighbor
import Verif.Props.BZGrid

namespace Phono3py.Props
open Phono3py Phono3py.Spec

section
variable {K : Type _} [Field K] [LinearOrder K] [IsStrictOrderedRing K] [FloorRing K]

/-! ## C59, what holds -/

/-- C59 holds when no reciprocal lattice vector is shorter than the tolerance: if every non-zero
combination `n` of the reciprocal basis has squared length at least twice the tolerance, at most
eight rows per grid point are written, in both layouts. -/
theorem C59_fits (b : BZInput K) (hD : PosMesh b.D) (hl : ∃ i j, b.reclat i j ≠ 0)
    (hG : ∀ n : V3, n ≠ ⟨0, 0, 0⟩ → 2 * bzTolerance b ≤
      (b.reclat 0 0 * n.x + b.reclat 0 1 * n.y + b.reclat 0 2 * n.z) ^ 2
      + (b.reclat 1 0 * n.x + b.reclat 1 1 * n.y + b.reclat 1 2 * n.z) ^ 2
      + (b.reclat 2 0 * n.x + b.reclat 2 1 * n.y + b.reclat 2 2 * n.z) ^ 2)
    (dense : Bool) (init bz : BZGridOut) (h : bzGrid b dense init = some bz) :
    bz.size ≤ 8 * (b.D.x * b.D.y * b.D.z) := by
  refine size_le_eight b hD hl ?_ dense init bz h
  intro n hn
  refine le_of_le_of_eq (hG n hn) ?_
  have e0 : n.e 0 = n.x := rfl
  have e1 : n.e 1 = n.y := rfl
  have e2 : n.e 2 = n.z := rfl
  unfold normSquared mulVecD3
  simp only [e0, e1, e2]
  ring

/-! ## C60 -/

/-- C60: a neighbouring grid point is a BZ index in range whose address is the address of the
grid point plus the relative address, up to a translation of the grid. -/
theorem C60_neighbor (b : BZInput K) (hD : PosMesh b.D) (hl : ∃ i j, b.reclat i j ≠ 0)
    (dense : Bool) (init bz : BZGridOut) (h : bzGrid b dense init = some bz) (gp : Int) (rel : V3) :
    let r := neighborGridPoint bz b.D dense gp rel
    (0 ≤ r ∧ r < bz.size) ∧ SamePoint b.D (bz.addresses r) (bz.addresses gp + rel) := by
  intro r
  have V := bzGrid_valid b hD hl dense init bz h
  have hN := numGrid_pos b.D hD
  obtain ⟨hg0, hg1⟩ := gridIndex_bounds (bz.addresses gp + rel) b.D hD
  cases dense
  · obtain ⟨hs, _⟩ := sparse_slots b hD hl init bz h
    obtain ⟨_, _, hsz, hP⟩ := C11_sparse_map b hD hl init bz h
    obtain ⟨hd0, hd1⟩ := gridIndex_bounds (bz.addresses gp + rel) (doubledMesh b.D)
      (doubledMesh_pos b.D hD)
    have hr : r = if bz.gpMap (gridIndex (bz.addresses gp + rel) (doubledMesh b.D))
        = numBzMesh b.D then gridIndex (bz.addresses gp + rel) b.D
        else bz.gpMap (gridIndex (bz.addresses gp + rel) (doubledMesh b.D)) := rfl
    rw [hr]
    by_cases hc : bz.gpMap (gridIndex (bz.addresses gp + rel) (doubledMesh b.D)) = numBzMesh b.D
    · rw [if_pos hc]
      refine ⟨⟨hg0, lt_of_lt_of_le hg1 hsz⟩, ?_⟩
      have hm : gridIndex (bz.addresses gp + rel) b.D
          ∈ block b.D false bz (gridIndex (bz.addresses gp + rel) b.D) := by
        unfold block
        simp
      exact (gridIndex_eq_iff _ _ _ hD).1 (V.filed _ hg0 hg1 _ hm).2.2
    · rw [if_neg hc]
      rcases hs _ hd0 hd1 with h' | ⟨h1, h2⟩
      · exact absurd h' hc
      · refine ⟨h1, ?_⟩
        obtain ⟨e1, e2, e3⟩ := (gridIndex_eq_iff _ _ _ (doubledMesh_pos b.D hD)).1 h2
        exact ⟨Dvd.dvd.trans ⟨2, rfl⟩ e1, Dvd.dvd.trans ⟨2, rfl⟩ e2, Dvd.dvd.trans ⟨2, rfl⟩ e3⟩
  · obtain ⟨_, _, hP⟩ := C10_dense_map b hD hl init bz h
    have hP' := (hP _ hg0 hg1).1
    have key : ∀ r, bz.gpMap (gridIndex (bz.addresses gp + rel) b.D) ≤ r →
        r < bz.gpMap (gridIndex (bz.addresses gp + rel) b.D + 1) →
        (0 ≤ r ∧ r < bz.size) ∧ SamePoint b.D (bz.addresses r) (bz.addresses gp + rel) := by
      intro r h1 h2
      have hm : r ∈ block b.D true bz (gridIndex (bz.addresses gp + rel) b.D) := by
        unfold block
        simp only [if_true]
        rw [mem_interval (by omega)]
        omega
      obtain ⟨g1, _, g3⟩ := V.filed _ hg0 hg1 r hm
      exact ⟨g1, (gridIndex_eq_iff _ _ _ hD).1 g3⟩
    have hr : r = neighborType2 bz b.D gp rel := rfl
    rw [hr]
    unfold neighborType2
    simp only
    split
    · cases hf : findAddress bz.addresses (bz.addresses gp + rel)
          (bz.gpMap (gridIndex (bz.addresses gp + rel) b.D))
          (bz.gpMap (gridIndex (bz.addresses gp + rel) b.D + 1)) with
      | some i =>
        obtain ⟨g1, g2, _⟩ := findAddress_some hf
        exact key i g1 g2
      | none => exact key _ le_rfl hP'
    · exact key _ le_rfl hP'

/-- C60, dense layout: when the exact address is stored, its BZ index is returned. -/
theorem C60_dense_exact (b : BZInput K) (hD : PosMesh b.D) (hl : ∃ i j, b.reclat i j ≠ 0)
    (init bz : BZGridOut) (h : bzGrid b true init = some bz) (gp : Int) (rel : V3)
    (k : Int) (h0 : 0 ≤ k) (h1 : k < bz.size) (hk : bz.addresses k = bz.addresses gp + rel) :
    neighborGridPoint bz b.D true gp rel = k := by
  have V := bzGrid_valid b hD hl true init bz h
  obtain ⟨_, _, hP⟩ := C10_dense_map b hD hl init bz h
  obtain ⟨hg0, hg1⟩ := gridIndex_bounds (bz.addresses gp + rel) b.D hD
  have hP' := (hP _ hg0 hg1).1
  obtain ⟨i, hi0, hi, hki⟩ := V.cover k h0 h1
  have hgi := (V.filed i hi0 hi k hki).2.2
  rw [hk] at hgi
  subst hgi
  have hmem : ∀ r, r ∈ block b.D true bz (gridIndex (bz.addresses gp + rel) b.D) ↔
      (bz.gpMap (gridIndex (bz.addresses gp + rel) b.D) ≤ r ∧
        r < bz.gpMap (gridIndex (bz.addresses gp + rel) b.D + 1)) := by
    intro r
    unfold block
    simp only [if_true]
    rw [mem_interval (by omega)]
    omega
  have hk' := (hmem k).1 hki
  show neighborType2 bz b.D gp rel = k
  unfold neighborType2
  simp only
  split
  · cases hf : findAddress bz.addresses (bz.addresses gp + rel)
        (bz.gpMap (gridIndex (bz.addresses gp + rel) b.D))
        (bz.gpMap (gridIndex (bz.addresses gp + rel) b.D + 1)) with
    | some i =>
      obtain ⟨g1, g2, g3⟩ := findAddress_some hf
      exact V.distinct i k (V.filed _ hg0 hg1 i ((hmem i).2 ⟨g1, g2⟩)).1 ⟨h0, h1⟩ (by rw [g3, hk])
    | none => exact absurd hk (findAddress_none hf k hk'.1 hk'.2)
  · omega

/-- C60, sparse layout: when the exact address is stored, its BZ index is returned, provided no
reciprocal lattice vector is shorter than the tolerance. -/
theorem C60_sparse_exact_partial (b : BZInput K) (hD : PosMesh b.D) (hl : ∃ i j, b.reclat i j ≠ 0)
    (hG : NoShortVector b)
    (init bz : BZGridOut) (h : bzGrid b false init = some bz) (gp : Int) (rel : V3)
    (k : Int) (h0 : 0 ≤ k) (h1 : k < bz.size) (hk : bz.addresses k = bz.addresses gp + rel) :
    neighborGridPoint bz b.D false gp rel = k := by
  obtain ⟨hs, hreg⟩ := sparse_slots b hD hl init bz h
  have hsz := size_le_eight b hD hl hG false init bz h
  rw [← numBzMesh_eq] at hsz
  have hr := hreg k h0 h1
  rw [hk] at hr
  have hd := gridIndex_bounds (bz.addresses gp + rel) (doubledMesh b.D) (doubledMesh_pos b.D hD)
  show (if bz.gpMap (gridIndex (bz.addresses gp + rel) (doubledMesh b.D)) = numBzMesh b.D
    then gridIndex (bz.addresses gp + rel) b.D
    else bz.gpMap (gridIndex (bz.addresses gp + rel) (doubledMesh b.D))) = k
  rw [if_neg (by omega)]
  rcases hs _ hd.1 hd.2 with h' | ⟨h2, h3⟩
  · omega
  · refine stored_distinct_doubled b hD hl hG false init bz h _ k h2 ⟨h0, h1⟩ ?_
    rw [h3, hk]

/-- C60: the vertices of the tetrahedra around `q1` lie at the relative addresses from `q1`, those
around `q2` at the negated relative addresses for phonon triplets (types 2 and 3) and at the same
relative addresses otherwise, up to translations of the grid; all are BZ indices in range. -/
theorem C60_vertices (b : BZInput K) (hD : PosMesh b.D) (hl : ∃ i j, b.reclat i j ≠ 0)
    (dense : Bool) (init bz : BZGridOut) (h : bzGrid b dense init = some bz)
    (relative : Fin 24 → Fin 4 → V3) (tpType : Nat) (triplet : Fin 3 → Int)
    (j : Fin 24) (k : Fin 4) :
    let v := tripletVertices bz b.D dense (setRelativeGridAddress relative tpType) triplet
    (∀ i, 0 ≤ v i j k ∧ v i j k < bz.size) ∧
    SamePoint b.D (bz.addresses (v 0 j k)) (bz.addresses (triplet 1) + relative j k) ∧
    SamePoint b.D (bz.addresses (v 1 j k))
      (if tpType = 2 ∨ tpType = 3 then bz.addresses (triplet 2) - relative j k
       else bz.addresses (triplet 2) + relative j k) := by
  intro v
  refine ⟨?_, ?_, ?_⟩
  · intro i
    exact (C60_neighbor b hD hl dense init bz h (triplet i.succ) _).1
  · have := (C60_neighbor b hD hl dense init bz h (triplet 1)
      (setRelativeGridAddress relative tpType 0 j k)).2
    have e : bz.addresses (triplet 1) + setRelativeGridAddress relative tpType 0 j k
        = bz.addresses (triplet 1) + relative j k := by
      unfold setRelativeGridAddress
      ext <;> simp
    rwa [e] at this
  · have := (C60_neighbor b hD hl dense init bz h (triplet 2)
      (setRelativeGridAddress relative tpType 1 j k)).2
    have e : bz.addresses (triplet 2) + setRelativeGridAddress relative tpType 1 j k
        = if tpType = 2 ∨ tpType = 3 then bz.addresses (triplet 2) - relative j k
          else bz.addresses (triplet 2) + relative j k := by
      unfold setRelativeGridAddress
      by_cases hc : tpType = 2 ∨ tpType = 3
      · rw [if_pos hc]
        ext <;> simp [hc, sub_eq_add_neg]
      · rw [if_neg hc]
        ext <;> simp [hc]
    rwa [e] at this

/-- C60, momentum conservation at every vertex: if the three addresses of a phonon triplet sum to a
reciprocal lattice vector, so do `q0` and the two vertices used together in the frequency
combinations. -/
theorem C60_momentum (b : BZInput K) (hD : PosMesh b.D) (hl : ∃ i j, b.reclat i j ≠ 0)
    (dense : Bool) (init bz : BZGridOut) (h : bzGrid b dense init = some bz)
    (relative : Fin 24 → Fin 4 → V3) (tpType : Nat) (htp : tpType = 2 ∨ tpType = 3)
    (triplet : Fin 3 → Int)
    (hsum : MeshTranslation b.D (bz.addresses (triplet 0) + bz.addresses (triplet 1)
      + bz.addresses (triplet 2)))
    (j : Fin 24) (k : Fin 4) :
    let v := tripletVertices bz b.D dense (setRelativeGridAddress relative tpType) triplet
    MeshTranslation b.D (bz.addresses (triplet 0) + bz.addresses (v 0 j k)
      + bz.addresses (v 1 j k)) := by
  intro v
  obtain ⟨_, h1, h2⟩ := C60_vertices b hD hl dense init bz h relative tpType triplet j k
  rw [if_pos htp] at h2
  change SamePoint b.D (bz.addresses (v 0 j k)) _ at h1
  change SamePoint b.D (bz.addresses (v 1 j k)) _ at h2
  obtain ⟨a1, a2, a3⟩ := h1
  obtain ⟨b1, b2, b3⟩ := h2
  obtain ⟨c1, c2, c3⟩ := hsum
  simp only [V3.sub_x, V3.sub_y, V3.sub_z, V3.add_x, V3.add_y, V3.add_z] at *
  refine ⟨?_, ?_, ?_⟩
  · have := dvd_add (dvd_add a1 b1) c1
    obtain ⟨c, hc⟩ := this
    exact ⟨c, by simp only [V3.add_x]; linear_combination hc⟩
  · have := dvd_add (dvd_add a2 b2) c2
    obtain ⟨c, hc⟩ := this
    exact ⟨c, by simp only [V3.add_y]; linear_combination hc⟩
  · have := dvd_add (dvd_add a3 b3) c3
    obtain ⟨c, hc⟩ := this
    exact ⟨c, by simp only [V3.add_z]; linear_combination hc⟩

end

/-! ### Concrete cases -/

/-- A cubic lattice with mesh 2 x 2 x 2. -/
def exampleCubicBZ : BZInput ℚ where
  D := ⟨2, 2, 2⟩
  PS := ⟨0, 0, 0⟩
  Q := ⟨1, 0, 0, 0, 1, 0, 0, 0, 1⟩
  reclat := fun i j => if i = j then 1 else 0

/-- The hypothesis of `C59_fits` and `C60_sparse_exact_partial` holds for the cubic lattice. -/
theorem exampleCubicBZ_noShort : NoShortVector exampleCubicBZ := by
  intro n hn
  have ht : bzTolerance exampleCubicBZ = 1 / 400 := by decide +kernel
  rw [ht]
  have e : normSquared (mulVecD3 exampleCubicBZ.reclat (fun i => (n.e i : ℚ)))
      = ((n.x * n.x + n.y * n.y + n.z * n.z : Int) : ℚ) := by
    have e0 : n.e 0 = n.x := rfl
    have e1 : n.e 1 = n.y := rfl
    have e2 : n.e 2 = n.z := rfl
    unfold normSquared mulVecD3 exampleCubicBZ
    simp [e0, e1, e2]
  have hp : 1 ≤ n.x * n.x + n.y * n.y + n.z * n.z := by
    by_contra hc
    apply hn
    have hx := mul_self_nonneg n.x
    have hy := mul_self_nonneg n.y
    have hz := mul_self_nonneg n.z
    ext
    · exact mul_self_eq_zero.1 (by omega)
    · exact mul_self_eq_zero.1 (by omega)
    · exact mul_self_eq_zero.1 (by omega)
  rw [e]
  have : ((1 : Int) : ℚ) ≤ ((n.x * n.x + n.y * n.y + n.z * n.z : Int) : ℚ) := by exact_mod_cast hp
  push_cast at this ⊢
  linarith

/- A neighbour beyond the zone boundary is found at its own image when stored, and at a translate
when not, in both layouts. -/
example : ((bzGrid exampleCubicBZ true exampleInit).map fun bz =>
    (bz.size, bz.addresses (neighborGridPoint bz exampleCubicBZ.D true 0 ⟨-1, 0, 0⟩),
      bz.addresses (neighborGridPoint bz exampleCubicBZ.D true 0 ⟨3, 2, 0⟩)))
    = some (27, ⟨-1, 0, 0⟩, ⟨-1, 0, 0⟩) := by decide +kernel
example : ((bzGrid exampleCubicBZ false exampleInit).map fun bz =>
    (bz.size, bz.addresses (neighborGridPoint bz exampleCubicBZ.D false 0 ⟨-1, 0, 0⟩),
      bz.addresses (neighborGridPoint bz exampleCubicBZ.D false 0 ⟨3, 2, 0⟩)))
    = some (27, ⟨-1, 0, 0⟩, ⟨-1, 0, 0⟩) := by decide +kernel

/-- C60 in the sparse layout needs the condition on the lattice: in the anisotropic lattice of
`C59_overflow` the address `(1, 0, 0)` is stored at BZ index 3, but the neighbour of Γ at
`(1, 0, 0)` is reported as a BZ point with address `(-1, 0, 0)`. -/
theorem C60_sparse_other_image :
    ((bzGrid exampleFlat false exampleInit).map fun bz =>
      (bz.addresses 0, bz.addresses 3,
        bz.addresses (neighborGridPoint bz exampleFlat.D false 0 ⟨1, 0, 0⟩)))
    = some (⟨0, 0, 0⟩, ⟨1, 0, 0⟩, ⟨-1, 0, 0⟩) := by decide +kernel

end Phono3py.Props
