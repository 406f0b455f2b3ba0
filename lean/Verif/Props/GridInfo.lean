/-
C176: grid points and weights of a conductivity run.
-/
import Verif.Model.GridInfo
import Verif.Spec.GridInfo
import Verif.Props.RotatePoints
import Verif.Props.Grid

set_option linter.unusedSectionVars false

namespace Phono3py.Props
open Phono3py Phono3py.Spec

theorem rotatesTo_left {D PS : V3} {R : M3} (hR : MeshCompat D R) {a a' c : V3} (hs : SamePoint D a a')
    (h : RotatesTo D PS R a c) : RotatesTo D PS R a' c := by
  have h1 := hR _ hs
  rw [M3.mulVec_sub] at h1
  unfold RotatesTo at *
  have e : V3.smul 2 c + PS - R.mulVec (V3.smul 2 a' + PS) =
      (V3.smul 2 c + PS - R.mulVec (V3.smul 2 a + PS)) + V3.smul 2 (R.mulVec a - R.mulVec a') := by
    rw [M3.mulVec_add, M3.mulVec_add, M3.mulVec_smul, M3.mulVec_smul]
    ext <;> simp [V3.smul] <;> ring
  rw [e]
  obtain ⟨p1, p2, p3⟩ := h
  obtain ⟨q1, q2, q3⟩ := h1
  refine ⟨dvd_add p1 ?_, dvd_add p2 ?_, dvd_add p3 ?_⟩
  · simpa [V3.smul] using mul_dvd_mul_left 2 q1
  · simpa [V3.smul] using mul_dvd_mul_left 2 q2
  · simpa [V3.smul] using mul_dvd_mul_left 2 q3

theorem rotatesTo_right {D PS : V3} {R : M3} {a c c' : V3} (hs : SamePoint D c c')
    (h : RotatesTo D PS R a c) : RotatesTo D PS R a c' := by
  unfold RotatesTo at *
  have e : V3.smul 2 c' + PS - R.mulVec (V3.smul 2 a + PS) =
      (V3.smul 2 c + PS - R.mulVec (V3.smul 2 a + PS)) - V3.smul 2 (c - c') := by
    ext <;> simp [V3.smul] <;> ring
  rw [e]
  obtain ⟨p1, p2, p3⟩ := h
  obtain ⟨q1, q2, q3⟩ := hs
  refine ⟨dvd_sub p1 ?_, dvd_sub p2 ?_, dvd_sub p3 ?_⟩
  · simpa [V3.smul] using mul_dvd_mul_left 2 q1
  · simpa [V3.smul] using mul_dvd_mul_left 2 q2
  · simpa [V3.smul] using mul_dvd_mul_left 2 q3

theorem symEquiv_same {G : List M3} {D PS : V3} (h : GridGroup G D PS) {a a' c c' : V3} (hs : SamePoint D a a')
    (hc : SamePoint D c c') : SymEquiv G D PS a c ↔ SymEquiv G D PS a' c' := by
  constructor
  · rintro ⟨R, hR, e⟩
    exact ⟨R, hR, rotatesTo_right hc (rotatesTo_left (h.mesh R hR) hs e)⟩
  · rintro ⟨R, hR, e⟩
    exact ⟨R, hR, rotatesTo_right hc.symm (rotatesTo_left (h.mesh R hR) hs.symm e)⟩

theorem starSize_same {G : List M3} {D PS : V3} (h : GridGroup G D PS) {a a' : V3} (hs : SamePoint D a a') :
    starSize G D PS a = starSize G D PS a' := by
  unfold starSize
  apply List.countP_congr
  intro k _
  simp only [decide_eq_true_eq]
  exact symEquiv_same h hs (SamePoint.refl _ _)

theorem countLoop_from (table : List Nat) (w : Nat → Nat) (k : Nat) :
    table.foldl (fun w g => fun k => if k = g then w k + 1 else w k) w k = w k + table.count k := by
  induction table generalizing w with
  | nil => simp
  | cons g l ih =>
    rw [List.foldl_cons, ih]
    rw [List.count_cons]
    by_cases e : k = g
    · subst e; simp; omega
    · rw [if_neg e]
      have : ¬ (g == k) = true := by simpa using fun h => e h.symm
      simp [this]

theorem countLoop_count (table : List Nat) (k : Nat) : countLoop table k = table.count k := by
  unfold countLoop
  rw [countLoop_from]
  simp

/-- Occurrences of the irreducible point of `g` in the table are the points equivalent to `g`. -/
theorem table_star {G : List M3} {D PS : V3} (h : GridGroup G D PS) (g : Nat) (hg : (g : Int) < D.x * D.y * D.z) :
    (irGridPoints G D PS).2.2.count (irGridMap G D PS g).toNat = starSize G D PS (gridAddressFromIndex g D) := by
  unfold irGridPoints starSize
  simp only
  rw [List.count, List.countP_map]
  apply List.countP_congr
  intro k hk
  have hk' : (k : Int) < D.x * D.y * D.z := by
    simp only [List.mem_range] at hk
    have : numGrid D = D.x * D.y * D.z := rfl
    omega
  have b1 := irGridMap_bounds h k (by omega) hk'
  have b2 := irGridMap_bounds h g (by omega) hg
  simp only [Function.comp, beq_iff_eq, decide_eq_true_eq]
  rw [← C04_ir_map_classes G D PS h g k (by omega) hg (by omega) hk']
  omega

theorem table_get {G : List M3} {D PS : V3} (g : Nat) (hg : (g : Int) < D.x * D.y * D.z) :
    (irGridPoints G D PS).2.2.getD g 0 = (irGridMap G D PS g).toNat := by
  unfold irGridPoints
  have : g < (numGrid D).toNat := by
    have : numGrid D = D.x * D.y * D.z := rfl
    omega
  simp only
  rw [List.getD_eq_getElem _ _ (by simpa using this)]
  simp

section
variable {K : Type} [Field K] [LinearOrder K] [IsStrictOrderedRing K] [FloorRing K]

theorem representative_same {D : V3} {dense : Bool} {bz : BZGridOut} (hD : PosMesh D) (V : ValidBZ D dense bz)
    (g : Nat) (hg : (g : Int) < D.x * D.y * D.z) :
    (0 ≤ grg2bzgTable dense bz g ∧ grg2bzgTable dense bz g < bz.size) ∧
      SamePoint D (bz.addresses (grg2bzgTable dense bz g)) (gridAddressFromIndex g D) := by
  have hf := V.filed g (by omega) hg _ (representative_mem V g (by omega) hg)
  refine ⟨hf.1, (gridIndex_eq_iff _ _ _ hD).1 ?_⟩
  rw [hf.2.2, (C01_index_roundtrip D hD g (by omega) hg).2]

theorem given_weight {G : List M3} {D PS : V3} (h : GridGroup G D PS) {dense : Bool} {bz : BZGridOut}
    (V : ValidBZ D dense bz) (p : Int) (hp : 0 ≤ p ∧ p < bz.size) :
    countLoop (irGridPoints G D PS).2.2 ((irGridPoints G D PS).2.2.getD (bz.bzg2grg p).toNat 0) =
      starSize G D PS (bz.addresses p) := by
  have hb := gridIndex_bounds (bz.addresses p) D h.pos
  have hb' : gridIndex (bz.addresses p) D < D.x * D.y * D.z := hb.2
  have e := (V.filed _ hb.1 hb.2 p (mem_own_block V p hp)).2.1
  obtain ⟨g, hg⟩ : ∃ g : Nat, (g : Int) = gridIndex (bz.addresses p) D :=
    ⟨(gridIndex (bz.addresses p) D).toNat, Int.toNat_of_nonneg hb.1⟩
  rw [e, ← hg, Int.toNat_natCast, table_get g (by omega), countLoop_count, table_star h g (by omega)]
  apply starSize_same h
  rw [hg]
  exact address_samePoint_of_index _ _ h.pos

/-- C176. Points given by the user are run as given, and the weight of each is the number of grid
points equivalent to it, whichever image on the zone surface is given. Partial: the full claim is
that the weights are one when k-stars are not used; see `C176_given_no_star`. -/
theorem C176_given_points_partial (b : BZInput K) (hl : ∃ i j, b.reclat i j ≠ 0) (G : List M3) (h : GridGroup G b.D b.PS)
    (dense : Bool) (init bz : BZGridOut) (hbz : bzGrid b dense init = some bz) (isStar : Bool) (gps : List Int)
    (hg : ∀ p ∈ gps, 0 ≤ p ∧ p < bz.size) :
    ∃ I, gridInfo G b.D b.PS dense bz isStar (some gps) = some I ∧ I.points = gps ∧
      I.weights = gps.map fun p => starSize G b.D b.PS (bz.addresses p) := by
  have V := bzGrid_valid b h.pos hl dense init bz hbz
  refine ⟨⟨gps, irOnBz dense bz (irGridPoints G b.D b.PS).1, givenWeights bz (irGridPoints G b.D b.PS).2.2 gps⟩, ?_,
    rfl, ?_⟩
  · unfold gridInfo
    rw [(C05_num_ir G b.D b.PS h).2]
    simp only [Option.bind_some, gridInfoFrom]
    rw [if_pos]
    simpa using hg
  · show givenWeights bz (irGridPoints G b.D b.PS).2.2 gps = _
    unfold givenWeights
    apply List.map_congr_left
    intro p hp
    exact given_weight h V p (hg p hp)

theorem irPoint_mem {G : List M3} {D PS : V3} (h : GridGroup G D PS) (v : Nat) :
    v ∈ (irGridPoints G D PS).1 ↔ (v : Int) < D.x * D.y * D.z ∧ irGridMap G D PS v = v := by
  rw [(C05_ir_points_and_weights G D PS h).1, List.mem_filter, List.mem_range, decide_eq_true_eq]
  constructor
  · rintro ⟨h1, h2⟩; exact ⟨by omega, h2⟩
  · rintro ⟨h1, h2⟩; exact ⟨by omega, h2⟩

/-- C176. Without given points the run goes over points of the grid to exactly one of which every
grid point is equivalent; weights are the numbers of equivalent points and add up to the number of
grid points. -/
theorem C176_automatic (b : BZInput K) (hl : ∃ i j, b.reclat i j ≠ 0) (G : List M3) (h : GridGroup G b.D b.PS)
    (dense : Bool) (init bz : BZGridOut) (hbz : bzGrid b dense init = some bz) :
    ∃ I, gridInfo G b.D b.PS dense bz true none = some I ∧ I.irPoints = I.points ∧
      (∀ p ∈ I.points, 0 ≤ p ∧ p < bz.size) ∧ EachOnce G b.D b.PS bz I.points ∧
      I.weights = I.points.map (fun p => starSize G b.D b.PS (bz.addresses p)) ∧
      (I.weights.sum : Int) = b.D.x * b.D.y * b.D.z := by
  have V := bzGrid_valid b h.pos hl dense init bz hbz
  refine ⟨⟨irOnBz dense bz (irGridPoints G b.D b.PS).1, irOnBz dense bz (irGridPoints G b.D b.PS).1,
    (irGridPoints G b.D b.PS).2.1⟩, ?_, rfl, ?_, ?_, ?_, (C05_weights_sum G b.D b.PS h).1⟩
  · unfold gridInfo
    rw [(C05_num_ir G b.D b.PS h).2]
    rfl
  · intro p hp
    obtain ⟨v, hv, rfl⟩ := List.mem_map.1 hp
    exact (representative_same h.pos V v ((irPoint_mem h v).1 hv).1).1
  · intro a
    have hb := gridIndex_bounds a b.D h.pos
    have hb' : gridIndex a b.D < b.D.x * b.D.y * b.D.z := hb.2
    have hm := irGridMap_bounds h (gridIndex a b.D) hb.1 hb'
    have hm' : irGridMap G b.D b.PS (gridIndex a b.D) < b.D.x * b.D.y * b.D.z := by omega
    have key : ∀ v : Nat, v ∈ (irGridPoints G b.D b.PS).1 →
        (SymEquiv G b.D b.PS a (bz.addresses (grg2bzgTable dense bz v)) ↔
          v = (irGridMap G b.D b.PS (gridIndex a b.D)).toNat) := by
      intro v hv
      obtain ⟨hv1, hv2⟩ := (irPoint_mem h v).1 hv
      rw [symEquiv_same h (address_samePoint_of_index a b.D h.pos).symm (representative_same h.pos V v hv1).2,
        ← C04_ir_map_classes G b.D b.PS h _ v hb.1 hb' (by omega) hv1, hv2]
      omega
    have hin : (irGridMap G b.D b.PS (gridIndex a b.D)).toNat ∈ (irGridPoints G b.D b.PS).1 := by
      rw [irPoint_mem h]
      rw [Int.toNat_of_nonneg hm.1]
      exact ⟨hm', C04_ir_map_idempotent G b.D b.PS h _ hb.1 hb'⟩
    have hnd : (irGridPoints G b.D b.PS).1.Nodup := by
      rw [(C05_ir_points_and_weights G b.D b.PS h).1]
      exact List.nodup_range.filter _
    obtain ⟨j, hj, he⟩ := List.getElem_of_mem hin
    refine ⟨j, ⟨grg2bzgTable dense bz (irGridMap G b.D b.PS (gridIndex a b.D)).toNat, ?_, (key _ hin).2 rfl⟩, ?_⟩
    · show (irOnBz dense bz (irGridPoints G b.D b.PS).1)[j]? = _
      unfold irOnBz
      rw [List.getElem?_map, List.getElem?_eq_getElem hj, he]
      rfl
    · intro j' p hp hs
      change (irOnBz dense bz (irGridPoints G b.D b.PS).1)[j']? = _ at hp
      unfold irOnBz at hp
      rw [List.getElem?_map, Option.map_eq_some_iff] at hp
      obtain ⟨v, hv, rfl⟩ := hp
      have hv' := (key v (List.mem_of_getElem? hv)).1 hs
      obtain ⟨hj', hve⟩ := List.getElem?_eq_some_iff.1 hv
      exact (List.Nodup.getElem_inj_iff hnd).1 (by rw [hve, he, hv'])
  · show (irGridPoints G b.D b.PS).2.1 = (irOnBz dense bz (irGridPoints G b.D b.PS).1).map _
    unfold irOnBz
    rw [(C05_ir_points_and_weights G b.D b.PS h).2, List.map_map]
    apply List.map_congr_left
    intro v hv
    obtain ⟨hv1, hv2⟩ := (irPoint_mem h v).1 hv
    simp only [Function.comp]
    rw [starSize_same h (representative_same h.pos V v hv1).2]
    unfold starSize
    apply List.countP_congr
    intro k hk
    have hk' : (k : Int) < b.D.x * b.D.y * b.D.z := by
      simp only [List.mem_range] at hk; omega
    simp only [decide_eq_true_eq]
    rw [← C04_ir_map_classes G b.D b.PS h v k (by omega) hv1 (by omega) hk', hv2]
    exact eq_comm

/-- C176. Giving the automatic points as grid points changes nothing. -/
theorem C176_given_automatic (b : BZInput K) (hl : ∃ i j, b.reclat i j ≠ 0) (G : List M3)
    (h : GridGroup G b.D b.PS) (dense : Bool) (init bz : BZGridOut) (hbz : bzGrid b dense init = some bz)
    (I : GridInfo) (hI : gridInfo G b.D b.PS dense bz true none = some I) :
    gridInfo G b.D b.PS dense bz true (some I.points) = some I := by
  obtain ⟨I', hI', h1, h2, _, h4, _⟩ := C176_automatic b hl G h dense init bz hbz
  rw [hI] at hI'
  obtain rfl := Option.some.inj hI'
  obtain ⟨J, hJ, hp, hw⟩ := C176_given_points_partial b hl G h dense init bz hbz true I.points h2
  rw [hJ]
  have hir : J.irPoints = I.irPoints := by
    unfold gridInfo at hI hJ
    rw [(C05_num_ir G b.D b.PS h).2] at hI hJ
    simp only [Option.bind_some, gridInfoFrom] at hI hJ
    split at hJ
    · obtain rfl := Option.some.inj hJ
      simp at hI
      rw [← hI]
    · exact absurd hJ (by simp)
  cases I
  cases J
  simp only at *
  subst hp hir
  rw [hw, h4]

/-- C176. Without k-stars the run goes over one point for each grid point, with weight one. -/
theorem C176_all_points (b : BZInput K) (hl : ∃ i j, b.reclat i j ≠ 0) (G : List M3) (h : GridGroup G b.D b.PS)
    (dense : Bool) (init bz : BZGridOut) (hbz : bzGrid b dense init = some bz) :
    ∃ I, gridInfo G b.D b.PS dense bz false none = some I ∧ I.irPoints = I.points ∧
      I.points.length = (b.D.x * b.D.y * b.D.z).toNat ∧ I.weights = List.replicate I.points.length 1 ∧
      ∀ (k : Nat) p, I.points[k]? = some p →
        (0 ≤ p ∧ p < bz.size) ∧ SamePoint b.D (bz.addresses p) (gridAddressFromIndex k b.D) := by
  have V := bzGrid_valid b h.pos hl dense init bz hbz
  refine ⟨⟨grg2bzgArray b.D dense bz, grg2bzgArray b.D dense bz, (grg2bzgArray b.D dense bz).map fun _ => 1⟩, ?_, rfl,
    by simp [grg2bzgArray, numGrid], by simp [List.map_const'], ?_⟩
  · unfold gridInfo
    rw [(C05_num_ir G b.D b.PS h).2]
    rfl
  · intro k p hp
    change (grg2bzgArray b.D dense bz)[k]? = some p at hp
    unfold grg2bzgArray at hp
    rw [List.getElem?_map, Option.map_eq_some_iff] at hp
    obtain ⟨k', hk', rfl⟩ := hp
    obtain ⟨hlt, rfl⟩ := List.getElem?_eq_some_iff.1 hk'
    simp only [List.getElem_range]
    have : (k : Int) < b.D.x * b.D.y * b.D.z := by
      have : numGrid b.D = b.D.x * b.D.y * b.D.z := rfl
      simp at hlt; omega
    exact representative_same h.pos V k this

/-- C176. `ir_grid_points.yaml` lists the points and weights of the run, with their addresses. -/
theorem C176_file (b : BZInput K) (hl : ∃ i j, b.reclat i j ≠ 0) (G : List M3) (h : GridGroup G b.D b.PS)
    (dense : Bool) (init bz : BZGridOut) (hbz : bzGrid b dense init = some bz) (isStar : Bool) :
    ∃ I, gridInfo G b.D b.PS dense bz isStar none = some I ∧
      writtenGridPoints G b.D b.PS dense bz isStar =
        some ((I.points.zip I.weights).map fun x => (x.1, x.2, bz.addresses x.1)) := by
  unfold gridInfo writtenGridPoints listedPoints irGridYaml
  rw [(C05_num_ir G b.D b.PS h).2]
  cases isStar with
  | true => exact ⟨_, rfl, rfl⟩
  | false =>
    refine ⟨_, rfl, ?_⟩
    have : (grg2bzgArray b.D dense bz).take (numGrid b.D).toNat = grg2bzgArray b.D dense bz := by
      rw [List.take_of_length_le]
      simp [grg2bzgArray]
    simp [this]

/-- C176 fails without k-stars for given points: the weights are those of stars, not one. -/
theorem C176_given_no_star (b : BZInput K) (hl : ∃ i j, b.reclat i j ≠ 0) (G : List M3)
    (h : GridGroup G b.D b.PS) (dense : Bool) (init bz : BZGridOut) (hbz : bzGrid b dense init = some bz) (p : Int)
    (hp : 0 ≤ p ∧ p < bz.size) (hstar : starSize G b.D b.PS (bz.addresses p) ≠ 1) :
    ∃ I, gridInfo G b.D b.PS dense bz false (some [p]) = some I ∧ ∃ w, I.weights = [w] ∧ w ≠ 1 := by
  obtain ⟨I, hI, _, hw⟩ := C176_given_points_partial b hl G h dense init bz hbz false [p] (by simpa using hp)
  exact ⟨I, hI, _, hw, hstar⟩

end

/-! ### Concrete cases -/

/-- Three points along the first axis. -/
def exampleLine : BZInput ℚ where
  D := ⟨3, 1, 1⟩
  PS := ⟨0, 0, 0⟩
  Q := ⟨1, 0, 0, 0, 1, 0, 0, 0, 1⟩
  reclat := fun i j => if i = j then 1 else 0

theorem exampleLineGroup : GridGroup [M3.one, exampleInversion] exampleLine.D exampleLine.PS where
  pos := by decide
  grp := ⟨by decide, by decide, by decide⟩
  mesh := by
    intro R hR
    simp only [List.mem_cons, List.not_mem_nil, or_false] at hR
    rcases hR with rfl | rfl <;> rw [meshCompat_iff] <;> decide
  shift := by decide

example : exampleLine.reclat 0 0 ≠ 0 := by decide +kernel
/-- Automatic points, and the two files. -/
example : (bzGrid exampleLine true exampleInit).bind (fun bz =>
    gridInfo [M3.one, exampleInversion] exampleLine.D exampleLine.PS true bz true none) =
      some ⟨[0, 1], [0, 1], [1, 2]⟩ ∧
    (bzGrid exampleLine true exampleInit).bind (fun bz =>
      writtenGridPoints [M3.one, exampleInversion] exampleLine.D exampleLine.PS true bz true) =
      some [(0, 1, ⟨0, 0, 0⟩), (1, 2, ⟨1, 0, 0⟩)] ∧
    (bzGrid exampleLine false exampleInit).bind (fun bz =>
      gridInfo [M3.one, exampleInversion] exampleLine.D exampleLine.PS false bz false none) =
      some ⟨[0, 1, 2], [0, 1, 2], [1, 1, 1]⟩ := by decide +kernel
/-- Given points: weight two for both inverse points, also without k-stars, where a run over all
points has weight one; a point outside of the grid is an error. -/
example : (bzGrid exampleLine true exampleInit).bind (fun bz =>
    gridInfo [M3.one, exampleInversion] exampleLine.D exampleLine.PS true bz false (some [2, 1])) =
      some ⟨[2, 1], [0, 1], [2, 2]⟩ ∧
    (bzGrid exampleLine true exampleInit).bind (fun bz =>
      gridInfo [M3.one, exampleInversion] exampleLine.D exampleLine.PS true bz true (some [100])) = none := by
  decide +kernel
/-- The hypothesis of `C176_given_no_star` is met: the star of the second point has two points. -/
example : starSize [M3.one, exampleInversion] exampleLine.D exampleLine.PS ⟨1, 0, 0⟩ = 2 := by
  have h := table_star exampleLineGroup 1 (by decide)
  have e : gridAddressFromIndex ((1 : Nat) : Int) exampleLine.D = ⟨1, 0, 0⟩ := by decide +kernel
  rw [e] at h
  rw [← h]
  decide +kernel

end Phono3py.Props
