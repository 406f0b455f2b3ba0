/-
Property theorems C115-C117: Niggli reduction, and the Brillouin-zone grid holds the nearest
of all translates.
-/
import Verif.Lemmas.BZNearest
import Verif.Props.BZGrid

namespace Phono3py.Props
open Phono3py Phono3py.Spec

section
variable {K : Type _} [Field K] [LinearOrder K] [IsStrictOrderedRing K]

/-! ## C115 -/

/-- C115: whether it succeeds or not, the reduction returns a basis of the same lattice with the
same handedness and volume. -/
theorem C115_same_lattice (L : RM K) (eps : K) :
    SameLattice L (niggliReduce L eps).1 ∧ cellVolume (niggliReduce L eps).1 = cellVolume L :=
  ⟨(niggliReduce_related L eps).sameLattice, (niggliReduce_related L eps).volume⟩

/-- C115: when the reduction reports success the returned basis is a Niggli cell. -/
theorem C115_niggli (L : RM K) (eps : K) (h0 : 0 ≤ eps) (h : (niggliReduce L eps).2 = true) :
    IsNiggli eps (niggliReduce L eps).1 :=
  niggliReduce_niggli L eps h0 h

/-! ## C116 -/

theorem colDot_nonneg (L : RM K) (i : Fin 3) : 0 ≤ colDot L i i :=
  add_nonneg (add_nonneg (mul_self_nonneg _) (mul_self_nonneg _)) (mul_self_nonneg _)

theorem colDot_pos (L : RM K) (hdet : cellVolume L ≠ 0) : 0 < colDot L 0 0 := by
  rcases (colDot_nonneg L 0).lt_or_eq with h | h
  · exact h
  · exfalso
    unfold colDot at h
    have a := mul_self_nonneg (L 0 0)
    have b := mul_self_nonneg (L 1 0)
    have c := mul_self_nonneg (L 2 0)
    have a0 : L 0 0 = 0 := mul_self_eq_zero.1 (by linarith)
    have b0 : L 1 0 = 0 := mul_self_eq_zero.1 (by linarith)
    have c0 : L 2 0 = 0 := mul_self_eq_zero.1 (by linarith)
    apply hdet
    unfold cellVolume
    rw [a0, b0, c0]; ring

theorem MinkowskiReduced.ready {eps : K} {L : RM K} (h : MinkowskiReduced eps L) (h0 : 0 ≤ eps)
    (hdet : cellVolume L ≠ 0) (hs : 100 * eps ≤ colDot L 0 0) : WindowReady eps L := by
  refine ⟨h0, colDot_pos L hdet, hs, h.a_le_b, h.b_le_c, h.b_a, h.c_a, h.c_b, fun hneg => ?_⟩
  have h1 := h.c_ab 1 1 (Or.inl rfl) (Or.inl rfl)
  have h2 := h.c_ab 1 (-1) (Or.inl rfl) (Or.inr rfl)
  have h3 := h.c_ab (-1) 1 (Or.inr rfl) (Or.inl rfl)
  have h4 := h.c_ab (-1) (-1) (Or.inr rfl) (Or.inr rfl)
  rcases le_total 0 (colDot L 1 2) with hx | hx <;> rcases le_total 0 (colDot L 0 2) with he | he <;>
    rcases le_total 0 (colDot L 0 1) with hz | hz
  · exact absurd hneg (not_lt.2 (mul_nonneg (mul_nonneg hx he) hz))
  · rw [abs_of_nonneg hx, abs_of_nonneg he, abs_of_nonpos hz]; linarith
  · rw [abs_of_nonneg hx, abs_of_nonpos he, abs_of_nonneg hz]; linarith
  · exact absurd hneg (not_lt.2 (mul_nonneg_of_nonpos_of_nonpos (mul_nonpos_of_nonneg_of_nonpos hx he) hz))
  · rw [abs_of_nonpos hx, abs_of_nonneg he, abs_of_nonneg hz]; linarith
  · exact absurd hneg (not_lt.2 (mul_nonneg_of_nonpos_of_nonpos (mul_nonpos_of_nonpos_of_nonneg hx he) hz))
  · exact absurd hneg (not_lt.2 (mul_nonneg (mul_nonneg_of_nonpos_of_nonpos hx he) hz))
  · rw [abs_of_nonpos hx, abs_of_nonpos he, abs_of_nonpos hz]; linarith

/-- A Niggli cell is reduced well enough for the search window. -/
theorem IsNiggli.ready {eps : K} {L : RM K} (h : IsNiggli eps L) (h0 : 0 ≤ eps)
    (hdet : cellVolume L ≠ 0) (hs : 100 * eps ≤ colDot L 0 0) : WindowReady eps L := by
  have two (v : K) : |2 * v| = 2 * |v| := by rw [abs_mul, abs_of_pos (zero_lt_two' K)]
  have hx := h.xi; have he := h.eta; have hz := h.zeta
  rw [two] at hx he hz
  have hA := colDot_pos L hdet
  have hab := h.a_le_b
  refine ⟨h0, hA, hs, h.a_le_b, h.b_le_c, hz, he, hx, fun hneg => ?_⟩
  rcases h.signs with ⟨s1, s2, s3⟩ | ⟨s1, s2, s3⟩
  · have p1 : 0 ≤ colDot L 1 2 := by linarith
    have p2 : 0 ≤ colDot L 0 2 := by linarith
    have p3 : 0 ≤ colDot L 0 1 := by linarith
    exact absurd hneg (not_lt.2 (mul_nonneg (mul_nonneg p1 p2) p3))
  · have hd := h.diag
    have hx' := hx; have he' := he; have hz' := hz
    rcases le_total 0 (colDot L 1 2) with gx | gx <;> rcases le_total 0 (colDot L 0 2) with ge | ge <;>
      rcases le_total 0 (colDot L 0 1) with gz | gz
    · exact absurd hneg (not_lt.2 (mul_nonneg (mul_nonneg gx ge) gz))
    · rw [abs_of_nonpos gz] at hz' ⊢; rw [abs_of_nonneg gx, abs_of_nonneg ge]; linarith
    · rw [abs_of_nonpos ge] at he' ⊢; rw [abs_of_nonneg gx, abs_of_nonneg gz]; linarith
    · exact absurd hneg (not_lt.2 (mul_nonneg_of_nonpos_of_nonpos (mul_nonpos_of_nonneg_of_nonpos gx ge) gz))
    · rw [abs_of_nonpos gx] at hx' ⊢; rw [abs_of_nonneg ge, abs_of_nonneg gz]; linarith
    · exact absurd hneg (not_lt.2 (mul_nonneg_of_nonpos_of_nonpos (mul_nonpos_of_nonpos_of_nonneg gx ge) gz))
    · exact absurd hneg (not_lt.2 (mul_nonneg (mul_nonneg_of_nonpos_of_nonpos gx ge) gz))
    · rw [abs_of_nonpos gx, abs_of_nonpos ge, abs_of_nonpos gz]; linarith

variable [FloorRing K]

/-- What the Brillouin-zone grid promises about nearest translates: each stored address is
within twice the tolerance of the nearest of all its translates, every nearest translate is
stored under its grid point, and every grid point has a nearest translate stored. -/
structure HoldsNearest (b : BZInput K) (bz : BZGridOut) : Prop where
  near : ∀ k, 0 ≤ k → k < bz.size → ∀ t, SamePoint b.D t (bz.addresses k) →
    qNorm b (bz.addresses k) < qNorm b t + 2 * Spec.tolerance b
  stored : ∀ i, 0 ≤ i → i < b.D.x * b.D.y * b.D.z → ∀ t,
    SamePoint b.D t (gridAddressFromIndex i b.D) →
    (∀ u, SamePoint b.D u (gridAddressFromIndex i b.D) → qNorm b t ≤ qNorm b u) →
    ∃ k, 0 ≤ k ∧ k < bz.size ∧ bz.bzg2grg k = i ∧ bz.addresses k = t
  some : ∀ i, 0 ≤ i → i < b.D.x * b.D.y * b.D.z → ∃ k, 0 ≤ k ∧ k < bz.size ∧ bz.bzg2grg k = i ∧
    SamePoint b.D (bz.addresses k) (gridAddressFromIndex i b.D) ∧
    ∀ u, SamePoint b.D u (gridAddressFromIndex i b.D) → qNorm b (bz.addresses k) ≤ qNorm b u

theorem samePoint_trans {D a c d : V3} (h : SamePoint D a c) (g : SamePoint D c d) :
    SamePoint D a d := by
  obtain ⟨h1, h2, h3⟩ := h
  obtain ⟨g1, g2, g3⟩ := g
  have e : a - d = (a - c) + (c - d) := by ext <;> simp
  unfold SamePoint MeshTranslation
  rw [e]
  exact ⟨dvd_add h1 g1, dvd_add h2 g2, dvd_add h3 g3⟩

theorem reclat_ne {L : RM K} (hdet : cellVolume L ≠ 0) : ∃ i j, L i j ≠ 0 := by
  by_contra hcon
  push Not at hcon
  exact hdet (by unfold cellVolume; simp [hcon])

theorem holdsNearest_of_ready {eps : K} (b : BZInput K) (hD : PosMesh b.D)
    (hdet : cellVolume b.reclat ≠ 0) (hw : WindowReady eps b.reclat) (dense : Bool)
    (init bz : BZGridOut) (h : bzGrid b dense init = some bz) : HoldsNearest b bz := by
  have hl := reclat_ne hdet
  have hq := (bzGrid_some b dense init bz h).1
  have hdet' : detRM b.reclat ≠ 0 := by rw [← cellVolume_eq]; exact hdet
  have st : ∀ i, 0 ≤ i → i < b.D.x * b.D.y * b.D.z → ∀ t,
      SamePoint b.D t (gridAddressFromIndex i b.D) →
      (∀ u, SamePoint b.D u (gridAddressFromIndex i b.D) → qNorm b t ≤ qNorm b u) →
      ∃ k, 0 ≤ k ∧ k < bz.size ∧ bz.bzg2grg k = i ∧ bz.addresses k = t := by
    intro i hi0 hi t ht hmin
    refine C13_nearest_are_stored b hD hl dense init bz h i hi0 hi t (hw.searched hD hq ht hmin) ?_
    intro u hu
    obtain ⟨s, -, rfl⟩ := (searched_iff b hD hq _ _).1 hu
    exact hmin _ (setBzAddress_samePoint _ _ _ _ _)
  refine ⟨?_, st, ?_⟩
  · intro k h0 h1 t ht
    have hk := (C09_translate b hD hl dense init bz h k h0 h1).2.1
    obtain ⟨u, hu, hmin⟩ := exists_nearest_translate b hD hq hdet'
      (gridAddressFromIndex (bz.bzg2grg k) b.D)
    have h2 := (C13_stored_are_near b hD hl dense init bz h k h0 h1).2 u (hw.searched hD hq hu hmin)
    have h3 := hmin t (samePoint_trans ht hk)
    linarith
  · intro i hi0 hi
    obtain ⟨u, hu, hmin⟩ := exists_nearest_translate b hD hq hdet' (gridAddressFromIndex i b.D)
    obtain ⟨k, a, b', c, rfl⟩ := st i hi0 hi u hu hmin
    exact ⟨k, a, b', c, hu, hmin⟩

/-- C116: on a reciprocal basis that is Minkowski reduced, exactly or up to a tolerance of a
hundredth of its shortest squared length, the 125 searched translates always include the
nearest of all translates. -/
theorem C116_reduced_basis (eps : K) (h0 : 0 ≤ eps) (b : BZInput K) (hD : PosMesh b.D)
    (hdet : cellVolume b.reclat ≠ 0) (hr : MinkowskiReduced eps b.reclat)
    (hs : 100 * eps ≤ colDot b.reclat 0 0) (dense : Bool) (init bz : BZGridOut)
    (h : bzGrid b dense init = some bz) : HoldsNearest b bz :=
  holdsNearest_of_ready b hD hdet (MinkowskiReduced.ready hr h0 hdet hs) dense init bz h

/-! ### Changing the basis -/

/-- The same q-points: `B Q` is the same matrix. -/
theorem qNorm_congr {b c : BZInput K} (hD : c.D = b.D) (hP : c.PS = b.PS)
    (hBQ : mulRM c.reclat (castM c.Q) = mulRM b.reclat (castM b.Q)) (a : V3) :
    qNorm c a = qNorm b a := by
  obtain ⟨D, PS, Q, L⟩ := b
  obtain ⟨D', PS', Q', L'⟩ := c
  obtain rfl : D' = D := hD
  obtain rfl : PS' = PS := hP
  have e (i : Fin 3) (q : Fin 3 → K) :
      L' i 0 * ((Q'.e 0 0 : K) * q 0 + (Q'.e 0 1 : K) * q 1 + (Q'.e 0 2 : K) * q 2) +
      L' i 1 * ((Q'.e 1 0 : K) * q 0 + (Q'.e 1 1 : K) * q 1 + (Q'.e 1 2 : K) * q 2) +
      L' i 2 * ((Q'.e 2 0 : K) * q 0 + (Q'.e 2 1 : K) * q 1 + (Q'.e 2 2 : K) * q 2) =
      L i 0 * ((Q.e 0 0 : K) * q 0 + (Q.e 0 1 : K) * q 1 + (Q.e 0 2 : K) * q 2) +
      L i 1 * ((Q.e 1 0 : K) * q 0 + (Q.e 1 1 : K) * q 1 + (Q.e 1 2 : K) * q 2) +
      L i 2 * ((Q.e 2 0 : K) * q 0 + (Q.e 2 1 : K) * q 1 + (Q.e 2 2 : K) * q 2) := by
    have h0 := congrFun (congrFun hBQ i) 0
    have h1 := congrFun (congrFun hBQ i) 1
    have h2 := congrFun (congrFun hBQ i) 2
    simp only [mulRM, castM] at h0 h1 h2
    linear_combination q 0 * h0 + q 1 * h1 + q 2 * h2
  unfold qNorm qCoord
  simp only
  rw [e 0 (fun i => ((a.e i : K) + (PS'.e i : K) / 2) / (D'.e i : K)),
    e 1 (fun i => ((a.e i : K) + (PS'.e i : K) / 2) / (D'.e i : K)),
    e 2 (fun i => ((a.e i : K) + (PS'.e i : K) / 2) / (D'.e i : K))]

theorem tolerance_congr {b c : BZInput K} (hD : c.D = b.D)
    (hBQ : mulRM c.reclat (castM c.Q) = mulRM b.reclat (castM b.Q)) :
    Spec.tolerance c = Spec.tolerance b := by
  obtain ⟨D, PS, Q, L⟩ := b
  obtain ⟨D', PS', Q', L'⟩ := c
  obtain rfl : D' = D := hD
  have e (i j : Fin 3) : L' i 0 * (Q'.e 0 j : K) + L' i 1 * (Q'.e 1 j : K) + L' i 2 * (Q'.e 2 j : K) =
      L i 0 * (Q.e 0 j : K) + L i 1 * (Q.e 1 j : K) + L i 2 * (Q.e 2 j : K) :=
    congrFun (congrFun hBQ i) j
  unfold Spec.tolerance
  simp only [e]

theorem HoldsNearest.congr {b c : BZInput K} {bz : BZGridOut} (hD : c.D = b.D) (hP : c.PS = b.PS)
    (hBQ : mulRM c.reclat (castM c.Q) = mulRM b.reclat (castM b.Q)) (h : HoldsNearest c bz) :
    HoldsNearest b bz := by
  have hq := qNorm_congr hD hP hBQ
  have ht := tolerance_congr hD hBQ
  obtain ⟨h1, h2, h3⟩ := h
  simp only [hq, ht, hD] at h1 h2 h3
  exact ⟨h1, h2, h3⟩

/-- The integer matrix computed from two related bases is their exact transformation. -/
theorem transform_exact {L L' : RM K} {T : M3} (hT : T.det = 1) (e : L' = mulRM L (castM T))
    (hdet : detRM L' ≠ 0) : mulRM (cofactorRM L') L = castM (adj T) := by
  have e2 : L = mulRM L' (castM (adj T)) := by
    rw [e, mulRM_assoc, mulRM_castM, mul_adj T hT, mulRM_one]
  conv_lhs => rw [e2]
  rw [← mulRM_assoc, cofactorRM_mul L' hdet, one_mulRM]

theorem ofFn_cast (r : K → Int) (hr : ∀ n : Int, r (n : K) = n) (T : M3) :
    M3.ofFn (fun i j => r ((castM T : RM K) i j)) = T := by
  simp only [M3.ofFn, castM, hr]
  rfl

/-- C116: with the C library, which Niggli-reduces the given reciprocal basis first, every
successful call returns a grid that holds the nearest of all translates, when no reciprocal
lattice vector is shorter than `√(1/1000)` (in the unit of the input, usually 1/Å). -/
theorem C116_gridsys (D : V3) (Q : M3) (PS : V3) (L : RM K) (hD : PosMesh D)
    (hshort : ∀ n : Fin 3 → Int, n ≠ 0 → 1 / 1000 ≤ latticeVector L n 0 * latticeVector L n 0 +
      latticeVector L n 1 * latticeVector L n 1 + latticeVector L n 2 * latticeVector L n 2)
    (dense : Bool) (init bz : BZGridOut)
    (h : gridsysBzGridAddresses D Q PS L dense init = some bz) :
    HoldsNearest ⟨D, PS, Q, L⟩ bz := by
  unfold gridsysBzGridAddresses at h
  obtain ⟨T, hT, hrel⟩ := niggliReduce_related L (gridsysTolerance : K)
  have heps : (0 : K) ≤ gridsysTolerance := by unfold gridsysTolerance; norm_num
  simp only at h
  split_ifs at h with hok
  have hN := niggliReduce_niggli L gridsysTolerance heps hok
  generalize (niggliReduce L (gridsysTolerance : K)).1 = L' at *
  unfold inverseRM at h
  split_ifs at h with hdet
  have hd0 : detRM L' ≠ 0 := by
    intro h0
    apply hdet
    rw [h0, abs_zero]
    unfold gridsysTolerance; norm_num
  have hv : cellVolume L' ≠ 0 := by rw [cellVolume_eq]; exact hd0
  simp only at h
  have hcast : castRM (mulRM (cofactorRM L') L) = adj T := by
    rw [transform_exact hT hrel hd0]
    exact ofFn_cast nint nint_int _
  rw [hcast] at h
  -- the first reduced vector is a lattice vector
  have hA : 100 * gridsysTolerance ≤ colDot L' 0 0 := by
    have hne : (fun i => T.e i 0) ≠ 0 := by
      intro h0
      have t0 : T.m00 = 0 := congrFun h0 0
      have t1 : T.m10 = 0 := congrFun h0 1
      have t2 : T.m20 = 0 := congrFun h0 2
      rw [M3.det, t0, t1, t2] at hT
      omega
    have := hshort _ hne
    have hcol (i : Fin 3) : latticeVector L (fun i => T.e i 0) i = L' i 0 := by
      rw [hrel]; rfl
    rw [hcol, hcol, hcol] at this
    unfold gridsysTolerance colDot
    linarith
  have hw := IsNiggli.ready hN heps hv hA
  refine HoldsNearest.congr (c := ⟨D, PS, (adj T).mul Q, L'⟩) rfl rfl ?_
    (holdsNearest_of_ready _ hD hv hw dense init bz h)
  show mulRM L' (castM ((adj T).mul Q)) = mulRM L (castM Q)
  rw [hrel, ← mulRM_castM, ← mulRM_assoc, mulRM_assoc L, mulRM_castM, mul_adj T hT, mulRM_one]

/-- C116: the C library fails only when `|det Q| ≠ 1`, when the reduction does not converge in
100 rounds, or when the cell volume of the reciprocal basis is below 1e-5. -/
theorem C116_gridsys_failure (D : V3) (Q : M3) (PS : V3) (L : RM K) (dense : Bool) (init : BZGridOut)
    (h : gridsysBzGridAddresses D Q PS L dense init = none) :
    (niggliReduce L (gridsysTolerance : K)).2 = false ∨ |cellVolume L| < 1 / 100000 ∨
      (Q.det ≠ 1 ∧ Q.det ≠ -1) := by
  unfold gridsysBzGridAddresses at h
  obtain ⟨T, hT, hrel⟩ := niggliReduce_related L (gridsysTolerance : K)
  have hvol := (niggliReduce_related L (gridsysTolerance : K)).volume
  simp only at h
  split_ifs at h with hok
  swap
  · exact Or.inl (by simpa using hok)
  generalize (niggliReduce L (gridsysTolerance : K)).1 = L' at *
  unfold inverseRM at h
  rw [← cellVolume_eq, hvol] at h
  split_ifs at h with hdet
  · exact Or.inr (Or.inl hdet)
  have hd0 : detRM L' ≠ 0 := by
    intro h0
    apply hdet
    rw [← hvol, cellVolume_eq, h0, abs_zero]
    unfold gridsysTolerance; norm_num
  simp only at h
  have hcast : castRM (mulRM (cofactorRM L') L) = adj T := by
    rw [transform_exact hT hrel hd0]
    exact ofFn_cast nint nint_int _
  rw [hcast] at h
  have := (C09_failure_iff _ dense init).1 h
  rw [M3.det_mul, det_adj T hT, one_mul] at this
  exact Or.inr (Or.inr this)

/-! ## C117 -/

theorem castM_inj {a b : M3} (h : (castM a : RM K) = castM b) : a = b := by
  have e (i j : Fin 3) : a.e i j = b.e i j := by
    have := congrFun (congrFun h i) j
    unfold castM at this
    exact_mod_cast this
  have e00 := e 0 0; have e01 := e 0 1; have e02 := e 0 2
  have e10 := e 1 0; have e11 := e 1 1; have e12 := e 1 2
  have e20 := e 2 0; have e21 := e 2 1; have e22 := e 2 2
  simp only [M3.e] at e00 e01 e02 e10 e11 e12 e20 e21 e22
  obtain ⟨_, _, _, _, _, _, _, _, _⟩ := a
  obtain ⟨_, _, _, _, _, _, _, _, _⟩ := b
  simp_all

/-- Bases of the same lattice differ by an integer matrix with an integer inverse. -/
theorem SameLattice.unimodular {L L' : RM K} (h : SameLattice L L') (hdet : detRM L ≠ 0) :
    ∃ T S : M3, T.mul S = M3.one ∧ L' = mulRM L (castM T) ∧ L = mulRM L' (castM S) := by
  have col {a b : RM K} (hab : ∀ v, (∃ n, latticeVector b n = v) → ∃ n, latticeVector a n = v) :
      ∃ T : M3, b = mulRM a (castM T) := by
    have c (j : Fin 3) : ∃ n : Fin 3 → Int, ∀ i, latticeVector a n i = b i j := by
      obtain ⟨n, hn⟩ := hab (fun i => b i j) ⟨fun k => if k = j then 1 else 0, by
        funext i; fin_cases j <;> simp [latticeVector]⟩
      exact ⟨n, fun i => congrFun hn i⟩
    obtain ⟨n0, h0⟩ := c 0
    obtain ⟨n1, h1⟩ := c 1
    obtain ⟨n2, h2⟩ := c 2
    refine ⟨⟨n0 0, n1 0, n2 0, n0 1, n1 1, n2 1, n0 2, n1 2, n2 2⟩, ?_⟩
    funext i j
    fin_cases j
    · exact (h0 i).symm
    · exact (h1 i).symm
    · exact (h2 i).symm
  obtain ⟨T, hT⟩ := col (fun v => (h v).2)
  obtain ⟨S, hS⟩ := col (fun v => (h v).1)
  refine ⟨T, S, ?_, hT, hS⟩
  apply castM_inj (K := K)
  have e : mulRM L (castM (T.mul S)) = L := by
    rw [← mulRM_castM, ← mulRM_assoc, ← hT, ← hS]
  have e2 : mulRM (cofactorRM L) (mulRM L (castM (T.mul S))) = castM M3.one := by
    rw [e, cofactorRM_mul L hdet]
  rwa [← mulRM_assoc, cofactorRM_mul L hdet, one_mulRM] at e2

theorem relocate_eq (rint : K → Int) (hr : ∀ n : Int, rint (n : K) = n) (reduced L : RM K) (D : V3)
    (Q : M3) (PS : V3) (hdet : cellVolume L ≠ 0) (hsame : SameLattice L reduced) (dense : Bool)
    (init : BZGridOut) : ∃ S : M3, (S.det = 1 ∨ S.det = -1) ∧
      mulRM reduced (castM (S.mul Q)) = mulRM L (castM Q) ∧ cellVolume reduced ≠ 0 ∧
      relocateBzGridAddress rint reduced D Q PS L dense init =
        some (bzGrid ⟨D, PS, S.mul Q, reduced⟩ dense init) := by
  have hd : detRM L ≠ 0 := by rw [← cellVolume_eq]; exact hdet
  obtain ⟨T, S, hTS, hT, hS⟩ := SameLattice.unimodular hsame hd
  have hdd : T.det * S.det = 1 := by rw [← M3.det_mul, hTS]; decide
  have hSd : S.det = 1 ∨ S.det = -1 := Int.isUnit_iff.1 (IsUnit.of_mul_eq_one _ (by rw [mul_comm]; exact hdd))
  have hTd : T.det ≠ 0 := by
    intro h0; rw [h0, zero_mul] at hdd; exact absurd hdd (by decide)
  have hrd : detRM reduced ≠ 0 := by
    rw [hT, detRM_mul, detRM_castM]
    exact mul_ne_zero hd (by exact_mod_cast hTd)
  have hm : mulRM (cofactorRM reduced) L = castM S := by
    conv_lhs => rw [hS]
    rw [← mulRM_assoc, cofactorRM_mul reduced hrd, one_mulRM]
  refine ⟨S, hSd, ?_, by rw [cellVolume_eq]; exact hrd, ?_⟩
  · rw [← mulRM_castM, ← mulRM_assoc, ← hS]
  · unfold relocateBzGridAddress
    simp only
    rw [hm, ofFn_cast rint hr]
    rw [if_pos]
    intro i j
    show |castM S i j - castM S i j| < 1 / 100000
    rw [sub_self, abs_zero]; norm_num

/-- C117: the grid of the Python class, when `get_reduced_bases` returns a basis of the same
lattice: the assertion never fires; nothing is generated exactly when `|det Q| ≠ 1`; and when the
basis is reduced the grid holds the nearest of all translates of the given reciprocal lattice. -/
theorem C117_python (rint : K → Int) (hr : ∀ n : Int, rint (n : K) = n) (reduced L : RM K) (D : V3)
    (Q : M3) (PS : V3) (hD : PosMesh D) (hdet : cellVolume L ≠ 0) (hsame : SameLattice L reduced)
    (dense : Bool) (init : BZGridOut) :
    ∃ out, relocateBzGridAddress rint reduced D Q PS L dense init = some out ∧
      (out = none ↔ Q.det ≠ 1 ∧ Q.det ≠ -1) ∧
      ∀ bz, out = some bz → ∀ eps, 0 ≤ eps → MinkowskiReduced eps reduced →
        100 * eps ≤ colDot reduced 0 0 → HoldsNearest ⟨D, PS, Q, L⟩ bz := by
  obtain ⟨S, hSd, hBQ, hv, e⟩ := relocate_eq rint hr reduced L D Q PS hdet hsame dense init
  refine ⟨_, e, ?_, ?_⟩
  · rw [C09_failure_iff]
    show (S.mul Q).det ≠ 1 ∧ (S.mul Q).det ≠ -1 ↔ _
    rw [M3.det_mul]
    rcases hSd with h | h <;> rw [h] <;> omega
  · intro bz hbz eps h0 hred hs
    exact HoldsNearest.congr (c := ⟨D, PS, S.mul Q, reduced⟩) rfl rfl hBQ
      (C116_reduced_basis eps h0 _ hD hv hred hs dense init bz hbz)

end

/-! ## Concrete cases -/

/-- A skewed basis of an orthogonal lattice. -/
def skewBasis : RM ℚ := ![![1, 1, 0], ![0, 1, 0], ![0, 0, 2]]

/-- C115: the reduction succeeds and changes the basis. -/
example : (niggliReduce skewBasis gridsysTolerance).2 = true ∧
    (niggliReduce skewBasis gridsysTolerance).1 1 1 = -1 ∧
    (niggliReduce skewBasis gridsysTolerance).1 0 1 = 0 ∧ skewBasis 0 1 = 1 := by decide +kernel

theorem skewBasis_short (n : Fin 3 → Int) (hn : n ≠ 0) :
    (1 : ℚ) / 1000 ≤ latticeVector skewBasis n 0 * latticeVector skewBasis n 0 +
      latticeVector skewBasis n 1 * latticeVector skewBasis n 1 +
      latticeVector skewBasis n 2 * latticeVector skewBasis n 2 := by
  have e : latticeVector skewBasis n 0 * latticeVector skewBasis n 0 +
      latticeVector skewBasis n 1 * latticeVector skewBasis n 1 +
      latticeVector skewBasis n 2 * latticeVector skewBasis n 2 =
      (((n 0 + n 1) * (n 0 + n 1) + n 1 * n 1 + (2 * n 2) * (2 * n 2) : Int) : ℚ) := by
    simp [latticeVector, skewBasis]
  rw [e]
  have h1 : (1 : Int) ≤ (n 0 + n 1) * (n 0 + n 1) + n 1 * n 1 + (2 * n 2) * (2 * n 2) := by
    by_contra hlt
    have a := mul_self_nonneg (n 0 + n 1)
    have b := mul_self_nonneg (n 1)
    have c := mul_self_nonneg (2 * n 2)
    have ha : n 0 + n 1 = 0 := mul_self_eq_zero.1 (by omega)
    have hb : n 1 = 0 := mul_self_eq_zero.1 (by omega)
    have hc : 2 * n 2 = 0 := mul_self_eq_zero.1 (by omega)
    apply hn
    funext i
    fin_cases i
    · show n 0 = 0; omega
    · exact hb
    · show n 2 = 0; omega
  have : ((1 : Int) : ℚ) ≤ ((n 0 + n 1) * (n 0 + n 1) + n 1 * n 1 + (2 * n 2) * (2 * n 2) : Int) := by
    exact_mod_cast h1
  push_cast at this ⊢
  linarith

/-- C116: the C library returns a grid for the skewed basis, and it holds the nearest of all
translates. -/
example (dense : Bool) (init : BZGridOut) : ∃ bz,
    gridsysBzGridAddresses ⟨4, 4, 2⟩ ⟨1, 0, 0, 0, 1, 1, 0, 0, 1⟩ ⟨0, 0, 0⟩ skewBasis dense init = some bz ∧
      HoldsNearest ⟨⟨4, 4, 2⟩, ⟨0, 0, 0⟩, ⟨1, 0, 0, 0, 1, 1, 0, 0, 1⟩, skewBasis⟩ bz := by
  cases h : gridsysBzGridAddresses ⟨4, 4, 2⟩ ⟨1, 0, 0, 0, 1, 1, 0, 0, 1⟩ ⟨0, 0, 0⟩ skewBasis dense init with
  | some bz => exact ⟨bz, rfl, C116_gridsys _ _ _ _ (by decide) skewBasis_short _ _ _ h⟩
  | none =>
    exfalso
    rcases C116_gridsys_failure _ _ _ _ _ _ h with h | h | h
    · exact absurd h (by decide +kernel)
    · revert h; decide +kernel
    · exact absurd h (by decide)

/-- C117: the hypotheses hold for the skewed basis and its reduced form. -/
example (dense : Bool) (init : BZGridOut) : ∃ bz,
    relocateBzGridAddress nint (niggliReduce skewBasis gridsysTolerance).1 ⟨4, 4, 2⟩
      ⟨1, 0, 0, 0, 1, 1, 0, 0, 1⟩ ⟨0, 0, 0⟩ skewBasis dense init = some (some bz) ∧
      HoldsNearest ⟨⟨4, 4, 2⟩, ⟨0, 0, 0⟩, ⟨1, 0, 0, 0, 1, 1, 0, 0, 1⟩, skewBasis⟩ bz := by
  obtain ⟨out, e, hn, hb⟩ := C117_python nint nint_int (niggliReduce skewBasis gridsysTolerance).1
    skewBasis ⟨4, 4, 2⟩ ⟨1, 0, 0, 0, 1, 1, 0, 0, 1⟩ ⟨0, 0, 0⟩ (by decide) (by decide +kernel)
    (C115_same_lattice _ _).1 dense init
  cases out with
  | none => exact absurd (hn.1 rfl) (by decide)
  | some bz =>
    refine ⟨bz, e, hb bz rfl 0 le_rfl ?_ (by decide +kernel)⟩
    have c00 : colDot (niggliReduce skewBasis gridsysTolerance).1 0 0 = 1 := by decide +kernel
    have c11 : colDot (niggliReduce skewBasis gridsysTolerance).1 1 1 = 1 := by decide +kernel
    have c22 : colDot (niggliReduce skewBasis gridsysTolerance).1 2 2 = 4 := by decide +kernel
    have c01 : colDot (niggliReduce skewBasis gridsysTolerance).1 0 1 = 0 := by decide +kernel
    have c02 : colDot (niggliReduce skewBasis gridsysTolerance).1 0 2 = 0 := by decide +kernel
    have c12 : colDot (niggliReduce skewBasis gridsysTolerance).1 1 2 = 0 := by decide +kernel
    constructor <;> (try intro s t _ _) <;> simp only [c00, c11, c22, c01, c02, c12] <;> norm_num

/-- C116: the C library gives up on a large unit cell although the basis is reduced: a cubic
reciprocal cell with edge 0.02. -/
theorem C116_gridsys_small_cell (dense : Bool) (init : BZGridOut) :
    gridsysBzGridAddresses ⟨1, 1, 1⟩ M3.one ⟨0, 0, 0⟩
      (![![1 / 50, 0, 0], ![0, 1 / 50, 0], ![0, 0, 1 / 50]] : RM ℚ) dense init = none := by
  have h : inverseRM (niggliReduce
      (![![1 / 50, 0, 0], ![0, 1 / 50, 0], ![0, 0, 1 / 50]] : RM ℚ) gridsysTolerance).1
      gridsysTolerance = none := by
    unfold inverseRM
    rw [if_pos]
    decide +kernel
  unfold gridsysBzGridAddresses
  simp only [h]
  split_ifs <;> rfl

/-- The skewed lattice of the next theorem. -/
def skewInput : BZInput ℚ :=
  ⟨⟨1, 2, 1⟩, ⟨0, 0, 0⟩, M3.one, ![![1, 7, 0], ![0, 1, 0], ![0, 0, 1]]⟩

/-- C116: the reduction is needed. On a skewed basis the grid without it misses the nearest
translates. -/
theorem C116_unreduced_misses (dense : Bool) :
    ∃ bz, bzGrid skewInput dense exampleInit = some bz ∧ ¬ HoldsNearest skewInput bz := by
  have hi : SamePoint skewInput.D ⟨-3, 1, 0⟩ (gridAddressFromIndex 1 skewInput.D) := by
    unfold SamePoint MeshTranslation; decide +kernel
  have hmin : ∀ u, SamePoint skewInput.D u (gridAddressFromIndex 1 skewInput.D) →
      qNorm skewInput ⟨-3, 1, 0⟩ ≤ qNorm skewInput u := by
    intro u hu
    have ha : gridAddressFromIndex 1 skewInput.D = ⟨0, 1, 0⟩ := by decide +kernel
    rw [ha] at hu
    obtain ⟨-, h2, -⟩ := hu
    obtain ⟨m, hm⟩ := h2
    have hy : u.y = 1 + 2 * m := by
      have : u.y - 1 = 2 * m := hm
      omega
    have e1 : qNorm skewInput ⟨-3, 1, 0⟩ = 1 / 2 := by decide +kernel
    have e2 : qNorm skewInput u = (((2 * u.x + 7 * u.y) * (2 * u.x + 7 * u.y) + u.y * u.y +
        4 * (u.z * u.z) : Int) : ℚ) / 4 := by
      simp [qNorm, qCoord, skewInput, M3.one, M3.e, V3.e]
      ring
    rw [e1, e2, hy]
    have h1 : 1 ≤ (2 * u.x + 7 * (1 + 2 * m)) * (2 * u.x + 7 * (1 + 2 * m)) := by
      rcases lt_or_gt_of_ne (show 2 * u.x + 7 * (1 + 2 * m) ≠ 0 by omega) with h | h <;> nlinarith
    have h2 : 1 ≤ (1 + 2 * m) * (1 + 2 * m) := by
      rcases lt_or_gt_of_ne (show 1 + 2 * m ≠ 0 by omega) with h | h <;> nlinarith
    have h3 := mul_self_nonneg u.z
    have h4 : (2 : Int) ≤ (2 * u.x + 7 * (1 + 2 * m)) * (2 * u.x + 7 * (1 + 2 * m)) +
        (1 + 2 * m) * (1 + 2 * m) + 4 * (u.z * u.z) := by linarith
    have h5 : ((2 : Int) : ℚ) ≤ (((2 * u.x + 7 * (1 + 2 * m)) * (2 * u.x + 7 * (1 + 2 * m)) +
        (1 + 2 * m) * (1 + 2 * m) + 4 * (u.z * u.z) : Int) : ℚ) := by exact_mod_cast h4
    push_cast at h5 ⊢
    linarith
  cases h : bzGrid skewInput dense exampleInit with
  | none => exact absurd ((C09_failure_iff _ _ _).1 h) (by decide)
  | some bz =>
    refine ⟨bz, rfl, fun hn => ?_⟩
    obtain ⟨k, h0, h1, hk, ha⟩ := hn.stored 1 (by decide) (by decide) _ hi hmin
    have hs := (C13_stored_are_near skewInput (by decide) ⟨0, 0, by decide +kernel⟩ dense exampleInit bz h k h0 h1).1
    rw [ha, hk] at hs
    obtain ⟨s, hs, e⟩ := (searched_iff skewInput (by decide) (by decide) _ _).1 hs
    revert s
    decide +kernel

end Phono3py.Props
