/-
Property theorems C07 and C08: transformed rotations, Smith normal form of the grid matrix.
-/
import Verif.Lemmas.SnfFinal
import Verif.Lemmas.Transform
import Verif.Spec.GridMatrix
import Verif.Props.Grid

namespace Phono3py.Props
open Phono3py Phono3py.Spec

/-! ## C08 Smith normal form -/

/-- C08: a reported decomposition is correct. -/
theorem C08_sound (A : M3) (D : V3) (P Q : M3)
    (h : grgSnf3x3 A = some (some (D, P, Q))) :
    (P.mul A).mul Q = M3.diag D ∧ P.det = 1 ∧ (Q.det = 1 ∨ Q.det = -1) ∧
    PosMesh D ∧ D.x * D.y * D.z = |A.det| := by
  unfold grgSnf3x3 at h
  split at h
  · simp at h
  · rename_i h0
    obtain ⟨o, e, ho⟩ := snfLoop_sound h0 100 ⟨A, M3.one, M3.one⟩ (snfInv_init A)
    have e' : snf3x3 A = some o := e
    rw [e'] at h
    simp only [Option.bind_eq_bind, Option.bind_some] at h
    cases o with
    | none => simp at h
    | some s =>
      simp only [Option.some.injEq, Prod.mk.injEq] at h
      obtain ⟨rfl, rfl, rfl⟩ := h
      obtain ⟨hA, hP, hQ, ⟨hd, p1, p2, p3⟩, _⟩ := ho s rfl
      rw [isDiag_iff] at hd
      have hdet : s.A.det = s.P.det * A.det * s.Q.det := by
        rw [hA, M3.det_mul, M3.det_mul]
      refine ⟨by rw [← hA]; exact hd, hP, by omega, ⟨p1, p2, p3⟩, ?_⟩
      have h1 : s.A.det = s.A.m00 * s.A.m11 * s.A.m22 := by
        conv_lhs => rw [hd]
        simp only [M3.det, M3.diag]; ring
      have h2 : 0 < s.A.m00 * s.A.m11 * s.A.m22 := mul_pos (mul_pos p1 p2) p3
      have h3 : |s.A.det| = |A.det| := by
        rw [hdet, abs_mul, abs_mul, hP]
        have : |s.Q.det| = 1 := by
          have : s.Q.det = 1 ∨ s.Q.det = -1 := by omega
          rcases this with h | h <;> rw [h] <;> rfl
        rw [this]; simp
      rw [← h3, h1, abs_of_pos h2]

/-- C08: a singular matrix is refused. -/
theorem C08_singular (A : M3) (h : A.det = 0) : grgSnf3x3 A = some none := by
  simp [grgSnf3x3, h]

/-- C08: the routine never divides by zero, whatever the matrix. -/
theorem C08_no_division_by_zero (A : M3) : grgSnf3x3 A ≠ none := by
  unfold grgSnf3x3
  split
  · simp
  · rename_i h0
    obtain ⟨o, e, _⟩ := snfLoop_sound h0 100 ⟨A, M3.one, M3.one⟩ (snfInv_init A)
    have e' : snf3x3 A = some o := e
    rw [e']
    cases o <;> simp

/-- C08: the 100 rounds are enough whenever `0 < |det A| < 2^49`, i.e. for every grid of fewer
than 5 x 10^14 points. -/
theorem C08_succeeds (A : M3) (h0 : A.det ≠ 0) (h : |A.det| < 2 ^ 49) :
    ∃ D P Q, grgSnf3x3 A = some (some (D, P, Q)) := by
  obtain ⟨t, e⟩ := snf_complete A h0 (by
    have : ((A.det.natAbs : Int)) < 2 ^ 49 := by rwa [← Int.abs_eq_natAbs]
    exact_mod_cast this)
  unfold grgSnf3x3
  rw [if_neg h0, e]
  exact ⟨_, _, _, rfl⟩

/-- C08: the cap on the Euclidean loop is never reached for 64 bit integers, and the Bezout
identity asserted by the code holds, with the greatest common divisor on the left. -/
theorem C08_extended_gcd (a b : Int) (hb : b ≠ 0) (hl : |b| ≤ 2 ^ 63) :
    ∃ r s t, extGcdCapped a b = some (r, s, t) ∧ r = a * s + b * t ∧ r.natAbs = Int.gcd a b := by
  rw [extGcdCapped_eq a b (by
    have : (b.natAbs : Int) ≤ 2 ^ 63 := by rwa [← Int.abs_eq_natAbs]
    have h1 : b.natAbs ≤ 2 ^ 63 := by exact_mod_cast this
    exact lt_of_le_of_lt h1 (Nat.pow_lt_pow_right (by norm_num) (by norm_num)))]
  exact extGcd_spec hb

/-- What remains of the divisibility chain of a true Smith normal form. -/
theorem C08_second_divides_third (A : M3) (D : V3) (P Q : M3)
    (h : grgSnf3x3 A = some (some (D, P, Q))) : D.y ∣ D.z := by
  unfold grgSnf3x3 at h
  split at h
  · simp at h
  · rename_i h0
    obtain ⟨o, e, ho⟩ := snfLoop_sound h0 100 ⟨A, M3.one, M3.one⟩ (snfInv_init A)
    have e' : snf3x3 A = some o := e
    rw [e'] at h
    simp only [Option.bind_eq_bind, Option.bind_some] at h
    cases o with
    | none => simp at h
    | some s =>
      simp only [Option.some.injEq, Prod.mk.injEq] at h
      obtain ⟨rfl, rfl, rfl⟩ := h
      exact (ho s rfl).2.2.2.2

/-- Finding: the diagonal is not always a Smith normal form. For `diag(4, 6, 9)` the routine
returns `(2, 3, 36)`, and 2 does not divide 3. -/
theorem C08_not_always_smith : ∃ A D P Q, grgSnf3x3 A = some (some (D, P, Q)) ∧ ¬ D.x ∣ D.y :=
  ⟨M3.diag ⟨4, 6, 9⟩, ⟨2, 3, 36⟩, ⟨1, -1, 0, 3, -2, 1, 9, -6, 4⟩, ⟨-1, 3, -9, -1, 2, -6, 0, -1, 4⟩,
    by decide +kernel, by decide⟩

/-- The grid matrix of a doubled conventional fcc cell. -/
example : (⟨-2, 2, 2, 2, -2, 2, 2, 2, -2⟩ : M3).det = 32 ∧
    grgSnf3x3 ⟨-2, 2, 2, 2, -2, 2, 2, 2, -2⟩ = some (some (⟨2, 4, 4⟩,
      ⟨0, 0, -1, 0, -1, -1, -1, -1, -2⟩, ⟨0, -1, 0, 0, 1, -1, 1, 0, -1⟩)) := by
  decide +kernel

/-! ## C07 rotations in the grid basis -/

theorem toMat_mul (a b : M3) : toMat (a.mul b) = toMat a * toMat b := by
  funext i j
  simp only [toMat, Matrix.mul_apply, Fin.sum_univ_three, M3.mul_e]
  push_cast; rfl

theorem toMat_one : toMat M3.one = 1 := by
  funext i j
  fin_cases i <;> fin_cases j <;> simp [toMat, M3.e, M3.one]

theorem toMat_injective {a b : M3} (h : toMat a = toMat b) : a = b := by
  apply M3.ext_e
  intro i j
  have := congrFun (congrFun h i) j
  simpa [toMat] using this

private theorem diag_inv (D : V3) (hD : PosMesh D) :
    (Matrix.diagonal (fun i => (D.e i : ℚ)))⁻¹ = Matrix.diagonal (fun i => ((D.e i : ℚ))⁻¹) := by
  apply Matrix.inv_eq_left_inv
  rw [Matrix.diagonal_mul_diagonal, ← Matrix.diagonal_one]
  congr 1
  funext i
  have : (D.e i : ℚ) ≠ 0 := by exact_mod_cast (V3.e_pos hD i).ne'
  field_simp

private theorem inv_mat (Q : M3) (h : Q.det.natAbs = 1) :
    (toMat Q)⁻¹ = toMat (Q.cofactorsDiv Q.det) := by
  apply Matrix.inv_eq_left_inv
  rw [← toMat_mul, (M3.cofactorsDiv_mul Q h).1, toMat_one]

/-- The scaled matrix computed by the code is `D Q⁻¹ R Q D⁻¹`. -/
theorem scaledSimilar_is_gridRotation (D : V3) (hD : PosMesh D) (Q R : M3)
    (h : Q.det.natAbs = 1) (i j : Fin 3) : scaledSimilar R Q D i j = gridRotation D Q R i j := by
  rw [scaledSimilar_eq D Q R h]
  unfold gridRotation
  rw [diag_inv D hD, inv_mat Q h, Matrix.mul_diagonal, Matrix.mul_assoc, Matrix.mul_assoc,
    ← toMat_mul, ← toMat_mul, Matrix.diagonal_mul]
  simp only [toMat]
  rw [div_eq_mul_inv]; ring

/-- C07: on success there is one result per rotation, in order, each within the tolerance
`10⁻⁵` of `D Q⁻¹ R Q D⁻¹` entry by entry. -/
theorem C07_within_tolerance (D : V3) (hD : PosMesh D) (Q : M3) (hQ : Q.det.natAbs = 1)
    (rots L : List M3) (h : transformRotations D Q rots = some L) :
    List.Forall₂ (fun R t => ∀ i j, |(t.e i j : ℚ) - gridRotation D Q R i j| ≤ 1 / 100000)
      rots L := by
  refine (transformRotations_some D Q rots L h).imp ?_
  intro R t ht i j
  have := transformRotation_some D Q R t ht i j
  rwa [scaledSimilar_is_gridRotation D hD Q R hQ] at this

/-- C07: for mesh numbers below 10^5 the results are exact. -/
theorem C07_exact (D : V3) (hD : PosMesh D) (hlt : D.x < 100000 ∧ D.y < 100000 ∧ D.z < 100000)
    (Q : M3) (hQ : Q.det.natAbs = 1) (rots L : List M3)
    (h : transformRotations D Q rots = some L) :
    List.Forall₂ (fun R t => toMat t = gridRotation D Q R) rots L := by
  have hlt' : ∀ i, D.e i < 100000 := by
    intro i; fin_cases i
    · exact hlt.1
    · exact hlt.2.1
    · exact hlt.2.2
  refine (transformRotations_some D Q rots L h).imp ?_
  intro R t ht
  funext i j
  have := transformRotation_exact D hD hlt' Q R t hQ ht i j
  rw [← scaledSimilar_is_gridRotation D hD Q R hQ, scaledSimilar_eq D Q R hQ]
  have hj : (D.e j : ℚ) ≠ 0 := by exact_mod_cast (V3.e_pos hD j).ne'
  simp only [toMat]
  rw [eq_div_iff hj]
  have h2 : ((t.e i j * D.e j : Int) : ℚ)
    = ((D.e i * ((Q.cofactorsDiv Q.det).mul (R.mul Q)).e i j : Int) : ℚ) := by rw [this]
  push_cast at h2
  linarith

/-- C07: it fails exactly when some entry of some `D Q⁻¹ R Q D⁻¹` is farther than the
tolerance from every integer. -/
theorem C07_failure_iff (D : V3) (hD : PosMesh D) (Q : M3) (hQ : Q.det.natAbs = 1)
    (rots : List M3) :
    transformRotations D Q rots = none ↔
      ∃ R ∈ rots, ∃ i j, ∀ n : ℤ, 1 / 100000 < |(n : ℚ) - gridRotation D Q R i j| := by
  rw [transformRotations_none]
  constructor
  · rintro ⟨R, hR, e⟩
    obtain ⟨i, j, hij⟩ := (transformRotation_none D Q R).1 e
    refine ⟨R, hR, i, j, fun n => ?_⟩
    rw [← scaledSimilar_is_gridRotation D hD Q R hQ]; exact hij n
  · rintro ⟨R, hR, i, j, hij⟩
    refine ⟨R, hR, (transformRotation_none D Q R).2 ⟨i, j, fun n => ?_⟩⟩
    rw [scaledSimilar_is_gridRotation D hD Q R hQ]; exact hij n

private theorem exact_e (D : V3) (hD : PosMesh D) (Q : M3) (hQ : Q.det.natAbs = 1) (R t : M3)
    (h : toMat t = gridRotation D Q R) (i j : Fin 3) :
    t.e i j * D.e j = D.e i * ((Q.cofactorsDiv Q.det).mul (R.mul Q)).e i j := by
  have h1 := congrFun (congrFun h i) j
  rw [← scaledSimilar_is_gridRotation D hD Q R hQ, scaledSimilar_eq D Q R hQ] at h1
  have hj : (D.e j : ℚ) ≠ 0 := by exact_mod_cast (V3.e_pos hD j).ne'
  simp only [toMat] at h1
  rw [eq_div_iff hj] at h1
  have : ((t.e i j * D.e j : Int) : ℚ)
    = ((D.e i * ((Q.cofactorsDiv Q.det).mul (R.mul Q)).e i j : Int) : ℚ) := by
    push_cast; linarith
  exact_mod_cast this

/-- C07: an exact result maps grid translations to grid translations. -/
theorem C07_mesh_compatible (D : V3) (hD : PosMesh D) (Q : M3) (hQ : Q.det.natAbs = 1) (R t : M3)
    (h : toMat t = gridRotation D Q R) : MeshCompat D t := by
  have he := exact_e D hD Q hQ R t h
  generalize (Q.cofactorsDiv Q.det).mul (R.mul Q) = N at he
  rw [meshCompat_iff]
  exact ⟨⟨⟨_, he 0 0⟩, ⟨_, he 1 0⟩, ⟨_, he 2 0⟩⟩, ⟨⟨_, he 0 1⟩, ⟨_, he 1 1⟩, ⟨_, he 2 1⟩⟩,
    ⟨⟨_, he 0 2⟩, ⟨_, he 1 2⟩, ⟨_, he 2 2⟩⟩⟩

/-- C07: exact results multiply like the rotations they come from. -/
theorem C07_products (D : V3) (hD : PosMesh D) (Q : M3) (hQ : Q.det.natAbs = 1)
    (R S t u w : M3) (ht : toMat t = gridRotation D Q R) (hu : toMat u = gridRotation D Q S)
    (hw : toMat w = gridRotation D Q (R.mul S)) : w = t.mul u := by
  apply toMat_injective
  rw [toMat_mul, ht, hu, hw]
  unfold gridRotation
  have hd : (Matrix.diagonal (fun i => (D.e i : ℚ)))⁻¹ * Matrix.diagonal (fun i => (D.e i : ℚ))
      = 1 := by
    rw [diag_inv D hD, Matrix.diagonal_mul_diagonal, ← Matrix.diagonal_one]
    congr 1
    funext i
    have : (D.e i : ℚ) ≠ 0 := by exact_mod_cast (V3.e_pos hD i).ne'
    field_simp
  have hq : toMat Q * (toMat Q)⁻¹ = 1 := by
    rw [inv_mat Q hQ, ← toMat_mul, (M3.cofactorsDiv_mul Q hQ).2, toMat_one]
  rw [toMat_mul]
  generalize Matrix.diagonal (fun i => (D.e i : ℚ)) = E at *
  calc E * (toMat Q)⁻¹ * (toMat R * toMat S) * toMat Q * E⁻¹
      = E * (toMat Q)⁻¹ * toMat R * 1 * toMat S * toMat Q * E⁻¹ := by
        simp only [Matrix.mul_assoc, Matrix.one_mul]
    _ = E * (toMat Q)⁻¹ * toMat R * (toMat Q * 1 * (toMat Q)⁻¹) * toMat S * toMat Q * E⁻¹ := by
        rw [Matrix.mul_one (toMat Q), hq]
    _ = _ := by rw [← hd]; simp only [Matrix.mul_assoc]

/-- C07: the transformed rotations of a group are a group. -/
theorem C07_group (D : V3) (hD : PosMesh D) (hlt : D.x < 100000 ∧ D.y < 100000 ∧ D.z < 100000)
    (Q : M3) (hQ : Q.det.natAbs = 1) (rots L : List M3) (hG : IsGroup rots)
    (h : transformRotations D Q rots = some L) : IsGroup L ∧ ∀ t ∈ L, MeshCompat D t := by
  have hex := C07_exact D hD hlt Q hQ rots L h
  have fwd : ∀ R ∈ rots, ∃ t ∈ L, toMat t = gridRotation D Q R := by
    clear h hG
    induction hex with
    | nil => simp
    | cons hab _ ih =>
      intro R hR
      simp only [List.mem_cons] at hR
      rcases hR with rfl | hR
      · exact ⟨_, List.mem_cons_self, hab⟩
      · obtain ⟨t, ht, e⟩ := ih R hR
        exact ⟨t, List.mem_cons_of_mem _ ht, e⟩
  have bwd : ∀ t ∈ L, ∃ R ∈ rots, toMat t = gridRotation D Q R := by
    clear h hG fwd
    induction hex with
    | nil => simp
    | cons hab _ ih =>
      intro R hR
      simp only [List.mem_cons] at hR
      rcases hR with rfl | hR
      · exact ⟨_, List.mem_cons_self, hab⟩
      · obtain ⟨t, ht, e⟩ := ih R hR
        exact ⟨t, List.mem_cons_of_mem _ ht, e⟩
  have hone : toMat M3.one = gridRotation D Q M3.one := by
    funext i j
    rw [← scaledSimilar_is_gridRotation D hD Q _ hQ, scaledSimilar_eq D Q _ hQ, M3.one_mul,
      (M3.cofactorsDiv_mul Q hQ).1]
    have hj : (D.e j : ℚ) ≠ 0 := by exact_mod_cast (V3.e_pos hD j).ne'
    rw [eq_div_iff hj]
    simp only [toMat]
    fin_cases i <;> fin_cases j <;> simp [M3.e, M3.one]
  refine ⟨⟨?_, ?_, ?_⟩, ?_⟩
  · obtain ⟨t, ht, e⟩ := fwd _ hG.one_mem
    have : t = M3.one := toMat_injective (e.trans hone.symm)
    exact this ▸ ht
  · intro a ha b hb
    obtain ⟨R, hR, e1⟩ := bwd a ha
    obtain ⟨S, hS, e2⟩ := bwd b hb
    obtain ⟨w, hw, e3⟩ := fwd _ (hG.mul_mem R hR S hS)
    rw [← C07_products D hD Q hQ R S a b w e1 e2 e3]; exact hw
  · intro a ha
    obtain ⟨R, hR, e1⟩ := bwd a ha
    obtain ⟨S, hS, e2⟩ := hG.inv_mem R hR
    obtain ⟨w, hw, e3⟩ := fwd S hS
    refine ⟨w, hw, ?_⟩
    exact (C07_products D hD Q hQ S R w a M3.one e3 e1 (by rw [e2]; exact hone)).symm
  · intro t ht
    obtain ⟨R, _, e⟩ := bwd t ht
    exact C07_mesh_compatible D hD Q hQ R t e

/-- The chain used by the grid object: point group, transformed rotations and the shift check
together give the hypothesis `GridGroup` of C04 and C05. -/
theorem C07_grid_object (rots G L : List M3) (tr : Bool) (D : V3) (hD : PosMesh D)
    (hlt : D.x < 100000 ∧ D.y < 100000 ∧ D.z < 100000) (P Q : M3) (hQ : Q.det.natAbs = 1)
    (S : V3) (hrots : IsGroup rots) (h1 : reciprocalPointGroup rots tr true = some G)
    (h2 : transformRotations D Q G = some L)
    (h3 : satisfyShiftSymmetry P S L = some true ∨ P.mulVec S = ⟨0, 0, 0⟩) :
    GridGroup L D (P.mulVec S) := by
  obtain ⟨_, hG, _⟩ := C06_group rots G tr true hrots h1
  obtain ⟨hL, hm⟩ := C07_group D hD hlt Q hQ G L hG h2
  refine ⟨hD, hL, hm, ?_⟩
  intro R hR
  rcases h3 with h3 | h3
  · exact satisfyShift_compat P S L h3 R hR
  · rw [h3]; simp [ShiftCompat, M3.mulVec]

/-- Grid matrix of an fcc-like supercell: Q is not the identity, and the transformed
four-fold rotation is an integer matrix that differs from the original one. -/
example : PosMesh ⟨2, 4, 4⟩ ∧ (⟨1, 1, 0, 0, 1, 0, 0, 0, 1⟩ : M3).det.natAbs = 1 ∧
    transformRotations ⟨2, 4, 4⟩ ⟨1, 0, 1, 0, 1, 0, 0, 0, 1⟩
      [M3.one, ⟨1, 0, 0, 0, 0, -1, 0, 1, 0⟩] = none ∧
    transformRotations ⟨2, 2, 4⟩ ⟨1, 1, 0, 0, 1, 0, 0, 0, 1⟩
      [M3.one, ⟨0, -1, 0, 1, 0, 0, 0, 0, 1⟩] =
      some [M3.one, ⟨-1, -2, 0, 1, 1, 0, 0, 0, 1⟩] := by
  decide +kernel

end Phono3py.Props
