/- fc3 in reciprocal space at wave vectors that fit into the supercell. -/
import Verif.Lemmas.AllShortest
import Verif.Spec.CommensurateFc3

set_option linter.unusedSectionVars false

namespace Phono3py
open Spec

section
variable {K : Type} [Field K] [LinearOrder K] [IsStrictOrderedRing K]
variable {g : Geometry K} {tol : K}
variable {at' : AtomTriplets K} {p2p : Int → Nat} {perms : List (Nat → Nat)}

theorem commensurate_phase {expi : K → Cplx K} (he : IsPhase expi) {q v : Fin 3 → K}
    (hq : g.Commensurate q) (hv : v ∈ g.lattice) : expi (dot q v) = 1 := by
  obtain ⟨z, hz⟩ := hq v hv
  rw [hz, he.int]

theorem dot_sub_right (q v w : Fin 3 → K) : dot q (v - w) = dot q v - dot q w := by
  unfold dot
  simp only [Fin.sum_univ_three, Pi.sub_apply]
  ring

theorem nsmul_eq_scale (p : Cplx K) (n : Nat) : n • p = p.scale (n : K) := by
  induction n with
  | zero => ext <;> simp [Cplx.scale]
  | succ n ih =>
    rw [succ_nsmul, ih]
    ext <;> simp [Cplx.scale] <;> ring

/-- All images of an atom have the same phase. -/
theorem phaseTable_commensurate {expi : K → Cplx K} (he : IsPhase expi) (ht : 0 < tol)
    (hv : ListsShortest at' g tol) {q : Fin 3 → Fin 3 → K} {m : Fin 3}
    (hq : g.Commensurate (q m)) {i s : Nat} (hi : i < at'.numPatom) (hlt : s < at'.numSatom) :
    phaseTable expi at' q m i s =
      expi (dot (q m) (g.pos s) - dot (q m) (g.pos (at'.p2s i).toNat)) := by
  obtain ⟨w, hw, hmin, hall⟩ := hv.all i hi s hlt
  have e : phaseTable expi at' q m i s = meanPhase expi (q m) at'.svecs
      (at'.multiplicity (s * at'.numPatom + i)).1 (at'.multiplicity (s * at'.numPatom + i)).2 :=
    phaseFactor_eq ..
  rw [e]
  set M := at'.multiplicity (s * at'.numPatom + i) with hM
  obtain ⟨x0, hx0, -⟩ := (hall w).2 ⟨hw, by linarith⟩
  have hpos : (M.1 : K) ≠ 0 := by
    have : 0 < M.1 := by omega
    exact_mod_cast this.ne'
  have each : ∀ x ∈ Finset.range M.1, expi (dot (q m) (at'.svecs (M.2 + (x : Nat)))) =
      expi (dot (q m) (g.pos s) - dot (q m) (g.pos (at'.p2s i).toNat)) := by
    intro x hx
    have hj := ((hall (at'.svecs (M.2 + (x : Nat)))).1 ⟨x, Finset.mem_range.1 hx, rfl⟩).1
    have h1 := commensurate_phase he hq hj
    rw [dot_sub_right, dot_sub_right] at h1
    have h2 : dot (q m) (at'.svecs (M.2 + (x : Nat))) =
        (dot (q m) (at'.svecs (M.2 + (x : Nat))) -
          (dot (q m) (g.pos s) - dot (q m) (g.pos (at'.p2s i).toNat))) +
        (dot (q m) (g.pos s) - dot (q m) (g.pos (at'.p2s i).toNat)) := by ring
    rw [h2, he.add, h1, one_mul]
  unfold meanPhase
  rw [Finset.sum_congr rfl each, Finset.sum_const, Finset.card_range]
  generalize expi (dot (q m) (g.pos s) - dot (q m) (g.pos (at'.p2s i).toNat)) = p
  rw [nsmul_eq_scale]
  ext <;> simp [Cplx.scale] <;> field_simp

theorem dot_add_right (q v w : Fin 3 → K) : dot q (v + w) = dot q v + dot q w := by
  unfold dot
  simp only [Fin.sum_univ_three, Pi.add_apply]
  ring

theorem prePhaseFactor_pos {expi : K → Cplx K} (he : IsPhase expi) (ht : 0 < tol)
    (hs : IsSupercell at' p2p perms g) (hv : ListsShortest at' g tol)
    {q : Fin 3 → Fin 3 → K} (hq : ∃ z : Fin 3 → Int, ∀ d, q 0 d + q 1 d + q 2 d = z d)
    {i : Nat} (hi : i < at'.numPatom) :
    prePhaseFactor expi at' q i =
      expi (dot (fun d => q 0 d + q 1 d + q 2 d) (g.pos (at'.p2s i).toNat)) *
        expi (-dot (fun d => q 0 d + q 1 d + q 2 d) (g.pos (at'.p2s 0).toNat)) := by
  have hnp : 0 < at'.numPatom := by omega
  obtain ⟨hp0, hp1, -, -⟩ := hs.first i hi
  unfold prePhaseFactor
  simp only
  rw [dot3_comm, dot3_eq, ← he.add]
  have hj := joins_listed hv ht hnp (s := (at'.p2s i).toNat) (by omega)
  have hidx : at'.p2s i * (at'.numPatom : Int) =
      ((at'.p2s i).toNat : Int) * at'.numPatom + ((0 : Nat) : Int) := by
    rw [Int.toNat_of_nonneg hp0]
    simp
  rw [hidx]
  refine phase_shift he (G := fun d => q 0 d + q 1 d + q 2 d) hq (hs.integer _ hj) ?_
  unfold dot
  simp only [Fin.sum_univ_three, Pi.sub_apply]
  ring

/-- The sum without factors for flagged triples. -/
theorem legSum_commensurate {expi : K → Cplx K} (he : IsPhase expi) (c : Crystal K)
    (hs : IsSupercell c.atoms p2p perms g) (hv : ListsShortest c.atoms g tol) (ht : 0 < tol)
    {Φ : Nat → Nat → Nat → Nat → Nat → Nat → K} (hΦ : HoldsSymmetricFc3 c perms Φ)
    {q : Fin 3 → Fin 3 → K} (hq : ∃ z : Fin 3 → Int, ∀ d, q 0 d + q 1 d + q 2 d = z d)
    (h1 : g.Commensurate (q 1)) (h2 : g.Commensurate (q 2))
    {i j k x y z : Nat} (hi : i < c.atoms.numPatom) (hx : x < 3) (hy : y < 3) (hz : z < 3) :
    legSum expi c q 0 i j k x y z =
      fourierFc3 expi g c.atoms Φ (q 0) (q 1) (q 2) i j k x y z *
        expi (-dot (fun d => q 0 d + q 1 d + q 2 d) (g.pos (c.atoms.p2s 0).toNat)) := by
  unfold legSum fourierFc3
  rw [prePhaseFactor_pos he ht hs hv hq hi, ← mul_assoc]
  refine congrArg (fun w : Cplx K => w * _) ?_
  rw [r2rElement_eq, Finset.sum_mul]
  refine Finset.sum_congr rfl fun b hb => ?_
  rw [Finset.sum_mul]
  refine Finset.sum_congr rfl fun d hd => ?_
  rw [Finset.mem_range] at hb hd
  by_cases hcls : c.atoms.s2p b = c.atoms.p2s j ∧ c.atoms.s2p d = c.atoms.p2s k
  swap
  · rw [if_neg hcls, if_neg hcls, zero_mul]
  rw [if_pos hcls, if_pos hcls]
  have hfc : c.fc3 ((if c.isCompact then (i : Int) else c.atoms.p2s i) * 27 * c.atoms.numSatom *
      c.atoms.numSatom + b * 27 * c.atoms.numSatom + d * 27 + (x * 9 + y * 3 + z : Nat)) =
      Φ (c.atoms.p2s i).toNat b d x y z := by
    rw [← hΦ.holds i hi b hb d hd x hx y hy z hz]
    congr 1
    unfold fc3At fc3Row
    push_cast
    ring
  have hl0 : legFactor c.atoms i 0 b d = 1 := by
    unfold legFactor
    simp
  rw [hfc, hl0, mul_one, phaseTable_commensurate he ht hv h1 hi hb,
    phaseTable_commensurate he ht hv h2 hi hd, ← he.add]
  rw [scale_mul_left, ← he.add]
  refine congrArg (fun w : K => (expi w).scale _) ?_
  unfold dot
  simp only [Fin.sum_univ_three]
  ring

/-- The summand does not change when all three atoms are translated. -/
theorem fourierTerm_translate {expi : K → Cplx K} (he : IsPhase expi)
    (hs : IsSupercell at' p2p perms g) {q0 q1 q2 : Fin 3 → K}
    (hq : ∃ z : Fin 3 → Int, ∀ d, q0 d + q1 d + q2 d = z d)
    (h0 : g.Commensurate q0) (h1 : g.Commensurate q1) (h2 : g.Commensurate q2)
    {a b c : Nat} {σ : Nat → Nat} (hσ : σ ∈ perms) (ha : a < at'.numSatom) (hb : b < at'.numSatom)
    (hc : c < at'.numSatom) :
    expi (dot q0 (g.pos (σ a)) + dot q1 (g.pos (σ b)) + dot q2 (g.pos (σ c))) =
      expi (dot q0 (g.pos a) + dot q1 (g.pos b) + dot q2 (g.pos c)) := by
  obtain ⟨hcl, t, htr⟩ := hs.translation σ hσ
  have ht : ∃ z : Fin 3 → Int, ∀ d, t d = z d := by
    obtain ⟨z1, e1⟩ := (hs.others a ha).2.2
    obtain ⟨z2, e2⟩ := (hs.others _ (hcl a ha).1).2.2
    rw [(hcl a ha).2] at e2
    obtain ⟨z3, e3⟩ := hs.integer _ (htr a ha)
    refine ⟨fun d => z2 d - z1 d - z3 d, fun d => ?_⟩
    have := e3 d
    simp only [Pi.sub_apply] at this
    push_cast
    linear_combination e2 d - e1 d - this
  have p0 := commensurate_phase he h0 (htr a ha)
  have p1 := commensurate_phase he h1 (htr b hb)
  have p2 := commensurate_phase he h2 (htr c hc)
  have pt := phase_of_integers he (G := fun d => q0 d + q1 d + q2 d) hq ht
  have e : dot q0 (g.pos (σ a)) + dot q1 (g.pos (σ b)) + dot q2 (g.pos (σ c)) =
      (dot q0 (g.pos a) + dot q1 (g.pos b) + dot q2 (g.pos c)) +
      (dot q0 (g.pos (σ a) - g.pos a - t) + (dot q1 (g.pos (σ b) - g.pos b - t) +
        (dot q2 (g.pos (σ c) - g.pos c - t) + dot (fun d => q0 d + q1 d + q2 d) t))) := by
    unfold dot
    simp only [Fin.sum_univ_three, Pi.sub_apply]
    ring
  rw [e, he.add, he.add (dot q0 (g.pos (σ a) - _ - _)), he.add (dot q1 (g.pos (σ b) - _ - _)),
    he.add (dot q2 (g.pos (σ c) - _ - _)), p0, p1, p2, pt]
  simp

/-- Exchange of the first and the second atom. -/
theorem fourierFc3_first {expi : K → Cplx K} (he : IsPhase expi) (c : Crystal K)
    (hs : IsSupercell c.atoms p2p perms g)
    {Φ : Nat → Nat → Nat → Nat → Nat → Nat → K} (hΦ : HoldsSymmetricFc3 c perms Φ)
    {q0 q1 q2 : Fin 3 → K} (hq : ∃ z : Fin 3 → Int, ∀ d, q0 d + q1 d + q2 d = z d)
    (h0 : g.Commensurate q0) (h1 : g.Commensurate q1) (h2 : g.Commensurate q2)
    {i j k x y z : Nat} (hi : i < c.atoms.numPatom) (hj : j < c.atoms.numPatom)
    (hx : x < 3) (hy : y < 3) (hz : z < 3) :
    fourierFc3 expi g c.atoms Φ q1 q0 q2 j i k y x z =
      fourierFc3 expi g c.atoms Φ q0 q1 q2 i j k x y z := by
  have hinv : ∀ σ ∈ perms, ∀ r < c.atoms.numSatom, ∀ s < c.atoms.numSatom, ∀ u < c.atoms.numSatom,
      (expi (dot q0 (g.pos (σ r)) + dot q1 (g.pos (σ s)) + dot q2 (g.pos (σ u)))).scale
          (Φ (σ r) (σ s) (σ u) x y z) =
        (expi (dot q0 (g.pos r) + dot q1 (g.pos s) + dot q2 (g.pos u))).scale (Φ r s u x y z) := by
    intro σ hσ r hr s hs1 u hu
    rw [fourierTerm_translate he hs hq h0 h1 h2 hσ hr hs1 hu,
      hΦ.translation σ hσ r hr s hs1 u hu x hx y hy z hz]
  unfold fourierFc3
  rw [sum_seen_from hs (fun r s u =>
    (expi (dot q0 (g.pos r) + dot q1 (g.pos s) + dot q2 (g.pos u))).scale (Φ r s u x y z))
    hinv (k := k) hi hj]
  obtain ⟨hj0, hj1, -, -⟩ := hs.first j hj
  refine Finset.sum_congr rfl fun r hr => Finset.sum_congr rfl fun u hu => ?_
  rw [Finset.mem_range] at hr hu
  rw [hΦ.first r hr (c.atoms.p2s j).toNat (by omega) u hu x hx y hy z hz,
    add_comm (dot q1 _) (dot q0 _)]

end
end Phono3py
