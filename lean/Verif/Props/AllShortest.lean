import Verif.Lemmas.AllShortest
import Verif.Props.Interaction
import Verif.Props.DynMatReal

/-!
# Property C166

C166: averaging over the choice of the first atom.
-/

set_option linter.unusedSectionVars false

namespace Phono3py
namespace Props

open Spec

section
variable {K : Type} [Field K] [LinearOrder K] [IsStrictOrderedRing K]

/-- The crystal with the average over the choice of the first atom, flags `A`. -/
def averaged (c : Crystal K) (A : Int → Bool) : Crystal K :=
  { c with atoms := { c.atoms with makeR0Average := true, allShortest := A } }

/-- The crystal without it. -/
def notAveraged (c : Crystal K) : Crystal K :=
  { c with atoms := { c.atoms with makeR0Average := false } }

variable {g : Geometry K} {tol : K} {p2p : Int → Nat} {perms : List (Nat → Nat)}

theorem cartesianLength_eq (sqrt : K → K) (lattice : Fin 3 → Fin 3 → K) :
    cartesianLength sqrt lattice = latticeNorm sqrt lattice := by
  funext v
  unfold cartesianLength latticeNorm
  simp only [Fin.sum_univ_three, pow_two]

/-- C166: the assertion of the search for triples at shortest distances does not fail. -/
theorem C166_total (sqrt : K → K) (c : Crystal K) (lattice : Fin 3 → Fin 3 → K)
    (hs : IsSupercell c.atoms p2p perms g) :
    (getAllShortest sqrt c.atoms p2p perms lattice tol).isSome :=
  getAllShortest_total sqrt lattice hs

/-- C166: a triple of atoms is flagged exactly if there are images of the second and third atom such
that the three atoms are nearest to each other, and each of these is the only nearest image. -/
theorem C166_flags (sqrt : K → K) (c : Crystal K) (lattice : Fin 3 → Fin 3 → K)
    (hlen : g.length = cartesianLength sqrt lattice) (ht : 0 < tol)
    (hs : IsSupercell c.atoms p2p perms g) (hv : ListsShortest c.atoms g tol) {A : Int → Bool}
    (hA : getAllShortest sqrt c.atoms p2p perms lattice tol = some A) {i j k : Nat}
    (hi : i < c.atoms.numPatom) (hj : j < c.atoms.numSatom) (hk : k < c.atoms.numSatom) :
    A (at3 c.atoms.numSatom c.atoms.numSatom i j k : Nat) = true ↔
      g.AllNearest tol (c.atoms.p2s i).toNat j k :=
  flag_iff sqrt lattice (hlen.trans (cartesianLength_eq sqrt lattice)) ht hs hv hA hi hj hk

theorem legSum_zero (expi : K → Cplx K) (c : Crystal K) (A : Int → Bool) (q : Fin 3 → Fin 3 → K)
    (i j k x y z : Nat) :
    legSum expi (averaged c A) q 0 i j k x y z = legSum expi (notAveraged c) q 0 i j k x y z := by
  unfold legSum
  rw [r2rElement_eq, r2rElement_eq]
  have h : ∀ (at' : AtomTriplets K) b d, legFactor at' i 0 b d = 1 := by
    intro at' b d
    unfold legFactor
    simp
  simp only [h]
  rfl

/-- C166: with the average, each element of fc3 in reciprocal space is the mean of the three elements
computed without it, taking each of the three members of the triplet for the first in turn: summing
flagged triples three times for the first member and leaving them out for the others changes
nothing. -/
theorem C166_average (sqrt : K → K) {expi : K → Cplx K} (he : IsPhase expi) (c : Crystal K)
    (hband : c.numBand = c.atoms.numPatom * 3) (lattice : Fin 3 → Fin 3 → K)
    (hlen : g.length = cartesianLength sqrt lattice) (ht : 0 < tol)
    (hs : IsSupercell c.atoms p2p perms g) (hv : ListsShortest c.atoms g tol)
    {Φ : Nat → Nat → Nat → Nat → Nat → Nat → K} (hΦ : HoldsSymmetricFc3 c perms Φ)
    {A : Int → Bool} (hA : getAllShortest sqrt c.atoms p2p perms lattice tol = some A)
    (t : Fin 3 → Int) (addresses : Int → V3) (D : V3) (Q : M3)
    (hq : ∃ z : Fin 3 → Int, ∀ d : Fin 3,
      (gridQ (addresses (t 0)) D Q d + gridQ (addresses (t 1)) D Q d +
        gridQ (addresses (t 2)) D Q d : K) = z d)
    {a b d : Nat} (ha : a < c.numBand) (hb : b < c.numBand) (hd : d < c.numBand) :
    tripletFc3 expi (averaged c A) t addresses D Q a b d =
      (tripletFc3 expi (notAveraged c) t addresses D Q a b d +
        tripletFc3 expi (notAveraged c) ![t 1, t 0, t 2] addresses D Q b a d +
        tripletFc3 expi (notAveraged c) ![t 2, t 1, t 0] addresses D Q d b a).scale (1 / 3) := by
  set q : Fin 3 → Fin 3 → K := fun m => gridQ (addresses (t m)) D Q with hqdef
  have hl : ∀ v, g.length (-v) = g.length v := by
    intro v
    rw [hlen, cartesianLength_eq, latticeNorm_neg]
  have h3 : ∀ x, x % 3 < 3 := fun x => Nat.mod_lt _ (by norm_num)
  have hp : ∀ x, x < c.numBand → x / 3 < c.atoms.numPatom := fun x hx => by omega
  -- the three elements without the average
  have off : ∀ (s : Fin 3 → Int) {a b d : Nat}, a < c.numBand → b < c.numBand → d < c.numBand →
      tripletFc3 expi (notAveraged c) s addresses D Q a b d =
        legSum expi (averaged c A) (fun m => gridQ (addresses (s m)) D Q) 0 (a / 3) (b / 3) (d / 3)
          (a % 3) (b % 3) (d % 3) := by
    intro s a b d ha hb hd
    rw [legSum_zero]
    unfold tripletFc3
    rw [show (notAveraged c).numBand = c.numBand from rfl,
      r2r_at3 expi (notAveraged c).atoms _ _ _ hband ha hb hd]
    rfl
  have on : tripletFc3 expi (averaged c A) t addresses D Q a b d =
      (legSum expi (averaged c A) q 1 (a / 3) (b / 3) (d / 3) (a % 3) (b % 3) (d % 3) +
        legSum expi (averaged c A) ![q 1, q 0, q 2] 2 (b / 3) (a / 3) (d / 3) (b % 3) (a % 3)
          (d % 3) +
        legSum expi (averaged c A) ![q 2, q 1, q 0] 3 (d / 3) (b / 3) (a / 3) (d % 3) (b % 3)
          (a % 3)).scale (1 / 3) := by
    unfold tripletFc3
    rw [show (averaged c A).numBand = c.numBand from rfl,
      r2r_at3 expi (averaged c A).atoms _ _ _ hband ha hb hd]
    unfold r2rEntry
    rw [if_pos (show (averaged c A).atoms.makeR0Average = true from rfl)]
    have p2 : prePhaseFactor expi (averaged c A).atoms ![q 1, q 0, q 2] (b / 3) =
        prePhaseFactor expi (averaged c A).atoms q (b / 3) := by
      unfold prePhaseFactor
      simp only
      congr 2
      funext x
      show q 1 x + q 0 x + q 2 x = _
      ring
    have p3 : prePhaseFactor expi (averaged c A).atoms ![q 2, q 1, q 0] (d / 3) =
        prePhaseFactor expi (averaged c A).atoms q (d / 3) := by
      unfold prePhaseFactor
      simp only
      congr 2
      funext x
      show q 2 x + q 1 x + q 0 x = _
      ring
    unfold legSum
    rw [p2, p3]
    rfl
  have hflag : ∀ i < (averaged c A).atoms.numPatom, ∀ j < (averaged c A).atoms.numSatom,
      ∀ k < (averaged c A).atoms.numSatom,
      (averaged c A).atoms.allShortest
        (at3 (averaged c A).atoms.numSatom (averaged c A).atoms.numSatom i j k : Nat) = true ↔
        g.AllNearest tol ((averaged c A).atoms.p2s i).toNat j k :=
    fun i hi j hj k hk => flag_iff sqrt lattice (hlen.trans (cartesianLength_eq sqrt lattice)) ht hs hv hA hi hj hk
  have hs' : IsSupercell (averaged c A).atoms p2p perms g :=
    ⟨hs.integer, hs.first, hs.others, hs.distinct, hs.translation, hs.unique⟩
  have hv' : ListsShortest (averaged c A).atoms g tol := ⟨hv.all, hv.once⟩
  have hΦ' : HoldsSymmetricFc3 (averaged c A) perms Φ :=
    ⟨hΦ.holds, hΦ.first, hΦ.last, hΦ.translation⟩
  have hq1 : ∃ z : Fin 3 → Int, ∀ d, q 0 d + q 1 d + q 2 d = z d := hq
  have hq2 : ∃ z : Fin 3 → Int, ∀ d, (![q 1, q 0, q 2] : Fin 3 → Fin 3 → K) 0 d +
      (![q 1, q 0, q 2] : Fin 3 → Fin 3 → K) 1 d + (![q 1, q 0, q 2] : Fin 3 → Fin 3 → K) 2 d
      = z d := by
    obtain ⟨z, hz⟩ := hq1
    refine ⟨z, fun d => ?_⟩
    rw [← hz]
    show q 1 d + q 0 d + q 2 d = _
    ring
  have hq3 : ∃ z : Fin 3 → Int, ∀ d, (![q 2, q 1, q 0] : Fin 3 → Fin 3 → K) 0 d +
      (![q 2, q 1, q 0] : Fin 3 → Fin 3 → K) 1 d + (![q 2, q 1, q 0] : Fin 3 → Fin 3 → K) 2 d
      = z d := by
    obtain ⟨z, hz⟩ := hq1
    refine ⟨z, fun d => ?_⟩
    rw [← hz]
    show q 2 d + q 1 d + q 0 d = _
    ring
  have s1 := legSum_split he (averaged c A) hs' hv' ht hflag hΦ' hq1 1 (j := b / 3) (k := d / 3)
    (hp a ha) (h3 a) (h3 b) (h3 d)
  have s2 := legSum_split he (averaged c A) hs' hv' ht hflag hΦ' hq2 2 (j := a / 3) (k := d / 3)
    (hp b hb) (h3 b) (h3 a) (h3 d)
  have s3 := legSum_split he (averaged c A) hs' hv' ht hflag hΦ' hq3 3 (j := b / 3) (k := a / 3)
    (hp d hd) (h3 d) (h3 b) (h3 a)
  -- flagged triples seen from each of the three atoms
  have hfirst : ∀ i < c.atoms.numPatom, (c.atoms.p2s i).toNat < c.atoms.numSatom := by
    intro i hi
    obtain ⟨h0, h1, -, -⟩ := hs.first i hi
    omega
  have hinv : ∀ σ ∈ perms, ∀ r < c.atoms.numSatom, ∀ s < c.atoms.numSatom, ∀ u < c.atoms.numSatom,
      nearestTerm expi g tol Φ (q 0) (q 1) (q 2) (a % 3) (b % 3) (d % 3) (σ r) (σ s) (σ u) =
        nearestTerm expi g tol Φ (q 0) (q 1) (q 2) (a % 3) (b % 3) (d % 3) r s u :=
    fun σ hσ r hr s hs1 u hu => nearestTerm_translate ht he hs hq1 hσ hr hs1 hu
      (hΦ.translation σ hσ r hr s hs1 u hu _ (h3 a) _ (h3 b) _ (h3 d))
  have m2 : (∑ r ∈ Finset.range c.atoms.numSatom, ∑ u ∈ Finset.range c.atoms.numSatom,
      if c.atoms.s2p r = c.atoms.p2s (a / 3) ∧ c.atoms.s2p u = c.atoms.p2s (d / 3) then
        nearestTerm expi g tol Φ (q 1) (q 0) (q 2) (b % 3) (a % 3) (d % 3)
          (c.atoms.p2s (b / 3)).toNat r u else 0) =
      ∑ s ∈ Finset.range c.atoms.numSatom, ∑ u ∈ Finset.range c.atoms.numSatom,
      if c.atoms.s2p s = c.atoms.p2s (b / 3) ∧ c.atoms.s2p u = c.atoms.p2s (d / 3) then
        nearestTerm expi g tol Φ (q 0) (q 1) (q 2) (a % 3) (b % 3) (d % 3)
          (c.atoms.p2s (a / 3)).toNat s u else 0 := by
    rw [sum_seen_from hs (fun r s u => nearestTerm expi g tol Φ (q 0) (q 1) (q 2) (a % 3) (b % 3)
      (d % 3) r s u) hinv (hp a ha) (hp b hb)]
    refine Finset.sum_congr rfl fun r hr => Finset.sum_congr rfl fun u hu => ?_
    rw [Finset.mem_range] at hr hu
    congr 1
    exact nearestTerm_first ht hl he hs.integer hq1
      (hΦ.first r hr _ (hfirst _ (hp b hb)) u hu _ (h3 a) _ (h3 b) _ (h3 d))
  have m3 : (∑ s ∈ Finset.range c.atoms.numSatom, ∑ r ∈ Finset.range c.atoms.numSatom,
      if c.atoms.s2p s = c.atoms.p2s (b / 3) ∧ c.atoms.s2p r = c.atoms.p2s (a / 3) then
        nearestTerm expi g tol Φ (q 2) (q 1) (q 0) (d % 3) (b % 3) (a % 3)
          (c.atoms.p2s (d / 3)).toNat s r else 0) =
      ∑ s ∈ Finset.range c.atoms.numSatom, ∑ u ∈ Finset.range c.atoms.numSatom,
      if c.atoms.s2p s = c.atoms.p2s (b / 3) ∧ c.atoms.s2p u = c.atoms.p2s (d / 3) then
        nearestTerm expi g tol Φ (q 0) (q 1) (q 2) (a % 3) (b % 3) (d % 3)
          (c.atoms.p2s (a / 3)).toNat s u else 0 := by
    have e := sum_seen_from hs (fun r u s => nearestTerm expi g tol Φ (q 0) (q 1) (q 2) (a % 3)
      (b % 3) (d % 3) r s u) (fun σ hσ r hr u hu s hs1 => hinv σ hσ r hr s hs1 u hu) (k := b / 3)
      (hp a ha) (hp d hd)
    rw [Finset.sum_comm] at e
    simp only [and_comm (a := c.atoms.s2p _ = c.atoms.p2s (d / 3))] at e
    rw [e, Finset.sum_comm]
    refine Finset.sum_congr rfl fun r hr => Finset.sum_congr rfl fun s hs1 => ?_
    rw [Finset.mem_range] at hr hs1
    refine ite_congr (propext and_comm) (fun _ => ?_) fun _ => rfl
    have hd' := hfirst _ (hp d hd)
    have hq13 : ∃ z : Fin 3 → Int, ∀ x, q 0 x + q 2 x + q 1 x = z x := by
      obtain ⟨z, hz⟩ := hq1
      exact ⟨z, fun x => by rw [← hz]; ring⟩
    rw [← nearestTerm_last (tol := tol) hl expi (q 0) (q 1) (q 2)
        (hΦ.last r hr s hs1 _ hd' _ (h3 a) _ (h3 b) _ (h3 d)),
      ← nearestTerm_first ht hl he hs.integer hq13
        (hΦ.first r hr _ hd' s hs1 _ (h3 a) _ (h3 d) _ (h3 b)),
      ← nearestTerm_last (tol := tol) hl expi (q 2) (q 0) (q 1)
        (hΦ.last _ hd' r hr s hs1 _ (h3 d) _ (h3 a) _ (h3 b))]
  rw [on, off t ha hb hd, off _ hb ha hd, off _ hd hb ha, s1, s2, s3]
  have f2 : (fun m => gridQ (addresses ((![t 1, t 0, t 2] : Fin 3 → Int) m)) D Q) =
      (![q 1, q 0, q 2] : Fin 3 → Fin 3 → K) := by
    funext m
    fin_cases m <;> rfl
  have f3 : (fun m => gridQ (addresses ((![t 2, t 1, t 0] : Fin 3 → Int) m)) D Q) =
      (![q 2, q 1, q 0] : Fin 3 → Fin 3 → K) := by
    funext m
    fin_cases m <;> rfl
  rw [f2, f3]
  have c2 : dot (fun x => (![q 1, q 0, q 2] : Fin 3 → Fin 3 → K) 0 x +
      (![q 1, q 0, q 2] : Fin 3 → Fin 3 → K) 1 x + (![q 1, q 0, q 2] : Fin 3 → Fin 3 → K) 2 x)
      (g.pos ((averaged c A).atoms.p2s 0).toNat) =
      dot (fun x => q 0 x + q 1 x + q 2 x) (g.pos ((averaged c A).atoms.p2s 0).toNat) := by
    congr 1
    funext x
    show q 1 x + q 0 x + q 2 x = _
    ring
  have c3 : dot (fun x => (![q 2, q 1, q 0] : Fin 3 → Fin 3 → K) 0 x +
      (![q 2, q 1, q 0] : Fin 3 → Fin 3 → K) 1 x + (![q 2, q 1, q 0] : Fin 3 → Fin 3 → K) 2 x)
      (g.pos ((averaged c A).atoms.p2s 0).toNat) =
      dot (fun x => q 0 x + q 1 x + q 2 x) (g.pos ((averaged c A).atoms.p2s 0).toNat) := by
    congr 1
    funext x
    show q 2 x + q 1 x + q 0 x = _
    ring
  rw [c2, c3]
  generalize hS : (∑ s ∈ Finset.range c.atoms.numSatom, ∑ u ∈ Finset.range c.atoms.numSatom,
      if c.atoms.s2p s = c.atoms.p2s (b / 3) ∧ c.atoms.s2p u = c.atoms.p2s (d / 3) then
        nearestTerm expi g tol Φ (q 0) (q 1) (q 2) (a % 3) (b % 3) (d % 3)
          (c.atoms.p2s (a / 3)).toNat s u else 0) = S at m2 m3
  have e1 : (∑ s ∈ Finset.range (averaged c A).atoms.numSatom,
      ∑ u ∈ Finset.range (averaged c A).atoms.numSatom,
      if (averaged c A).atoms.s2p s = (averaged c A).atoms.p2s (b / 3) ∧
          (averaged c A).atoms.s2p u = (averaged c A).atoms.p2s (d / 3) then
        nearestTerm expi g tol Φ (q 0) (q 1) (q 2) (a % 3) (b % 3) (d % 3)
          ((averaged c A).atoms.p2s (a / 3)).toNat s u else 0) = S := hS
  have e2 : (∑ s ∈ Finset.range (averaged c A).atoms.numSatom,
      ∑ u ∈ Finset.range (averaged c A).atoms.numSatom,
      if (averaged c A).atoms.s2p s = (averaged c A).atoms.p2s (a / 3) ∧
          (averaged c A).atoms.s2p u = (averaged c A).atoms.p2s (d / 3) then
        nearestTerm expi g tol Φ ((![q 1, q 0, q 2] : Fin 3 → Fin 3 → K) 0)
          ((![q 1, q 0, q 2] : Fin 3 → Fin 3 → K) 1) ((![q 1, q 0, q 2] : Fin 3 → Fin 3 → K) 2)
          (b % 3) (a % 3) (d % 3) ((averaged c A).atoms.p2s (b / 3)).toNat s u else 0) = S := m2
  have e3 : (∑ s ∈ Finset.range (averaged c A).atoms.numSatom,
      ∑ u ∈ Finset.range (averaged c A).atoms.numSatom,
      if (averaged c A).atoms.s2p s = (averaged c A).atoms.p2s (b / 3) ∧
          (averaged c A).atoms.s2p u = (averaged c A).atoms.p2s (a / 3) then
        nearestTerm expi g tol Φ ((![q 2, q 1, q 0] : Fin 3 → Fin 3 → K) 0)
          ((![q 2, q 1, q 0] : Fin 3 → Fin 3 → K) 1) ((![q 2, q 1, q 0] : Fin 3 → Fin 3 → K) 2)
          (d % 3) (b % 3) (a % 3) ((averaged c A).atoms.p2s (d / 3)).toNat s u else 0) = S := m3
  rw [e1, e2, e3]
  have l1 : legExtra 1 = (2 : K) := rfl
  have l2 : legExtra 2 = (-1 : K) := rfl
  have l3 : legExtra 3 = (-1 : K) := rfl
  rw [l1, l2, l3]
  have hz : ∀ w : Cplx K, S.scale 2 * w + (S.scale (-1) * w + S.scale (-1) * w) = 0 := by
    intro w
    ext <;> simp [Cplx.scale] <;> ring
  congr 1
  generalize expi _ = w
  have := hz w
  linear_combination this

/-- Without the average, exchange of the second and third member. -/
theorem tripletFc3_last (expi : K → Cplx K) (c : Crystal K)
    (hband : c.numBand = c.atoms.numPatom * 3)
    {Φ : Nat → Nat → Nat → Nat → Nat → Nat → K} (hΦ : HoldsSymmetricFc3 c perms Φ)
    (hs : IsSupercell c.atoms p2p perms g)
    (t0 t1 t2 : Int) (addresses : Int → V3) (D : V3) (Q : M3)
    {a b d : Nat} (ha : a < c.numBand) (hb : b < c.numBand) (hd : d < c.numBand) :
    tripletFc3 expi (notAveraged c) ![t0, t2, t1] addresses D Q a d b =
      tripletFc3 expi (notAveraged c) ![t0, t1, t2] addresses D Q a b d := by
  have h3 : ∀ x, x % 3 < 3 := fun x => Nat.mod_lt _ (by norm_num)
  have hp : a / 3 < c.atoms.numPatom := by omega
  have hpa : (c.atoms.p2s (a / 3)).toNat < c.atoms.numSatom := by
    obtain ⟨h0, h1, -, -⟩ := hs.first _ hp
    omega
  unfold tripletFc3
  rw [show (notAveraged c).numBand = c.numBand from rfl,
    r2r_at3 expi (notAveraged c).atoms _ _ _ hband ha hb hd,
    r2r_at3 expi (notAveraged c).atoms _ _ _ hband ha hd hb]
  unfold r2rEntry
  rw [if_neg (show ¬(notAveraged c).atoms.makeR0Average = true from Bool.false_ne_true),
    if_neg (show ¬(notAveraged c).atoms.makeR0Average = true from Bool.false_ne_true)]
  congr 1
  · refine (r2rElement_swap _ _ _ _ _ _ _ _ 0 0 _ _ fun u hu w hw => ?_).symm
    have hl : ∀ x y, legFactor (notAveraged c).atoms (a / 3) 0 x y = 1 := by
      intro x y
      unfold legFactor
      simp
    rw [hl, hl]
    congr 1
    have h1 := hΦ.holds _ hp u hu w hw _ (h3 a) _ (h3 b) _ (h3 d)
    have h2 := hΦ.holds _ hp w hw u hu _ (h3 a) _ (h3 d) _ (h3 b)
    have h4 := hΦ.last _ hpa u hu w hw _ (h3 a) _ (h3 b) _ (h3 d)
    rw [h4, ← h1] at h2
    unfold fc3At at h2
    show c.fc3 (fc3Row c (a / 3) * 27 * c.atoms.numSatom * c.atoms.numSatom +
        u * 27 * c.atoms.numSatom + w * 27 + ((a % 3) * 9 + (b % 3) * 3 + d % 3 : Nat)) =
      c.fc3 (fc3Row c (a / 3) * 27 * c.atoms.numSatom * c.atoms.numSatom +
        w * 27 * c.atoms.numSatom + u * 27 + ((a % 3) * 9 + (d % 3) * 3 + b % 3 : Nat))
    generalize fc3Row c (a / 3) = row at h2 ⊢
    convert h2.symm using 2 <;> (push_cast; ring)
  · unfold prePhaseFactor
    simp only
    congr 2
    funext x
    show gridQ (addresses t0) D Q x + gridQ (addresses t2) D Q x + gridQ (addresses t1) D Q x =
      gridQ (addresses t0) D Q x + gridQ (addresses t1) D Q x + gridQ (addresses t2) D Q x
    ring

theorem amplitude_swap_first (n : Nat) (s : Nat → K) (Phi : Nat → Nat → Nat → Cplx K)
    (e0 e1 e2 : Nat → Cplx K) :
    amplitude n s (fun a b c => Phi b a c) e1 e0 e2 = amplitude n s Phi e0 e1 e2 := by
  unfold amplitude
  rw [Finset.sum_comm]
  refine Finset.sum_congr rfl fun a _ => Finset.sum_congr rfl fun b _ =>
    Finset.sum_congr rfl fun c _ => ?_
  rw [show s b * s a * s c = s a * s b * s c by ring,
    show e1 b * e0 a * e2 c = e0 a * e1 b * e2 c by ring]

theorem perms_of_three (σ : Equiv.Perm (Fin 3)) :
    σ = 1 ∨ σ = Equiv.swap 0 1 ∨ σ = Equiv.swap 1 2 ∨ σ = Equiv.swap 0 1 * Equiv.swap 1 2 ∨
      σ = Equiv.swap 1 2 * Equiv.swap 0 1 ∨
      σ = Equiv.swap 0 1 * Equiv.swap 1 2 * Equiv.swap 0 1 := by
  revert σ
  decide +kernel

/-- C166: with the average, the interaction strength does not depend on the order of the three
phonons. -/
theorem C166_symmetric (sqrt : K → K) {expi : K → Cplx K} (he : IsPhase expi) (c : Crystal K)
    (hband : c.numBand = c.atoms.numPatom * 3) (lattice : Fin 3 → Fin 3 → K)
    (hlen : g.length = cartesianLength sqrt lattice) (ht : 0 < tol)
    (hs : IsSupercell c.atoms p2p perms g) (hv : ListsShortest c.atoms g tol)
    {Φ : Nat → Nat → Nat → Nat → Nat → Nat → K} (hΦ : HoldsSymmetricFc3 c perms Φ)
    {A : Int → Bool} (hA : getAllShortest sqrt c.atoms p2p perms lattice tol = some A)
    (frequencies : Int → K) (eigenvectors : Int → Cplx K)
    (t : Fin 3 → Int) (addresses : Int → V3) (D : V3) (Q : M3)
    (hq : ∃ z : Fin 3 → Int, ∀ d : Fin 3,
      (gridQ (addresses (t 0)) D Q d + gridQ (addresses (t 1)) D Q d +
        gridQ (addresses (t 2)) D Q d : K) = z d)
    (band : Fin 3 → Nat) (σ : Equiv.Perm (Fin 3)) :
    tripletStrength sqrt expi (averaged c A) frequencies eigenvectors (t ∘ σ) addresses D Q
      (band ∘ σ) =
    tripletStrength sqrt expi (averaged c A) frequencies eigenvectors t addresses D Q band := by
  have av := fun (t : Fin 3 → Int) hq {a b d : Nat} (ha : a < c.numBand) (hb : b < c.numBand)
    (hd : d < c.numBand) => C166_average sqrt he c hband lattice hlen ht hs hv hΦ hA t addresses D Q
      hq ha hb hd
  have last := fun (t0 t1 t2 : Int) {a b d : Nat} (ha : a < c.numBand) (hb : b < c.numBand)
    (hd : d < c.numBand) => tripletFc3_last expi c hband hΦ hs t0 t1 t2 addresses D Q ha hb hd
  let P : Equiv.Perm (Fin 3) → Prop := fun σ => ∀ (t : Fin 3 → Int) (band : Fin 3 → Nat),
    (∃ z : Fin 3 → Int, ∀ d : Fin 3,
      (gridQ (addresses (t 0)) D Q d + gridQ (addresses (t 1)) D Q d +
        gridQ (addresses (t 2)) D Q d : K) = z d) →
    (∃ z : Fin 3 → Int, ∀ d : Fin 3,
      (gridQ (addresses (t (σ 0))) D Q d + gridQ (addresses (t (σ 1))) D Q d +
        gridQ (addresses (t (σ 2))) D Q d : K) = z d) ∧
    tripletStrength sqrt expi (averaged c A) frequencies eigenvectors (t ∘ σ) addresses D Q
      (band ∘ σ) =
    tripletStrength sqrt expi (averaged c A) frequencies eigenvectors t addresses D Q band
  have hmul : ∀ σ τ, P σ → P τ → P (σ * τ) := by
    intro σ τ h1 h2 t band hz
    obtain ⟨k1, e1⟩ := h1 t band hz
    obtain ⟨k2, e2⟩ := h2 (t ∘ σ) (band ∘ σ) k1
    exact ⟨k2, e2.trans e1⟩
  have hstrength : ∀ (σ : Equiv.Perm (Fin 3)) (i0 i1 i2 : Fin 3), σ 0 = i0 → σ 1 = i1 → σ 2 = i2 →
      ∀ (t : Fin 3 → Int) (band : Fin 3 → Nat),
      (∀ (f : Fin 3 → K), f i0 * f i1 * f i2 = f 0 * f 1 * f 2) →
      amplitude c.numBand (fun a => sqrt (c.masses (a / 3)))
        (tripletFc3 expi (averaged c A) (t ∘ σ) addresses D Q)
        (fun a => eigenvectors (t i0 * c.numBand * c.numBand +
          (at2 c.numBand a (band i0) : Nat)))
        (fun a => eigenvectors (t i1 * c.numBand * c.numBand +
          (at2 c.numBand a (band i1) : Nat)))
        (fun a => eigenvectors (t i2 * c.numBand * c.numBand +
          (at2 c.numBand a (band i2) : Nat))) =
      amplitude c.numBand (fun a => sqrt (c.masses (a / 3)))
        (tripletFc3 expi (averaged c A) t addresses D Q)
        (fun a => eigenvectors (t 0 * c.numBand * c.numBand + (at2 c.numBand a (band 0) : Nat)))
        (fun a => eigenvectors (t 1 * c.numBand * c.numBand + (at2 c.numBand a (band 1) : Nat)))
        (fun a => eigenvectors (t 2 * c.numBand * c.numBand + (at2 c.numBand a (band 2) : Nat))) →
      tripletStrength sqrt expi (averaged c A) frequencies eigenvectors (t ∘ σ) addresses D Q
        (band ∘ σ) =
      tripletStrength sqrt expi (averaged c A) frequencies eigenvectors t addresses D Q band := by
    intro σ i0 i1 i2 h0 h1 h2 t band hf hamp
    subst h0 h1 h2
    unfold tripletStrength
    rw [modeStrength_eq, modeStrength_eq]
    have hcond : (∀ m, (averaged c A).cutoff < frequencies ((t ∘ σ) m * (averaged c A).numBand +
        ((band ∘ σ) m : Nat))) ↔
        ∀ m, (averaged c A).cutoff < frequencies (t m * (averaged c A).numBand + (band m : Nat)) := by
      constructor
      · intro h m
        have := h (σ.symm m)
        simpa using this
      · intro h m
        exact h (σ m)
    by_cases h : ∀ m, (averaged c A).cutoff <
        frequencies (t m * (averaged c A).numBand + (band m : Nat))
    · rw [if_pos h, if_pos (hcond.2 h)]
      exact congrArg₂ (fun x y : K => x / y) (congrArg Cplx.normSq hamp)
        (hf fun m => frequencies (t m * (averaged c A).numBand + (band m : Nat)))
    · rw [if_neg h, if_neg (fun h' => h (hcond.1 h'))]
  have h01 : P (Equiv.swap 0 1) := by
    intro t band hz
    have hz' : ∃ z : Fin 3 → Int, ∀ d : Fin 3,
        (gridQ (addresses (t 1)) D Q d + gridQ (addresses (t 0)) D Q d +
          gridQ (addresses (t 2)) D Q d : K) = z d := by
      obtain ⟨z, h⟩ := hz
      exact ⟨z, fun d => by rw [← h]; ring⟩
    refine ⟨hz', hstrength _ 1 0 2 (by decide) (by decide) (by decide) t band (fun f => ?_) ?_⟩
    · ring
    · refine Eq.trans ?_ (amplitude_swap_first _ _ _ _ _ _)
      refine amplitude_congr (fun a ha b hb d hd => ?_) (fun _ _ => rfl) (fun _ _ => rfl)
        (fun _ _ => rfl)
      have e : t ∘ (Equiv.swap 0 1 : Equiv.Perm (Fin 3)) = ![t 1, t 0, t 2] := by
        funext m
        fin_cases m <;> rfl
      have e' : (![t 0, t 1, t 2] : Fin 3 → Int) = t := by
        funext m
        fin_cases m <;> rfl
      have l := last (t 2) (t 1) (t 0) hd ha hb
      have k1 := av ![t 1, t 0, t 2] hz' ha hb hd
      rw [e, k1, av t hz hb ha hd]
      refine congrArg (fun z : Cplx K => z.scale (1 / 3)) ?_
      show tripletFc3 expi (notAveraged c) ![t 1, t 0, t 2] addresses D Q a b d +
          tripletFc3 expi (notAveraged c) ![t 0, t 1, t 2] addresses D Q b a d +
          tripletFc3 expi (notAveraged c) ![t 2, t 0, t 1] addresses D Q d b a =
        tripletFc3 expi (notAveraged c) t addresses D Q b a d +
          tripletFc3 expi (notAveraged c) ![t 1, t 0, t 2] addresses D Q a b d +
          tripletFc3 expi (notAveraged c) ![t 2, t 1, t 0] addresses D Q d a b
      rw [l, e']
      ring
  have h12 : P (Equiv.swap 1 2) := by
    intro t band hz
    have hz' : ∃ z : Fin 3 → Int, ∀ d : Fin 3,
        (gridQ (addresses (t 0)) D Q d + gridQ (addresses (t 2)) D Q d +
          gridQ (addresses (t 1)) D Q d : K) = z d := by
      obtain ⟨z, h⟩ := hz
      exact ⟨z, fun d => by rw [← h]; ring⟩
    refine ⟨hz', hstrength _ 0 2 1 (by decide) (by decide) (by decide) t band (fun f => ?_) ?_⟩
    · ring
    · refine Eq.trans ?_ (amplitude_swap _ _ _ _ _ _)
      refine amplitude_congr (fun a ha b hb d hd => ?_) (fun _ _ => rfl) (fun _ _ => rfl)
        (fun _ _ => rfl)
      have e : t ∘ (Equiv.swap 1 2 : Equiv.Perm (Fin 3)) = ![t 0, t 2, t 1] := by
        funext m
        fin_cases m <;> rfl
      have e' : (![t 0, t 1, t 2] : Fin 3 → Int) = t := by
        funext m
        fin_cases m <;> rfl
      have k1 := av ![t 0, t 2, t 1] hz' ha hb hd
      rw [e, k1, av t hz ha hd hb]
      refine congrArg (fun z : Cplx K => z.scale (1 / 3)) ?_
      show tripletFc3 expi (notAveraged c) ![t 0, t 2, t 1] addresses D Q a b d +
          tripletFc3 expi (notAveraged c) ![t 2, t 0, t 1] addresses D Q b a d +
          tripletFc3 expi (notAveraged c) ![t 1, t 2, t 0] addresses D Q d b a =
        tripletFc3 expi (notAveraged c) t addresses D Q a d b +
          tripletFc3 expi (notAveraged c) ![t 1, t 0, t 2] addresses D Q d a b +
          tripletFc3 expi (notAveraged c) ![t 2, t 1, t 0] addresses D Q b d a
      rw [last (t 0) (t 1) (t 2) ha hd hb, last (t 2) (t 1) (t 0) hb hd ha,
        last (t 1) (t 0) (t 2) hd ha hb, e']
      ring
  have h1 : P 1 := fun t band hz => ⟨hz, rfl⟩
  have hall : P σ := by
    rcases perms_of_three σ with h | h | h | h | h | h <;> rw [h]
    · exact h1
    · exact h01
    · exact h12
    · exact hmul _ _ h01 h12
    · exact hmul _ _ h12 h01
    · exact hmul _ _ (hmul _ _ h01 h12) h01
  exact (hall t band hq).2

end
/-! ## A concrete case -/

section Examples

/-- Place of atom `s` of a ring of three, seen from atom 0. -/
def ringPlace (s : Int) : Int := if s = 2 then -1 else s

/-- Force constants of a ring of three atoms. -/
def triRingFc3 (r s t x y z : Nat) : Int :=
  (if r = s ∧ s = t then 5 else if r = s ∨ s = t ∨ r = t then 2 else 1) * (x + y + z + 1)

/-- A crystal with one atom in the primitive cell, in a supercell of three cells. -/
noncomputable def ring : Crystal ℝ where
  atoms :=
    { svecs := fun k => ![(ringPlace k : ℝ), 0, 0]
      multiplicity := fun k => (1, k)
      numSatom := 3
      numPatom := 1
      p2s := fun _ => 0
      s2p := fun _ => 0
      makeR0Average := true
      allShortest := fun _ => false }
  fc3 := fun p => (triRingFc3 0 (p / 81).toNat (p / 27 % 3).toNat (p / 9 % 3).toNat (p / 3 % 3).toNat
    (p % 3).toNat : Int)
  isCompact := true
  masses := fun _ => 4
  bandIndices := fun b => b
  numBand := 3
  cutoff := 0

/-- The three translations of the ring. -/
def ringPerms : List (Nat → Nat) := [fun s => s, fun s => (s + 1) % 3, fun s => (s + 2) % 3]

/-- The unit matrix. -/
def ringLattice : Fin 3 → Fin 3 → ℝ := fun i j => if i = j then 1 else 0

/-- The positions and translations of the ring; its length is three, in the other directions the
cell is repeated. -/
noncomputable def ringGeometry : Geometry ℝ where
  pos s := ![(s : ℝ), 0, 0]
  lattice :=
    { carrier := {v | ∃ a b c : Int, v = ![3 * (a : ℝ), b, c]}
      zero_mem' := ⟨0, 0, 0, by funext d; fin_cases d <;> simp⟩
      add_mem' := by
        rintro _ _ ⟨a, b, c, rfl⟩ ⟨a', b', c', rfl⟩
        refine ⟨a + a', b + b', c + c', ?_⟩
        funext d
        fin_cases d <;> simp
        ring
      neg_mem' := by
        rintro _ ⟨a, b, c, rfl⟩
        refine ⟨-a, -b, -c, ?_⟩
        funext d
        fin_cases d <;> simp }
  length := cartesianLength Real.sqrt ringLattice

theorem mem_ringLattice (v : Fin 3 → ℝ) :
    v ∈ ringGeometry.lattice ↔ ∃ a b c : Int, v = ![3 * (a : ℝ), b, c] := Iff.rfl

theorem ring_isSupercell : IsSupercell ring.atoms (fun _ => 0) ringPerms ringGeometry where
  integer := by
    rintro _ ⟨a, b, c, rfl⟩
    refine ⟨![3 * a, b, c], fun d => ?_⟩
    fin_cases d <;> simp
  first := by
    intro i hi
    have hi' : i < 1 := hi
    obtain rfl : i = 0 := by omega
    exact ⟨le_refl _, by show (0 : Int) < ((3 : Nat) : Int); norm_num, rfl, rfl⟩
  others := by
    intro s hs
    refine ⟨by show 0 < 1; norm_num, rfl, ![s, 0, 0], fun d => ?_⟩
    fin_cases d <;> simp [ringGeometry, ring]
  distinct := by
    rintro s hs t ht h
    obtain ⟨a, b, c, e⟩ := (mem_ringLattice _).1 h
    have e0 := congrFun e 0
    simp only [ringGeometry, Pi.sub_apply, Matrix.cons_val_zero] at e0
    have e1 : (s : Int) - t = 3 * a := by exact_mod_cast e0
    have hs' : s < 3 := hs
    have ht' : t < 3 := ht
    omega
  translation := by
    intro σ hσ
    have key : ∀ n : Nat, (∀ s < 3, (s + n) % 3 < 3) ∧ ∃ t : Fin 3 → ℝ, ∀ s < 3,
        ringGeometry.pos ((s + n) % 3) - ringGeometry.pos s - t ∈ ringGeometry.lattice := by
      intro n
      refine ⟨fun s _ => Nat.mod_lt _ (by norm_num), ![(n : ℝ), 0, 0], fun s _ => ?_⟩
      refine (mem_ringLattice _).2 ⟨-((s + n) / 3 : Nat), 0, 0, ?_⟩
      have h : ((s + n) % 3 : Nat) = (s : ℝ) + n - 3 * ((s + n) / 3 : Nat) := by
        have := Nat.div_add_mod (s + n) 3
        have h2 : ((3 * ((s + n) / 3) + (s + n) % 3 : Nat) : ℝ) = ((s + n : Nat) : ℝ) := by rw [this]
        push_cast at h2 ⊢
        linarith
      funext d
      fin_cases d
      · simp only [ringGeometry, Pi.sub_apply, Fin.zero_eta, Matrix.cons_val_zero]
        rw [h, Int.cast_neg, Int.cast_natCast]
        ring
      · simp [ringGeometry]
      · simp [ringGeometry]
    have h0 : ∃ n : Nat, ∀ s < 3, σ s = (s + n) % 3 := by
      simp only [ringPerms, List.mem_cons, List.not_mem_nil, or_false] at hσ
      rcases hσ with rfl | rfl | rfl
      · exact ⟨0, fun s hs => by simp only [Nat.add_zero]; omega⟩
      · exact ⟨1, fun s _ => rfl⟩
      · exact ⟨2, fun s _ => rfl⟩
    obtain ⟨n, hn⟩ := h0
    obtain ⟨k1, t, k2⟩ := key n
    refine ⟨fun s hs => ⟨?_, rfl⟩, t, fun s hs => ?_⟩
    · rw [hn s hs]
      exact k1 s hs
    · rw [hn s hs]
      exact k2 s hs
  unique := by
    intro s hs
    have : ∀ s < 3, ringPerms.countP (fun σ => decide ((σ s : Int) = 0)) = 1 := by decide +kernel
    exact this s hs

theorem ring_length (a b c : Int) :
    ringGeometry.length ![(a : ℝ), b, c] = Real.sqrt ((a * a + b * b + c * c : Int) : ℝ) := by
  show cartesianLength Real.sqrt ringLattice _ = _
  unfold cartesianLength
  congr 1
  simp [ringLattice, Fin.sum_univ_three, pow_two]

theorem ring_joins (s : Nat) (hs : s < 3) (v : Fin 3 → ℝ) :
    ringGeometry.Joins 0 s v ↔ ∃ a b c : Int, v = ![((ringPlace s + 3 * a : Int) : ℝ), b, c] := by
  unfold Geometry.Joins
  rw [mem_ringLattice]
  have h : ∃ m : Int, (s : Int) = ringPlace s + 3 * m := by
    unfold ringPlace
    split_ifs with h
    · exact ⟨1, by omega⟩
    · exact ⟨0, by omega⟩
  obtain ⟨m, hm⟩ := h
  have hm' : (s : ℝ) = (ringPlace s : ℝ) + 3 * m := by exact_mod_cast hm
  constructor
  · rintro ⟨a, b, c, e⟩
    refine ⟨a + m, b, c, ?_⟩
    funext d
    have e0 := congrFun e d
    fin_cases d
    · simp [ringGeometry] at e0 ⊢
      linarith
    · simp [ringGeometry] at e0 ⊢
      linarith
    · simp [ringGeometry] at e0 ⊢
      linarith
  · rintro ⟨a, b, c, rfl⟩
    refine ⟨a - m, b, c, ?_⟩
    funext d
    fin_cases d
    · simp [ringGeometry]
      linarith
    · simp [ringGeometry]
    · simp [ringGeometry]

theorem ring_longer {e a b c : Int} (he : e = 0 ∨ e = 1 ∨ e = -1) (h : ¬(a = 0 ∧ b = 0 ∧ c = 0)) :
    Real.sqrt ((e * e : Int) : ℝ) + 1 / 4 ≤
      Real.sqrt (((e + 3 * a) * (e + 3 * a) + b * b + c * c : Int) : ℝ) := by
  have hpos : 1 ≤ a * a + b * b + c * c := by
    by_contra hlt
    have h1 := mul_self_nonneg a
    have h2 := mul_self_nonneg b
    have h3 := mul_self_nonneg c
    exact h ⟨mul_self_eq_zero.1 (by omega), mul_self_eq_zero.1 (by omega),
      mul_self_eq_zero.1 (by omega)⟩
  have hsq : e * e + 1 ≤ (e + 3 * a) * (e + 3 * a) + b * b + c * c := by
    have h2 := mul_self_nonneg b
    have h3 := mul_self_nonneg c
    by_cases ha : a = 0
    · subst ha
      nlinarith
    · have : 1 ≤ a ∨ a ≤ -1 := by omega
      rcases he with rfl | rfl | rfl <;> rcases this with h4 | h4 <;> nlinarith
  have hle : Real.sqrt ((e * e + 1 : Int) : ℝ) ≤
      Real.sqrt (((e + 3 * a) * (e + 3 * a) + b * b + c * c : Int) : ℝ) :=
    Real.sqrt_le_sqrt (by exact_mod_cast hsq)
  refine le_trans ?_ hle
  have hval : (e * e = 0) ∨ (e * e = 1) := by rcases he with rfl | rfl | rfl <;> simp
  rcases hval with h0 | h0 <;> rw [h0]
  · simp
    norm_num
  · have : (5 / 4 : ℝ) ≤ Real.sqrt ((1 + 1 : Int) : ℝ) := by
      apply Real.le_sqrt_of_sq_le
      norm_num
    simp only [Int.cast_one, Real.sqrt_one]
    linarith

theorem ring_listsShortest : ListsShortest ring.atoms ringGeometry (1 / 4) where
  all := by
    intro i hi s hs
    have hi' : i < 1 := hi
    obtain rfl : i = 0 := by omega
    have hs' : s < 3 := hs
    have he : ringPlace s = 0 ∨ ringPlace s = 1 ∨ ringPlace s = -1 := by
      unfold ringPlace
      split_ifs with h
      · simp
      · omega
    have hvec : ∀ k : Int, ring.atoms.svecs k = ![((ringPlace k : Int) : ℝ), (0 : Int), (0 : Int)] := by
      intro k
      funext d
      fin_cases d <;> simp [ring]
    have hidx : (ring.atoms.multiplicity ((s : Int) * (ring.atoms.numPatom : Int) + ((0 : Nat) : Int))).2 = s := by
      show (s : Int) * ((1 : Nat) : Int) + ((0 : Nat) : Int) = s
      simp
    have hlen : ringGeometry.length ![((ringPlace s : Int) : ℝ), (0 : Int), (0 : Int)] =
        Real.sqrt ((ringPlace s * ringPlace s : Int) : ℝ) := by
      rw [ring_length]
      simp
    refine ⟨![((ringPlace s : Int) : ℝ), (0 : Int), (0 : Int)], ?_, ?_, ?_⟩
    · exact (ring_joins s hs' _).2 ⟨0, 0, 0, by simp⟩
    · intro u hu
      obtain ⟨a, b, c, rfl⟩ := (ring_joins s hs' u).1 hu
      rw [hlen, ring_length]
      by_cases h : a = 0 ∧ b = 0 ∧ c = 0
      · obtain ⟨rfl, rfl, rfl⟩ := h
        simp
      · have := ring_longer he h
        linarith
    · intro v
      constructor
      · rintro ⟨x, hx, rfl⟩
        have hx' : x < 1 := hx
        obtain rfl : x = 0 := by omega
        rw [hidx, hvec]
        simp only [Nat.cast_zero, add_zero]
        exact ⟨(ring_joins s hs' _).2 ⟨0, 0, 0, by simp⟩, by linarith⟩
      · rintro ⟨hj, hl⟩
        obtain ⟨a, b, c, rfl⟩ := (ring_joins s hs' v).1 hj
        refine ⟨0, Nat.one_pos, ?_⟩
        rw [hidx, hvec]
        simp only [Nat.cast_zero, add_zero]
        by_cases h : a = 0 ∧ b = 0 ∧ c = 0
        · obtain ⟨rfl, rfl, rfl⟩ := h
          simp
        · have := ring_longer he h
          rw [hlen, ring_length] at hl
          linarith
  once := by
    intro i hi s hs x hx y hy _
    have hx' : x < 1 := hx
    have hy' : y < 1 := hy
    omega

theorem triRing_symmetric : HoldsSymmetricFc3 ring ringPerms (fun r s t x y z => (triRingFc3 r s t x y z : ℝ))
    where
  holds := by
    intro i hi s hs t ht x hx y hy z hz
    have hi' : i < 1 := hi
    obtain rfl : i = 0 := by omega
    have h : ∀ s < 3, ∀ t < 3, ∀ x < 3, ∀ y < 3, ∀ z < 3,
        triRingFc3 0 (fc3At 3 0 s t x y z / 81).toNat (fc3At 3 0 s t x y z / 27 % 3).toNat
          (fc3At 3 0 s t x y z / 9 % 3).toNat (fc3At 3 0 s t x y z / 3 % 3).toNat
          (fc3At 3 0 s t x y z % 3).toNat = triRingFc3 0 s t x y z := by decide +kernel
    exact congrArg (Int.cast : Int → ℝ) (h s hs t ht x hx y hy z hz)
  first := by
    intro r _ s _ t _ x _ y _ z _
    have : triRingFc3 s r t y x z = triRingFc3 r s t x y z := by
      unfold triRingFc3
      rw [show (y : Int) + x + z + 1 = x + y + z + 1 by ring]
      congr 1
      split_ifs <;> first | rfl | omega
    exact congrArg (Int.cast : Int → ℝ) this
  last := by
    intro r _ s _ t _ x _ y _ z _
    have : triRingFc3 r t s x z y = triRingFc3 r s t x y z := by
      unfold triRingFc3
      rw [show (x : Int) + z + y + 1 = x + y + z + 1 by ring]
      congr 1
      split_ifs <;> first | rfl | omega
    exact congrArg (Int.cast : Int → ℝ) this
  translation := by
    intro σ hσ r hr s hs t ht x hx y hy z hz
    have h : ∀ σ ∈ ringPerms, ∀ r < 3, ∀ s < 3, ∀ t < 3,
        triRingFc3 (σ r) (σ s) (σ t) 0 0 0 = triRingFc3 r s t 0 0 0 := by decide +kernel
    have h1 := h σ hσ r hr s hs t ht
    have : triRingFc3 (σ r) (σ s) (σ t) x y z = triRingFc3 r s t x y z := by
      unfold triRingFc3 at h1 ⊢
      simp only [Nat.cast_zero, add_zero, zero_add, mul_one] at h1
      rw [h1]
    exact congrArg (Int.cast : Int → ℝ) this

/-- The hypotheses of C166 are met by the ring; the triple of the three atoms is not flagged, a triple
of two atoms is. -/
example : (∃ A, getAllShortest Real.sqrt ring.atoms (fun _ => 0) ringPerms ringLattice (1 / 4) = some A) ∧
    ¬ringGeometry.AllNearest (1 / 4) 0 1 2 ∧ ringGeometry.AllNearest (1 / 4) 0 1 1 := by
  have near : ∀ s < 3, ∀ v, ringGeometry.Nearest (1 / 4) 0 s v →
      v = ![((ringPlace (s : Nat) : Int) : ℝ), 0, 0] := by
    intro s hs v hv
    have := ((shortest_nearest (by norm_num) ring_listsShortest (i := 0) (s := s) Nat.one_pos hs).2 v
      hv).2
    rw [← this]
    show ![(ringPlace ((s : Int) * ((1 : Nat) : Int) + ((0 : Nat) : Int)) : ℝ), 0, 0] = _
    simp
  have near' : ∀ s < 3, ringGeometry.Nearest (1 / 4) 0 s ![((ringPlace (s : Nat) : Int) : ℝ), 0, 0] := by
    intro s hs
    have := ((shortest_nearest (by norm_num) ring_listsShortest (i := 0) (s := s) Nat.one_pos hs).1
      (by show ¬(1 : Nat) > 1; norm_num)).2
    have e : ring.atoms.svecs (multiAt ring.atoms s 0).2 = ![((ringPlace (s : Nat) : Int) : ℝ), 0, 0] := by
      show ![(ringPlace ((s : Int) * ((1 : Nat) : Int) + ((0 : Nat) : Int)) : ℝ), 0, 0] = _
      simp
    rw [e] at this
    exact this
  have shift : ∀ v, ringGeometry.Nearest (1 / 4) 1 2 v ↔ ringGeometry.Nearest (1 / 4) 0 1 v := by
    intro v
    have h := nearest_translate (tol := 1 / 4) ring_isSupercell (σ := fun s => (s + 2) % 3)
      (by simp [ringPerms]) (a := 1) (b := 2) (by show 1 < 3; norm_num) (by show 2 < 3; norm_num) v
    exact h.symm
  have shift' : ∀ v, ringGeometry.Nearest (1 / 4) 1 1 v ↔ ringGeometry.Nearest (1 / 4) 0 0 v := by
    intro v
    have h := nearest_translate (tol := 1 / 4) ring_isSupercell (σ := fun s => (s + 2) % 3)
      (by simp [ringPerms]) (a := 1) (b := 1) (by show 1 < 3; norm_num) (by show 1 < 3; norm_num) v
    exact h.symm
  refine ⟨Option.isSome_iff_exists.1 (C166_total Real.sqrt ring ringLattice ring_isSupercell), ?_, ?_⟩
  · rintro ⟨v, w, h1, h2, h3⟩
    have e1 := near 1 (by norm_num) v h1
    have e2 := near 2 (by norm_num) w h2
    have e3 := near 1 (by norm_num) _ ((shift _).1 h3)
    rw [e1, e2] at e3
    have := congrFun e3 0
    simp [ringPlace] at this
    norm_num at this
  · refine ⟨_, _, near' 1 (by norm_num), near' 1 (by norm_num), ?_⟩
    rw [shift']
    have := near' 0 (by norm_num)
    convert this using 1
    funext d
    fin_cases d <;> simp [ringPlace]

/-- The hypotheses of `C166_symmetric` are met by the ring and the triplet of wave vectors 0, 1/3,
-1/3. -/
example (A : Int → Bool)
    (hA : getAllShortest Real.sqrt ring.atoms (fun _ => 0) ringPerms ringLattice (1 / 4) = some A)
    (f : Int → ℝ) (e : Int → Cplx ℝ) (band : Fin 3 → Nat) (σ : Equiv.Perm (Fin 3)) :
    tripletStrength Real.sqrt realPhase (averaged ring A) f e (![0, 1, 2] ∘ σ) chainAddress ⟨3, 1, 1⟩
      ⟨1, 0, 0, 0, 1, 0, 0, 0, 1⟩ (band ∘ σ) =
    tripletStrength Real.sqrt realPhase (averaged ring A) f e ![0, 1, 2] chainAddress ⟨3, 1, 1⟩
      ⟨1, 0, 0, 0, 1, 0, 0, 0, 1⟩ band := by
  refine C166_symmetric Real.sqrt realPhase_isPhase ring rfl ringLattice rfl (by norm_num)
    ring_isSupercell ring_listsShortest triRing_symmetric hA f e _ _ _ _ ⟨0, fun d => ?_⟩ band σ
  fin_cases d <;> simp [gridQ, chainAddress, Fin.sum_univ_three, V3.e, M3.e]
  norm_num

end Examples

end Props
end Phono3py
