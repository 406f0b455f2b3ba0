import Verif.Lemmas.TripletTotal
import Verif.Props.Interaction
import Verif.Props.Triplet

/-!
C128: interaction strengths of equivalent triplets.
-/

set_option linter.unusedSectionVars false

namespace Phono3py.Props
open Phono3py Phono3py.Spec Finset

section
variable {K : Type} [Field K] [LinearOrder K] [IsStrictOrderedRing K]

/-- Sum over all modes of a triplet of a function of their three frequencies times the interaction
strength. -/
def weightedTotal (sqrt : K → K) (expi : K → Cplx K) (c : Crystal K) (frequencies : Int → K)
    (eigenvectors : Int → Cplx K) (t : Fin 3 → Int) (addresses : Int → V3) (D : V3) (Q : M3)
    (Ψ : K → K → K → K) : K :=
  ∑ b0 ∈ range c.numBand, ∑ b1 ∈ range c.numBand, ∑ b2 ∈ range c.numBand,
    Ψ (frequencies (t 0 * c.numBand + b0)) (frequencies (t 1 * c.numBand + b1))
      (frequencies (t 2 * c.numBand + b2)) *
    tripletStrength sqrt expi c frequencies eigenvectors t addresses D Q ![b0, b1, b2]

/-- The arrays hold, for grid point `gp`, complete phonons of the dynamical matrix at the q-point of
`gp`: an orthonormal set of eigenvectors, any one, with their frequencies in any order. -/
def PhononsAt (sqrt : K → K) (expi : K → Cplx K) (fc : Fc2Cell K) (nac : Option (NacParams K))
    (recip : Nat → Nat → K) (lam : K → K) (numBand : Nat) (frequencies : Int → K)
    (eigenvectors : Int → Cplx K) (addresses : Int → V3) (D : V3) (Q : M3) (gp : Int) : Prop :=
  Modes fc.numPatom lam (wangMatrix sqrt expi fc nac recip
      (fun d => gridQ (addresses gp) D Q (Fin.ofNat 3 d)) none fun _ => 0)
    (fun b => frequencies (gp * numBand + b))
    (fun x => eigenvectors (gp * numBand * numBand + x))

/-- The weight that turns `|amplitude|²` into strengths. -/
def strengthWeight (cutoff : K) (Ψ : K → K → K → K) (x y z : K) : K :=
  if cutoff < x ∧ cutoff < y ∧ cutoff < z then Ψ x y z / (x * y * z) else 0

/-- The q-points of a triplet. -/
def tripletQ (addresses : Int → V3) (D : V3) (Q : M3) (t : Fin 3 → Int) : Fin 3 → Fin 3 → K :=
  fun m => gridQ (addresses (t m)) D Q

/-- The frequencies of the members of a triplet. -/
def tripletFreq (numBand : Nat) (frequencies : Int → K) (t : Fin 3 → Int) : Fin 3 → Nat → K :=
  fun m b => frequencies (t m * numBand + b)

/-- The eigenvectors of the members of a triplet. -/
def tripletEig (numBand : Nat) (eigenvectors : Int → Cplx K) (t : Fin 3 → Int) :
    Fin 3 → Int → Cplx K :=
  fun m x => eigenvectors (t m * numBand * numBand + x)

theorem weightedTotal_eq (sqrt : K → K) (expi : K → Cplx K) (c : Crystal K) (frequencies : Int → K)
    (eigenvectors : Int → Cplx K) (t : Fin 3 → Int) (addresses : Int → V3) (D : V3) (Q : M3)
    (hb : c.numBand = c.atoms.numPatom * 3) (Ψ : K → K → K → K) :
    weightedTotal sqrt expi c frequencies eigenvectors t addresses D Q Ψ =
      qTotal sqrt expi c (tripletQ addresses D Q t) (tripletFreq c.numBand frequencies t)
        (tripletEig c.numBand eigenvectors t) (strengthWeight c.cutoff Ψ) := by
  unfold weightedTotal qTotal tripletQ tripletFreq tripletEig
  rw [← hb]
  refine Finset.sum_congr rfl fun x _ => Finset.sum_congr rfl fun y _ =>
    Finset.sum_congr rfl fun z _ => ?_
  unfold tripletStrength strengthWeight
  rw [modeStrength_eq]
  have h3 : 3 * c.atoms.numPatom = c.numBand := by omega
  have hc : (∀ m, c.cutoff < frequencies (t m * c.numBand + ((![x, y, z] : Fin 3 → Nat) m : Nat))) ↔
      c.cutoff < frequencies (t 0 * c.numBand + x) ∧ c.cutoff < frequencies (t 1 * c.numBand + y) ∧
        c.cutoff < frequencies (t 2 * c.numBand + z) := by
    constructor
    · exact fun h => ⟨h 0, h 1, h 2⟩
    · rintro ⟨h0, h1, h2⟩ m
      fin_cases m
      · exact h0
      · exact h1
      · exact h2
  unfold column
  rw [h3]
  by_cases h : ∀ m, c.cutoff < frequencies (t m * c.numBand + ((![x, y, z] : Fin 3 → Nat) m : Nat))
  · rw [if_pos h, if_pos (hc.1 h), div_mul_eq_mul_div, mul_div_assoc]
    rfl
  · rw [if_neg h, if_neg (fun h' => h (hc.2 h')), mul_zero, zero_mul]

section
variable {sqrt : K → K} {expi : K → Cplx K} {c : Crystal K} {fc : Fc2Cell K}
  {nac : Option (NacParams K)} {recip : Nat → Nat → K} {lam : K → K}

theorem triplet_modes {frequencies : Int → K} {numBand : Nat}
    {eigenvectors : Int → Cplx K} {addresses : Int → V3} {D : V3} {Q : M3}
    {t : Fin 3 → Int}
    (h : ∀ m, PhononsAt sqrt expi fc nac recip lam numBand frequencies eigenvectors addresses D Q
      (t m)) (m : Fin 3) :
    ModesAt sqrt expi fc nac recip lam (tripletQ addresses D Q t m) (tripletFreq numBand frequencies t m)
      (tripletEig numBand eigenvectors t m) := h m

/-- C128: the choice of eigenvectors of degenerate modes, their phases and the order of the modes do
not matter for sums over modes. -/
theorem C128_choice (hb : c.numBand = c.atoms.numPatom * 3) (hp : fc.numPatom = c.atoms.numPatom)
    (hlam : ∀ x y, lam x = lam y → x = y) {frequencies frequencies' : Int → K}
    {eigenvectors eigenvectors' : Int → Cplx K} {addresses : Int → V3} {D : V3} {Q : M3}
    {t : Fin 3 → Int}
    (h : ∀ m, PhononsAt sqrt expi fc nac recip lam c.numBand frequencies eigenvectors addresses D Q
      (t m))
    (h' : ∀ m, PhononsAt sqrt expi fc nac recip lam c.numBand frequencies' eigenvectors' addresses D Q
      (t m)) (Ψ : K → K → K → K) :
    weightedTotal sqrt expi c frequencies' eigenvectors' t addresses D Q Ψ =
      weightedTotal sqrt expi c frequencies eigenvectors t addresses D Q Ψ := by
  rw [weightedTotal_eq _ _ _ _ _ _ _ _ _ hb, weightedTotal_eq _ _ _ _ _ _ _ _ _ hb]
  exact qTotal_choice hp hlam (triplet_modes h) (triplet_modes h') _

/-- C128: when an operation of the space group, followed by translations by vectors of the
reciprocal lattice, takes the wave vectors of one triplet to those of another, sums over modes of
functions of the frequencies times interaction strengths are the same for both, whatever eigenvectors
were found at the six grid points.  The method of Wang for polar crystals is not periodic in
reciprocal space; with it there must be no translation. -/
theorem C128_rotated (he : IsPhase expi) (hb : c.numBand = c.atoms.numPatom * 3)
    (hp : fc.numPatom = c.atoms.numPatom) (hlam : ∀ x y, lam x = lam y → x = y)
    {W R : RM K} {g : Nat → Nat} (hs : IsSymmetry fc (natRM W) (natRM R) g)
    (hn : ∀ p, nac = some p → IsNacSymmetry fc p recip (natRM W) (natRM R) g)
    (h3 : IsFc3Symmetry c (natRM W) (natRM R) g) {τ : Nat → Fin 3 → K}
    (hτ : LatticeVectors fc fun j d => τ j (Fin.ofNat 3 d)) (hτ3 : HasPositions c τ)
    {frequencies : Int → K} {eigenvectors : Int → Cplx K} {addresses : Int → V3} {D : V3} {Q : M3}
    {t t' : Fin 3 → Int}
    (hm : ∀ d, ∃ z : Int, gridQ (K := K) (addresses (t 0)) D Q d + gridQ (addresses (t 1)) D Q d +
      gridQ (addresses (t 2)) D Q d = z)
    (G : Fin 3 → Fin 3 → Int)
    (hq : ∀ m d, gridQ (addresses (t' m)) D Q d =
      turned (natRM W) (gridQ (addresses (t m)) D Q) d + G m d)
    (hnac : nac = none ∨ ∀ m d, G m d = 0)
    (h : ∀ m, PhononsAt sqrt expi fc nac recip lam c.numBand frequencies eigenvectors addresses D Q
      (t m))
    (h' : ∀ m, PhononsAt sqrt expi fc nac recip lam c.numBand frequencies eigenvectors addresses D Q
      (t' m)) (Ψ : K → K → K → K) :
    weightedTotal sqrt expi c frequencies eigenvectors t' addresses D Q Ψ =
      weightedTotal sqrt expi c frequencies eigenvectors t addresses D Q Ψ := by
  rw [weightedTotal_eq _ _ _ _ _ _ _ _ _ hb, weightedTotal_eq _ _ _ _ _ _ _ _ _ hb]
  obtain ⟨v1, m1, e1⟩ := qTotal_turned he hp hs hn h3 (q := tripletQ addresses D Q t) hm
    (triplet_modes h)
  rw [← e1]
  rcases hnac with hnac | hG
  · subst hnac
    obtain ⟨v2, m2, e2⟩ := qTotal_translate he hp hτ hτ3 G m1
    have hq' : (tripletQ addresses D Q t' : Fin 3 → Fin 3 → K) =
        fun m d => turned (natRM W) (tripletQ addresses D Q t m) d + (G m d : K) := by
      funext m d
      exact hq m d
    rw [← e2, hq']
    refine qTotal_choice hp hlam m2 (fun m => ?_) _
    have := triplet_modes h' m
    rw [hq'] at this
    exact this
  · have hq' : (tripletQ addresses D Q t' : Fin 3 → Fin 3 → K) =
        fun m => turned (natRM W) (tripletQ addresses D Q t m) := by
      funext m d
      refine (hq m d).trans ?_
      rw [hG, Int.cast_zero, add_zero]
      rfl
    rw [hq']
    refine qTotal_choice hp hlam m1 (fun m => ?_) _
    have := triplet_modes h' m
    rw [hq'] at this
    exact this

/-- C128: the same for triplets related by time reversal and translations. -/
theorem C128_reversed (he : IsPhase expi) (hb : c.numBand = c.atoms.numPatom * 3)
    (hp : fc.numPatom = c.atoms.numPatom) (hlam : ∀ x y, lam x = lam y → x = y)
    {τ : Nat → Fin 3 → K}
    (hτ : LatticeVectors fc fun j d => τ j (Fin.ofNat 3 d)) (hτ3 : HasPositions c τ)
    {frequencies : Int → K} {eigenvectors : Int → Cplx K} {addresses : Int → V3} {D : V3} {Q : M3}
    {t t' : Fin 3 → Int} (G : Fin 3 → Fin 3 → Int)
    (hq : ∀ m d, gridQ (K := K) (addresses (t' m)) D Q d = -gridQ (addresses (t m)) D Q d + G m d)
    (hnac : nac = none ∨ ∀ m d, G m d = 0)
    (h : ∀ m, PhononsAt sqrt expi fc nac recip lam c.numBand frequencies eigenvectors addresses D Q
      (t m))
    (h' : ∀ m, PhononsAt sqrt expi fc nac recip lam c.numBand frequencies eigenvectors addresses D Q
      (t' m)) (Ψ : K → K → K → K) :
    weightedTotal sqrt expi c frequencies eigenvectors t' addresses D Q Ψ =
      weightedTotal sqrt expi c frequencies eigenvectors t addresses D Q Ψ := by
  rw [weightedTotal_eq _ _ _ _ _ _ _ _ _ hb, weightedTotal_eq _ _ _ _ _ _ _ _ _ hb]
  obtain ⟨v1, m1, e1⟩ := qTotal_reversed (c := c) he.neg (triplet_modes h)
  rw [← e1]
  rcases hnac with hnac | hG
  · subst hnac
    obtain ⟨v2, m2, e2⟩ := qTotal_translate he hp hτ hτ3 G m1
    have hq' : (tripletQ addresses D Q t' : Fin 3 → Fin 3 → K) =
        fun m d => -tripletQ addresses D Q t m d + (G m d : K) := by
      funext m d
      exact hq m d
    rw [← e2, hq']
    refine qTotal_choice hp hlam m2 (fun m => ?_) _
    have := triplet_modes h' m
    rw [hq'] at this
    exact this
  · have hq' : (tripletQ addresses D Q t' : Fin 3 → Fin 3 → K) =
        fun m d => -tripletQ addresses D Q t m d := by
      funext m d
      refine (hq m d).trans ?_
      rw [hG, Int.cast_zero, add_zero]
      rfl
    rw [hq']
    refine qTotal_choice hp hlam m1 (fun m => ?_) _
    have := triplet_modes h' m
    rw [hq'] at this
    exact this

/-- The third-order force constants do not change when second and third atom are exchanged. -/
def ExchangeSymmetric (c : Crystal K) : Prop :=
  (∀ i < c.atoms.numPatom, ∀ j < c.atoms.numSatom, ∀ k < c.atoms.numSatom,
      ∀ x < 3, ∀ y < 3, ∀ z < 3,
      c.fc3 (fc3At c.atoms.numSatom (fc3Row c i) j k x y z) =
      c.fc3 (fc3At c.atoms.numSatom (fc3Row c i) k j x z y)) ∧
  ∀ i < c.atoms.numPatom, ∀ j < c.atoms.numSatom, ∀ k < c.atoms.numSatom,
      c.atoms.allShortest (at3 c.atoms.numSatom c.atoms.numSatom i j k : Nat) =
      c.atoms.allShortest (at3 c.atoms.numSatom c.atoms.numSatom i k j : Nat)

/-- C128: the same for triplets whose second and third members are exchanged. -/
theorem C128_exchanged (hb : c.numBand = c.atoms.numPatom * 3) (hx : ExchangeSymmetric c)
    (frequencies : Int → K) (eigenvectors : Int → Cplx K) (addresses : Int → V3) (D : V3) (Q : M3)
    (t : Fin 3 → Int) (Ψ : K → K → K → K) :
    weightedTotal sqrt expi c frequencies eigenvectors ![t 0, t 2, t 1] addresses D Q Ψ =
      weightedTotal sqrt expi c frequencies eigenvectors t addresses D Q fun x y z => Ψ x z y := by
  unfold weightedTotal
  refine Finset.sum_congr rfl fun x _ => ?_
  rw [Finset.sum_comm]
  refine Finset.sum_congr rfl fun y _ => Finset.sum_congr rfl fun z _ => ?_
  rw [← C66_exchange sqrt expi c frequencies eigenvectors t addresses D Q hb hx.1 hx.2 ![x, y, z]]
  rfl

/-! ## C129 -/

/-- The operation `R` on grid addresses is one of the crystal: it acts on the q-points as an
operation that leaves masses and the force constants of second and third order as they are. -/
def CrystalOperation (c : Crystal K) (fc : Fc2Cell K) (D : V3) (Q R : M3) : Prop :=
  ∃ (W C : RM K) (g : Nat → Nat),
    (∀ a, (gridQ (R.mulVec a) D Q : Fin 3 → K) = turned (natRM W) (gridQ a D Q)) ∧
    IsSymmetry fc (natRM W) (natRM C) g ∧ IsFc3Symmetry c (natRM W) (natRM C) g

theorem gridQ_add (a b D : V3) (Q : M3) (d : Fin 3) :
    (gridQ (a + b) D Q d : K) = gridQ a D Q d + gridQ b D Q d := by
  unfold gridQ
  rw [← Finset.sum_add_distrib]
  refine Finset.sum_congr rfl fun j _ => ?_
  have he : ((a + b).e j : K) = (a.e j : K) + (b.e j : K) := by
    rw [← Int.cast_add]
    fin_cases j <;> rfl
  rw [he]
  ring

theorem gridQ_neg (a D : V3) (Q : M3) (d : Fin 3) : (gridQ (-a) D Q d : K) = -gridQ a D Q d := by
  unfold gridQ
  rw [← Finset.sum_neg_distrib]
  refine Finset.sum_congr rfl fun j _ => ?_
  have he : ((-a).e j : K) = -(a.e j : K) := by
    rw [← Int.cast_neg]
    fin_cases j <;> rfl
  rw [he]
  ring

theorem gridQ_mesh {a D : V3} (hD : PosMesh D) (Q : M3) (h : MeshTranslation D a) (d : Fin 3) :
    ∃ z : Int, (gridQ a D Q d : K) = z := by
  have hj : ∀ j : Fin 3, ∃ z : Int, (a.e j : K) / (D.e j : K) = z := by
    intro j
    have hne : (D.e j : K) ≠ 0 := by
      rw [Int.cast_ne_zero]
      fin_cases j
      · exact (lt_of_lt_of_le Int.zero_lt_one hD.1).ne'
      · exact (lt_of_lt_of_le Int.zero_lt_one hD.2.1).ne'
      · exact (lt_of_lt_of_le Int.zero_lt_one hD.2.2).ne'
    have hd : D.e j ∣ a.e j := by
      fin_cases j
      · exact h.1
      · exact h.2.1
      · exact h.2.2
    obtain ⟨k, hk⟩ := hd
    exact ⟨k, by rw [hk, Int.cast_mul, mul_div_cancel_left₀ _ hne]⟩
  choose z hz using hj
  refine ⟨∑ j : Fin 3, Q.e d j * z j, ?_⟩
  unfold gridQ
  push_cast
  exact Finset.sum_congr rfl fun j _ => by rw [hz]

theorem gridQ_same {a b D : V3} (hD : PosMesh D) (Q : M3) (h : SamePoint D a b) :
    ∃ z : Fin 3 → Int, ∀ d, (gridQ a D Q d : K) = gridQ b D Q d + z d := by
  have : ∀ d, ∃ z : Int, (gridQ (a - b) D Q d : K) = z := gridQ_mesh hD Q h
  choose z hz using this
  refine ⟨z, fun d => ?_⟩
  rw [← hz, ← gridQ_add]
  congr 1
  ext <;> simp

/-- C129: triplets whose members are carried into each other by an operation of the crystal or by
time reversal after it, up to translations of the mesh, have the same sums of interaction strengths. -/
theorem C129_equivalent (he : IsPhase expi) (hb : c.numBand = c.atoms.numPatom * 3)
    (hp : fc.numPatom = c.atoms.numPatom) (hlam : ∀ x y, lam x = lam y → x = y)
    {τ : Nat → Fin 3 → K} (hτ : LatticeVectors fc fun j d => τ j (Fin.ofNat 3 d))
    (hτ3 : HasPositions c τ) {frequencies : Int → K} {eigenvectors : Int → Cplx K}
    {addresses : Int → V3} {D : V3} (hD : PosMesh D) {Q : M3} {rots : List M3}
    (hrots : ∀ R ∈ rots, CrystalOperation c fc D Q R) {tr : Bool} {R : M3}
    (hR : R ∈ withTimeReversal rots tr) {t t' : Fin 3 → Int}
    (hm : MeshTranslation D (addresses (t 0) + addresses (t 1) + addresses (t 2)))
    (ht : ∀ m, SamePoint D (addresses (t' m)) (R.mulVec (addresses (t m))))
    (h : ∀ m, PhononsAt sqrt expi fc none recip lam c.numBand frequencies eigenvectors addresses D Q
      (t m))
    (h' : ∀ m, PhononsAt sqrt expi fc none recip lam c.numBand frequencies eigenvectors addresses D Q
      (t' m)) (Ψ : K → K → K → K) :
    weightedTotal sqrt expi c frequencies eigenvectors t' addresses D Q Ψ =
      weightedTotal sqrt expi c frequencies eigenvectors t addresses D Q Ψ := by
  have hq : ∀ d, ∃ z : Int, (tripletQ addresses D Q t 0 d : K) + tripletQ addresses D Q t 1 d +
      tripletQ addresses D Q t 2 d = z := by
    intro d
    obtain ⟨z, hz⟩ := gridQ_mesh (K := K) hD Q hm d
    refine ⟨z, ?_⟩
    rw [← hz, gridQ_add, gridQ_add]
    rfl
  have hG : ∀ m, ∃ z : Fin 3 → Int, ∀ d, (gridQ (addresses (t' m)) D Q d : K) =
      gridQ (R.mulVec (addresses (t m))) D Q d + z d := fun m => gridQ_same hD Q (ht m)
  choose G hG using hG
  have hmem : R ∈ rots ∨ ∃ S ∈ rots, R = M3.negOne.mul S := by
    unfold withTimeReversal at hR
    split at hR
    · rcases List.mem_append.1 hR with h | h
      · exact Or.inl h
      · obtain ⟨S, hS, rfl⟩ := List.mem_map.1 h
        exact Or.inr ⟨S, hS, rfl⟩
    · exact Or.inl hR
  rcases hmem with hR | ⟨S, hS, rfl⟩
  · obtain ⟨W, C, g, hW, hs, h3⟩ := hrots R hR
    exact C128_rotated (nac := none) he hb hp hlam hs (fun p hp => nomatch hp) h3 hτ hτ3 hq G
      (fun m d => by rw [hG, hW]) (Or.inl rfl) h h' Ψ
  · obtain ⟨W, C, g, hW, hs, h3⟩ := hrots S hS
    rw [weightedTotal_eq _ _ _ _ _ _ _ _ _ hb, weightedTotal_eq _ _ _ _ _ _ _ _ _ hb]
    obtain ⟨v1, m1, e1⟩ := qTotal_turned he hp hs (nac := none) (fun p hp => nomatch hp) h3
      (q := tripletQ addresses D Q t) hq (triplet_modes h)
    obtain ⟨v2, m2, e2⟩ := qTotal_reversed (c := c) he.neg m1
    obtain ⟨v3, m3, e3⟩ := qTotal_translate he hp hτ hτ3 G m2
    rw [← e1, ← e2, ← e3]
    have hq' : (tripletQ addresses D Q t' : Fin 3 → Fin 3 → K) =
        fun m d => -turned (natRM W) (tripletQ addresses D Q t m) d + (G m d : K) := by
      funext m d
      refine (hG m d).trans ?_
      rw [show (M3.negOne.mul S).mulVec (addresses (t m)) = -(S.mulVec (addresses (t m))) by
        ext <;> simp [M3.negOne, M3.mul, M3.mulVec] <;> ring, gridQ_neg, hW]
      rfl
    rw [hq']
    refine qTotal_choice hp hlam m3 (fun m => ?_) _
    have := triplet_modes h' m
    rw [hq'] at this
    exact this

/-- A weighted sum over class representatives is the sum over all members. -/
theorem sum_classes_eq {n : Nat} {T : Int → Int} (hb : ∀ g : Nat, g < n → 0 ≤ T g ∧ T g < n)
    (hid : ∀ g : Nat, g < n → T (T g) = T g) (φ : Nat → K)
    (hφ : ∀ g : Nat, g < n → φ (T g).toNat = φ g) :
    (((irWeights n T).zip (irQ1 n T)).map fun p => (p.1 : K) * φ p.2).sum =
      ((List.range n).map φ).sum := by
  rw [irWeights_eq hb hid, List.zip_map_left, List.map_map]
  have hz : ∀ l : List Nat, l.zip l = l.map fun x => (x, x) := fun l => by
    induction l with
    | nil => rfl
    | cons a l ih => simp [ih]
  rw [hz, List.map_map]
  have e1 : ((irQ1 n T).map (((fun p : Nat × Nat => (p.1 : K) * φ p.2) ∘
      Prod.map (fun (v : Nat) => (List.range n).countP fun (g : Nat) => decide (T g = v)) id) ∘
      fun x => (x, x))) = (irQ1 n T).map fun v => ∑ g ∈ range n, if T g = (v : Nat) then φ v else 0 := by
    refine List.map_congr_left fun v _ => ?_
    simp only [Function.comp, Prod.map, id]
    rw [← Finset.sum_filter, Finset.sum_const, nsmul_eq_mul]
    congr 2
    rw [List.countP_eq_length_filter]
    rfl
  rw [e1]
  have e2 : ∀ (F : Nat → K), ((irQ1 n T).map F).sum = ∑ v ∈ range n, if T v = v then F v else 0 := by
    intro F
    rw [← Finset.sum_filter]
    rfl
  rw [e2]
  have e3 : ((List.range n).map φ).sum = ∑ g ∈ range n, φ g := rfl
  rw [e3]
  have e4 : ∀ v ∈ range n, (if T v = v then ∑ g ∈ range n, if T g = (v : Nat) then φ v else 0 else 0) =
      ∑ g ∈ range n, if (T g).toNat = v then φ g else 0 := by
    intro v hv
    split
    · refine Finset.sum_congr rfl fun g hg => ?_
      have := hb g (Finset.mem_range.1 hg)
      by_cases h : T g = v
      · rw [if_pos h, if_pos (by omega), ← hφ g (Finset.mem_range.1 hg)]
        congr 1
        omega
      · rw [if_neg h, if_neg (by omega)]
    · next hne =>
      refine (Finset.sum_eq_zero fun g hg => ?_).symm
      have := hb g (Finset.mem_range.1 hg)
      have h2 := hid g (Finset.mem_range.1 hg)
      rw [if_neg]
      intro h
      apply hne
      rw [← h, Int.toNat_of_nonneg this.1, h2]
  rw [Finset.sum_congr rfl e4, Finset.sum_comm]
  refine Finset.sum_congr rfl fun g hg => ?_
  have := hb g (Finset.mem_range.1 hg)
  rw [Finset.sum_ite_eq, if_pos (Finset.mem_range.2 (by omega))]

/-- A row of the array of triplets as a function. -/
def asTriplet (t : Int × Int × Int) : Fin 3 → Int := ![t.1, t.2.1, t.2.2]

theorem withTimeReversal_mesh {rots : List M3} {D : V3} (hG : GridGroup rots D ⟨0, 0, 0⟩) (tr : Bool) :
    ∀ R ∈ withTimeReversal rots tr, MeshCompat D R := by
  intro R hR
  unfold withTimeReversal at hR
  split at hR
  · rcases List.mem_append.1 hR with h | h
    · exact hG.mesh R h
    · obtain ⟨S, hS, rfl⟩ := List.mem_map.1 h
      intro v hv
      have h1 := hG.mesh S hS v hv
      rw [show (M3.negOne.mul S).mulVec v = -(S.mulVec v) by
        ext <;> simp [M3.negOne, M3.mul, M3.mulVec] <;> ring]
      obtain ⟨⟨a, ha⟩, ⟨b, hb⟩, ⟨c, hc⟩⟩ := h1
      exact ⟨⟨-a, by simp [ha]⟩, ⟨-b, by simp [hb]⟩, ⟨-c, by simp [hc]⟩⟩
  · exact hG.mesh R hR

theorem third_of_sum {D a0 a1 a2 x0 x1 : V3} (h : MeshTranslation D (a0 + a1 + a2))
    (h0 : SamePoint D a0 x0) (h1 : SamePoint D a1 x1) : SamePoint D (-x0 - x1) a2 := by
  obtain ⟨⟨k, hk⟩, ⟨l, hl⟩, ⟨m, hm⟩⟩ := h
  obtain ⟨⟨k0, hk0⟩, ⟨l0, hl0⟩, ⟨m0, hm0⟩⟩ := h0
  obtain ⟨⟨k1, hk1⟩, ⟨l1, hl1⟩, ⟨m1, hm1⟩⟩ := h1
  simp only [V3.add_x, V3.add_y, V3.add_z, V3.sub_x, V3.sub_y, V3.sub_z] at *
  refine ⟨⟨k0 + k1 - k, ?_⟩, ⟨l0 + l1 - l, ?_⟩, ⟨m0 + m1 - m, ?_⟩⟩ <;>
    simp only [V3.sub_x, V3.sub_y, V3.sub_z, V3.neg_x, V3.neg_y, V3.neg_z]
  · linear_combination hk0 + hk1 - hk
  · linear_combination hl0 + hl1 - hl
  · linear_combination hm0 + hm1 - hm

theorem third_member {bz : BZGridOut} {D : V3} {R : M3} (hR : MeshCompat D R)
    {t t' : Int × Int × Int} (h : MeshTranslation D (tripletSum bz t))
    (h' : MeshTranslation D (tripletSum bz t'))
    (h0 : SamePoint D (bz.addresses t'.1) (R.mulVec (bz.addresses t.1)))
    (h1 : SamePoint D (bz.addresses t'.2.1) (R.mulVec (bz.addresses t.2.1))) :
    SamePoint D (bz.addresses t'.2.2) (R.mulVec (bz.addresses t.2.2)) := by
  have := third_of_sum h' h0 h1
  have e : -R.mulVec (bz.addresses t.1) - R.mulVec (bz.addresses t.2.1) =
      R.mulVec (-bz.addresses t.1 - bz.addresses t.2.1) := by
    ext <;> simp [M3.mulVec] <;> ring
  rw [e] at this
  have h2 := third_of_sum h (SamePoint.refl _ _) (SamePoint.refl _ _)
  exact this.symm.trans (h2.mulVec hR)

variable {KB : Type} [Field KB] [LinearOrder KB] [IsStrictOrderedRing KB] [FloorRing KB]
variable {K' : Type} [Field K'] [LinearOrder K'] [IsStrictOrderedRing K'] [FloorRing K']

set_option maxHeartbeats 600000 in
/-- C129: the irreducible triplets of a grid point with their weights give the same sum of
interaction strengths, weighted by a function of the frequencies, as all triplets of the mesh.  If
second and third members may be exchanged the force constants and the function of the frequencies
must be symmetric. -/
theorem C129_sum (he : IsPhase expi) (hb : c.numBand = c.atoms.numPatom * 3)
    (hp : fc.numPatom = c.atoms.numPatom) (hlam : ∀ x y, lam x = lam y → x = y)
    {τ : Nat → Fin 3 → K} (hτ : LatticeVectors fc fun j d => τ j (Fin.ofNat 3 d))
    (hτ3 : HasPositions c τ)
    (b : BZInput KB) (hD : PosMesh b.D) (hl : ∃ i j, b.reclat i j ≠ 0)
    (dense : Bool) (init bz : BZGridOut) (hbz : bzGrid b dense init = some bz)
    (s : BZInput K') (hs : s.D = b.D) (rots : List M3) (hG : GridGroup rots b.D ⟨0, 0, 0⟩)
    (Q : M3) (hrots : ∀ R ∈ rots, CrystalOperation c fc b.D Q R)
    (tr sw : Bool) (hx : sw = true → ExchangeSymmetric c)
    {frequencies : Int → K} {eigenvectors : Int → Cplx K}
    (hph : ∀ gp, 0 ≤ gp → gp < bz.size → PhononsAt sqrt expi fc none recip lam c.numBand frequencies
      eigenvectors bz.addresses b.D Q gp)
    (Ψ : K → K → K → K) (hΨ : sw = true → ∀ x y z, Ψ x z y = Ψ x y z)
    (gp : Int) (g0 : 0 ≤ gp) (g1 : gp < bz.size)
    (gd : dense = false → gp < b.D.x * b.D.y * b.D.z)
    (T T0 : Triplets) (hT : getTripletsAtQ s bz dense rots gp tr sw = some T)
    (hT0 : getNosymTripletsAtQ s bz dense gp = some T0) :
    ((T.weights.zip T.triplets).map fun p => (p.1 : K) *
      weightedTotal sqrt expi c frequencies eigenvectors (asTriplet p.2) bz.addresses b.D Q Ψ).sum =
    (T0.triplets.map fun t =>
      weightedTotal sqrt expi c frequencies eigenvectors (asTriplet t) bz.addresses b.D Q Ψ).sum := by
  have hcl := C17_classes b hD hl dense init bz hbz s hs rots hG tr sw gp g0 g1 T hT
  have hN := numGrid_pos b.D hD
  set n := (numGrid b.D).toNat with hn
  set F : Int × Int × Int → K := fun t =>
    weightedTotal sqrt expi c frequencies eigenvectors (asTriplet t) bz.addresses b.D Q Ψ with hF
  cases hL : reciprocalPointGroup rots tr false with
  | none => simp [getTripletsAtQ, tpkIrTripletsAtQ, hL] at hT
  | some L =>
    have e := getTriplets_eq hD hl hbz s hs hG hL g0 g1 sw
    simp only at e
    rw [hT, Option.some.injEq] at e
    have V := bzGrid_valid b hD hl dense init bz hbz
    obtain ⟨i, i0, i1, hi⟩ := V.cover gp g0 g1
    obtain ⟨_, ei, _⟩ := V.filed i i0 i1 gp hi
    have hGL := reciprocal_gridGroup hG hL
    have q0 : 0 ≤ bz.bzg2grg gp := by omega
    have q1 : bz.bzg2grg gp < numGrid b.D := by rw [ei]; exact i1
    set M := tripletMap L b.D (bz.bzg2grg gp) sw (fun _ => 0) with hM
    have hbd : ∀ g : Nat, g < n → 0 ≤ M g ∧ M g < n := by
      intro g hg
      have := tripletMap_bounds hGL q0 q1 sw (fun _ => 0) g (by omega) (by omega)
      exact ⟨this.1, lt_of_le_of_lt this.2 (by omega)⟩
    have hid : ∀ g : Nat, g < n → M (M g) = M g := by
      intro g hg
      exact tripletMap_idem hGL q0 q1 sw (fun _ => 0) g (by omega) (by omega)
    set row : Nat → Int × Int × Int := fun q => bzTriplet s bz dense gp q (-1, -1, -1) with hrow
    have eT0 : T0.triplets = (List.range n).map row := by
      have : T0.triplets = bzTripletsAtQ s bz dense gp n (fun g => g) := by
        unfold getNosymTripletsAtQ at hT0
        simp only [hs] at hT0
        split at hT0
        · simp at hT0
        · split at hT0
          · simp at hT0
          · rw [← Option.some.inj hT0]
      rw [this]
      unfold bzTripletsAtQ
      congr 1
      simp [irQ1]
    have eT : T.triplets = (irQ1 n M).map row := by rw [e]; rfl
    have ew : T.weights = irWeights n M := by rw [e]
    have em : T.mapTriplets = (List.range n).map fun (g : Nat) => M g := by rw [e]
    have eq' : T.mapQ = (List.range n).map fun (g : Nat) =>
          irGridMap (stabilizer L b.D (bz.bzg2grg gp)) b.D ⟨0, 0, 0⟩ g := by rw [e]
    -- the rows of one class
    have hφ : ∀ g : Nat, g < n → F (row (M g).toNat) = F (row g) := by
      intro g hg
      have hMg := hbd g hg
      set r := (M g).toNat with hr
      have hrn : r < n := by omega
      have hrM : (r : Int) = M g := by omega
      have mq : T.mapQ[g]? = some (irGridMap (stabilizer L b.D (bz.bzg2grg gp)) b.D ⟨0, 0, 0⟩ g) := by
        rw [eq']
        simp [hg]
      have hEq := (hcl g g (M g) (M g) _ _ (by rw [em]; simp [hg]) (by rw [em]; simp [hg]) mq mq).2.1
      dsimp only at hEq
      obtain ⟨a1, a2, a3, _, a5⟩ := triplet_row hD hl hbz s hs g0 g1 gd (q1 := g) (by omega) (by omega)
        (-1, -1, -1) (row g) rfl
      obtain ⟨b1, b2, b3, _, b5⟩ := triplet_row hD hl hbz s hs g0 g1 gd (q1 := r) (by omega) (by omega)
        (-1, -1, -1) (row r) rfl
      have s0 := samePoint_of_filed hD hl hbz a1.1.1 a1.1.2
      have s1 := samePoint_of_filed hD hl hbz a1.2.1.1 a1.2.1.2
      have u0 := samePoint_of_filed hD hl hbz b1.1.1 b1.1.2
      have u1 := samePoint_of_filed hD hl hbz b1.2.1.1 b1.2.1.2
      have sg := samePoint_of_filed hD hl hbz g0 g1
      rw [a2] at s0
      rw [b2] at u0
      rw [a3] at s1
      rw [b3, hrM] at u1
      obtain ⟨R, ⟨hR, hR0⟩, hcase⟩ := hEq
      have hRm : MeshCompat b.D R := (withTimeReversal_mesh hG tr) R hR
      set A0 := bz.addresses gp
      set Ag := gridAddressFromIndex g b.D
      -- first members
      have k0 : SamePoint b.D (bz.addresses (row r).1) (R.mulVec (bz.addresses (row g).1)) :=
        (u0.trans sg.symm).trans (hR0.symm.trans ((sg.trans s0.symm).mulVec hRm))
      have p1 : ∀ m, PhononsAt sqrt expi fc none recip lam c.numBand frequencies eigenvectors
          bz.addresses b.D Q (asTriplet (row g) m) := by
        intro m
        fin_cases m
        · exact hph _ a1.1.1 a1.1.2
        · exact hph _ a1.2.1.1 a1.2.1.2
        · exact hph _ a1.2.2.1 a1.2.2.2
      have p2 : ∀ m, PhononsAt sqrt expi fc none recip lam c.numBand frequencies eigenvectors
          bz.addresses b.D Q (asTriplet (row r) m) := by
        intro m
        fin_cases m
        · exact hph _ b1.1.1 b1.1.2
        · exact hph _ b1.2.1.1 b1.2.1.2
        · exact hph _ b1.2.2.1 b1.2.2.2
      rcases hcase with hcase | ⟨hsw, hcase⟩
      · have k1 : SamePoint b.D (bz.addresses (row r).2.1) (R.mulVec (bz.addresses (row g).2.1)) :=
          u1.trans (hcase.symm.trans (s1.symm.mulVec hRm))
        have k2 := third_member hRm a5 b5 k0 k1
        refine C129_equivalent he hb hp hlam hτ hτ3 hD hrots hR a5 ?_ p1 p2 Ψ
        intro m
        fin_cases m
        · exact k0
        · exact k1
        · exact k2
      · have k1 : SamePoint b.D (bz.addresses (row r).2.1) (R.mulVec (bz.addresses (row g).2.2)) := by
          have h2 := third_of_sum a5 (s0.trans sg.symm) s1
          exact u1.trans (hcase.symm.trans (h2.mulVec hRm))
        have a5' : MeshTranslation b.D (bz.addresses (row g).1 + bz.addresses (row g).2.2 +
            bz.addresses (row g).2.1) := by
          have : bz.addresses (row g).1 + bz.addresses (row g).2.2 + bz.addresses (row g).2.1 =
              tripletSum bz (row g) := by
            unfold tripletSum
            ext <;> simp <;> ring
          rw [this]
          exact a5
        have k2 := third_member (t := ((row g).1, (row g).2.2, (row g).2.1)) hRm a5' b5 k0 k1
        have hsym := C128_exchanged (sqrt := sqrt) (expi := expi) hb (hx hsw) frequencies
          eigenvectors bz.addresses b.D Q (asTriplet (row g)) Ψ
        have : F (row g) = weightedTotal sqrt expi c frequencies eigenvectors
            ![asTriplet (row g) 0, asTriplet (row g) 2, asTriplet (row g) 1] bz.addresses b.D Q Ψ := by
          have hΨ' : (fun x y z => Ψ x z y) = Ψ := funext fun x => funext fun y => funext fun z =>
            hΨ hsw x y z
          rw [hsym, hΨ']
        rw [this]
        refine C129_equivalent he hb hp hlam hτ hτ3 hD hrots hR a5' ?_ ?_ p2 Ψ
        · intro m
          fin_cases m
          · exact k0
          · exact k1
          · exact k2
        · intro m
          fin_cases m
          · exact p1 0
          · exact p1 2
          · exact p1 1
    have := sum_classes_eq hbd hid (fun q => F (row q)) hφ
    rw [ew, eT, eT0, List.zip_map_right, List.map_map, List.map_map]
    exact this

end
end
end Phono3py.Props
