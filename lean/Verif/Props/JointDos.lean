import Verif.Props.SelfEnergyPy
import Verif.Props.LinewidthSymmetry

/-!
C134: the joint density of states.
-/

set_option linter.unusedSectionVars false

namespace Phono3py.Props
open Phono3py Phono3py.Spec Finset

section
variable {K : Type} [Field K] [LinearOrder K] [IsStrictOrderedRing K]

/-! ### With a temperature -/

/-- Sum over triplets with their weights and over pairs of modes above the cutoff frequency of a
function of the two occupations times the integration weight, per grid point of the mesh. -/
def pairDos (o : JdosInput K) (T : K) (x slab : Nat) (occ : K → K → K) : K :=
  (∑ i ∈ range o.numTriplets, (o.weights i : K) *
    ∑ k ∈ range o.numBand, ∑ l ∈ range o.numBand,
      if o.cutoff < o.frequencies (o.triplets i 1 * o.numBand + k) ∧
          o.cutoff < o.frequencies (o.triplets i 2 * o.numBand + l) then
        occ (o.bose (o.frequencies (o.triplets i 1 * o.numBand + k)) T)
            (o.bose (o.frequencies (o.triplets i 2 * o.numBand + l)) T) *
          o.g (at5 o.numTriplets o.numPoints o.numBand o.numBand slab i x k l : Nat)
      else 0) / ((o.D.x * o.D.y * o.D.z : Int) : K)

theorem jdos_pos (o : JdosInput K) (s i x k l : Nat) :
    o.pos s i x k l = at5 o.numTriplets o.numPoints o.numBand o.numBand s i x k l := rfl

theorem at5_slab {n1 n2 n3 n4 s a b c d : Nat} (ha : a < n1) (hb : b < n2) (hc : c < n3)
    (hd : d < n4) :
    s * (n1 * n2 * n3 * n4) ≤ at5 n1 n2 n3 n4 s a b c d ∧
      at5 n1 n2 n3 n4 s a b c d < (s + 1) * (n1 * n2 * n3 * n4) := by
  have h := at4_lt' (n0 := n1) (n1 := n2) (n2 := n3) (n3 := n4) ha hb hc hd
  have e : at5 n1 n2 n3 n4 s a b c d = s * (n1 * n2 * n3 * n4) + at4 n2 n3 n4 a b c d := by
    unfold at5 at4; ring
  rw [e, add_mul, one_mul]
  omega

theorem jdosC_eq (o : JdosInput K) (T : K) (hbose : ∀ f, o.cutoff < f → 0 ≤ o.bose f T)
    (hT : 0 < T ∨ ∀ f, o.cutoff < f → o.bose f T = 0)
    {x : Nat} (hx : x < o.numPoints)
    (hflag : FlagsSound o.numTriplets 1 o.numBand o.numPoints (fun _ => 1) o.g o.gZero 0 x)
    (column : Fin 2) :
    jdosC o T x column / ((o.D.x * o.D.y * o.D.z : Int) : K) =
      if column = 1 then pairDos o T x 0 (fun a b => a + b + 1) else
        pairDos o T x 1 (fun a b => a - b) := by
  unfold jdosC
  dsimp only
  set size : Nat := o.numTriplets * o.numPoints * o.numBand * o.numBand with hsize
  set g : Int → K := fun p =>
    if (column.val * size : Nat) ≤ p ∧ p < ((column.val + 1) * size : Nat) then 0 else o.g p with hg
  have hval : ∀ s < 2, ∀ i < o.numTriplets, ∀ k < o.numBand, ∀ l < o.numBand,
      g (at5 o.numTriplets o.numPoints o.numBand o.numBand s i x k l : Nat) =
        if s = column.val then 0 else
          o.g (at5 o.numTriplets o.numPoints o.numBand o.numBand s i x k l : Nat) := by
    intro s hs i hi k hk l hl
    obtain ⟨h1, h2⟩ := at5_slab (s := s) hi hx hk hl
    rw [← hsize] at h1 h2
    rw [hg]
    dsimp only
    by_cases h : s = column.val
    · subst h
      rw [if_pos rfl, if_pos ⟨by exact_mod_cast h1, by exact_mod_cast h2⟩]
    · rw [if_neg h, if_neg]
      rintro ⟨h3, h4⟩
      have h3' : column.val * size ≤ at5 o.numTriplets o.numPoints o.numBand o.numBand s i x k l := by
        exact_mod_cast h3
      have h4' : at5 o.numTriplets o.numPoints o.numBand o.numBand s i x k l <
          (column.val + 1) * size := by exact_mod_cast h4
      have a1 : s < column.val + 1 := Nat.lt_of_mul_lt_mul_right (lt_of_le_of_lt h1 h4')
      have a2 : column.val < s + 1 := Nat.lt_of_mul_lt_mul_right (lt_of_le_of_lt h3' h2)
      omega
  rw [show (0 : Int) = ((0 : Nat) : Int) from rfl, C25_full_sum_at_frequency o.bose o.numTriplets 1 o.numBand (fun _ => 1) o.frequencies o.triplets
    o.weights g o.gZero T o.cutoff o.numPoints hbose 0 Nat.one_pos x (by
      intro i hi k hk l hl h
      rcases hflag i hi k hk l hl h with ⟨h0, h1⟩ | h1
      · left
        rw [hval 0 (by decide) i hi k hk l hl, hval 1 (by decide) i hi k hk l hl, h0, h1]
        simp
      · exact Or.inr h1)]
  unfold linewidth pairSum pairDos
  rw [← ite_div]
  congr 1
  have key : ∀ i < o.numTriplets, ∀ k < o.numBand, ∀ l < o.numBand,
      (if o.cutoff < o.frequencies (o.triplets i 1 * o.numBand + k) ∧
          o.cutoff < o.frequencies (o.triplets i 2 * o.numBand + l) then
        modePair T (o.bose (o.frequencies (o.triplets i 1 * o.numBand + k)) T)
          (o.bose (o.frequencies (o.triplets i 2 * o.numBand + l)) T)
          (g (at5 o.numTriplets o.numPoints o.numBand o.numBand 0 i x k l : Nat))
          (g (at5 o.numTriplets o.numPoints o.numBand o.numBand 1 i x k l : Nat)) 1 else 0) =
      if column = 1 then
        (if o.cutoff < o.frequencies (o.triplets i 1 * o.numBand + k) ∧
          o.cutoff < o.frequencies (o.triplets i 2 * o.numBand + l) then
        (o.bose (o.frequencies (o.triplets i 1 * o.numBand + k)) T +
          o.bose (o.frequencies (o.triplets i 2 * o.numBand + l)) T + 1) *
          o.g (at5 o.numTriplets o.numPoints o.numBand o.numBand 0 i x k l : Nat) else 0)
      else
        (if o.cutoff < o.frequencies (o.triplets i 1 * o.numBand + k) ∧
          o.cutoff < o.frequencies (o.triplets i 2 * o.numBand + l) then
        (o.bose (o.frequencies (o.triplets i 1 * o.numBand + k)) T -
          o.bose (o.frequencies (o.triplets i 2 * o.numBand + l)) T) *
          o.g (at5 o.numTriplets o.numPoints o.numBand o.numBand 1 i x k l : Nat) else 0) := by
    intro i hi k hk l hl
    rw [hval 0 (by decide) i hi k hk l hl, hval 1 (by decide) i hi k hk l hl]
    by_cases hc : o.cutoff < o.frequencies (o.triplets i 1 * o.numBand + k) ∧
          o.cutoff < o.frequencies (o.triplets i 2 * o.numBand + l)
    · rw [if_pos hc, if_pos hc, if_pos hc]
      unfold modePair
      rcases hT with hT | hT
      · rw [if_pos hT]
        fin_cases column <;> simp
      · rw [hT _ hc.1, hT _ hc.2]
        fin_cases column <;> simp
    · simp [hc]
  by_cases hcol : column = 1
  · rw [if_pos hcol]
    refine Finset.sum_congr rfl fun i hi => ?_
    congr 1
    refine Finset.sum_congr rfl fun k hk => Finset.sum_congr rfl fun l hl => ?_
    have := key i (mem_range.1 hi) k (mem_range.1 hk) l (mem_range.1 hl)
    rw [if_pos hcol] at this
    exact this
  · rw [if_neg hcol]
    refine Finset.sum_congr rfl fun i hi => ?_
    congr 1
    refine Finset.sum_congr rfl fun k hk => Finset.sum_congr rfl fun l hl => ?_
    have := key i (mem_range.1 hi) k (mem_range.1 hk) l (mem_range.1 hl)
    rw [if_neg hcol] at this
    exact this

theorem jdosPy_eq (o : JdosInput K) (T : K) (hbose : ∀ f, o.cutoff < f → 0 ≤ o.bose f T)
    (x : Nat) (column : Fin 2) :
    jdosPy o T x column / ((o.D.x * o.D.y * o.D.z : Int) : K) =
      if column = 1 then pairDos o T x 0 (fun a b => a + b + 1) else
        pairDos o T x 1 (fun a b => a - b) := by
  unfold jdosPy
  dsimp only
  rw [foldl_accumulate o.numBand _ _ (fun s k => foldl_accumulate o.numBand _ _ (fun s l => rfl) s),
    zero_add]
  unfold pairDos
  rw [← ite_div]
  congr 1
  have occ : ∀ f, o.cutoff < f → occupation o.bose o.cutoff f T = o.bose f T := by
    intro f hf; unfold occupation; rw [if_pos hf]
  have occ' : ∀ f, ¬o.cutoff < f → occupation o.bose o.cutoff f T = -1 := by
    intro f hf; unfold occupation; rw [if_neg hf]
  have key : ∀ (slab : Nat) (φ : K → K → K), ∀ i k l : Nat,
      φ (occupation o.bose o.cutoff (o.frequencies (o.triplets i 1 * o.numBand + k)) T)
        (occupation o.bose o.cutoff (o.frequencies (o.triplets i 2 * o.numBand + l)) T) *
        o.g (o.pos slab i x k l : Nat) *
        (if occupation o.bose o.cutoff (o.frequencies (o.triplets i 1 * o.numBand + k)) T < 0 ∨
          occupation o.bose o.cutoff (o.frequencies (o.triplets i 2 * o.numBand + l)) T < 0 then 0
          else (o.weights i : K)) =
      (o.weights i : K) * if o.cutoff < o.frequencies (o.triplets i 1 * o.numBand + k) ∧
          o.cutoff < o.frequencies (o.triplets i 2 * o.numBand + l) then
        φ (o.bose (o.frequencies (o.triplets i 1 * o.numBand + k)) T)
            (o.bose (o.frequencies (o.triplets i 2 * o.numBand + l)) T) *
          o.g (at5 o.numTriplets o.numPoints o.numBand o.numBand slab i x k l : Nat)
      else 0 := by
    intro slab φ i k l
    by_cases h1 : o.cutoff < o.frequencies (o.triplets i 1 * o.numBand + k)
    · by_cases h2 : o.cutoff < o.frequencies (o.triplets i 2 * o.numBand + l)
      · rw [occ _ h1, occ _ h2, if_neg (by
          rintro (h | h)
          · exact absurd h (not_lt.2 (hbose _ h1))
          · exact absurd h (not_lt.2 (hbose _ h2))), if_pos (And.intro h1 h2), jdos_pos]
        ring
      · rw [occ' _ h2, if_pos (Or.inr (by simp)), if_neg (fun h => h2 h.2)]
        simp
    · rw [occ' _ h1, if_pos (Or.inl (by simp)), if_neg (fun h => h1 h.1)]
      simp
  have swap : ∀ F : Nat → Nat → Nat → K,
      ∑ k ∈ range o.numBand, ∑ l ∈ range o.numBand, ∑ i ∈ range o.numTriplets, F i k l =
      ∑ i ∈ range o.numTriplets, ∑ k ∈ range o.numBand, ∑ l ∈ range o.numBand, F i k l := by
    intro F
    rw [Finset.sum_comm]
    simp_rw [Finset.sum_comm (s := range o.numBand) (t := range o.numTriplets)]
    refine Finset.sum_congr rfl fun i _ => Finset.sum_comm
  simp only [sumLoop_eq, swap, Finset.mul_sum]
  by_cases hcol : column = 1
  · simp only [if_pos hcol]
    exact Finset.sum_congr rfl fun i _ => Finset.sum_congr rfl fun k _ => Finset.sum_congr rfl
      fun l _ => key 0 (fun a b => a + b + 1) i k l
  · simp only [if_neg hcol]
    exact Finset.sum_congr rfl fun i _ => Finset.sum_congr rfl fun k _ => Finset.sum_congr rfl
      fun l _ => key 1 (fun a b => a - b) i k l

/-- C134: with a temperature both implementations give, at every frequency point, in the second
column the sum over pairs of modes of `(n₁ + n₂ + 1)` times the weight of decay into the pair and in
the first that of `(n₁ - n₂)` times the weight of absorption, per grid point of the mesh. -/
theorem C134_temperature (o : JdosInput K) (T : K)
    (hbose : ∀ f, o.cutoff < f → 0 ≤ o.bose f T)
    (hT : 0 < T ∨ ∀ f, o.cutoff < f → o.bose f T = 0)
    {x : Nat} (hx : x < o.numPoints)
    (hflag : FlagsSound o.numTriplets 1 o.numBand o.numPoints (fun _ => 1) o.g o.gZero 0 x)
    (langC : Bool) :
    jointDos o (some T) langC x 1 = pairDos o T x 0 (fun a b => a + b + 1) ∧
    jointDos o (some T) langC x 0 = pairDos o T x 1 (fun a b => a - b) := by
  unfold jointDos
  dsimp only
  cases langC
  · simp only [Bool.false_eq_true, if_false]
    exact ⟨(jdosPy_eq o T hbose x 1).trans (if_pos rfl), (jdosPy_eq o T hbose x 0).trans
      (if_neg (by decide))⟩
  · simp only [if_true]
    exact ⟨(jdosC_eq o T hbose hT hx hflag 1).trans (if_pos rfl),
      (jdosC_eq o T hbose hT hx hflag 0).trans (if_neg (by decide))⟩

/-! ### Without a temperature -/

/-- C134: without a temperature the second column is the sum of the weights of decay and the first
what the third slab holds in excess of it. -/
theorem C134_none (o : JdosInput K) (langC : Bool) (x : Nat) :
    jointDos o none langC x 1 = (∑ i ∈ range o.numTriplets, (o.weights i : K) *
      ∑ k ∈ range o.numBand, ∑ l ∈ range o.numBand,
        o.g (at5 o.numTriplets o.numPoints o.numBand o.numBand 0 i x k l : Nat)) /
          ((o.D.x * o.D.y * o.D.z : Int) : K) ∧
    jointDos o none langC x 0 = (∑ i ∈ range o.numTriplets, (o.weights i : K) *
      ∑ k ∈ range o.numBand, ∑ l ∈ range o.numBand,
        (o.g (at5 o.numTriplets o.numPoints o.numBand o.numBand 2 i x k l : Nat) -
          o.g (at5 o.numTriplets o.numPoints o.numBand o.numBand 0 i x k l : Nat))) /
          ((o.D.x * o.D.y * o.D.z : Int) : K) := by
  have swap : ∀ F : Nat → Nat → Nat → K,
      ∑ k ∈ range o.numBand, ∑ l ∈ range o.numBand, ∑ i ∈ range o.numTriplets,
        F i k l * (o.weights i : K) =
      ∑ i ∈ range o.numTriplets, (o.weights i : K) * ∑ k ∈ range o.numBand, ∑ l ∈ range o.numBand,
        F i k l := by
    intro F
    simp_rw [Finset.mul_sum]
    rw [Finset.sum_comm]
    simp_rw [Finset.sum_comm (s := range o.numBand) (t := range o.numTriplets)]
    refine Finset.sum_congr rfl fun i _ => Finset.sum_comm.trans ?_
    exact Finset.sum_congr rfl fun k _ => Finset.sum_congr rfl fun l _ => mul_comm _ _
  unfold jointDos jdosNone
  dsimp only
  simp only [sumLoop_eq, swap, jdos_pos]
  exact ⟨by simp, by simp⟩

/-! ### Symmetry -/

/-- A rotation of grid addresses that comes from an operation of the space group of the crystal. -/
def HarmonicOperation (fc : Fc2Cell K) (D : V3) (Q R : M3) : Prop :=
  ∃ (W C : RM K) (g : Nat → Nat),
    (∀ a, (gridQ (R.mulVec a) D Q : Fin 3 → K) = turned (natRM W) (gridQ a D Q)) ∧
    IsSymmetry fc (natRM W) (natRM C) g

section
variable {sqrt : K → K} {expi : K → Cplx K} {fc : Fc2Cell K} {recip : Nat → Nat → K} {lam : K → K}

/-- Sums over bands of functions of the frequency agree at grid points that an operation, with or
without time reversal, takes into each other up to translations of the mesh. -/
theorem equivalent_spectrum (he : IsPhase expi) (hlam : ∀ x y, lam x = lam y → x = y)
    {τ : Nat → Fin 3 → K} (hτ : LatticeVectors fc fun j d => τ j (Fin.ofNat 3 d)) {numBand : Nat}
    (hnb : numBand = fc.numPatom * 3) {frequencies : Int → K} {eigenvectors : Int → Cplx K}
    {addresses : Int → V3} {D : V3} (hD : PosMesh D) {Q : M3} {rots : List M3}
    (hrots : ∀ R ∈ rots, HarmonicOperation fc D Q R) {tr : Bool} {R : M3}
    (hR : R ∈ withTimeReversal rots tr) {g g' : Int}
    (hsame : SamePoint D (addresses g') (R.mulVec (addresses g)))
    (h : PhononsAt sqrt expi fc none recip lam numBand frequencies eigenvectors addresses D Q g)
    (h' : PhononsAt sqrt expi fc none recip lam numBand frequencies eigenvectors addresses D Q g')
    (Φ : K → K) :
    ∑ b ∈ range numBand, Φ (frequencies (g' * numBand + b)) =
      ∑ b ∈ range numBand, Φ (frequencies (g * numBand + b)) := by
  obtain ⟨z, hz⟩ := gridQ_same (K := K) hD Q hsame
  have hmem : R ∈ rots ∨ ∃ S ∈ rots, R = M3.negOne.mul S := by
    unfold withTimeReversal at hR
    split at hR
    · rcases List.mem_append.1 hR with h | h
      · exact Or.inl h
      · obtain ⟨S, hS, rfl⟩ := List.mem_map.1 h
        exact Or.inr ⟨S, hS, rfl⟩
    · exact Or.inl hR
  have turn : ∀ {S : M3}, S ∈ rots → ∃ v, ModesAt sqrt expi fc none recip lam
      (gridQ (S.mulVec (addresses g)) D Q) (fun b => frequencies (g * numBand + b)) v := by
    intro S hS
    obtain ⟨W, C, gp, hW, hs⟩ := hrots S hS
    refine ⟨rotateEigvecs fc.numPatom (transposeRM C) gp 1
      (fun x => eigenvectors (g * numBand * numBand + x)), ?_⟩
    rw [hW]
    unfold ModesAt
    rw [natQ_turned]
    exact modes_turn sqrt expi hs none recip (fun p hp => nomatch hp) _ _ _ lam _ _ 1
      (by rw [mul_one, conj_one]) h
  have m1 : ∃ v, ModesAt sqrt expi fc none recip lam (gridQ (R.mulVec (addresses g)) D Q)
      (fun b => frequencies (g * numBand + b)) v := by
    rcases hmem with hR | ⟨S, hS, rfl⟩
    · exact turn hR
    · obtain ⟨v, hv⟩ := turn hS
      refine ⟨fun x => conj (v x), ?_⟩
      have := modes_conj sqrt expi he.neg fc none recip
        (natQ (gridQ (S.mulVec (addresses g)) D Q)) _ (fun _ => 0) lam _ _ hv
      have e : (gridQ ((M3.negOne.mul S).mulVec (addresses g)) D Q : Fin 3 → K) =
          fun d => -gridQ (S.mulVec (addresses g)) D Q d := by
        funext d
        rw [← gridQ_neg]
        congr 1
        ext <;> simp [M3.negOne, M3.mul, M3.mulVec] <;> ring
      rw [e]
      exact this
  obtain ⟨v, hv⟩ := m1
  have m2 := modes_translate he hτ z hv
  have m3 : ModesAt sqrt expi fc none recip lam
      (fun d => gridQ (R.mulVec (addresses g)) D Q d + z d)
      (fun b => frequencies (g' * numBand + b))
      (fun x => eigenvectors (g' * numBand * numBand + x)) := by
    rw [← funext hz]
    exact h'
  have := modes_spectrum (C86_hermitian _ _ _ _ _ _ _ _) hlam m2 m3 Φ
  rw [hnb] at this ⊢
  exact this

/-- Sum over pairs of bands of the second and third member of a triplet. -/
def bandPairs (numBand : Nat) (frequencies : Int → K) (Φ : K → K → K) (t : Int × Int × Int) : K :=
  ∑ k ∈ range numBand, ∑ l ∈ range numBand,
    Φ (frequencies (t.2.1 * numBand + k)) (frequencies (t.2.2 * numBand + l))

variable {KB : Type} [Field KB] [LinearOrder KB] [IsStrictOrderedRing KB] [FloorRing KB]
variable {K' : Type} [Field K'] [LinearOrder K'] [IsStrictOrderedRing K'] [FloorRing K']

set_option maxHeartbeats 600000 in
/-- A quantity that equivalent triplets share has the same sum over irreducible triplets with their
weights and over all triplets. -/
theorem triplet_class_sum
    (b : BZInput KB) (hD : PosMesh b.D) (hl : ∃ i j, b.reclat i j ≠ 0)
    (dense : Bool) (init bz : BZGridOut) (hbz : bzGrid b dense init = some bz)
    (s : BZInput K') (hs : s.D = b.D) (rots : List M3) (hG : GridGroup rots b.D ⟨0, 0, 0⟩)
    (tr sw : Bool) (F : Int × Int × Int → K)
    (hF : ∀ R ∈ withTimeReversal rots tr, ∀ t t' : Int × Int × Int,
      (∀ m, 0 ≤ asTriplet t m ∧ asTriplet t m < bz.size) →
      (∀ m, 0 ≤ asTriplet t' m ∧ asTriplet t' m < bz.size) →
      (∀ m, SamePoint b.D (bz.addresses (asTriplet t' m)) (R.mulVec (bz.addresses (asTriplet t m)))) →
      F t' = F t)
    (hx : sw = true → ∀ t : Int × Int × Int, F (t.1, t.2.2, t.2.1) = F t)
    (gp : Int) (g0 : 0 ≤ gp) (g1 : gp < bz.size)
    (gd : dense = false → gp < b.D.x * b.D.y * b.D.z)
    (T T0 : Triplets) (hT : getTripletsAtQ s bz dense rots gp tr sw = some T)
    (hT0 : getNosymTripletsAtQ s bz dense gp = some T0) :
    ((T.weights.zip T.triplets).map fun p => (p.1 : K) * F p.2).sum = (T0.triplets.map F).sum := by
  have hcl := C17_classes b hD hl dense init bz hbz s hs rots hG tr sw gp g0 g1 T hT
  have hN := numGrid_pos b.D hD
  set n := (numGrid b.D).toNat with hn
  cases hL : reciprocalPointGroup rots tr false with
  | none => simp [getTripletsAtQ, tpkIrTripletsAtQ, hL] at hT
  | some L =>
    have e := getTriplets_eq hD hl hbz s hs hG hL g0 g1 sw
    simp only at e
    rw [hT, Option.some.injEq] at e
    have V := bzGrid_valid b hD hl dense init bz hbz
    obtain ⟨i, i0, i1, hi⟩ := V.cover gp g0 g1
    obtain ⟨_, ei, _⟩ := V.filed i i0 i1 gp hi
    have hGL := reciprocal_gridGroup hG hL
    have q0 : 0 ≤ bz.bzg2grg gp := by omega
    have q1 : bz.bzg2grg gp < numGrid b.D := by rw [ei]; exact i1
    set M := tripletMap L b.D (bz.bzg2grg gp) sw (fun _ => 0) with hM
    have hbd : ∀ g : Nat, g < n → 0 ≤ M g ∧ M g < n := by
      intro g hg
      have := tripletMap_bounds hGL q0 q1 sw (fun _ => 0) g (by omega) (by omega)
      exact ⟨this.1, lt_of_le_of_lt this.2 (by omega)⟩
    have hid : ∀ g : Nat, g < n → M (M g) = M g := by
      intro g hg
      exact tripletMap_idem hGL q0 q1 sw (fun _ => 0) g (by omega) (by omega)
    set row : Nat → Int × Int × Int := fun q => bzTriplet s bz dense gp q (-1, -1, -1) with hrow
    have eT0 : T0.triplets = (List.range n).map row := by
      have : T0.triplets = bzTripletsAtQ s bz dense gp n (fun g => g) := by
        unfold getNosymTripletsAtQ at hT0
        simp only [hs] at hT0
        split at hT0
        · simp at hT0
        · split at hT0
          · simp at hT0
          · rw [← Option.some.inj hT0]
      rw [this]
      unfold bzTripletsAtQ
      congr 1
      simp [irQ1]
    have eT : T.triplets = (irQ1 n M).map row := by rw [e]; rfl
    have ew : T.weights = irWeights n M := by rw [e]
    have em : T.mapTriplets = (List.range n).map fun (g : Nat) => M g := by rw [e]
    have eq' : T.mapQ = (List.range n).map fun (g : Nat) =>
          irGridMap (stabilizer L b.D (bz.bzg2grg gp)) b.D ⟨0, 0, 0⟩ g := by rw [e]
    have hφ : ∀ g : Nat, g < n → F (row (M g).toNat) = F (row g) := by
      intro g hg
      have hMg := hbd g hg
      set r := (M g).toNat with hr
      have hrn : r < n := by omega
      have hrM : (r : Int) = M g := by omega
      have mq : T.mapQ[g]? = some (irGridMap (stabilizer L b.D (bz.bzg2grg gp)) b.D ⟨0, 0, 0⟩ g) := by
        rw [eq']
        simp [hg]
      have hEq := (hcl g g (M g) (M g) _ _ (by rw [em]; simp [hg]) (by rw [em]; simp [hg]) mq mq).2.1
      dsimp only at hEq
      obtain ⟨a1, a2, a3, _, a5⟩ := triplet_row hD hl hbz s hs g0 g1 gd (q1 := g) (by omega) (by omega)
        (-1, -1, -1) (row g) rfl
      obtain ⟨b1, b2, b3, _, b5⟩ := triplet_row hD hl hbz s hs g0 g1 gd (q1 := r) (by omega) (by omega)
        (-1, -1, -1) (row r) rfl
      have s0 := samePoint_of_filed hD hl hbz a1.1.1 a1.1.2
      have s1 := samePoint_of_filed hD hl hbz a1.2.1.1 a1.2.1.2
      have u0 := samePoint_of_filed hD hl hbz b1.1.1 b1.1.2
      have u1 := samePoint_of_filed hD hl hbz b1.2.1.1 b1.2.1.2
      have sg := samePoint_of_filed hD hl hbz g0 g1
      rw [a2] at s0
      rw [b2] at u0
      rw [a3] at s1
      rw [b3, hrM] at u1
      obtain ⟨R, ⟨hR, hR0⟩, hcase⟩ := hEq
      have hRm : MeshCompat b.D R := (withTimeReversal_mesh hG tr) R hR
      have k0 : SamePoint b.D (bz.addresses (row r).1) (R.mulVec (bz.addresses (row g).1)) :=
        (u0.trans sg.symm).trans (hR0.symm.trans ((sg.trans s0.symm).mulVec hRm))
      have p1 : ∀ m, 0 ≤ asTriplet (row g) m ∧ asTriplet (row g) m < bz.size := by
        intro m
        fin_cases m
        · exact a1.1
        · exact a1.2.1
        · exact a1.2.2
      have p2 : ∀ m, 0 ≤ asTriplet (row r) m ∧ asTriplet (row r) m < bz.size := by
        intro m
        fin_cases m
        · exact b1.1
        · exact b1.2.1
        · exact b1.2.2
      rcases hcase with hcase | ⟨hsw, hcase⟩
      · have k1 : SamePoint b.D (bz.addresses (row r).2.1) (R.mulVec (bz.addresses (row g).2.1)) :=
          u1.trans (hcase.symm.trans (s1.symm.mulVec hRm))
        have k2 := third_member hRm a5 b5 k0 k1
        refine hF R hR _ _ p1 p2 ?_
        intro m
        fin_cases m
        · exact k0
        · exact k1
        · exact k2
      · have k1 : SamePoint b.D (bz.addresses (row r).2.1) (R.mulVec (bz.addresses (row g).2.2)) := by
          have h2 := third_of_sum a5 (s0.trans sg.symm) s1
          exact u1.trans (hcase.symm.trans (h2.mulVec hRm))
        have a5' : MeshTranslation b.D (bz.addresses (row g).1 + bz.addresses (row g).2.2 +
            bz.addresses (row g).2.1) := by
          have : bz.addresses (row g).1 + bz.addresses (row g).2.2 + bz.addresses (row g).2.1 =
              tripletSum bz (row g) := by
            unfold tripletSum
            ext <;> simp <;> ring
          rw [this]
          exact a5
        have k2 := third_member (t := ((row g).1, (row g).2.2, (row g).2.1)) hRm a5' b5 k0 k1
        rw [← hx hsw (row g)]
        refine hF R hR _ _ ?_ p2 ?_
        · intro m
          fin_cases m
          · exact p1 0
          · exact p1 2
          · exact p1 1
        · intro m
          fin_cases m
          · exact k0
          · exact k1
          · exact k2
    have := sum_classes_eq hbd hid (fun q => F (row q)) hφ
    rw [ew, eT, eT0, List.zip_map_right, List.map_map, List.map_map]
    exact this

/-- C134: sums over pairs of modes of any function of the two frequencies are the same from
irreducible triplets with their weights as from all triplets; if second and third members may be
exchanged the function must be symmetric. -/
theorem C134_pairs (he : IsPhase expi) (hlam : ∀ x y, lam x = lam y → x = y)
    {τ : Nat → Fin 3 → K} (hτ : LatticeVectors fc fun j d => τ j (Fin.ofNat 3 d)) {numBand : Nat}
    (hnb : numBand = fc.numPatom * 3)
    (b : BZInput KB) (hD : PosMesh b.D) (hl : ∃ i j, b.reclat i j ≠ 0)
    (dense : Bool) (init bz : BZGridOut) (hbz : bzGrid b dense init = some bz)
    (s : BZInput K') (hs : s.D = b.D) (rots : List M3) (hG : GridGroup rots b.D ⟨0, 0, 0⟩)
    (Q : M3) (hrots : ∀ R ∈ rots, HarmonicOperation fc b.D Q R) (tr sw : Bool)
    {frequencies : Int → K} {eigenvectors : Int → Cplx K}
    (hph : ∀ gp, 0 ≤ gp → gp < bz.size → PhononsAt sqrt expi fc none recip lam numBand frequencies
      eigenvectors bz.addresses b.D Q gp)
    (Φ : K → K → K) (hΦ : sw = true → ∀ y z, Φ z y = Φ y z)
    (gp : Int) (g0 : 0 ≤ gp) (g1 : gp < bz.size)
    (gd : dense = false → gp < b.D.x * b.D.y * b.D.z)
    (T T0 : Triplets) (hT : getTripletsAtQ s bz dense rots gp tr sw = some T)
    (hT0 : getNosymTripletsAtQ s bz dense gp = some T0) :
    ((T.weights.zip T.triplets).map fun p => (p.1 : K) * bandPairs numBand frequencies Φ p.2).sum =
      (T0.triplets.map (bandPairs numBand frequencies Φ)).sum := by
  refine triplet_class_sum b hD hl dense init bz hbz s hs rots hG tr sw _ ?_ ?_ gp g0 g1 gd T T0 hT hT0
  · intro R hR t t' ht ht' hsame
    unfold bandPairs
    have e1 := equivalent_spectrum he hlam hτ hnb hD hrots hR (hsame 1) (hph _ (ht 1).1 (ht 1).2)
      (hph _ (ht' 1).1 (ht' 1).2)
    have e2 := equivalent_spectrum he hlam hτ hnb hD hrots hR (hsame 2) (hph _ (ht 2).1 (ht 2).2)
      (hph _ (ht' 2).1 (ht' 2).2)
    have e1' : ∀ Ψ : K → K, ∑ b ∈ range numBand, Ψ (frequencies (t'.2.1 * numBand + b)) =
      ∑ b ∈ range numBand, Ψ (frequencies (t.2.1 * numBand + b)) := e1
    have e2' : ∀ Ψ : K → K, ∑ b ∈ range numBand, Ψ (frequencies (t'.2.2 * numBand + b)) =
      ∑ b ∈ range numBand, Ψ (frequencies (t.2.2 * numBand + b)) := e2
    rw [e1' fun y => ∑ l ∈ range numBand, Φ y (frequencies (t'.2.2 * numBand + l))]
    exact Finset.sum_congr rfl fun k _ => e2' (Φ _)
  · intro hsw t
    unfold bandPairs
    rw [Finset.sum_comm]
    exact Finset.sum_congr rfl fun k _ => Finset.sum_congr rfl fun l _ => hΦ hsw _ _

/-! ### Smearing -/

/-- `run_integration_weights` followed by `run_jdos`: the smearing weights of the given triplets at
the given frequency points; three slabs without temperature, two with. -/
def smearedInput (o : JdosInput K) (gaussian : K → K → K) (sigma sigmaCutoff : K) (points : Nat → K)
    (temperature : Option K) (iw : Int → K) (zero : Int → Bool) (ws : List Nat)
    (ts : List (Int × Int × Int)) : JdosInput K :=
  let w := smearingWeights gaussian sigma sigmaCutoff points o.numPoints (tripletRow ts) ts.length
    o.frequencies o.numBand (if temperature.isNone then 3 else 2) iw zero
  { o with
    numTriplets := ts.length
    triplets := tripletRow ts
    weights := weightRow ws
    g := w.1
    gZero := w.2 }

/-- What a pair of modes with frequencies `y` and `z` adds at frequency `f`: in the second column the
smearing function of `f - y - z`, in the first those of `f + y - z` and `f - y + z`, with the
occupations if there is a temperature. -/
def jdosWeight (bose gaussian : K → K → K) (cutoff sigma sigmaCutoff f : K) (temperature : Option K)
    (column : Fin 2) (y z : K) : K :=
  match temperature with
  | none =>
    if column = 1 then smearedDelta gaussian sigma sigmaCutoff f y z 2
    else smearedDelta gaussian sigma sigmaCutoff f y z 0 +
      smearedDelta gaussian sigma sigmaCutoff f y z 1
  | some T =>
    if cutoff < y ∧ cutoff < z then
      if column = 1 then (bose y T + bose z T + 1) * smearedDelta gaussian sigma sigmaCutoff f y z 2
      else (bose y T - bose z T) * (smearedDelta gaussian sigma sigmaCutoff f y z 0 -
        smearedDelta gaussian sigma sigmaCutoff f y z 1)
    else 0

theorem jdosWeight_swap (bose gaussian : K → K → K) (cutoff sigma sigmaCutoff f : K)
    (temperature : Option K) (column : Fin 2) (y z : K) :
    jdosWeight bose gaussian cutoff sigma sigmaCutoff f temperature column z y =
      jdosWeight bose gaussian cutoff sigma sigmaCutoff f temperature column y z := by
  obtain ⟨h2, h0, h1⟩ := smearedDelta_swap gaussian sigma sigmaCutoff f y z
  cases temperature with
  | none =>
    unfold jdosWeight
    dsimp only
    rw [h0, h1, h2, add_comm (smearedDelta gaussian sigma sigmaCutoff f y z 1)]
  | some T =>
    unfold jdosWeight
    dsimp only
    rw [h0, h1, h2]
    by_cases h : cutoff < y ∧ cutoff < z
    · rw [if_pos h, if_pos h.symm]
      split_ifs <;> ring
    · rw [if_neg h, if_neg fun h' => h h'.symm]

theorem smeared_slab (o : JdosInput K) (gaussian : K → K → K) (sigma sigmaCutoff : K)
    (points : Nat → K) (temperature : Option K) (iw : Int → K) (zero : Int → Bool) (ws : List Nat)
    (ts : List (Int × Int × Int)) {i x k l : Nat} (hi : i < ts.length) (hx : x < o.numPoints)
    (hk : k < o.numBand) (hl : l < o.numBand) :
    let O := smearedInput o gaussian sigma sigmaCutoff points temperature iw zero ws ts
    let sd := smearedDelta gaussian sigma sigmaCutoff (points x)
      (o.frequencies ((tripletRow ts i) 1 * o.numBand + k))
      (o.frequencies ((tripletRow ts i) 2 * o.numBand + l))
    O.g (at5 ts.length o.numPoints o.numBand o.numBand 0 i x k l : Nat) = sd 2 ∧
    O.g (at5 ts.length o.numPoints o.numBand o.numBand 1 i x k l : Nat) = sd 0 - sd 1 ∧
    (temperature = none →
      O.g (at5 ts.length o.numPoints o.numBand o.numBand 2 i x k l : Nat) = sd 0 + sd 1 + sd 2) ∧
    (O.gZero (at4 o.numPoints o.numBand o.numBand i x k l : Nat) = true →
      O.g (at5 ts.length o.numPoints o.numBand o.numBand 0 i x k l : Nat) = 0 ∧
      O.g (at5 ts.length o.numPoints o.numBand o.numBand 1 i x k l : Nat) = 0) := by
  intro O sd
  set tp := if temperature.isNone then 3 else 2 with htp
  have htp' : tp = 2 ∨ tp = 3 := by
    rw [htp]; split
    · exact Or.inr rfl
    · exact Or.inl rfl
  have h := C24_flag gaussian sigma sigmaCutoff points o.numPoints (tripletRow ts) ts.length
    o.frequencies o.numBand tp iw zero (by tauto) i x k l hi hx hk hl
  dsimp only at h
  obtain ⟨h1, h2, h3⟩ := h
  have hne : tp ≠ 4 := by rcases htp' with h | h <;> rw [h] <;> decide
  have hsl : ∀ s, s < 2 → s < numSlabs tp := by
    intro s hs; rcases htp' with h | h <;> rw [h]
    · exact hs
    · exact lt_trans hs (by decide)
  have hcond : (O.gZero (at4 o.numPoints o.numBand o.numBand i x k l : Nat) = true) ↔
      (0 < sigma * sigmaCutoff ∧ ∀ j : Fin 3, sigma * sigmaCutoff <
        |deltaArguments (points x) (o.frequencies ((tripletRow ts i) 1 * o.numBand + k))
          (o.frequencies ((tripletRow ts i) 2 * o.numBand + l)) j|) := by
    refine h1.trans ⟨fun h => ⟨h.1, fun j => h.2 j fun h4 => absurd h4 hne⟩,
      fun h => ⟨h.1, fun j _ => h.2 j⟩⟩
  have zero_case : O.gZero (at4 o.numPoints o.numBand o.numBand i x k l : Nat) = true →
      ∀ j, sd j = 0 := fun hz j => if_pos (hcond.1 hz)
  have full_case : O.gZero (at4 o.numPoints o.numBand o.numBand i x k l : Nat) = false →
      ∀ j, sd j = gaussian (deltaArguments (points x)
        (o.frequencies ((tripletRow ts i) 1 * o.numBand + k))
        (o.frequencies ((tripletRow ts i) 2 * o.numBand + l)) j) sigma := fun hz j =>
    if_neg (fun h => by rw [hcond.2 h] at hz; cases hz)
  have val : ∀ s < numSlabs tp, O.g (at5 ts.length o.numPoints o.numBand o.numBand s i x k l : Nat) =
      slabContent tp s sd := by
    intro s hs
    cases hz : O.gZero (at4 o.numPoints o.numBand o.numBand i x k l : Nat) with
    | true =>
      refine (h2 hz s hs).trans ?_
      have z := zero_case hz
      rcases htp' with h | h <;> rw [h] at hs ⊢
      · rcases (by have : s < 2 := hs; omega : s = 0 ∨ s = 1) with rfl | rfl <;>
          simp [slabContent, z]
      · rcases (by have : s < 3 := hs; omega : s = 0 ∨ s = 1 ∨ s = 2) with rfl | rfl | rfl <;>
          simp [slabContent, z]
    | false =>
      refine (h3 hz s hs).trans ?_
      congr 1
      funext j
      exact (full_case hz j).symm
  have c0 : ∀ d : Fin 3 → K, slabContent tp 0 d = d 2 := by
    rcases htp' with h | h <;> rw [h] <;> intro d <;> rfl
  have c1 : ∀ d : Fin 3 → K, slabContent tp 1 d = d 0 - d 1 := by
    rcases htp' with h | h <;> rw [h] <;> intro d <;> rfl
  refine ⟨(val 0 (hsl 0 (by decide))).trans (c0 _), (val 1 (hsl 1 (by decide))).trans (c1 _), ?_, ?_⟩
  · intro hn
    have h3 : tp = 3 := by rw [htp, hn]; rfl
    refine (val 2 (by rw [h3]; decide)).trans ?_
    rw [h3]
    rfl
  · intro hz
    exact ⟨h2 hz 0 (hsl 0 (by decide)), h2 hz 1 (hsl 1 (by decide))⟩

/-- The occupations of modes above the cutoff frequency are not negative, and vanish unless the
temperature is positive. -/
def OccupationsSound (o : JdosInput K) (temperature : Option K) : Prop :=
  ∀ T, temperature = some T → (∀ f, o.cutoff < f → 0 ≤ o.bose f T) ∧
    (0 < T ∨ ∀ f, o.cutoff < f → o.bose f T = 0)

/-- C134: with smearing the joint density of states at a frequency point is the weighted sum over
triplets and pairs of modes of smearing functions with occupations. -/
theorem C134_smearing (o : JdosInput K) (gaussian : K → K → K) (sigma sigmaCutoff : K)
    (points : Nat → K) (temperature : Option K) (hocc : OccupationsSound o temperature)
    (iw : Int → K) (zero : Int → Bool) (ws : List Nat)
    (ts : List (Int × Int × Int)) (hlen : ws.length = ts.length) {x : Nat} (hx : x < o.numPoints)
    (langC : Bool) (column : Fin 2) :
    jointDos (smearedInput o gaussian sigma sigmaCutoff points temperature iw zero ws ts) temperature
      langC x column =
    ((ws.zip ts).map fun p => (p.1 : K) * bandPairs o.numBand o.frequencies
      (jdosWeight o.bose gaussian o.cutoff sigma sigmaCutoff (points x) temperature column) p.2).sum /
        ((o.D.x * o.D.y * o.D.z : Int) : K) := by
  rw [← sum_tripletRows ws ts 0 hlen (bandPairs o.numBand o.frequencies _)]
  have slab := fun {i k l : Nat} (hi : i < ts.length) (hk : k < o.numBand) (hl : l < o.numBand) =>
    smeared_slab o gaussian sigma sigmaCutoff points temperature iw zero ws ts hi hx hk hl
  dsimp only at slab
  set O := smearedInput o gaussian sigma sigmaCutoff points temperature iw zero ws ts with hO
  have hcol : column = 1 ∨ column = 0 := by fin_cases column <;> simp
  cases htemp : temperature with
  | none =>
    rw [htemp] at slab
    obtain ⟨n1, n0⟩ := C134_none O langC x
    rcases hcol with rfl | rfl
    · rw [n1]
      change (∑ i ∈ range ts.length, _) / _ = _
      congr 1
      refine Finset.sum_congr rfl fun i hi => ?_
      change (((ws.getD i 0 : Nat) : Int) : K) * _ = _
      congr 1
      refine Finset.sum_congr rfl fun k hk => Finset.sum_congr rfl fun l hl => ?_
      exact (slab (mem_range.1 hi) (mem_range.1 hk) (mem_range.1 hl)).1
    · rw [n0]
      change (∑ i ∈ range ts.length, _) / _ = _
      congr 1
      refine Finset.sum_congr rfl fun i hi => ?_
      change (((ws.getD i 0 : Nat) : Int) : K) * _ = _
      congr 1
      refine Finset.sum_congr rfl fun k hk => Finset.sum_congr rfl fun l hl => ?_
      have hs := slab (mem_range.1 hi) (mem_range.1 hk) (mem_range.1 hl)
      have e := congrArg₂ (· - ·) (hs.2.2.1 rfl) hs.1
      rw [add_sub_cancel_right] at e
      exact e
  | some T =>
    have ho := hocc T htemp
    obtain ⟨n1, n0⟩ := C134_temperature O T ho.1 ho.2 (x := x) hx (by
      intro i hi k hk l hl hz
      exact Or.inl ((slab hi hk hl).2.2.2 hz)) langC
    rcases hcol with rfl | rfl
    · rw [n1]
      unfold pairDos
      change (∑ i ∈ range ts.length, _) / _ = _
      congr 1
      refine Finset.sum_congr rfl fun i hi => ?_
      change (((ws.getD i 0 : Nat) : Int) : K) * _ = _
      congr 1
      refine Finset.sum_congr rfl fun k hk => Finset.sum_congr rfl fun l hl => ?_
      have e := (slab (mem_range.1 hi) (mem_range.1 hk) (mem_range.1 hl)).1
      refine ite_congr rfl (fun _ => ?_) fun _ => rfl
      exact congrArg _ e
    · rw [n0]
      unfold pairDos
      change (∑ i ∈ range ts.length, _) / _ = _
      congr 1
      refine Finset.sum_congr rfl fun i hi => ?_
      change (((ws.getD i 0 : Nat) : Int) : K) * _ = _
      congr 1
      refine Finset.sum_congr rfl fun k hk => Finset.sum_congr rfl fun l hl => ?_
      have e := (slab (mem_range.1 hi) (mem_range.1 hk) (mem_range.1 hl)).2.1
      refine ite_congr rfl (fun _ => ?_) fun _ => rfl
      exact congrArg _ e

/-- C134: with smearing the joint density of states computed from the irreducible triplets of a grid
point with their weights is the one computed from all triplets, with and without temperature, in
both columns, at every frequency point and in both languages. -/
theorem C134_symmetry (o : JdosInput K) (gaussian : K → K → K) (sigma sigmaCutoff : K)
    (points : Nat → K) (temperature : Option K) (hocc : OccupationsSound o temperature)
    (iw iw' : Int → K) (zero zero' : Int → Bool)
    (he : IsPhase expi) (hlam : ∀ x y, lam x = lam y → x = y)
    {τ : Nat → Fin 3 → K} (hτ : LatticeVectors fc fun j d => τ j (Fin.ofNat 3 d))
    (hnb : o.numBand = fc.numPatom * 3)
    (b : BZInput KB) (hD : PosMesh b.D) (hl : ∃ i j, b.reclat i j ≠ 0)
    (dense : Bool) (init bz : BZGridOut) (hbz : bzGrid b dense init = some bz)
    (s : BZInput K') (hs : s.D = b.D) (rots : List M3) (hG : GridGroup rots b.D ⟨0, 0, 0⟩)
    (Q : M3) (hrots : ∀ R ∈ rots, HarmonicOperation fc b.D Q R) (tr sw : Bool)
    {eigenvectors : Int → Cplx K}
    (hph : ∀ gp, 0 ≤ gp → gp < bz.size → PhononsAt sqrt expi fc none recip lam o.numBand o.frequencies
      eigenvectors bz.addresses b.D Q gp)
    (gp : Int) (g0 : 0 ≤ gp) (g1 : gp < bz.size)
    (gd : dense = false → gp < b.D.x * b.D.y * b.D.z)
    (T T0 : Triplets) (hT : getTripletsAtQ s bz dense rots gp tr sw = some T)
    (hT0 : getNosymTripletsAtQ s bz dense gp = some T0)
    {x : Nat} (hx : x < o.numPoints) (langC langC' : Bool) (column : Fin 2) :
    jointDos (smearedInput o gaussian sigma sigmaCutoff points temperature iw zero T.weights T.triplets)
      temperature langC x column =
    jointDos (smearedInput o gaussian sigma sigmaCutoff points temperature iw' zero' T0.weights
      T0.triplets) temperature langC' x column := by
  have hw := (C16_weights b hD hl dense init bz hbz s hs rots hG tr sw gp g0 g1 gd T hT).2.2.1
  obtain ⟨T1, hT1, w1, hq1, -⟩ := C16_nosym b hD hl dense init bz hbz s hs gp g0 g1 gd
  rw [hT0, Option.some.injEq] at hT1
  subst hT1
  have hlen0 : T0.weights.length = T0.triplets.length := by
    have := congrArg List.length hq1
    rw [List.length_map, List.length_map, List.length_range] at this
    rw [w1, List.length_replicate, this]
  rw [C134_smearing o gaussian sigma sigmaCutoff points temperature hocc iw zero _ _ hw hx,
    C134_smearing o gaussian sigma sigmaCutoff points temperature hocc iw' zero' _ _ hlen0 hx,
    C134_pairs he hlam hτ hnb b hD hl dense init bz hbz s hs rots hG Q hrots tr sw hph _
      (fun _ y z => jdosWeight_swap _ _ _ _ _ _ _ _ y z) gp g0 g1 gd T T0 hT hT0, w1]
  congr 1
  have hl0 : (b.D.x * b.D.y * b.D.z).toNat = T0.triplets.length := by
    rw [← hlen0, w1, List.length_replicate]
  rw [hl0]
  generalize T0.triplets = l
  induction l with
  | nil => rfl
  | cons a l ih => simp [List.replicate_succ, ih]

end

end

/-! ### A concrete case -/

/-- Two frequency points for the crystal with one atom of `pointSetting`. -/
def pointJdos : JdosInput ℚ where
  bose := fun _ _ => 1
  numTriplets := 0
  numBand := 3
  numPoints := 2
  frequencies := fun _ => 2
  triplets := fun _ _ => 0
  weights := fun _ => 0
  g := fun _ => 0
  gZero := fun _ => false
  cutoff := 1 / 10
  D := exampleCubic.D

/-- C134: the hypotheses of the comparison are met. -/
example : ∃ bz T T0, bzGrid exampleCubic true exampleInit = some bz ∧
    getTripletsAtQ exampleCubic bz true exampleTwoFold 1 true true = some T ∧
    getNosymTripletsAtQ exampleCubic bz true 1 = some T0 ∧
    T.triplets.length = 4 ∧ T0.triplets.length = 6 ∧
    ∀ (gaussian : ℚ → ℚ → ℚ) (sigma sigmaCutoff : ℚ) (points : Nat → ℚ) (column : Fin 2),
      jointDos (smearedInput pointJdos gaussian sigma sigmaCutoff points (some 300) (fun _ => 0)
        (fun _ => false) T.weights T.triplets) (some 300) true 1 column =
      jointDos (smearedInput pointJdos gaussian sigma sigmaCutoff points (some 300) (fun _ => 0)
        (fun _ => false) T0.weights T0.triplets) (some 300) true 1 column := by
  have hsome : ((bzGrid exampleCubic true exampleInit).bind fun bz =>
      (getTripletsAtQ exampleCubic bz true exampleTwoFold 1 true true).bind fun T =>
        (getNosymTripletsAtQ exampleCubic bz true 1).map fun T0 =>
          (bz.size, T.triplets.length, T0.triplets.length)) = some (9, 4, 6) := by
    decide +kernel
  cases hbz : bzGrid exampleCubic true exampleInit with
  | none => rw [hbz] at hsome; simp at hsome
  | some bz =>
    rw [hbz, Option.bind_some] at hsome
    cases hT : getTripletsAtQ exampleCubic bz true exampleTwoFold 1 true true with
    | none => rw [hT] at hsome; simp at hsome
    | some T =>
      rw [hT, Option.bind_some] at hsome
      cases hT0 : getNosymTripletsAtQ exampleCubic bz true 1 with
      | none => rw [hT0] at hsome; simp at hsome
      | some T0 =>
        rw [hT0, Option.map_some, Option.some.injEq, Prod.mk.injEq, Prod.mk.injEq] at hsome
        obtain ⟨hsize, hl4, hl6⟩ := hsome
        refine ⟨bz, T, T0, rfl, hT, hT0, hl4, hl6, fun gaussian sigma sigmaCutoff points column => ?_⟩
        exact C134_symmetry (sqrt := id) (expi := fun _ => 1) pointJdos gaussian sigma sigmaCutoff points
          (some 300) (fun T hT => ⟨fun _ _ => zero_le_one, Or.inl (by
            rw [← Option.some.inj hT]; decide +kernel)⟩)
          _ _ _ _ (fc := pointCell)
          (recip := fun _ _ => 0) (lam := id)
          ⟨rfl, fun _ _ => by ext <;> simp, fun _ => by ext <;> simp [conj],
            fun _ => rfl⟩ (fun _ _ h => h) (τ := fun _ _ => 0)
          (fun _ _ _ _ _ _ _ _ _ _ _ => ⟨0, by simp [pointCell]⟩) rfl
          exampleCubic (by decide) ⟨0, 0, by decide +kernel⟩ true exampleInit bz hbz exampleCubic
          rfl exampleTwoFold
          { pos := by decide
            grp := ⟨by decide, by decide, by decide⟩
            mesh := by
              intro R hR v ⟨⟨a, ha⟩, ⟨b, hb⟩, ⟨c, hc⟩⟩
              simp only [exampleTwoFold, List.mem_cons, List.not_mem_nil, or_false] at hR
              rcases hR with rfl | rfl
              · exact ⟨⟨a, by simp [M3.one, M3.mulVec, ha]⟩, ⟨b, by simp [M3.one, M3.mulVec, hb]⟩,
                  ⟨c, by simp [M3.one, M3.mulVec, hc]⟩⟩
              · exact ⟨⟨a, by simp [M3.mulVec, ha]⟩, ⟨-b, by simp [M3.mulVec, hb]⟩,
                  ⟨-c, by simp [M3.mulVec, hc]⟩⟩
            shift := by decide }
          exampleCubic.Q
          (fun R hR => by
            obtain ⟨W, C, g, h1, h2, -⟩ := point_operation hR
            exact ⟨W, C, g, h1, h2⟩) true true
          (fun gp _ _ => point_phonons bz gp) 1 (by decide)
          (by rw [hsize]; decide) (fun h => by simp at h) T T0 hT hT0 (by decide) true true column

end Phono3py.Props
