import Verif.Props.InteractionSymmetry
import Verif.Props.PPCollision

/-!
C129: linewidths from irreducible triplets.
-/

set_option linter.unusedSectionVars false

namespace Phono3py.Props
open Phono3py Phono3py.Spec Finset

section
variable {K : Type} [Field K] [LinearOrder K] [IsStrictOrderedRing K]

/-! ### Equal frequencies -/

/-- Sums of functions of the frequencies do not depend on the choice of eigenvectors. -/
theorem modes_spectrum {n : Nat} {a : Int → Cplx K} (hH : HermitianMatrix n a) {f f' : Nat → K}
    {v v' : Int → Cplx K} {lam : K → K} (hlam : ∀ x y, lam x = lam y → x = y)
    (h : Modes n lam a f v) (h' : Modes n lam a f' v') (Φ : K → K) :
    ∑ b ∈ range (n * 3), Φ (f' b) = ∑ b ∈ range (n * 3), Φ (f b) := by
  have key : ∀ {f : Nat → K} {v : Int → Cplx K}, Modes n lam a f v →
      ∑ b ∈ range (n * 3), Φ (f b) = ∑ p ∈ range (n * 3), ∑ b ∈ range (n * 3), Φ (f b) *
        (∑ r ∈ range (n * 3), (if r = p then (1 : Cplx K) else 0) *
          v ((r * (3 * n) + b : Nat) : Int)).normSq := by
    intro f v h
    rw [Finset.sum_comm]
    refine Finset.sum_congr rfl fun b hb => ?_
    rw [← Finset.mul_sum]
    have e1 : ∀ p ∈ range (n * 3), (∑ r ∈ range (n * 3), (if r = p then (1 : Cplx K) else 0) *
          v ((r * (3 * n) + b : Nat) : Int)).normSq = (v ((p * (3 * n) + b : Nat) : Int)).normSq := by
      intro p hp
      congr 1
      simp only [ite_mul, one_mul, zero_mul]
      rw [Finset.sum_ite_eq', if_pos hp]
    rw [Finset.sum_congr rfl e1, sum_range_three]
    have := h.orthonormal b (by rw [mul_comm]; exact Finset.mem_range.1 hb) b
      (by rw [mul_comm]; exact Finset.mem_range.1 hb)
    rw [if_pos rfl] at this
    have h2 := congrArg Cplx.re this
    rw [show (1 : Cplx K).re = 1 from rfl] at h2
    rw [← mul_one (Φ (f b))]
    conv_lhs => rw [← h2]
    rw [mul_one]
    congr 1
    have hre : ∀ (s : Finset Nat) (F : Nat → Cplx K), (∑ i ∈ s, F i).re = ∑ i ∈ s, (F i).re := by
      intro s F
      induction s using Finset.induction_on with
      | empty => rfl
      | insert a s ha ih => rw [Finset.sum_insert ha, Finset.sum_insert ha, ← ih]; rfl
    rw [hre]
    refine Finset.sum_congr rfl fun j _ => ?_
    rw [hre]
    refine Finset.sum_congr rfl fun l _ => ?_
    simp only [Cplx.normSq, conj, Cplx.mul_re]
    ring_nf
  rw [key h, key h']
  exact Finset.sum_congr rfl fun p _ => modes_sum hH hlam h h' Φ _

/-- Ascending sequences with the same counts are equal. -/
theorem ascending_eq {n : Nat} {f f' : Nat → K}
    (hs : ∀ Φ : K → K, ∑ b ∈ range n, Φ (f' b) = ∑ b ∈ range n, Φ (f b))
    (h : ∀ b b', b ≤ b' → b' < n → f b ≤ f b') (h' : ∀ b b', b ≤ b' → b' < n → f' b ≤ f' b')
    {b : Nat} (hb : b < n) : f' b = f b := by
  have key : ∀ {f f' : Nat → K}, (∀ Φ : K → K, ∑ b ∈ range n, Φ (f' b) = ∑ b ∈ range n, Φ (f b)) →
      (∀ b b', b ≤ b' → b' < n → f b ≤ f b') → (∀ b b', b ≤ b' → b' < n → f' b ≤ f' b') →
      ¬f' b < f b := by
    intro f f' hs h h' hlt
    have := hs (fun x => if x ≤ f' b then 1 else 0)
    rw [← Finset.sum_filter, ← Finset.sum_filter, Finset.sum_const, Finset.sum_const, nsmul_eq_mul,
      nsmul_eq_mul, mul_one, mul_one, Nat.cast_inj] at this
    have h1 : (range (b + 1)).card ≤ (Finset.filter (fun x => f' x ≤ f' b) (range n)).card := by
      refine Finset.card_le_card fun x hx => ?_
      rw [Finset.mem_filter, Finset.mem_range]
      have := Finset.mem_range.1 hx
      exact ⟨by omega, h' x b (by omega) hb⟩
    have h2 : (Finset.filter (fun x => f x ≤ f' b) (range n)).card ≤ (range b).card := by
      refine Finset.card_le_card fun x hx => ?_
      rw [Finset.mem_filter, Finset.mem_range] at hx
      rw [Finset.mem_range]
      by_contra hc
      exact absurd (h b x (by omega) hx.1) (not_le.2 (lt_of_le_of_lt hx.2 hlt))
    rw [Finset.card_range] at h1 h2
    omega
  exact le_antisymm (not_lt.1 (key (fun Φ => (hs Φ).symm) h' h)) (not_lt.1 (key hs h h'))

/-- Frequencies in ascending order are the same at translates of a grid point. -/
theorem translate_frequencies {sqrt : K → K} {expi : K → Cplx K} (he : IsPhase expi) {fc : Fc2Cell K}
    {recip : Nat → Nat → K} {lam : K → K} (hlam : ∀ x y, lam x = lam y → x = y)
    {τ : Nat → Fin 3 → K} (hτ : LatticeVectors fc fun j d => τ j (Fin.ofNat 3 d)) {numBand : Nat}
    (hnb : numBand = fc.numPatom * 3) {frequencies : Int → K}
    {eigenvectors : Int → Cplx K} {addresses : Int → V3} {D : V3} (hD : PosMesh D) {Q : M3}
    {g g' : Int} (hsame : SamePoint D (addresses g') (addresses g))
    (h : PhononsAt sqrt expi fc none recip lam numBand frequencies eigenvectors addresses D Q g)
    (h' : PhononsAt sqrt expi fc none recip lam numBand frequencies eigenvectors addresses D Q g')
    (ha : ∀ b b' : Nat, b ≤ b' → b' < numBand →
      frequencies (g * numBand + b) ≤ frequencies (g * numBand + b'))
    (ha' : ∀ b b' : Nat, b ≤ b' → b' < numBand →
      frequencies (g' * numBand + b) ≤ frequencies (g' * numBand + b')) {b : Nat} (hb : b < numBand) :
    frequencies (g' * numBand + b) = frequencies (g * numBand + b) := by
  obtain ⟨z, hz⟩ := gridQ_same (K := K) hD Q hsame
  have m1 := modes_translate (q := gridQ (addresses g) D Q) he hτ z h
  have m2 : ModesAt sqrt expi fc none recip lam (fun d => gridQ (addresses g) D Q d + z d)
      (fun b => frequencies (g' * numBand + b))
      (fun x => eigenvectors (g' * numBand * numBand + x)) := by
    rw [← funext hz]
    exact h'
  refine ascending_eq (n := numBand) (f := fun b => frequencies (g * numBand + b))
    (f' := fun b => frequencies (g' * numBand + b)) (fun Φ => ?_) ha ha' hb
  rw [hnb]
  have := modes_spectrum (C86_hermitian _ _ _ _ _ _ _ _) hlam m1 m2 Φ
  rw [hnb] at this
  exact this

/-! ### Linewidths with smearing -/

/-- Smearing function of the three arguments of delta functions, zero when all are beyond the
cutoff. -/
def smearedDelta (gaussian : K → K → K) (sigma sigmaCutoff x y z : K) (k : Fin 3) : K :=
  if 0 < sigma * sigmaCutoff ∧ ∀ j : Fin 3, sigma * sigmaCutoff < |deltaArguments x y z j| then 0
  else gaussian (deltaArguments x y z k) sigma

/-- What multiplies the interaction strength of modes with frequencies `x`, `y`, `z` in the linewidth
of the first of them. -/
def smearedWeight (bose gaussian : K → K → K) (cutoff T sigma sigmaCutoff x y z : K) : K :=
  if cutoff < y ∧ cutoff < z then
    if 0 < T then
      (bose y T + bose z T + 1) * smearedDelta gaussian sigma sigmaCutoff x y z 2 +
        (bose y T - bose z T) * (smearedDelta gaussian sigma sigmaCutoff x y z 0 -
          smearedDelta gaussian sigma sigmaCutoff x y z 1)
    else smearedDelta gaussian sigma sigmaCutoff x y z 2
  else 0

theorem smearedDelta_swap (gaussian : K → K → K) (sigma sigmaCutoff x y z : K) :
    smearedDelta gaussian sigma sigmaCutoff x z y 2 = smearedDelta gaussian sigma sigmaCutoff x y z 2 ∧
    smearedDelta gaussian sigma sigmaCutoff x z y 0 = smearedDelta gaussian sigma sigmaCutoff x y z 1 ∧
    smearedDelta gaussian sigma sigmaCutoff x z y 1 = smearedDelta gaussian sigma sigmaCutoff x y z 0 := by
  have e0 : deltaArguments x z y 0 = deltaArguments x y z 1 := by
    simp only [deltaArguments, Matrix.cons_val_zero, Matrix.cons_val_one]
    ring
  have e1 : deltaArguments x z y 1 = deltaArguments x y z 0 := by
    simp only [deltaArguments, Matrix.cons_val_zero, Matrix.cons_val_one]
    ring
  have e2 : deltaArguments x z y 2 = deltaArguments x y z 2 := by
    simp only [deltaArguments, Matrix.cons_val]
    ring
  have hall : (∀ j : Fin 3, sigma * sigmaCutoff < |deltaArguments x z y j|) ↔
      ∀ j : Fin 3, sigma * sigmaCutoff < |deltaArguments x y z j| := by
    rw [Fin.forall_fin_succ, Fin.forall_fin_two, Fin.forall_fin_succ, Fin.forall_fin_two]
    show _ < |deltaArguments x z y 0| ∧ _ < |deltaArguments x z y 1| ∧ _ < |deltaArguments x z y 2| ↔
      _ < |deltaArguments x y z 0| ∧ _ < |deltaArguments x y z 1| ∧ _ < |deltaArguments x y z 2|
    rw [e0, e1, e2]
    exact ⟨fun h => ⟨h.2.1, h.1, h.2.2⟩, fun h => ⟨h.2.1, h.1, h.2.2⟩⟩
  unfold smearedDelta
  simp only [hall, e0, e1, e2, and_self]

theorem smearedWeight_swap (bose gaussian : K → K → K) (cutoff T sigma sigmaCutoff x y z : K) :
    smearedWeight bose gaussian cutoff T sigma sigmaCutoff x z y =
      smearedWeight bose gaussian cutoff T sigma sigmaCutoff x y z := by
  obtain ⟨h2, h0, h1⟩ := smearedDelta_swap gaussian sigma sigmaCutoff x y z
  unfold smearedWeight
  rw [h0, h1, h2]
  by_cases hyz : cutoff < y ∧ cutoff < z
  · have hzy : cutoff < z ∧ cutoff < y := hyz.symm
    simp only [if_pos hyz, if_pos hzy]
    split_ifs
    · ring
    · rfl
  · have hzy : ¬(cutoff < z ∧ cutoff < y) := fun h => hyz h.symm
    simp only [if_neg hyz, if_neg hzy]

/-- The linewidths of the function that works triplet by triplet, with smearing. -/
theorem C129_smearing (s : CollisionSetting K) (hs : s.symmetrize = false)
    (gaussian : K → K → K) (sigma sigmaCutoff : K)
    (triplets : Nat → Fin 3 → Int) (numTriplets : Nat) (tripletWeights : Nat → Int)
    (mem gMem : Int → K) (zMem : Int → Bool) {t b : Nat}
    (ht : t < s.numTemps) (hb : b < s.numBand0)
    (hbose : ∀ f, s.crystal.cutoff < f → 0 ≤ s.bose f (s.temperatures t)) :
    ppCollisionSmearing s gaussian sigma sigmaCutoff triplets numTriplets tripletWeights false mem
      gMem zMem (at2 s.numBand0 t b : Nat) =
    ∑ i ∈ range numTriplets, tripletWeights i * ∑ k ∈ range s.crystal.numBand,
      ∑ l ∈ range s.crystal.numBand,
        smearedWeight s.bose gaussian s.crystal.cutoff (s.temperatures t) sigma sigmaCutoff
          (freqsAtGp s triplets b) (s.frequencies (triplets i 1 * s.crystal.numBand + k))
          (s.frequencies (triplets i 2 * s.crystal.numBand + l)) *
        bandStrength s (triplets i) b k l := by
  set nb := s.crystal.numBand with hnb
  have w1 := fun i k l (hk : k < nb) (hl : l < nb) => C24_flag gaussian sigma sigmaCutoff
    (freqsAtGp s triplets) s.numBand0 (fun _ => triplets i) 1 s.frequencies nb 2
    gMem zMem (Or.inl rfl) 0 b k l Nat.one_pos hb hk hl
  have a0 : ∀ x k l, at5 1 s.numBand0 nb nb x 0 b k l = at4 s.numBand0 nb nb x b k l := by
    intro x k l; unfold at5 at4; ring
  have a3 : ∀ k l, at4 s.numBand0 nb nb 0 b k l = at3 nb nb b k l := by
    intro k l; unfold at4 at3; ring
  unfold ppCollisionSmearing
  rw [C68_total_partial s hs _ triplets numTriplets tripletWeights mem ht hb hbose]
  · unfold collisionSum
    refine Finset.sum_congr rfl fun i hi => ?_
    rw [if_pos trivial]
    congr 1
    unfold tripletLinewidth pairSum
    refine Finset.sum_congr rfl fun k hk => Finset.sum_congr rfl fun l hl => ?_
    rw [Finset.mem_range] at hk hl
    have f1 := w1 i k l hk hl
    unfold smearingWeights at f1
    simp only at f1
    set st := sigmaStores gaussian sigma sigmaCutoff (freqsAtGp s triplets) s.numBand0
      (fun _ => triplets i) 1 s.frequencies nb 2 with hst
    have hw : ∀ x < 2, runWrites gMem st.1 (at4 s.numBand0 nb nb x b k l : Nat) =
        slabContent 2 x (smearedDelta gaussian sigma sigmaCutoff (freqsAtGp s triplets b)
          (s.frequencies (triplets i 1 * nb + k)) (s.frequencies (triplets i 2 * nb + l))) := by
      intro x hx
      rw [← a0]
      by_cases hf : runWrites zMem st.2 (at4 s.numBand0 nb nb 0 b k l : Nat) = true
      · rw [f1.2.1 hf x hx]
        have hc := f1.1.1 hf
        have hd : smearedDelta gaussian sigma sigmaCutoff (freqsAtGp s triplets b)
          (s.frequencies (triplets i 1 * nb + k)) (s.frequencies (triplets i 2 * nb + l)) =
            fun _ => 0 := by
          funext j
          exact if_pos ⟨hc.1, fun j => hc.2 j (by norm_num)⟩
        rw [hd]
        interval_cases x <;> simp [slabContent]
      · rw [f1.2.2 (by simpa using hf) x hx]
        have hd : smearedDelta gaussian sigma sigmaCutoff (freqsAtGp s triplets b)
          (s.frequencies (triplets i 1 * nb + k)) (s.frequencies (triplets i 2 * nb + l)) =
            fun j => gaussian (deltaArguments (freqsAtGp s triplets b)
          (s.frequencies (triplets i 1 * nb + k)) (s.frequencies (triplets i 2 * nb + l)) j) sigma := by
          funext j
          exact if_neg fun hc => hf (f1.1.2 ⟨hc.1, fun j _ => hc.2 j⟩)
        rw [hd]
    have h0 := hw 0 (by decide)
    have h1 := hw 1 (by decide)
    simp only [hnb] at h0 h1 ⊢
    rw [h0, h1]
    unfold smearedWeight modePair
    split_ifs <;> simp [slabContent]
  · intro i _ k hk l hl h
    have := (w1 i k l hk hl).2.1
    rw [a3] at this
    have h0 := this h 0 (by decide)
    have h1 := this h 1 (by decide)
    beta_reduce at h0 h1
    rw [a0] at h0 h1
    exact ⟨h0, h1⟩

/-- Row `i` of an array of triplets. -/
def tripletRow (ts : List (Int × Int × Int)) (i : Nat) : Fin 3 → Int := asTriplet (ts.getD i 0)

/-- Entry `i` of an array of weights. -/
def weightRow (ws : List Nat) (i : Nat) : Int := (ws.getD i 0 : Nat)

theorem sum_tripletRows {α : Type} (ws : List Nat) (ts : List α) (d : α) (h : ws.length = ts.length)
    (F : α → K) :
    ∑ i ∈ range ts.length, (((ws.getD i 0 : Nat) : Int) : K) * F (ts.getD i d) =
      ((ws.zip ts).map fun p => (p.1 : K) * F p.2).sum := by
  induction ts generalizing ws with
  | nil => simp
  | cons a ts ih =>
    cases ws with
    | nil => simp at h
    | cons w ws =>
      rw [List.length_cons, Finset.sum_range_succ']
      simp only [List.getD_cons_succ, List.getD_cons_zero, List.zip_cons_cons, List.map_cons,
        List.sum_cons]
      rw [ih ws (by simpa using h), add_comm, Int.cast_natCast]

/-- Linewidths of all bands of a grid point, weighted by a function of their frequencies. -/
theorem linewidth_rows (s : CollisionSetting K) (hs : s.symmetrize = false)
    (h0 : s.numBand0 = s.crystal.numBand) (hbi : ∀ b < s.crystal.numBand, s.crystal.bandIndices b = b)
    (gaussian : K → K → K) (sigma sigmaCutoff : K) (ws : List Nat) (ts : List (Int × Int × Int))
    (hlen : ws.length = ts.length) (mem gMem : Int → K) (zMem : Int → Bool) {t : Nat}
    (ht : t < s.numTemps) (hbose : ∀ f, s.crystal.cutoff < f → 0 ≤ s.bose f (s.temperatures t))
    (gp : Int) (hf : ∀ p ∈ ts, ∀ b < s.crystal.numBand,
      s.frequencies (p.1 * s.crystal.numBand + b) = s.frequencies (gp * s.crystal.numBand + b))
    (χ : K → K) :
    ∑ b ∈ range s.crystal.numBand, χ (s.frequencies (gp * s.crystal.numBand + b)) *
      ppCollisionSmearing s gaussian sigma sigmaCutoff (tripletRow ts) ts.length (weightRow ws) false
        mem gMem zMem (at2 s.crystal.numBand t b : Nat) =
    ((ws.zip ts).map fun p => (p.1 : K) *
      weightedTotal s.sqrt s.expi s.crystal s.frequencies s.eigenvectors (asTriplet p.2) s.addresses
        s.D s.Q fun x y z => χ x * smearedWeight s.bose gaussian s.crystal.cutoff (s.temperatures t)
          sigma sigmaCutoff x y z).sum := by
  rw [← sum_tripletRows ws ts 0 hlen fun p =>
    weightedTotal s.sqrt s.expi s.crystal s.frequencies s.eigenvectors (asTriplet p) s.addresses
        s.D s.Q fun x y z => χ x * smearedWeight s.bose gaussian s.crystal.cutoff (s.temperatures t)
          sigma sigmaCutoff x y z]
  have e : ∀ b ∈ range s.crystal.numBand, χ (s.frequencies (gp * s.crystal.numBand + b)) *
      ppCollisionSmearing s gaussian sigma sigmaCutoff (tripletRow ts) ts.length (weightRow ws) false
        mem gMem zMem (at2 s.crystal.numBand t b : Nat) =
      ∑ i ∈ range ts.length, χ (s.frequencies (gp * s.crystal.numBand + b)) * (weightRow ws i *
        ∑ k ∈ range s.crystal.numBand, ∑ l ∈ range s.crystal.numBand,
        smearedWeight s.bose gaussian s.crystal.cutoff (s.temperatures t) sigma sigmaCutoff
          (freqsAtGp s (tripletRow ts) b)
          (s.frequencies (tripletRow ts i 1 * s.crystal.numBand + k))
          (s.frequencies (tripletRow ts i 2 * s.crystal.numBand + l)) *
        bandStrength s (tripletRow ts i) b k l) := by
    intro b hb
    have := C129_smearing s hs gaussian sigma sigmaCutoff (tripletRow ts) ts.length (weightRow ws)
      mem gMem zMem ht (b := b) (by rw [h0]; exact Finset.mem_range.1 hb) hbose
    rw [h0] at this
    rw [this, Finset.mul_sum]
  rw [Finset.sum_congr rfl e, Finset.sum_comm]
  refine Finset.sum_congr rfl fun i hi => ?_
  rw [Finset.mem_range] at hi
  unfold weightedTotal
  rw [Finset.mul_sum]
  refine Finset.sum_congr rfl fun b hb => ?_
  rw [Finset.mem_range] at hb
  have hfi : s.frequencies (asTriplet (ts.getD i 0) 0 * s.crystal.numBand + b) =
      s.frequencies (gp * s.crystal.numBand + b) := by
    refine hf _ ?_ b hb
    rw [List.getD_eq_getElem _ _ hi]
    exact List.getElem_mem hi
  have hfg : freqsAtGp s (tripletRow ts) b = s.frequencies (gp * s.crystal.numBand + b) := by
    unfold freqsAtGp
    rw [hbi b hb]
    refine hf _ ?_ b hb
    rw [List.getD_eq_getElem _ _ (by omega)]
    exact List.getElem_mem _
  rw [hfg, hfi]
  rw [mul_left_comm]
  congr 1
  rw [Finset.mul_sum]
  refine Finset.sum_congr rfl fun k _ => ?_
  rw [Finset.mul_sum]
  refine Finset.sum_congr rfl fun l _ => ?_
  unfold bandStrength tripletRow
  rw [hbi b hb, mul_assoc]

variable {KB : Type} [Field KB] [LinearOrder KB] [IsStrictOrderedRing KB] [FloorRing KB]
variable {K' : Type} [Field K'] [LinearOrder K'] [IsStrictOrderedRing K'] [FloorRing K']

/-- C129: linewidths computed triplet by triplet with smearing from the irreducible triplets of a
grid point with their weights agree with those computed from all triplets: for every function of the
frequency the sums over bands of the grid point are the same, so the average linewidth of bands of
the same frequency is. Frequencies are in ascending order at every grid point. -/
theorem C129_linewidth (s : CollisionSetting K) (hsym : s.symmetrize = false)
    (h0 : s.numBand0 = s.crystal.numBand) (hbi : ∀ b < s.crystal.numBand, s.crystal.bandIndices b = b)
    (gaussian : K → K → K) (sigma sigmaCutoff : K)
    (mem gMem mem' gMem' : Int → K) (zMem zMem' : Int → Bool) {t : Nat}
    (ht : t < s.numTemps) (hbose : ∀ f, s.crystal.cutoff < f → 0 ≤ s.bose f (s.temperatures t))
    {fc : Fc2Cell K} {recip : Nat → Nat → K} {lam : K → K}
    (he : IsPhase s.expi) (hb : s.crystal.numBand = s.crystal.atoms.numPatom * 3)
    (hp : fc.numPatom = s.crystal.atoms.numPatom) (hlam : ∀ x y, lam x = lam y → x = y)
    {τ : Nat → Fin 3 → K} (hτ : LatticeVectors fc fun j d => τ j (Fin.ofNat 3 d))
    (hτ3 : HasPositions s.crystal τ)
    (b : BZInput KB) (hD : PosMesh b.D) (hsD : s.D = b.D) (hl : ∃ i j, b.reclat i j ≠ 0)
    (dense : Bool) (init bz : BZGridOut) (hbz : bzGrid b dense init = some bz)
    (hsa : s.addresses = bz.addresses)
    (s' : BZInput K') (hs' : s'.D = b.D) (rots : List M3) (hG : GridGroup rots b.D ⟨0, 0, 0⟩)
    (hrots : ∀ R ∈ rots, CrystalOperation s.crystal fc b.D s.Q R)
    (tr sw : Bool) (hx : sw = true → ExchangeSymmetric s.crystal)
    (hph : ∀ gp, 0 ≤ gp → gp < bz.size → PhononsAt s.sqrt s.expi fc none recip lam s.crystal.numBand
      s.frequencies s.eigenvectors bz.addresses b.D s.Q gp)
    (hasc : ∀ gp, 0 ≤ gp → gp < bz.size → ∀ b b' : Nat, b ≤ b' → b' < s.crystal.numBand →
      s.frequencies (gp * s.crystal.numBand + b) ≤ s.frequencies (gp * s.crystal.numBand + b'))
    (gp : Int) (g0 : 0 ≤ gp) (g1 : gp < bz.size)
    (gd : dense = false → gp < b.D.x * b.D.y * b.D.z)
    (T T0 : Triplets) (hT : getTripletsAtQ s' bz dense rots gp tr sw = some T)
    (hT0 : getNosymTripletsAtQ s' bz dense gp = some T0) (χ : K → K) :
    ∑ b ∈ range s.crystal.numBand, χ (s.frequencies (gp * s.crystal.numBand + b)) *
      ppCollisionSmearing s gaussian sigma sigmaCutoff (tripletRow T.triplets) T.triplets.length
        (weightRow T.weights) false mem gMem zMem (at2 s.crystal.numBand t b : Nat) =
    ∑ b ∈ range s.crystal.numBand, χ (s.frequencies (gp * s.crystal.numBand + b)) *
      ppCollisionSmearing s gaussian sigma sigmaCutoff (tripletRow T0.triplets) T0.triplets.length
        (weightRow T0.weights) false mem' gMem' zMem' (at2 s.crystal.numBand t b : Nat) := by
  have hnb : s.crystal.numBand = fc.numPatom * 3 := by rw [hp]; exact hb
  have hfreq : ∀ g, 0 ≤ g → g < bz.size → SamePoint b.D (bz.addresses g) (bz.addresses gp) →
      ∀ b < s.crystal.numBand, s.frequencies (g * s.crystal.numBand + b) =
        s.frequencies (gp * s.crystal.numBand + b) := fun g h0 h1 hsame b hb =>
    translate_frequencies he hlam hτ hnb hD hsame (hph gp g0 g1) (hph g h0 h1) (hasc gp g0 g1)
      (hasc g h0 h1) hb
  have hw := (C16_weights b hD hl dense init bz hbz s' hs' rots hG tr sw gp g0 g1 gd T hT).2.2.1
  have hm := C15_momentum_partial b hD hl dense init bz hbz s' hs' rots hG tr sw gp g0 g1 gd T hT
  obtain ⟨T1, hT1, w1, hq1, hm1⟩ := C16_nosym b hD hl dense init bz hbz s' hs' gp g0 g1 gd
  rw [hT0, Option.some.injEq] at hT1
  subst hT1
  have hlen0 : T0.weights.length = T0.triplets.length := by
    have := congrArg List.length hq1
    rw [List.length_map, List.length_map, List.length_range] at this
    rw [w1, List.length_replicate, this]
  have hm0 : ∀ p ∈ T0.triplets, 0 ≤ p.1 ∧ p.1 < bz.size := by
    intro p hp
    have e : T0.triplets = bzTripletsAtQ s' bz dense gp (numGrid b.D).toNat (fun g => g) := by
      unfold getNosymTripletsAtQ at hT0
      simp only [hs'] at hT0
      split at hT0
      · simp at hT0
      · split at hT0
        · simp at hT0
        · rw [← Option.some.inj hT0]
    rw [e] at hp
    obtain ⟨q, hq, _, rfl⟩ := mem_bzTriplets hp
    exact (triplet_row hD hl hbz s' hs' g0 g1 gd (q1 := q) (by omega) (by omega) (-1, -1, -1) _
      rfl).1.1
  rw [linewidth_rows s hsym h0 hbi gaussian sigma sigmaCutoff T.weights T.triplets hw mem gMem zMem ht
      hbose gp (fun p hp => hfreq p.1 (hm p hp).1.1.1 (hm p hp).1.1.2 (hm p hp).2.1) χ,
    linewidth_rows s hsym h0 hbi gaussian sigma sigmaCutoff T0.weights T0.triplets hlen0 mem' gMem'
      zMem' ht hbose gp (fun p hp => hfreq p.1 (hm0 p hp).1 (hm0 p hp).2 (by
        have h1 := samePoint_of_filed hD hl hbz (hm0 p hp).1 (hm0 p hp).2
        rw [(hm1 p hp).1] at h1
        exact h1.trans (samePoint_of_filed hD hl hbz g0 g1).symm)) χ, hsD, hsa]
  rw [C129_sum he hb hp hlam hτ hτ3 b hD hl dense init bz hbz s' hs' rots hG s.Q hrots tr sw hx hph
    (fun x y z => χ x * smearedWeight s.bose gaussian s.crystal.cutoff (s.temperatures t)
          sigma sigmaCutoff x y z)
    (fun _ x y z => by
      show χ x * _ = χ x * _
      rw [smearedWeight_swap]) gp g0 g1 gd T T0 hT hT0]
  rw [w1]
  have hl0 : (b.D.x * b.D.y * b.D.z).toNat = T0.triplets.length := by
    rw [← hlen0, w1, List.length_replicate]
  rw [hl0]
  generalize T0.triplets = l
  induction l with
  | nil => rfl
  | cons a l ih => simp [List.replicate_succ, ih]

end

/-! ### A concrete case -/

/-- Third-order force constants for `pointCell` that are symmetric under exchange and under the
two-fold axis along the first direction. -/
def pointCrystal : Crystal ℚ where
  atoms :=
    { svecs := fun _ => 0
      multiplicity := fun _ => (1, 0)
      numSatom := 1
      numPatom := 1
      p2s := fun _ => 0
      s2p := fun _ => 0
      makeR0Average := false
      allShortest := fun _ => true }
  fc3 := fun p =>
    if ((if p / 9 % 3 = 0 then 0 else 1) + (if p / 3 % 3 = 0 then 0 else 1) +
      (if p % 3 = 0 then 0 else 1) : Int) % 2 = 0 then (1 + p / 9 % 3 + p / 3 % 3 + p % 3 : Int) else 0
  isCompact := true
  masses := fun _ => 1
  bandIndices := fun b => b
  numBand := 3
  cutoff := 0

/-- The setting of a calculation with it. -/
def pointSetting (bz : BZGridOut) : CollisionSetting ℚ where
  bose := fun _ _ => 1
  sqrt := id
  expi := fun _ => 1
  crystal := pointCrystal
  numBand0 := 3
  temperatures := fun _ => 300
  numTemps := 1
  frequencies := fun _ => 2
  eigenvectors := fun x => if x % 9 = 0 ∨ x % 9 = 4 ∨ x % 9 = 8 then 1 else 0
  addresses := bz.addresses
  D := exampleCubic.D
  Q := exampleCubic.Q
  symmetrize := false
  mem := fun _ => 0

theorem point_operation {R : M3} (hR : R ∈ exampleTwoFold) :
    CrystalOperation pointCrystal pointCell exampleCubic.D exampleCubic.Q R := by
  have hR2 : R = M3.one ∨ R = ⟨1, 0, 0, 0, -1, 0, 0, 0, -1⟩ := by simpa [exampleTwoFold] using hR
  have hid : ∀ n, PermutesBelow n id := fun n => ⟨fun _ h => h, fun _ _ _ _ h => h⟩
  refine ⟨castM R, castM R, id, fun a => ?_,
    ⟨?_, hid _, fun _ _ => rfl, fun i hi => ⟨id, hid _, fun _ _ _ _ => Iff.rfl, ?_, ?_⟩⟩,
    ⟨?_, hid _, fun _ _ => rfl, fun i hi => ⟨id, hid _, fun _ _ _ _ => Iff.rfl, ?_, ?_, ?_⟩, ?_⟩⟩
  · funext d
    have hn : ∀ i j : Fin 3, natRM (castM R : RM ℚ) i j = (R.e i j : ℚ) := by
      intro i j
      fin_cases i <;> fin_cases j <;> rfl
    simp only [turned, hn]
    rcases hR2 with rfl | rfl <;> fin_cases d <;>
      simp [gridQ, exampleCubic, Fin.sum_univ_three, M3.mulVec, M3.one, V3.e, M3.e, neg_div]
  · intro a ha b hb
    rcases hR2 with rfl | rfl <;> interval_cases a <;> interval_cases b <;> decide +kernel
  · intro s hs a ha b hb
    have hi : i < 1 := hi
    have hs : s < 1 := hs
    obtain rfl : i = 0 := by omega
    obtain rfl : s = 0 := by omega
    rcases hR2 with rfl | rfl <;> interval_cases a <;> interval_cases b <;> decide +kernel
  · intro s _
    refine ⟨rfl, id, hid _, fun x _ d _ => ?_⟩
    simp [pointCell]
  · intro a ha b hb
    rcases hR2 with rfl | rfl <;> interval_cases a <;> interval_cases b <;> decide +kernel
  · have hi : i < 1 := hi
    obtain rfl : i = 0 := by omega
    rcases hR2 with rfl | rfl <;> decide +kernel
  · intro s _
    refine ⟨rfl, id, hid _, fun x _ d => ?_⟩
    simp [shortest, pointCrystal]
  · intro s _ t _
    rfl
  · exact ⟨0, fun i _ => ⟨0, fun d => by simp [shortest, pointCrystal]⟩⟩

theorem point_exchange : ExchangeSymmetric pointCrystal := by
  constructor <;> decide +kernel

theorem point_phonons (bz : BZGridOut) (gp : Int) :
    PhononsAt id (fun _ => 1) pointCell none (fun _ _ => 0) id 3 (pointSetting bz).frequencies
      (pointSetting bz).eigenvectors bz.addresses exampleCubic.D exampleCubic.Q gp := by
  have h := point_modes none rfl (fun _ _ => 0)
    (fun d => gridQ (bz.addresses gp) exampleCubic.D exampleCubic.Q (Fin.ofNat 3 d)) fun _ => 0
  have e : ∀ x : Nat, x < 9 → (pointSetting bz).eigenvectors (gp * 3 * 3 + x) = pointModes.2 x := by
    intro x hx
    have : (gp * 3 * 3 + x) % 9 = x := by omega
    simp only [pointSetting, pointModes, this]
  have key : ∀ (a : Int → Cplx ℚ) (f : Nat → ℚ) {v v' : Int → Cplx ℚ},
      (∀ x : Nat, x < 9 → v' x = v x) → Modes 1 id a f v → Modes 1 id a f v' := by
    intro a f v v' hv h
    have e0 : ∀ j < 1, ∀ l < 3, ∀ b < 3, v' (((j * 3 + l) * (3 * 1) + b : Nat)) =
        v (((j * 3 + l) * (3 * 1) + b : Nat)) := fun j hj l hl b hb => hv _ (by omega)
    refine ⟨fun b hb i hi k hk => ?_, fun b hb b' hb' => ?_⟩
    · have := h.solves b hb i hi k hk
      beta_reduce at this ⊢
      rw [e0 i hi k hk b hb, ← this]
      exact Finset.sum_congr rfl fun j hj => Finset.sum_congr rfl fun l hl => by
        rw [e0 j (Finset.mem_range.1 hj) l (Finset.mem_range.1 hl) b hb]
    · rw [← h.orthonormal b hb b' hb']
      exact Finset.sum_congr rfl fun j hj => Finset.sum_congr rfl fun l hl => by
        rw [e0 j (Finset.mem_range.1 hj) l (Finset.mem_range.1 hl) b hb,
          e0 j (Finset.mem_range.1 hj) l (Finset.mem_range.1 hl) b' hb']
  exact key _ _ e h

/-- C129: the hypotheses are met: the point with address `(1, 0, 0)` of a 3 x 2 x 1 mesh has six
triplets in four classes. -/
example : ∃ bz T T0, bzGrid exampleCubic true exampleInit = some bz ∧
    getTripletsAtQ exampleCubic bz true exampleTwoFold 1 true true = some T ∧
    getNosymTripletsAtQ exampleCubic bz true 1 = some T0 ∧
    T.triplets.length = 4 ∧ T0.triplets.length = 6 ∧
    ∀ (gaussian : ℚ → ℚ → ℚ) (sigma sigmaCutoff : ℚ) (mem gMem : Int → ℚ) (zMem : Int → Bool)
      (χ : ℚ → ℚ),
      ∑ b ∈ range 3, χ 2 *
        ppCollisionSmearing (pointSetting bz) gaussian sigma sigmaCutoff (tripletRow T.triplets) 4
          (weightRow T.weights) false mem gMem zMem (at2 3 0 b : Nat) =
      ∑ b ∈ range 3, χ 2 *
        ppCollisionSmearing (pointSetting bz) gaussian sigma sigmaCutoff (tripletRow T0.triplets) 6
          (weightRow T0.weights) false mem gMem zMem (at2 3 0 b : Nat) := by
  have hsome : ((bzGrid exampleCubic true exampleInit).bind fun bz =>
      (getTripletsAtQ exampleCubic bz true exampleTwoFold 1 true true).bind fun T =>
        (getNosymTripletsAtQ exampleCubic bz true 1).map fun T0 =>
          (bz.size, T.triplets.length, T0.triplets.length)) = some (9, 4, 6) := by
    decide +kernel
  cases hbz : bzGrid exampleCubic true exampleInit with
  | none => rw [hbz] at hsome; simp at hsome
  | some bz =>
    rw [hbz, Option.bind_some] at hsome
    cases hT : getTripletsAtQ exampleCubic bz true exampleTwoFold 1 true true with
    | none => rw [hT] at hsome; simp at hsome
    | some T =>
      rw [hT, Option.bind_some] at hsome
      cases hT0 : getNosymTripletsAtQ exampleCubic bz true 1 with
      | none => rw [hT0] at hsome; simp at hsome
      | some T0 =>
        rw [hT0, Option.map_some, Option.some.injEq, Prod.mk.injEq, Prod.mk.injEq] at hsome
        obtain ⟨hsize, hl4, hl6⟩ := hsome
        refine ⟨bz, T, T0, rfl, hT, hT0, hl4, hl6, fun gaussian sigma sigmaCutoff mem gMem zMem χ => ?_⟩
        have := C129_linewidth (pointSetting bz) rfl rfl (fun _ _ => rfl) gaussian sigma sigmaCutoff mem
          gMem mem gMem zMem zMem (t := 0) Nat.one_pos (fun _ _ => zero_le_one) (fc := pointCell)
          (recip := fun _ _ => 0) (lam := id)
          ⟨rfl, fun _ _ => by ext <;> simp [pointSetting], fun _ => by ext <;> simp [pointSetting, conj],
            fun _ => rfl⟩ rfl rfl (fun _ _ h => h) (τ := fun _ _ => 0)
          (fun _ _ _ _ _ _ _ _ _ _ _ => ⟨0, by simp [pointCell]⟩)
          ⟨fun _ _ _ _ _ _ _ _ _ => ⟨0, fun _ => by simp [shortest, pointSetting, pointCrystal]⟩,
            fun _ _ => ⟨0, fun _ => by simp [shortest, pointSetting, pointCrystal]⟩⟩
          exampleCubic (by decide) rfl ⟨0, 0, by decide +kernel⟩ true exampleInit bz hbz rfl exampleCubic
          rfl exampleTwoFold
          { pos := by decide
            grp := ⟨by decide, by decide, by decide⟩
            mesh := by
              intro R hR v ⟨⟨a, ha⟩, ⟨b, hb⟩, ⟨c, hc⟩⟩
              simp only [exampleTwoFold, List.mem_cons, List.not_mem_nil, or_false] at hR
              rcases hR with rfl | rfl
              · exact ⟨⟨a, by simp [M3.one, M3.mulVec, ha]⟩, ⟨b, by simp [M3.one, M3.mulVec, hb]⟩,
                  ⟨c, by simp [M3.one, M3.mulVec, hc]⟩⟩
              · exact ⟨⟨a, by simp [M3.mulVec, ha]⟩, ⟨-b, by simp [M3.mulVec, hb]⟩,
                  ⟨-c, by simp [M3.mulVec, hc]⟩⟩
            shift := by decide }
          (fun R hR => point_operation hR) true true
          (fun _ => point_exchange)
          (fun gp _ _ => point_phonons bz gp) (fun _ _ _ _ _ _ _ => le_refl _) 1 (by decide)
          (by rw [hsize]; decide) (fun h => by simp at h) T T0 hT hT0 χ
        rw [hl4, hl6] at this
        exact this

/-- The strengths of the example are not zero. -/
example : tripletStrength id (fun _ => 1) pointCrystal (fun _ => 2)
    (fun x => if x % 9 = 0 ∨ x % 9 = 4 ∨ x % 9 = 8 then 1 else 0) ![1, 0, 2] (fun g => ⟨g, 0, 0⟩)
    exampleCubic.D exampleCubic.Q ![0, 1, 2] ≠ 0 := by
  decide +kernel

end Phono3py.Props
