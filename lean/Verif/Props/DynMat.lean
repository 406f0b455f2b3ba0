import Verif.Lemmas.DynMat
import Mathlib.Algebra.Order.Field.Rat
import Mathlib.Algebra.BigOperators.Field
import Mathlib.Tactic.LinearCombination

/-!
# The dynamical matrix (C86-C92)
-/

namespace Phono3py
namespace Props

open Finset Spec

section
variable {K : Type} [Field K] [LinearOrder K] [IsStrictOrderedRing K]

/-! ### C86: Hermitian -/

/-- C86: the matrix handed to the eigenvalue solver is Hermitian, with and without the correction of
Wang, whatever the force constants, the wave vector and the previous content of the memory. -/
theorem C86_hermitian (sqrt : K → K) (expi : K → Cplx K) (c : Fc2Cell K)
    (nac : Option (NacParams K)) (recip : Nat → Nat → K) (q : Nat → K) (dir : Option (Nat → K))
    (mem : Int → Cplx K) :
    HermitianMatrix c.numPatom (wangMatrix sqrt expi c nac recip q dir mem) := by
  intro i hi k hk j hj l hl
  unfold wangMatrix
  rw [dynmat_block _ _ _ _ _ _ hi hk hj hl, dynmat_block _ _ _ _ _ _ hj hl hi hk]
  exact herm_conj _ _

theorem kk_symm (sqrt exp : K → K) (eps : Nat → Nat → K) (la tol : K) (q : Nat → K)
    (dir : Option (Nat → K)) (big : Nat → K) (k l : Nat) :
    kk sqrt exp eps la tol q dir big k l = kk sqrt exp eps la tol q dir big l k := by
  unfold kk
  dsimp only
  split
  · cases dir with
    | none => rfl
    | some d => simp only [mul_comm]
  · rw [mul_comm (big k + q k)]

theorem conj_scale (z : Cplx K) (r : K) : conj (z.scale r) = (conj z).scale r := by
  ext <;> simp [conj, Cplx.scale]

theorem conj_conj (z : Cplx K) : conj (conj z) = z := by ext <;> simp [conj]

theorem conj_sub (a b : Cplx K) : conj (a - b) = conj a - conj b := by
  ext <;> simp [conj]; ring

theorem ddSum_herm (sqrt exp : K → K) (expi : K → Cplx K) (hneg : ∀ x, expi (-x) = conj (expi x))
    (s : DipoleSum K) (eps : Nat → Nat → K) (q : Nat → K) (dir : Option (Nat → K)) (i k j l : Nat) :
    ddSum sqrt exp expi s eps q dir i k j l = conj (ddSum sqrt exp expi s eps q dir j l i k) := by
  unfold ddSum
  rw [conj_sum]
  refine Finset.sum_congr rfl fun g _ => ?_
  rw [conj_scale, ← hneg, kk_symm, ← Finset.sum_neg_distrib]
  congr 2
  refine Finset.sum_congr rfl fun d _ => ?_
  ring

theorem dd_herm (sqrt exp : K → K) (expi : K → Cplx K) (hneg : ∀ x, expi (-x) = conj (expi x))
    (np : Nat) (s : DipoleSum K) (p : NacParams K) (q : Nat → K) (dir : Option (Nat → K)) :
    HermitianMatrix np (multiplyBorns np p.born (getDd sqrt exp expi np s p.dielectric q dir)) := by
  intro i hi k hk j hj l hl
  rw [multiplyBorns_block _ _ _ hi hk hj hl, multiplyBorns_block _ _ _ hj hl hi hk, conj_sum,
    Finset.sum_comm]
  refine Finset.sum_congr rfl fun n hn => ?_
  rw [conj_sum]
  refine Finset.sum_congr rfl fun m hm => ?_
  rw [Finset.mem_range] at hn hm
  rw [getDd_block _ _ _ _ _ _ _ _ hi hm hj hn, getDd_block _ _ _ _ _ _ _ _ hj hn hi hm,
    ddSum_herm _ _ _ hneg, conj_scale, mul_comm (p.born i m k)]

/-- C86: the same with the correction of Gonze and Lee. -/
theorem C86_hermitian_gonze (sqrt exp : K → K) (expi : K → Cplx K)
    (hneg : ∀ x, expi (-x) = conj (expi x)) (c : Fc2Cell K) (p : NacParams K) (s : DipoleSum K)
    (recip : Nat → Nat → K) (q : Nat → K) (dir : Option (Nat → K)) (mem : Int → Cplx K) :
    HermitianMatrix c.numPatom (gonzeMatrix sqrt exp expi c p s
      (dipoleQ0 sqrt exp expi c.numPatom s p) recip q dir mem) := by
  intro i hi k hk j hj l hl
  rw [gonze_block _ _ _ _ _ _ _ _ _ _ _ hi hk hj hl, gonze_block _ _ _ _ _ _ _ _ _ _ _ hj hl hi hk,
    conj_add]
  congr 1
  · exact C86_hermitian sqrt expi c none recip q dir mem i hi k hk j hj l hl
  · rw [conj_scale, mul_comm (c.mass j)]
    congr 1
    rw [dipoleDipole_block _ _ _ _ _ _ _ _ _ hi hk hj hl,
      dipoleDipole_block _ _ _ _ _ _ _ _ _ hj hl hi hk, conj_scale]
    congr 1
    rw [conj_sub]
    congr 1
    · exact dd_herm sqrt exp expi hneg c.numPatom s p _ _ i hi k hk j hj l hl
    · by_cases hij : i = j
      · subst hij
        rw [if_pos rfl, if_pos rfl, dipoleQ0_entry _ _ _ _ _ _ hi hk hl,
          dipoleQ0_entry _ _ _ _ _ _ hi hl hk]
        exact herm_conj _ _
      · rw [if_neg hij, if_neg (fun h => hij h.symm)]
        ext <;> simp [conj]

theorem quadForm_eq (q : Nat → K) (eps : Nat → Nat → K) :
    (sumLoop 3 fun i => (sumLoop 3 fun j => eps i j * q j) * q i) = quadForm q eps := by
  simp only [sumLoop_eq, quadForm, Finset.sum_mul]
  refine Finset.sum_congr rfl fun i _ => Finset.sum_congr rfl fun j _ => ?_
  ring

theorem dielectricPart_eq (q : Nat → K) (eps : Nat → Nat → K) :
    dielectricPart q eps = quadForm q eps := by
  unfold dielectricPart quadForm
  simp [List.range_succ, Finset.sum_range_succ]
  ring

theorem qCart_eq (recip : Nat → Nat → K) (q : Nat → K) (d : Nat) :
    qCart recip q d = dotN (recip d) q := by
  unfold qCart dotN
  rw [sumLoop_eq]

theorem chargeSum_eq {np i j : Nat} (hj : j < np) (f : K) (q : Nat → K)
    (born : Nat → Nat → Nat → K) (k l : Nat) :
    chargeSum np f q born (i * np + j) k l =
      (∑ m ∈ range 3, q m * born i m k) * (∑ m ∈ range 3, q m * born j m l) * f := by
  unfold chargeSum qBorn
  have h1 : (i * np + j) / np = i := by
    rw [mul_comm, Nat.mul_add_div (by omega), Nat.div_eq_of_lt hj, add_zero]
  have h2 : (i * np + j) % np = j := by
    rw [mul_comm, Nat.mul_add_mod, Nat.mod_eq_of_lt hj]
  rw [h1, h2, sumLoop_eq, sumLoop_eq]

theorem fc2At_eq (n : Nat) (row : Int) (s a b : Nat) :
    row * n * 9 + s * 9 + a * 3 + b = fc2At n row s a b := by
  unfold fc2At
  ring

/-- The wave vector that enters the non-analytical term: the given direction or `q`, Cartesian. -/
def nacVector (recip : Nat → Nat → K) (q : Nat → K) (dir : Option (Nat → K)) : Nat → K :=
  fun d => dotN (recip d) (dir.getD q)

theorem wangChargeSum_eq (c : Fc2Cell K) (p : NacParams K) (recip : Nat → Nat → K) (q : Nat → K)
    (dir : Option (Nat → K)) {i j : Nat} (hj : j < c.numPatom) (k l : Nat) :
    wangChargeSum c p recip q dir (i * c.numPatom + j) k l =
      wangTerm c p (nacVector recip q dir) i k j l := by
  have e : wangChargeSum c p recip q dir = chargeSum c.numPatom (p.factor / (sumLoop 3 fun i =>
      (sumLoop 3 fun j => p.dielectric i j * nacVector recip q dir j) * nacVector recip q dir i) /
      c.numSatom * c.numPatom) (nacVector recip q dir) p.born := by
    have h : ∀ x : Nat → K, qCart recip x = fun d => dotN (recip d) x := fun x =>
      funext fun d => qCart_eq recip x d
    cases dir <;> (simp only [wangChargeSum, nacVector, h, Option.getD]; rfl)
  rw [e, chargeSum_eq hj, quadForm_eq]
  unfold wangTerm
  simp only [div_eq_mul_inv, mul_inv, inv_inv]
  ring

/-- The term added to the force constants: none, or that of Wang. -/
def extraTerm (c : Fc2Cell K) (nac : Option (NacParams K)) (recip : Nat → Nat → K) (q : Nat → K)
    (dir : Option (Nat → K)) (i k j l : Nat) : K :=
  match nac with
  | none => 0
  | some p => wangTerm c p (nacVector recip q dir) i k j l

theorem rawBlock_eq (sqrt : K → K) (expi : K → Cplx K) (c : Fc2Cell K)
    (nac : Option (NacParams K)) (recip : Nat → Nat → K) (q : Nat → K) (dir : Option (Nat → K))
    {i k j l : Nat} (hj : j < c.numPatom) :
    rawBlock sqrt expi c (nac.map fun p => wangChargeSum c p recip q dir) q i k j l =
      fourierBlock sqrt expi c (extraTerm c nac recip q dir) q i k j l := by
  have h : dmElem expi c (nac.map fun p => wangChargeSum c p recip q dir) q i j k l =
      ∑ s ∈ range c.numSatom, if c.s2p s = c.p2s j then
        (meanPhaseN expi q c.svecs (c.multi (s * c.numPatom + i)).1
          (c.multi (s * c.numPatom + i)).2).scale
          (c.fc2 (fc2At c.numSatom (c.p2s i) s k l) + extraTerm c nac recip q dir i k j l)
        else 0 := by
    rw [dmElem_eq]
    refine Finset.sum_congr rfl fun s _ => ?_
    split
    · rw [pairPhase_eq]
      congr 1
      cases nac with
      | none => simp [fcElem, extraTerm, fc2At_eq]
      | some p => simp only [fcElem, extraTerm, Option.map_some, fc2At_eq, wangChargeSum_eq c p recip q dir hj]
    · rfl
  unfold rawBlock fourierBlock
  rw [← h]
  ext <;> simp [Cplx.scale, div_eq_mul_inv]

/-- C86: which Hermitian matrix it is: the Hermitian part of the lattice Fourier transform. -/
theorem C86_formula (sqrt : K → K) (expi : K → Cplx K) (c : Fc2Cell K)
    (nac : Option (NacParams K)) (recip : Nat → Nat → K) (q : Nat → K) (dir : Option (Nat → K))
    (mem : Int → Cplx K) {i k j l : Nat} (hi : i < c.numPatom) (hk : k < 3) (hj : j < c.numPatom)
    (hl : l < 3) :
    dynBlock c.numPatom (wangMatrix sqrt expi c nac recip q dir mem) i k j l =
      (fourierBlock sqrt expi c (extraTerm c nac recip q dir) q i k j l +
        conj (fourierBlock sqrt expi c (extraTerm c nac recip q dir) q j l i k)).scale (1 / 2) := by
  unfold wangMatrix
  rw [dynmat_block _ _ _ _ _ _ hi hk hj hl, rawBlock_eq _ _ _ _ _ _ _ hj,
    rawBlock_eq _ _ _ _ _ _ _ hi]
  ext <;> simp [herm, conj, Cplx.scale] <;> ring

/-! ### C87: the opposite wave vector -/

theorem dotN_neg (r q : Nat → K) : dotN r (fun d => -q d) = -dotN r q := by
  simp [dotN, Finset.sum_neg_distrib]

theorem dotN_neg_left (r q : Nat → K) : dotN (fun d => -q d) r = -dotN q r := by
  simp [dotN, Finset.sum_neg_distrib]

theorem quadForm_neg (q : Nat → K) (eps : Nat → Nat → K) :
    quadForm (fun d => -q d) eps = quadForm q eps := by
  simp [quadForm]

theorem wangTerm_neg (c : Fc2Cell K) (p : NacParams K) (q : Nat → K) (i k j l : Nat) :
    wangTerm c p (fun d => -q d) i k j l = wangTerm c p q i k j l := by
  unfold wangTerm
  rw [quadForm_neg]
  simp only [neg_mul, Finset.sum_neg_distrib, mul_neg, neg_neg]

theorem extraTerm_neg (c : Fc2Cell K) (nac : Option (NacParams K)) (recip : Nat → Nat → K)
    (q : Nat → K) (dir : Option (Nat → K)) :
    extraTerm c nac recip (fun d => -q d) dir = extraTerm c nac recip q dir := by
  funext i k j l
  cases nac with
  | none => rfl
  | some p =>
    cases dir with
    | some d => rfl
    | none =>
      have : nacVector recip (fun d => -q d) none = fun d => -(nacVector recip q none d) := by
        funext d
        simp [nacVector, dotN_neg]
      simp only [extraTerm, this, wangTerm_neg]

theorem fourierBlock_neg (sqrt : K → K) (expi : K → Cplx K)
    (hneg : ∀ x, expi (-x) = conj (expi x)) (c : Fc2Cell K) (extra : Nat → Nat → Nat → Nat → K)
    (q : Nat → K) (i k j l : Nat) :
    fourierBlock sqrt expi c extra (fun d => -q d) i k j l =
      conj (fourierBlock sqrt expi c extra q i k j l) := by
  unfold fourierBlock
  rw [conj_scale, conj_sum]
  congr 1
  refine Finset.sum_congr rfl fun s _ => ?_
  split
  · rw [conj_scale]
    congr 1
    unfold meanPhaseN
    rw [conj_scale, conj_sum]
    simp only [dotN_neg_left, hneg]
  · ext <;> simp [conj]

/-- C87: the matrix of `-q` is the complex conjugate of that of `q`, with and without the correction
of Wang. -/
theorem C87_reversal (sqrt : K → K) (expi : K → Cplx K) (hneg : ∀ x, expi (-x) = conj (expi x))
    (c : Fc2Cell K) (nac : Option (NacParams K)) (recip : Nat → Nat → K) (q : Nat → K)
    (dir : Option (Nat → K)) (mem mem' : Int → Cplx K) {i k j l : Nat} (hi : i < c.numPatom)
    (hk : k < 3) (hj : j < c.numPatom) (hl : l < 3) :
    dynBlock c.numPatom (wangMatrix sqrt expi c nac recip (fun d => -q d) dir mem') i k j l =
      conj (dynBlock c.numPatom (wangMatrix sqrt expi c nac recip q dir mem) i k j l) := by
  rw [C86_formula _ _ _ _ _ _ _ _ hi hk hj hl, C86_formula _ _ _ _ _ _ _ _ hi hk hj hl,
    extraTerm_neg, fourierBlock_neg _ _ hneg, fourierBlock_neg _ _ hneg, conj_scale, conj_add]

theorem kk_neg (sqrt exp : K → K) (eps : Nat → Nat → K) (la tol : K) (q : Nat → K)
    (dir : Option (Nat → K)) (big big' : Nat → K) (h : ∀ d < 3, big' d = -big d) {k l : Nat}
    (hk : k < 3) (hl : l < 3) :
    kk sqrt exp eps la tol (fun d => -q d) dir big k l = kk sqrt exp eps la tol q dir big' k l := by
  have e : ∀ d < 3, big d + -q d = -(big' d + q d) := by
    intro d hd
    rw [h d hd]
    ring
  have h1 : (sumLoop 3 fun d => (big d + -q d) * (big d + -q d)) =
      sumLoop 3 fun d => (big' d + q d) * (big' d + q d) := by
    rw [sumLoop_eq, sumLoop_eq]
    refine Finset.sum_congr rfl fun d hd => ?_
    rw [e d (by simpa using hd)]
    ring
  have h2 : dielectricPart (fun d => big d + -q d) eps =
      dielectricPart (fun d => big' d + q d) eps := by
    rw [dielectricPart_eq, dielectricPart_eq]
    unfold quadForm
    refine Finset.sum_congr rfl fun a ha => Finset.sum_congr rfl fun b hb => ?_
    beta_reduce
    rw [e a (by simpa using ha), e b (by simpa using hb)]
    ring
  unfold kk
  dsimp only
  rw [h1, h2, e k hk, e l hl, neg_mul_neg]

/-- The list of reciprocal-lattice points contains the opposite of each of its points, at position
`σ g`. -/
def SymmetricList (s : DipoleSum K) (σ : Nat → Nat) : Prop :=
  ∀ g < s.numG, σ g < s.numG ∧ σ (σ g) = g ∧ ∀ d < 3, s.bigG (σ g) d = -s.bigG g d

theorem ddSum_neg (sqrt exp : K → K) (expi : K → Cplx K) (hneg : ∀ x, expi (-x) = conj (expi x))
    (s : DipoleSum K) {σ : Nat → Nat} (hσ : SymmetricList s σ) (eps : Nat → Nat → K) (q : Nat → K)
    (dir : Option (Nat → K)) (i j : Nat) {k l : Nat} (hk : k < 3) (hl : l < 3) :
    ddSum sqrt exp expi s eps (fun d => -q d) dir i k j l =
      conj (ddSum sqrt exp expi s eps q dir i k j l) := by
  unfold ddSum
  rw [conj_sum]
  refine Finset.sum_bij' (fun g _ => σ g) (fun g _ => σ g) ?_ ?_ ?_ ?_ ?_
  · intro g hg
    simpa using (hσ g (by simpa using hg)).1
  · intro g hg
    simpa using (hσ g (by simpa using hg)).1
  · intro g hg
    exact (hσ g (by simpa using hg)).2.1
  · intro g hg
    exact (hσ g (by simpa using hg)).2.1
  · intro g hg
    have h3 := (hσ g (by simpa using hg)).2.2
    rw [kk_neg _ _ _ _ _ _ _ _ _ h3 hk hl, conj_scale, ← hneg, ← Finset.sum_neg_distrib]
    congr 2
    refine Finset.sum_congr rfl fun d hd => ?_
    rw [h3 d (by simpa using hd)]
    ring

theorem multiply_neg (sqrt exp : K → K) (expi : K → Cplx K)
    (hneg : ∀ x, expi (-x) = conj (expi x)) (np : Nat) (s : DipoleSum K) {σ : Nat → Nat}
    (hσ : SymmetricList s σ) (p : NacParams K) (q : Nat → K) (dir : Option (Nat → K))
    {i k j l : Nat} (hi : i < np) (hk : k < 3) (hj : j < np) (hl : l < 3) :
    dynBlock np (multiplyBorns np p.born (getDd sqrt exp expi np s p.dielectric (fun d => -q d) dir))
        i k j l =
      conj (dynBlock np (multiplyBorns np p.born (getDd sqrt exp expi np s p.dielectric q dir))
        i k j l) := by
  rw [multiplyBorns_block _ _ _ hi hk hj hl, multiplyBorns_block _ _ _ hi hk hj hl, conj_sum]
  refine Finset.sum_congr rfl fun m hm => ?_
  rw [conj_sum]
  refine Finset.sum_congr rfl fun n hn => ?_
  rw [Finset.mem_range] at hn hm
  rw [getDd_block _ _ _ _ _ _ _ _ hi hm hj hn, getDd_block _ _ _ _ _ _ _ _ hi hm hj hn,
    ddSum_neg _ _ _ hneg _ hσ _ _ _ _ _ hm hn, conj_scale]

theorem q0_real (sqrt exp : K → K) (expi : K → Cplx K) (hneg : ∀ x, expi (-x) = conj (expi x))
    (np : Nat) (s : DipoleSum K) {σ : Nat → Nat} (hσ : SymmetricList s σ) (p : NacParams K)
    {i k l : Nat} (hi : i < np) (hk : k < 3) (hl : l < 3) :
    conj (dipoleQ0Sum sqrt exp expi np s p (i * 9 + k * 3 + l : Nat)) =
      dipoleQ0Sum sqrt exp expi np s p (i * 9 + k * 3 + l : Nat) := by
  rw [dipoleQ0Sum_entry _ _ _ _ _ _ hi hk hl, conj_sum]
  refine Finset.sum_congr rfl fun j hj => ?_
  rw [← multiply_neg _ _ _ hneg _ _ hσ _ _ _ hi hk (by simpa using hj) hl]
  simp only [neg_zero]

/-- C87: the same with the correction of Gonze and Lee, when the list of reciprocal-lattice points
is symmetric. -/
theorem C87_reversal_gonze (sqrt exp : K → K) (expi : K → Cplx K)
    (hneg : ∀ x, expi (-x) = conj (expi x)) (c : Fc2Cell K) (p : NacParams K) (s : DipoleSum K)
    {σ : Nat → Nat} (hσ : SymmetricList s σ) (recip : Nat → Nat → K) (q : Nat → K)
    (dir : Option (Nat → K)) (mem mem' : Int → Cplx K) {i k j l : Nat} (hi : i < c.numPatom)
    (hk : k < 3) (hj : j < c.numPatom) (hl : l < 3) :
    dynBlock c.numPatom (gonzeMatrix sqrt exp expi c p s (dipoleQ0 sqrt exp expi c.numPatom s p)
        recip (fun d => -q d) dir mem') i k j l =
      conj (dynBlock c.numPatom (gonzeMatrix sqrt exp expi c p s
        (dipoleQ0 sqrt exp expi c.numPatom s p) recip q dir mem) i k j l) := by
  have hq : qCart recip (fun d => -q d) = fun d => -(qCart recip q d) := by
    funext d
    rw [qCart_eq, qCart_eq, dotN_neg]
  rw [gonze_block _ _ _ _ _ _ _ _ _ _ _ hi hk hj hl, gonze_block _ _ _ _ _ _ _ _ _ _ _ hi hk hj hl,
    conj_add, hq]
  refine congrArg₂ (· + ·) ?_ ?_
  · exact C87_reversal sqrt expi hneg c none recip q dir mem mem' hi hk hj hl
  · rw [conj_scale, dipoleDipole_block _ _ _ _ _ _ _ _ _ hi hk hj hl,
      dipoleDipole_block _ _ _ _ _ _ _ _ _ hi hk hj hl, conj_scale, conj_sub,
      multiply_neg _ _ _ hneg _ _ hσ _ _ _ hi hk hj hl]
    have hq0 : conj (if i = j then dipoleQ0 sqrt exp expi c.numPatom s p (i * 9 + k * 3 + l : Nat)
        else 0) = if i = j then dipoleQ0 sqrt exp expi c.numPatom s p (i * 9 + k * 3 + l : Nat)
        else 0 := by
      split
      · rw [dipoleQ0_entry _ _ _ _ _ _ hi hk hl]
        have h1 := q0_real sqrt exp expi hneg c.numPatom s hσ p hi hk hl
        have h2 := q0_real sqrt exp expi hneg c.numPatom s hσ p hi hl hk
        have h1' := congrArg Cplx.im h1
        have h2' := congrArg Cplx.im h2
        simp only [conj] at h1' h2'
        ext
        · rfl
        · simp only [herm, conj]
          linear_combination (1 / 2) * h1' - (1 / 2) * h2'
      · ext <;> simp [conj]
    rw [hq0]

theorem eigen_conj {n : Nat} {a b : Int → Cplx K} {lam : K} {e : Nat → Nat → Cplx K}
    (hab : ∀ i < n, ∀ k < 3, ∀ j < n, ∀ l < 3, dynBlock n b i k j l = conj (dynBlock n a i k j l))
    (h : EigenPair n a lam e) : EigenPair n b lam (fun j l => conj (e j l)) := by
  intro i hi k hk
  have := congrArg conj (h i hi k hk)
  rw [conj_sum, conj_scale] at this
  rw [← this]
  refine Finset.sum_congr rfl fun j hj => ?_
  rw [conj_sum]
  refine Finset.sum_congr rfl fun l hl => ?_
  rw [hab i hi k hk j (by simpa using hj) l (by simpa using hl), conj_mul]

/-- C87: `q` and `-q` have the same squared frequencies, with complex conjugate displacements. -/
theorem C87_spectrum (sqrt : K → K) (expi : K → Cplx K) (hneg : ∀ x, expi (-x) = conj (expi x))
    (c : Fc2Cell K) (nac : Option (NacParams K)) (recip : Nat → Nat → K) (q : Nat → K)
    (dir : Option (Nat → K)) (mem mem' : Int → Cplx K) (lam : K) (e : Nat → Nat → Cplx K)
    (h : EigenPair c.numPatom (wangMatrix sqrt expi c nac recip q dir mem) lam e) :
    EigenPair c.numPatom (wangMatrix sqrt expi c nac recip (fun d => -q d) dir mem') lam
      (fun j l => conj (e j l)) :=
  eigen_conj (fun _ hi _ hk _ hj _ hl =>
    C87_reversal sqrt expi hneg c nac recip q dir mem mem' hi hk hj hl) h

/-- C87: the same with the correction of Gonze and Lee. -/
theorem C87_spectrum_gonze (sqrt exp : K → K) (expi : K → Cplx K)
    (hneg : ∀ x, expi (-x) = conj (expi x)) (c : Fc2Cell K) (p : NacParams K) (s : DipoleSum K)
    {σ : Nat → Nat} (hσ : SymmetricList s σ) (recip : Nat → Nat → K) (q : Nat → K)
    (dir : Option (Nat → K)) (mem mem' : Int → Cplx K) (lam : K) (e : Nat → Nat → Cplx K)
    (h : EigenPair c.numPatom (gonzeMatrix sqrt exp expi c p s
      (dipoleQ0 sqrt exp expi c.numPatom s p) recip q dir mem) lam e) :
    EigenPair c.numPatom (gonzeMatrix sqrt exp expi c p s
      (dipoleQ0 sqrt exp expi c.numPatom s p) recip (fun d => -q d) dir mem') lam
      (fun j l => conj (e j l)) :=
  eigen_conj (fun _ hi _ hk _ hj _ hl =>
    C87_reversal_gonze sqrt exp expi hneg c p s hσ recip q dir mem mem' hi hk hj hl) h

/-! ### C88: rigid translations -/

theorem sqrt_mul {sqrt : K → K} (hs : IsSqrt sqrt) {x y : K} (hx : 0 < x) (hy : 0 < y) :
    sqrt (x * y) = sqrt x * sqrt y := by
  have h1 := hs.sq (x * y) (mul_nonneg hx.le hy.le)
  have h2 : (sqrt x * sqrt y) * (sqrt x * sqrt y) = x * y := by
    have := hs.sq x hx.le
    have := hs.sq y hy.le
    calc (sqrt x * sqrt y) * (sqrt x * sqrt y) = (sqrt x * sqrt x) * (sqrt y * sqrt y) := by ring
      _ = x * y := by rw [hs.sq x hx.le, hs.sq y hy.le]
  exact (mul_self_inj (hs.nonneg _) (mul_nonneg (hs.nonneg _) (hs.nonneg _))).1 (h1.trans h2.symm)

theorem sqrt_pos {sqrt : K → K} (hs : IsSqrt sqrt) {x : K} (hx : 0 < x) : 0 < sqrt x := by
  rcases lt_or_eq_of_le (hs.nonneg x) with h | h
  · exact h
  · have := hs.sq x hx.le
    rw [← h, mul_zero] at this
    exact absurd this hx.ne

/-- A rigid translation of the crystal along direction `α`, mass-weighted. -/
def rigid (sqrt : K → K) (c : Fc2Cell K) (α : Nat) (j l : Nat) : Cplx K :=
  if l = α then ⟨sqrt (c.mass j), 0⟩ else 0

/-- The maps between primitive cell and supercell are consistent, every pair has a shortest vector
and the masses are positive. -/
structure GoodCell (c : Fc2Cell K) : Prop where
  inj : ∀ i < c.numPatom, ∀ j < c.numPatom, c.p2s i = c.p2s j → i = j
  cover : ∀ s < c.numSatom, ∃ j < c.numPatom, c.s2p s = c.p2s j
  vecs : ∀ i < c.numPatom, ∀ s < c.numSatom, 0 < (c.multi (s * c.numPatom + i)).1
  mass : ∀ i < c.numPatom, 0 < c.mass i

/-- The force constants have no drift: a translation of all atoms of the supercell causes no force,
and the forces caused by moving one atom, summed over the crystal, vanish. -/
structure NoDrift (c : Fc2Cell K) : Prop where
  second : ∀ i < c.numPatom, ∀ k < 3, ∀ l < 3,
    ∑ s ∈ range c.numSatom, c.fc2 (fc2At c.numSatom (c.p2s i) s k l) = 0
  first : ∀ j < c.numPatom, ∀ k < 3, ∀ l < 3,
    ∑ i ∈ range c.numPatom, ∑ s ∈ range c.numSatom,
      (if c.s2p s = c.p2s j then c.fc2 (fc2At c.numSatom (c.p2s i) s k l) else 0) = 0

theorem meanPhase_zero {expi : K → Cplx K} (h0 : expi 0 = 1) (v : Int → Nat → K) {m : Nat}
    (hm : 0 < m) (a : Int) : meanPhaseN expi (fun _ => 0) v m a = 1 := by
  have hm' : (m : K) ≠ 0 := by exact_mod_cast hm.ne'
  unfold meanPhaseN
  have : ∀ x, expi (dotN (fun _ => 0) (v (a + x))) = 1 := by
    intro x
    simp [dotN, h0]
  simp only [this]
  ext
  · rw [Cplx.scale, re_sum]
    simp [hm']
  · rw [Cplx.scale, im_sum]
    simp

/-- The sum of the force constants of atom `i` with the translations of atom `j`. -/
def classFc (c : Fc2Cell K) (extra : Nat → Nat → Nat → Nat → K) (i k j l : Nat) : K :=
  ∑ s ∈ range c.numSatom, if c.s2p s = c.p2s j then
    c.fc2 (fc2At c.numSatom (c.p2s i) s k l) + extra i k j l else 0

theorem fourier_zero {sqrt : K → K} {expi : K → Cplx K} (h0 : expi 0 = 1) {c : Fc2Cell K}
    (hc : GoodCell c) (extra : Nat → Nat → Nat → Nat → K) {i k j l : Nat} (hi : i < c.numPatom) :
    fourierBlock sqrt expi c extra (fun _ => 0) i k j l =
      ⟨classFc c extra i k j l / sqrt (c.mass i * c.mass j), 0⟩ := by
  have : ∀ s ∈ range c.numSatom, (if c.s2p s = c.p2s j then
      (meanPhaseN expi (fun _ => 0) c.svecs (c.multi (s * c.numPatom + i)).1
        (c.multi (s * c.numPatom + i)).2).scale
        (c.fc2 (fc2At c.numSatom (c.p2s i) s k l) + extra i k j l) else 0) =
      (⟨if c.s2p s = c.p2s j then
        c.fc2 (fc2At c.numSatom (c.p2s i) s k l) + extra i k j l else 0, 0⟩ : Cplx K) := by
    intro s hs
    rw [meanPhase_zero h0 _ (hc.vecs i hi s (by simpa using hs))]
    split
    · ext <;> simp [Cplx.scale]
    · rfl
  unfold fourierBlock
  rw [Finset.sum_congr rfl this]
  ext
  · simp only [Cplx.scale, re_sum, classFc, one_mul, div_eq_mul_inv]
  · simp [Cplx.scale, im_sum]

/-- What a vanishing total force means for the matrix at the zone centre. -/
theorem rigid_zero {sqrt : K → K} (hs : IsSqrt sqrt) {expi : K → Cplx K} (h0 : expi 0 = 1)
    {c : Fc2Cell K} (hc : GoodCell c) (nac : Option (NacParams K)) (recip : Nat → Nat → K)
    (dir : Option (Nat → K)) (mem : Int → Cplx K) {α : Nat} (hα : α < 3)
    (h2 : ∀ i < c.numPatom, ∀ k < 3, ∑ j ∈ range c.numPatom,
      classFc c (extraTerm c nac recip (fun _ => 0) dir) i k j α = 0)
    (h1 : ∀ i < c.numPatom, ∀ k < 3, ∑ j ∈ range c.numPatom,
      classFc c (extraTerm c nac recip (fun _ => 0) dir) j α i k = 0) :
    EigenPair c.numPatom (wangMatrix sqrt expi c nac recip (fun _ => 0) dir mem) 0
      (rigid sqrt c α) := by
  intro i hi k hk
  have hmi := sqrt_pos hs (hc.mass i hi)
  have hterm : ∀ j ∈ range c.numPatom,
      ∑ l ∈ range 3, dynBlock c.numPatom (wangMatrix sqrt expi c nac recip (fun _ => 0) dir mem)
        i k j l * rigid sqrt c α j l =
      (⟨(classFc c (extraTerm c nac recip (fun _ => 0) dir) i k j α +
        classFc c (extraTerm c nac recip (fun _ => 0) dir) j α i k) *
        (1 / (2 * sqrt (c.mass i))), 0⟩ : Cplx K) := by
    intro j hj
    rw [Finset.mem_range] at hj
    have hmj := sqrt_pos hs (hc.mass j hj)
    rw [sum_one hα]
    · rw [C86_formula _ _ _ _ _ _ _ _ hi hk hj hα, fourier_zero h0 hc _ hi,
        fourier_zero h0 hc _ hj, sqrt_mul hs (hc.mass i hi) (hc.mass j hj),
        sqrt_mul hs (hc.mass j hj) (hc.mass i hi), rigid, if_pos rfl]
      ext
      · simp [Cplx.scale, conj]
        field_simp
      · simp [Cplx.scale, conj]
    · intro l _ hne
      rw [rigid, if_neg hne, mul_zero]
  rw [Finset.sum_congr rfl hterm]
  ext
  · rw [re_sum, ← Finset.sum_mul, Finset.sum_add_distrib, h1 i hi k hk, h2 i hi k hk]
    simp [Cplx.scale]
  · rw [im_sum]
    simp [Cplx.scale]

theorem sum_classes {c : Fc2Cell K} (hc : GoodCell c) (f : Nat → K) :
    ∑ j ∈ range c.numPatom, ∑ s ∈ range c.numSatom, (if c.s2p s = c.p2s j then f s else 0) =
      ∑ s ∈ range c.numSatom, f s := by
  rw [Finset.sum_comm]
  refine Finset.sum_congr rfl fun s hs => ?_
  obtain ⟨j, hj, hsj⟩ := hc.cover s (by simpa using hs)
  rw [sum_one hj, if_pos hsj]
  intro j' hj' hne
  rw [if_neg]
  intro h
  exact hne (hc.inj j' hj' j hj (by rw [← h, hsj]))

/-- C88: without correction, force constants without drift give the three rigid translations
frequency zero at the zone centre. -/
theorem C88_acoustic {sqrt : K → K} (hs : IsSqrt sqrt) {expi : K → Cplx K} (h0 : expi 0 = 1)
    {c : Fc2Cell K} (hc : GoodCell c) (hd : NoDrift c) (recip : Nat → Nat → K)
    (dir : Option (Nat → K)) (mem : Int → Cplx K) {α : Nat} (hα : α < 3) :
    EigenPair c.numPatom (wangMatrix sqrt expi c none recip (fun _ => 0) dir mem) 0
      (rigid sqrt c α) := by
  refine rigid_zero hs h0 hc none recip dir mem hα ?_ ?_
  · intro i hi k hk
    simp only [classFc, extraTerm, add_zero]
    rw [sum_classes hc]
    exact hd.second i hi k hk α hα
  · intro i hi k hk
    simp only [classFc, extraTerm, add_zero]
    exact hd.first i hi α hα k hk

/-- C88: with the correction of Wang along a direction as well, when the charges of the cell add up
to zero and every atom of the primitive cell has the same number `N` of translations. -/
theorem C88_acoustic_wang {sqrt : K → K} (hs : IsSqrt sqrt) {expi : K → Cplx K} (h0 : expi 0 = 1)
    {c : Fc2Cell K} (hc : GoodCell c) (hd : NoDrift c) (p : NacParams K)
    (hz : ∀ m < 3, ∀ k < 3, ∑ j ∈ range c.numPatom, p.born j m k = 0) {N : K}
    (hN : ∀ j < c.numPatom, ∑ s ∈ range c.numSatom, (if c.s2p s = c.p2s j then 1 else 0) = N)
    (recip : Nat → Nat → K) (dir : Nat → K) (mem : Int → Cplx K) {α : Nat} (hα : α < 3) :
    EigenPair c.numPatom (wangMatrix sqrt expi c (some p) recip (fun _ => 0) (some dir) mem) 0
      (rigid sqrt c α) := by
  generalize hv : nacVector recip (fun _ => 0) (some dir) = v
  have hborn : ∀ l < 3, ∑ j ∈ range c.numPatom, ∑ m ∈ range 3, v m * p.born j m l = 0 := by
    intro l hl
    rw [Finset.sum_comm]
    refine Finset.sum_eq_zero fun m hm => ?_
    rw [← Finset.mul_sum, hz m (by simpa using hm) l hl, mul_zero]
  have hsplit : ∀ i k j l, j < c.numPatom →
      classFc c (extraTerm c (some p) recip (fun _ => 0) (some dir)) i k j l =
      (∑ s ∈ range c.numSatom, if c.s2p s = c.p2s j then
        c.fc2 (fc2At c.numSatom (c.p2s i) s k l) else 0) + N * wangTerm c p v i k j l := by
    intro i k j l hj
    rw [← hN j hj, Finset.sum_mul, ← Finset.sum_add_distrib]
    refine Finset.sum_congr rfl fun s _ => ?_
    simp only [extraTerm, hv]
    split <;> simp
  refine rigid_zero hs h0 hc (some p) recip (some dir) mem hα ?_ ?_
  · intro i hi k hk
    rw [Finset.sum_congr rfl fun j hj => hsplit i k j α (by simpa using hj),
      Finset.sum_add_distrib, sum_classes hc, hd.second i hi k hk α hα, zero_add, ← Finset.mul_sum]
    have : ∑ j ∈ range c.numPatom, wangTerm c p v i k j α =
        p.factor * (∑ m ∈ range 3, v m * p.born i m k) *
          (∑ j ∈ range c.numPatom, ∑ m ∈ range 3, v m * p.born j m α) /
          quadForm v p.dielectric / ((c.numSatom : K) / c.numPatom) := by
      simp only [wangTerm]
      rw [← Finset.sum_div, ← Finset.sum_div, ← Finset.mul_sum]
    rw [this, hborn α hα]
    simp
  · intro i hi k hk
    rw [Finset.sum_congr rfl fun j _ => hsplit j α i k hi, Finset.sum_add_distrib,
      hd.first i hi α hα k hk, zero_add, ← Finset.mul_sum]
    have : ∑ j ∈ range c.numPatom, wangTerm c p v j α i k =
        p.factor * (∑ j ∈ range c.numPatom, ∑ m ∈ range 3, v m * p.born j m α) *
          (∑ m ∈ range 3, v m * p.born i m k) /
          quadForm v p.dielectric / ((c.numSatom : K) / c.numPatom) := by
      simp only [wangTerm]
      rw [← Finset.sum_div, ← Finset.sum_div, ← Finset.sum_mul, ← Finset.mul_sum]
    rw [this, hborn α hα]
    simp

/-- Reciprocal-lattice points shorter than the tolerance are zero. -/
def OnlyZeroShort (sqrt : K → K) (s : DipoleSum K) : Prop :=
  ∀ g < s.numG, sqrt (dotN (s.bigG g) (s.bigG g)) < s.tolerance → ∀ d < 3, s.bigG g d = 0

theorem ddSum_dir (sqrt exp : K → K) (expi : K → Cplx K) (h0 : expi 0 = 1) (s : DipoleSum K)
    (hs : OnlyZeroShort sqrt s) (eps : Nat → Nat → K) (dir : Option (Nat → K)) :
    ∃ M : Nat → Nat → K, ∀ i k j l, ddSum sqrt exp expi s eps (fun _ => 0) dir i k j l =
      ddSum sqrt exp expi s eps (fun _ => 0) none i k j l + ⟨M k l, 0⟩ := by
  refine ⟨fun k l => ∑ g ∈ range s.numG, (kk sqrt exp eps s.lambda s.tolerance (fun _ => 0) dir
    (s.bigG g) k l - kk sqrt exp eps s.lambda s.tolerance (fun _ => 0) none (s.bigG g) k l), ?_⟩
  intro i k j l
  have : (⟨∑ g ∈ range s.numG, (kk sqrt exp eps s.lambda s.tolerance (fun _ => 0) dir
      (s.bigG g) k l - kk sqrt exp eps s.lambda s.tolerance (fun _ => 0) none (s.bigG g) k l), 0⟩ :
      Cplx K) = ∑ g ∈ range s.numG, (⟨kk sqrt exp eps s.lambda s.tolerance (fun _ => 0) dir
      (s.bigG g) k l - kk sqrt exp eps s.lambda s.tolerance (fun _ => 0) none (s.bigG g) k l, 0⟩ :
      Cplx K) := by
    ext
    · rw [re_sum]
    · rw [im_sum]; simp
  unfold ddSum
  rw [this, ← Finset.sum_add_distrib]
  refine Finset.sum_congr rfl fun g hg => ?_
  by_cases hlt : sqrt (dotN (s.bigG g) (s.bigG g)) < s.tolerance
  · have hz := hs g (by simpa using hg) hlt
    have : (∑ d ∈ range 3, (s.pos i d - s.pos j d) * s.bigG g d) = 0 :=
      Finset.sum_eq_zero fun d hd => by rw [hz d (by simpa using hd), mul_zero]
    rw [this, h0]
    ext <;> simp [Cplx.scale]
  · have hk : ∀ dir, kk sqrt exp eps s.lambda s.tolerance (fun _ => 0) dir (s.bigG g) k l =
        kk sqrt exp eps s.lambda s.tolerance (fun _ => 0) none (s.bigG g) k l := by
      intro dir
      unfold kk
      simp only [add_zero, sumLoop_eq]
      rw [if_neg (by simpa [dotN] using hlt), if_neg (by simpa [dotN] using hlt)]
    rw [hk dir]
    ext <;> simp [Cplx.scale]

/-- The force on atom `i` in a rigid translation, with the correction of Gonze and Lee: the
anti-Hermitian part of the row sums of the dipole-dipole interaction is left over. -/
theorem gonze_residual {sqrt exp : K → K} (hs : IsSqrt sqrt) {expi : K → Cplx K}
    (h0 : expi 0 = 1) {c : Fc2Cell K} (hc : GoodCell c) (hd : NoDrift c) (p : NacParams K)
    (hz : ∀ m < 3, ∀ k < 3, ∑ j ∈ range c.numPatom, p.born j m k = 0) (s : DipoleSum K)
    (hshort : OnlyZeroShort sqrt s)
    (recip : Nat → Nat → K) (dir : Option (Nat → K)) (mem : Int → Cplx K) {α : Nat} (hα : α < 3)
    {i : Nat} (hi : i < c.numPatom) {k : Nat} (hk : k < 3) :
    ∑ j ∈ range c.numPatom, ∑ l ∈ range 3, dynBlock c.numPatom (gonzeMatrix sqrt exp expi c p s
      (dipoleQ0 sqrt exp expi c.numPatom s p) recip (fun _ => 0) dir mem) i k j l *
        rigid sqrt c α j l =
      (dipoleQ0Sum sqrt exp expi c.numPatom s p (i * 9 + k * 3 + α : Nat) -
        conj (dipoleQ0Sum sqrt exp expi c.numPatom s p (i * 9 + α * 3 + k : Nat))).scale
        (p.factor / (2 * sqrt (c.mass i))) := by
  have hmi := sqrt_pos hs (hc.mass i hi)
  have hq : qCart recip (fun _ => 0) = fun _ => (0 : K) := by
    funext d
    simp [qCart_eq, dotN]
  generalize hdir : dir.map (qCart recip) = dir'
  obtain ⟨M, hM⟩ := ddSum_dir sqrt exp expi h0 s hshort p.dielectric dir'
  have hdd : ∀ j < c.numPatom, dynBlock c.numPatom (multiplyBorns c.numPatom p.born
      (getDd sqrt exp expi c.numPatom s p.dielectric (fun _ => 0) dir')) i k j α =
      dynBlock c.numPatom (multiplyBorns c.numPatom p.born
        (getDd sqrt exp expi c.numPatom s p.dielectric (fun _ => 0) none)) i k j α +
      (⟨∑ m ∈ range 3, ∑ n ∈ range 3, M m n * (p.born i m k * p.born j n α), 0⟩ : Cplx K) := by
    intro j hj
    rw [multiplyBorns_block _ _ _ hi hk hj hα, multiplyBorns_block _ _ _ hi hk hj hα]
    have : (⟨∑ m ∈ range 3, ∑ n ∈ range 3, M m n * (p.born i m k * p.born j n α), 0⟩ : Cplx K) =
        ∑ m ∈ range 3, ∑ n ∈ range 3, (⟨M m n, 0⟩ : Cplx K).scale (p.born i m k * p.born j n α) := by
      ext
      · simp only [re_sum, Cplx.scale]
      · simp only [im_sum, Cplx.scale]; simp
    rw [this, ← Finset.sum_add_distrib]
    refine Finset.sum_congr rfl fun m hm => ?_
    rw [← Finset.sum_add_distrib]
    refine Finset.sum_congr rfl fun n hn => ?_
    rw [Finset.mem_range] at hm hn
    rw [getDd_block _ _ _ _ _ _ _ _ hi hm hj hn, getDd_block _ _ _ _ _ _ _ _ hi hm hj hn, hM]
    ext <;> simp [Cplx.scale] <;> ring
  have hborn : ∑ j ∈ range c.numPatom,
      (⟨∑ m ∈ range 3, ∑ n ∈ range 3, M m n * (p.born i m k * p.born j n α), 0⟩ : Cplx K) = 0 := by
    ext
    · rw [re_sum]
      simp only [Cplx.zero_re]
      rw [Finset.sum_comm]
      refine Finset.sum_eq_zero fun m _ => ?_
      rw [Finset.sum_comm]
      refine Finset.sum_eq_zero fun n hn => ?_
      rw [← Finset.mul_sum, ← Finset.mul_sum, hz n (by simpa using hn) α hα, mul_zero, mul_zero]
    · rw [im_sum]
      simp
  have hrow : ∑ j ∈ range c.numPatom, dynBlock c.numPatom (dipoleDipole sqrt exp expi c.numPatom s p
      (dipoleQ0 sqrt exp expi c.numPatom s p) (fun _ => 0) dir') i k j α =
      (dipoleQ0Sum sqrt exp expi c.numPatom s p (i * 9 + k * 3 + α : Nat) -
        conj (dipoleQ0Sum sqrt exp expi c.numPatom s p (i * 9 + α * 3 + k : Nat))).scale
        (p.factor / 2) := by
    have h1 : ∀ j ∈ range c.numPatom, dynBlock c.numPatom (dipoleDipole sqrt exp expi c.numPatom s p
        (dipoleQ0 sqrt exp expi c.numPatom s p) (fun _ => 0) dir') i k j α =
        (dynBlock c.numPatom (multiplyBorns c.numPatom p.born
          (getDd sqrt exp expi c.numPatom s p.dielectric (fun _ => 0) none)) i k j α +
        (⟨∑ m ∈ range 3, ∑ n ∈ range 3, M m n * (p.born i m k * p.born j n α), 0⟩ : Cplx K) -
        if i = j then dipoleQ0 sqrt exp expi c.numPatom s p (i * 9 + k * 3 + α : Nat)
        else 0).scale p.factor := by
      intro j hj
      rw [Finset.mem_range] at hj
      rw [dipoleDipole_block _ _ _ _ _ _ _ _ _ hi hk hj hα, hdd j hj]
    rw [Finset.sum_congr rfl h1, ← scale_sum, Finset.sum_sub_distrib, Finset.sum_add_distrib, hborn,
      ← dipoleQ0Sum_entry _ _ _ _ _ _ hi hk hα, Finset.sum_ite_eq, if_pos (by simpa using hi),
      dipoleQ0_entry _ _ _ _ _ _ hi hk hα]
    ext <;> simp [Cplx.scale, herm, conj] <;> ring
  have hterm : ∀ j ∈ range c.numPatom, ∑ l ∈ range 3, dynBlock c.numPatom (gonzeMatrix sqrt exp expi c
      p s (dipoleQ0 sqrt exp expi c.numPatom s p) recip (fun _ => 0) dir mem) i k j l *
        rigid sqrt c α j l =
      ∑ l ∈ range 3, dynBlock c.numPatom (wangMatrix sqrt expi c none recip (fun _ => 0) dir mem)
        i k j l * rigid sqrt c α j l +
      (dynBlock c.numPatom (dipoleDipole sqrt exp expi c.numPatom s p
        (dipoleQ0 sqrt exp expi c.numPatom s p) (fun _ => 0) dir') i k j α).scale
        (1 / sqrt (c.mass i)) := by
    intro j hj
    rw [Finset.mem_range] at hj
    have hmj := sqrt_pos hs (hc.mass j hj)
    have hr : ∀ l < 3, l ≠ α → rigid sqrt c α j l = 0 := fun l _ hne => if_neg hne
    rw [sum_one hα _ (fun l hl hne => by rw [hr l hl hne, mul_zero]),
      sum_one hα _ (fun l hl hne => by rw [hr l hl hne, mul_zero]),
      gonze_block _ _ _ _ _ _ _ _ _ _ _ hi hk hj hα, hq, hdir,
      sqrt_mul hs (hc.mass i hi) (hc.mass j hj), add_mul]
    refine congrArg₂ (· + ·) rfl ?_
    rw [rigid, if_pos rfl]
    ext <;> simp [Cplx.scale] <;> field_simp
  rw [Finset.sum_congr rfl hterm, Finset.sum_add_distrib, ← scale_sum, hrow,
    C88_acoustic hs h0 hc hd recip dir mem hα i hi k hk]
  ext <;> simp [Cplx.scale] <;> field_simp

/-- C88, with the correction of Gonze and Lee: when the charges add up to zero and the row sums of
the dipole-dipole interaction are Hermitian matrices.  Missing: the row sums need not be Hermitian,
see `C88_gonze_not_acoustic`. -/
theorem C88_acoustic_gonze_partial {sqrt exp : K → K} (hs : IsSqrt sqrt) {expi : K → Cplx K}
    (h0 : expi 0 = 1) {c : Fc2Cell K} (hc : GoodCell c) (hd : NoDrift c) (p : NacParams K)
    (hz : ∀ m < 3, ∀ k < 3, ∑ j ∈ range c.numPatom, p.born j m k = 0) (s : DipoleSum K)
    (hshort : OnlyZeroShort sqrt s)
    (hherm : ∀ i < c.numPatom, ∀ k < 3, ∀ l < 3,
      dipoleQ0Sum sqrt exp expi c.numPatom s p (i * 9 + k * 3 + l : Nat) =
        conj (dipoleQ0Sum sqrt exp expi c.numPatom s p (i * 9 + l * 3 + k : Nat)))
    (recip : Nat → Nat → K) (dir : Option (Nat → K)) (mem : Int → Cplx K) {α : Nat} (hα : α < 3) :
    EigenPair c.numPatom (gonzeMatrix sqrt exp expi c p s
      (dipoleQ0 sqrt exp expi c.numPatom s p) recip (fun _ => 0) dir mem) 0 (rigid sqrt c α) := by
  intro i hi k hk
  rw [gonze_residual hs h0 hc hd p hz s hshort recip dir mem hα hi hk, hherm i hi k hk α hα, sub_self]
  ext <;> simp [Cplx.scale]

/-! ### C89: equivalent wave vectors -/

/-- Atom `i` has position `τ i`, and every shortest vector from atom `i` of the primitive cell to a
translation `s` of atom `j` is `τ j - τ i` plus a lattice vector, in units of the primitive axes. -/
def LatticeVectors (c : Fc2Cell K) (τ : Nat → Nat → K) : Prop :=
  ∀ i < c.numPatom, ∀ j < c.numPatom, ∀ s < c.numSatom, c.s2p s = c.p2s j →
    ∀ x < (c.multi (s * c.numPatom + i)).1, ∀ d < 3, ∃ z : Int,
      c.svecs ((c.multi (s * c.numPatom + i)).2 + x) d = τ j d - τ i d + z

theorem int_phase {expi : K → Cplx K} (he : IsPhase expi) {v w : Nat → K} (G : Nat → Int)
    (h : ∀ d < 3, ∃ z : Int, v d = w d + z) :
    expi (dotN (fun d => (G d : K)) v) = expi (dotN (fun d => (G d : K)) w) := by
  obtain ⟨z0, h0⟩ := h 0 (by omega)
  obtain ⟨z1, h1⟩ := h 1 (by omega)
  obtain ⟨z2, h2⟩ := h 2 (by omega)
  have : dotN (fun d => (G d : K)) v = dotN (fun d => (G d : K)) w +
      ((G 0 * z0 + G 1 * z1 + G 2 * z2 : Int) : K) := by
    simp only [dotN, Finset.sum_range_succ, Finset.sum_range_zero, h0, h1, h2]
    push_cast
    ring
  rw [this, he.add, he.int, mul_one]

theorem mul_scale (z w : Cplx K) (r : K) : z * w.scale r = (z * w).scale r := by
  ext <;> simp [Cplx.scale] <;> ring

/-- C89: adding a reciprocal-lattice vector `G` to `q` multiplies each block by the phase
`exp(2 pi i G (τ_j - τ_i))`. -/
theorem C89_blocks {sqrt : K → K} {expi : K → Cplx K} (he : IsPhase expi) {c : Fc2Cell K}
    {τ : Nat → Nat → K} (hτ : LatticeVectors c τ) (recip : Nat → Nat → K) (q : Nat → K)
    (G : Nat → Int) (dir : Option (Nat → K)) (mem mem' : Int → Cplx K) {i k j l : Nat}
    (hi : i < c.numPatom) (hk : k < 3) (hj : j < c.numPatom) (hl : l < 3) :
    dynBlock c.numPatom (wangMatrix sqrt expi c none recip (fun d => q d + G d) dir mem') i k j l =
      expi (dotN (fun d => (G d : K)) fun d => τ j d - τ i d) *
        dynBlock c.numPatom (wangMatrix sqrt expi c none recip q dir mem) i k j l := by
  have hfb : ∀ i k j l, i < c.numPatom → j < c.numPatom →
      fourierBlock sqrt expi c (fun _ _ _ _ => 0) (fun d => q d + G d) i k j l =
      expi (dotN (fun d => (G d : K)) fun d => τ j d - τ i d) *
        fourierBlock sqrt expi c (fun _ _ _ _ => 0) q i k j l := by
    intro i k j l hi hj
    unfold fourierBlock
    rw [mul_scale, Finset.mul_sum]
    congr 1
    refine Finset.sum_congr rfl fun s hs => ?_
    split
    · next h =>
      rw [mul_scale]
      congr 1
      unfold meanPhaseN
      rw [mul_scale, Finset.mul_sum]
      congr 1
      refine Finset.sum_congr rfl fun x hx => ?_
      have := int_phase he (v := c.svecs ((c.multi (s * c.numPatom + i)).2 + x))
        (w := fun d => τ j d - τ i d) G
        (hτ i hi j hj s (by simpa using hs) h x (by simpa using hx))
      rw [← this, ← he.add]
      congr 1
      simp only [dotN, ← Finset.sum_add_distrib]
      refine Finset.sum_congr rfl fun d _ => ?_
      ring
    · rw [mul_zero]
  have e : ∀ q dir, extraTerm c none recip q dir = fun _ _ _ _ => 0 := fun _ _ => rfl
  rw [C86_formula _ _ _ _ _ _ _ _ hi hk hj hl, C86_formula _ _ _ _ _ _ _ _ hi hk hj hl, e, e,
    hfb i k j l hi hj, hfb j l i k hj hi, conj_mul, ← he.neg]
  have : -dotN (fun d => (G d : K)) (fun d => τ i d - τ j d) =
      dotN (fun d => (G d : K)) fun d => τ j d - τ i d := by
    simp only [dotN, ← Finset.sum_neg_distrib]
    refine Finset.sum_congr rfl fun d _ => ?_
    ring
  rw [this, ← mul_add, mul_scale]

/-- C89: wave vectors that differ by a reciprocal-lattice vector have the same squared frequencies;
the displacements differ by the phase `exp(-2 pi i G τ_j)` of each atom. -/
theorem C89_spectrum {sqrt : K → K} {expi : K → Cplx K} (he : IsPhase expi) {c : Fc2Cell K}
    {τ : Nat → Nat → K} (hτ : LatticeVectors c τ) (recip : Nat → Nat → K) (q : Nat → K)
    (G : Nat → Int) (dir : Option (Nat → K)) (mem mem' : Int → Cplx K) (lam : K)
    (e : Nat → Nat → Cplx K)
    (h : EigenPair c.numPatom (wangMatrix sqrt expi c none recip q dir mem) lam e) :
    EigenPair c.numPatom (wangMatrix sqrt expi c none recip (fun d => q d + G d) dir mem') lam
      (fun j l => expi (-dotN (fun d => (G d : K)) (τ j)) * e j l) := by
  intro i hi k hk
  have := congrArg (fun z => expi (-dotN (fun d => (G d : K)) (τ i)) * z) (h i hi k hk)
  simp only [mul_scale] at this
  rw [← this, Finset.mul_sum]
  refine Finset.sum_congr rfl fun j hj => ?_
  rw [Finset.mul_sum]
  refine Finset.sum_congr rfl fun l hl => ?_
  rw [C89_blocks he hτ recip q G dir mem mem' hi hk (by simpa using hj) (by simpa using hl)]
  have hph : expi (-dotN (fun d => (G d : K)) (τ i)) =
      expi (dotN (fun d => (G d : K)) fun d => τ j d - τ i d) *
        expi (-dotN (fun d => (G d : K)) (τ j)) := by
    rw [← he.add]
    congr 1
    simp only [dotN, ← Finset.sum_neg_distrib, ← Finset.sum_add_distrib]
    refine Finset.sum_congr rfl fun d _ => ?_
    ring
  rw [hph]
  ring

/-! ### C90: the direction of approach -/

/-- C90: the correction of Wang depends on the direction only, not on its length or sign. -/
theorem C90_direction (sqrt : K → K) (expi : K → Cplx K) (c : Fc2Cell K) (p : NacParams K)
    (recip : Nat → Nat → K) (q : Nat → K) (dir : Nat → K) {t : K} (ht : t ≠ 0)
    (mem mem' : Int → Cplx K) {i k j l : Nat} (hi : i < c.numPatom) (hk : k < 3)
    (hj : j < c.numPatom) (hl : l < 3) :
    dynBlock c.numPatom (wangMatrix sqrt expi c (some p) recip q (some fun d => t * dir d) mem)
      i k j l =
    dynBlock c.numPatom (wangMatrix sqrt expi c (some p) recip q (some dir) mem') i k j l := by
  have hv : nacVector recip q (some fun d => t * dir d) =
      fun d => t * nacVector recip q (some dir) d := by
    funext d
    simp only [nacVector, Option.getD, dotN, Finset.mul_sum]
    refine Finset.sum_congr rfl fun x _ => ?_
    ring
  have hw : extraTerm c (some p) recip q (some fun d => t * dir d) =
      extraTerm c (some p) recip q (some dir) := by
    funext i k j l
    simp only [extraTerm, hv]
    generalize nacVector recip q (some dir) = v
    have h1 : ∀ i k, ∑ m ∈ range 3, t * v m * p.born i m k =
        t * ∑ m ∈ range 3, v m * p.born i m k := by
      intro i k
      rw [Finset.mul_sum]
      refine Finset.sum_congr rfl fun x _ => ?_
      ring
    have h2 : quadForm (fun d => t * v d) p.dielectric = t * t * quadForm v p.dielectric := by
      simp only [quadForm, Finset.mul_sum]
      refine Finset.sum_congr rfl fun x _ => Finset.sum_congr rfl fun y _ => ?_
      ring
    unfold wangTerm
    rw [h1, h1, h2]
    congr 1
    rw [show p.factor * (t * ∑ m ∈ range 3, v m * p.born i m k) *
        (t * ∑ m ∈ range 3, v m * p.born j m l) = t * t * (p.factor *
        (∑ m ∈ range 3, v m * p.born i m k) * (∑ m ∈ range 3, v m * p.born j m l)) by ring]
    exact mul_div_mul_left _ _ (mul_ne_zero ht ht)
  rw [C86_formula _ _ _ _ _ _ _ _ hi hk hj hl, C86_formula _ _ _ _ _ _ _ _ hi hk hj hl, hw]

/-- C90: away from the zone centre the correction without a direction is that along `q`. -/
theorem C90_own_direction (sqrt : K → K) (expi : K → Cplx K) (c : Fc2Cell K)
    (nac : Option (NacParams K)) (recip : Nat → Nat → K) (q : Nat → K) (mem : Int → Cplx K) :
    wangMatrix sqrt expi c nac recip q (some q) mem =
      wangMatrix sqrt expi c nac recip q none mem := rfl

/-- C90: the same for the correction of Gonze and Lee. -/
theorem C90_direction_gonze (sqrt exp : K → K) (expi : K → Cplx K) (c : Fc2Cell K)
    (p : NacParams K) (s : DipoleSum K) (q0 : Int → Cplx K) (recip : Nat → Nat → K) (q : Nat → K)
    (dir : Nat → K) {t : K} (ht : t ≠ 0) (mem : Int → Cplx K) :
    gonzeMatrix sqrt exp expi c p s q0 recip q (some fun d => t * dir d) mem =
      gonzeMatrix sqrt exp expi c p s q0 recip q (some dir) mem := by
  have hv : qCart recip (fun d => t * dir d) = fun d => t * qCart recip dir d := by
    funext d
    simp only [qCart_eq, dotN, Finset.mul_sum]
    refine Finset.sum_congr rfl fun x _ => ?_
    ring
  have hk : ∀ (d q G : Nat → K), kk sqrt exp p.dielectric s.lambda s.tolerance q
      (some fun x => t * d x) G = kk sqrt exp p.dielectric s.lambda s.tolerance q (some d) G := by
    intro d q G
    funext a b
    unfold kk
    dsimp only
    split
    · have h2 : quadForm (fun x => t * d x) p.dielectric = t * t * quadForm d p.dielectric := by
        simp only [quadForm, Finset.mul_sum]
        refine Finset.sum_congr rfl fun x _ => Finset.sum_congr rfl fun y _ => ?_
        ring
      rw [dielectricPart_eq, dielectricPart_eq, h2,
        show t * d a * (t * d b) = t * t * (d a * d b) by ring]
      exact mul_div_mul_left _ _ (mul_ne_zero ht ht)
    · rfl
  have hdd : ∀ (d q : Nat → K), getDd sqrt exp expi c.numPatom s p.dielectric q
      (some fun x => t * d x) = getDd sqrt exp expi c.numPatom s p.dielectric q (some d) := by
    intro d q
    unfold getDd
    simp only [hk]
  unfold gonzeMatrix dipoleDipole
  simp only [Option.map_some, hv, hdd]

/-! ### C91: frequencies -/

/-- C91: the frequency has the sign of the eigenvalue, its square is the eigenvalue up to sign and
the unit, and larger eigenvalues give larger frequencies. -/
theorem C91_frequency {sqrt : K → K} (hs : IsSqrt sqrt) {f : K} (hf : 0 < f) (e e' : K) :
    (0 < toFrequency sqrt f e ↔ 0 < e) ∧ (toFrequency sqrt f e < 0 ↔ e < 0) ∧
      toFrequency sqrt f e * |toFrequency sqrt f e| = e * (f * f) ∧
      (toFrequency sqrt f e < toFrequency sqrt f e' ↔ e < e') := by
  have hpos : ∀ e : K, 0 < e → toFrequency sqrt f e = sqrt e * f ∧ 0 < sqrt e * f := by
    intro e he
    refine ⟨?_, mul_pos (sqrt_pos hs he) hf⟩
    simp [toFrequency, abs_of_pos he, he, not_lt.2 he.le]
  have hnegv : ∀ e : K, e < 0 → toFrequency sqrt f e = -(sqrt (-e) * f) ∧ 0 < sqrt (-e) * f := by
    intro e he
    refine ⟨?_, mul_pos (sqrt_pos hs (by simpa using he)) hf⟩
    simp [toFrequency, abs_of_neg he, he, not_lt.2 he.le]
  have hzero : toFrequency sqrt f 0 = 0 := by simp [toFrequency]
  have hsq : ∀ e : K, toFrequency sqrt f e * |toFrequency sqrt f e| = e * (f * f) := by
    intro e
    rcases lt_trichotomy e 0 with h | h | h
    · obtain ⟨h1, h2⟩ := hnegv e h
      rw [h1, abs_neg, abs_of_pos h2]
      have := hs.sq (-e) (by simpa using h.le)
      linear_combination (-(f * f)) * this
    · subst h
      rw [hzero]
      simp
    · obtain ⟨h1, h2⟩ := hpos e h
      rw [h1, abs_of_pos h2]
      have := hs.sq e h.le
      linear_combination (f * f) * this
  have hp : ∀ e : K, (0 < toFrequency sqrt f e ↔ 0 < e) ∧ (toFrequency sqrt f e < 0 ↔ e < 0) := by
    intro e
    rcases lt_trichotomy e 0 with h | h | h
    · obtain ⟨h1, h2⟩ := hnegv e h
      rw [h1]
      exact ⟨⟨fun h' => absurd h' (by simpa using h2.le), fun h' => absurd h' (not_lt.2 h.le)⟩,
        ⟨fun _ => h, fun _ => by simpa using h2⟩⟩
    · subst h
      rw [hzero]
      simp
    · obtain ⟨h1, h2⟩ := hpos e h
      rw [h1]
      exact ⟨⟨fun _ => h, fun _ => h2⟩,
        ⟨fun h' => absurd h' (not_lt.2 h2.le), fun h' => absurd h' (not_lt.2 h.le)⟩⟩
  have hmono : ∀ x y : K, x * |x| < y * |y| → x < y := by
    intro x y h
    by_contra hc
    rw [not_lt] at hc
    refine absurd h (not_lt.2 ?_)
    rcases le_total 0 y with hy | hy
    · rw [abs_of_nonneg hy, abs_of_nonneg (hy.trans hc)]
      exact mul_self_le_mul_self hy hc
    · rcases le_total 0 x with hx | hx
      · rw [abs_of_nonneg hx, abs_of_nonpos hy]
        nlinarith
      · rw [abs_of_nonpos hx, abs_of_nonpos hy]
        nlinarith
  have hlt : ∀ a b : K, a < b → toFrequency sqrt f a < toFrequency sqrt f b := by
    intro a b h
    apply hmono
    rw [hsq, hsq]
    exact mul_lt_mul_of_pos_right h (mul_pos hf hf)
  refine ⟨(hp e).1, (hp e).2, hsq e, ?_, hlt e e'⟩
  intro h
  by_contra hc
  rcases lt_or_eq_of_le (not_lt.1 hc) with h' | h'
  · exact absurd h (not_lt.2 (hlt _ _ h').le)
  · rw [h'] at h
    exact lt_irrefl _ h

/-! ### C92: full and compact force constants -/

/-- C92: the compact array holds the rows of the full one that belong to the primitive cell.  Then
both give the same matrix. -/
theorem C92_compact (sqrt : K → K) (expi : K → Cplx K) (np ns : Nat) (full compact : Int → K)
    (svecs : Int → Nat → K) (multi : Int → Nat × Int) (mass : Nat → K) (p2s s2p : Nat → Int)
    (p2p : Int → Int) (hne : np ≠ ns)
    (hrows : ∀ i < np, ∀ s < ns, ∀ a < 3, ∀ b < 3,
      compact (fc2At ns i s a b) = full (fc2At ns (p2s i) s a b))
    (hinj : ∀ i < np, ∀ j < np, p2s i = p2s j → i = j)
    (hp2p : ∀ i < np, p2p (p2s i) = i)
    (hcover : ∀ s < ns, ∃ j < np, s2p s = p2s j)
    (nac : Option (NacParams K)) (recip : Nat → Nat → K) (q : Nat → K) (dir : Option (Nat → K))
    (mem mem' : Int → Cplx K) {i k j l : Nat} (hi : i < np) (hk : k < 3) (hj : j < np)
    (hl : l < 3) :
    dynBlock np (wangMatrix sqrt expi ⟨np, ns, compact, svecs, multi, mass,
        (fcElementsMapping np ns p2s s2p p2p).1, (fcElementsMapping np ns p2s s2p p2p).2⟩
        nac recip q dir mem) i k j l =
      dynBlock np (wangMatrix sqrt expi ⟨np, ns, full, svecs, multi, mass,
        (fcElementsMapping ns ns p2s s2p p2p).1, (fcElementsMapping ns ns p2s s2p p2p).2⟩
        nac recip q dir mem') i k j l := by
  have e1 : fcElementsMapping np ns p2s s2p p2p =
      ((fun (i : Nat) => (i : Int)), fun s => p2p (s2p s)) := if_neg hne
  have e2 : fcElementsMapping ns ns p2s s2p p2p = (p2s, s2p) := if_pos rfl
  rw [e1, e2]
  have hx : ∀ (a b : Int → K) (p p' s s' : Nat → Int),
      extraTerm ⟨np, ns, a, svecs, multi, mass, p, s⟩ nac recip q dir =
        extraTerm ⟨np, ns, b, svecs, multi, mass, p', s'⟩ nac recip q dir := by
    intro a b p p' s s'
    funext i k j l
    cases nac <;> rfl
  have hf : ∀ i k j l, i < np → k < 3 → j < np → l < 3 → ∀ extra,
      fourierBlock sqrt expi ⟨np, ns, compact, svecs, multi, mass,
        (fun (i : Nat) => (i : Int)), fun s => p2p (s2p s)⟩ extra q i k j l =
      fourierBlock sqrt expi ⟨np, ns, full, svecs, multi, mass, p2s, s2p⟩ extra q i k j l := by
    intro i k j l hi hk hj hl extra
    unfold fourierBlock
    dsimp only
    congr 1
    refine Finset.sum_congr rfl fun s hs => ?_
    rw [Finset.mem_range] at hs
    rw [hrows i hi s hs k hk l hl]
    have : p2p (s2p s) = (j : Int) ↔ s2p s = p2s j := by
      obtain ⟨j', hj', h'⟩ := hcover s hs
      rw [h', hp2p j' hj']
      constructor
      · intro h
        rw [Int.ofNat_inj.1 h]
      · intro h
        rw [hinj j' hj' j hj h]
    simp only [this]
  refine (C86_formula sqrt expi ⟨np, ns, compact, svecs, multi, mass, _, _⟩ nac recip q dir mem
    hi hk hj hl).trans ?_
  refine Eq.trans ?_ (C86_formula sqrt expi ⟨np, ns, full, svecs, multi, mass, _, _⟩ nac recip q dir
    mem' hi hk hj hl).symm
  rw [hf i k j l hi hk hj hl, hf j l i k hj hl hi hk, hx compact full _ p2s _ s2p]

end
end Props
end Phono3py
