/- Symmetries of the interaction strength. -/
import Verif.Lemmas.Reciprocal
import Verif.Spec.Reciprocal
import Mathlib.Tactic.Linarith
import Mathlib.Tactic.FieldSimp
import Mathlib.Algebra.BigOperators.Fin

set_option linter.unusedSectionVars false

namespace Phono3py
open Spec

section
variable {K : Type _} [Field K] [LinearOrder K] [IsStrictOrderedRing K]

theorem dot3_eq (a b : Q3 K) : dot3 a b = dot a b := by
  unfold dot3 dot
  rw [Fin.sum_univ_three, zero_add]

theorem phaseFactor_eq (expi : K → Cplx K) (q : Q3 K) (v : Int → Q3 K) (m : Nat × Int) :
    phaseFactor expi q v m = meanPhase expi q v m.1 m.2 := by
  unfold phaseFactor meanPhase
  simp only [sumLoop_eq, dot3_eq]
  ext <;> simp [Cplx.scale, div_eq_mul_inv]

theorem dot3_comm (a b : Q3 K) : dot3 a b = dot3 b a := by unfold dot3; ring

/-! ### Conjugation -/

theorem conj_add (a b : Cplx K) : conj (a + b) = conj a + conj b := by
  ext <;> simp [conj]; ring

theorem conj_mul (a b : Cplx K) : conj (a * b) = conj a * conj b := by
  ext <;> simp [conj]; ring

theorem conj_zero : conj (0 : Cplx K) = 0 := by ext <;> simp [conj]

theorem conj_scale (a : Cplx K) (r : K) : conj (a.scale r) = (conj a).scale r := by
  ext <;> simp [conj, Cplx.scale]

theorem conj_sum {ι : Type _} (s : Finset ι) (f : ι → Cplx K) :
    conj (∑ i ∈ s, f i) = ∑ i ∈ s, conj (f i) := by
  classical
  induction s using Finset.induction_on with
  | empty => simp [conj_zero]
  | insert a s ha ih => rw [Finset.sum_insert ha, Finset.sum_insert ha, conj_add, ih]

theorem normSq_conj (a : Cplx K) : (conj a).normSq = a.normSq := by
  simp [conj, Cplx.normSq]

theorem dot3_neg (q r : Q3 K) : dot3 (fun x => -q x) r = -dot3 q r := by unfold dot3; ring

theorem phaseFactor_neg (expi : K → Cplx K) (he : ∀ x, expi (-x) = conj (expi x)) (q : Q3 K)
    (v : Int → Q3 K) (m : Nat × Int) :
    phaseFactor expi (fun x => -q x) v m = conj (phaseFactor expi q v m) := by
  have e : (sumLoop m.1 fun i => expi (dot3 (fun x => -q x) (v (m.2 + i)))) =
      conj (sumLoop m.1 fun i => expi (dot3 q (v (m.2 + i)))) := by
    rw [sumLoop_eq, sumLoop_eq, conj_sum]
    refine Finset.sum_congr rfl fun i _ => ?_
    rw [dot3_neg, he]
  unfold phaseFactor
  simp only [e]
  ext
  · simp [conj]
  · simp [conj, neg_div]

theorem r2rElement_conj (at' : AtomTriplets K) (phase1 phase2 : Nat → Cplx K) (fc3 : Int → K)
    (isCompact : Bool) (pi0 pi1 pi2 leg l : Nat) :
    r2rElement at' (fun j => conj (phase1 j)) (fun j => conj (phase2 j)) fc3 isCompact pi0 pi1 pi2
      leg l = conj (r2rElement at' phase1 phase2 fc3 isCompact pi0 pi1 pi2 leg l) := by
  rw [r2rElement_eq, r2rElement_eq, conj_sum]
  refine Finset.sum_congr rfl fun j _ => ?_
  rw [conj_sum]
  refine Finset.sum_congr rfl fun k _ => ?_
  rw [apply_ite conj, conj_scale, conj_mul, conj_zero]

theorem pre_neg (expi : K → Cplx K) (he : ∀ x, expi (-x) = conj (expi x)) (at' : AtomTriplets K)
    (q : Fin 3 → Q3 K) (i : Nat) :
    prePhaseFactor expi at' (fun m x => -q m x) i = conj (prePhaseFactor expi at' q i) := by
  unfold prePhaseFactor
  simp only
  rw [← he]
  congr 1
  unfold dot3
  ring

/-! ### Values of the transform -/

/-- The entry of the transform for primitive atoms `i`, `j`, `k` and directions `l`, `m`, `n`. -/
def r2rEntry (expi : K → Cplx K) (at' : AtomTriplets K) (q : Fin 3 → Q3 K) (fc3 : Int → K)
    (isCompact : Bool) (i j k l m n : Nat) : Cplx K :=
  if at'.makeR0Average then
    (r2rElement at' (phaseTable expi at' q 1 i) (phaseTable expi at' q 2 i) fc3
        isCompact i j k 1 (l * 9 + m * 3 + n) * prePhaseFactor expi at' q i +
      r2rElement at' (phaseTable expi at' q 0 j) (phaseTable expi at' q 2 j) fc3
        isCompact j i k 2 (m * 9 + l * 3 + n) * prePhaseFactor expi at' q j +
      r2rElement at' (phaseTable expi at' q 1 k) (phaseTable expi at' q 0 k) fc3
        isCompact k j i 3 (n * 9 + m * 3 + l) * prePhaseFactor expi at' q k).scale (1 / 3)
  else r2rElement at' (phaseTable expi at' q 1 i) (phaseTable expi at' q 2 i) fc3 isCompact i j k 0
        (l * 9 + m * 3 + n) * prePhaseFactor expi at' q i

theorem r2r_value (expi : K → Cplx K) (at' : AtomTriplets K) (q : Fin 3 → Q3 K) (fc3 : Int → K)
    (isCompact : Bool) {i j k l m n : Nat} (hi : i < at'.numPatom) (hj : j < at'.numPatom)
    (hk : k < at'.numPatom) (hl : l < 3) (hm : m < 3) (hn : n < 3) :
    realToReciprocal expi at' q fc3 isCompact (r2rPos (at'.numPatom * 3) i j k l m n) =
      r2rEntry expi at' q fc3 isCompact i j k l m n := by
  unfold realToReciprocal r2rEntry
  by_cases h : at'.makeR0Average = true
  · rw [if_pos h, if_pos h]
    rw [runAdds_value, r2rR0Average_value expi at' q fc3 isCompact hi hj hk hl hm hn, zero_add]
    simp only
    ext <;> simp [Cplx.scale, div_eq_mul_inv]
  · rw [if_neg h, if_neg h, r2rLegacy_eq]
    exact sixLoop_value _ _ hi hj hk hl hm hn

/-- Components in place of atoms and directions. -/
theorem r2r_at3 (expi : K → Cplx K) (at' : AtomTriplets K) (q : Fin 3 → Q3 K) (fc3 : Int → K)
    (isCompact : Bool) {nb a b c : Nat} (hnb : nb = at'.numPatom * 3) (ha : a < nb) (hb : b < nb)
    (hc : c < nb) :
    realToReciprocal expi at' q fc3 isCompact (at3 nb nb a b c : Nat) =
      r2rEntry expi at' q fc3 isCompact (a / 3) (b / 3) (c / 3) (a % 3) (b % 3) (c % 3) := by
  have e : ∀ x, at2 3 (x / 3) (x % 3) = x := fun x => by unfold at2; omega
  rw [← r2r_value expi at' q fc3 isCompact (by omega) (by omega) (by omega) (by omega) (by omega)
    (by omega), r2rPos_eq, e, e, e, hnb]

theorem r2rEntry_conj (expi : K → Cplx K) (he : ∀ x, expi (-x) = conj (expi x))
    (at' : AtomTriplets K) (q : Fin 3 → Q3 K) (fc3 : Int → K) (isCompact : Bool)
    (i j k l m n : Nat) :
    r2rEntry expi at' (fun m x => -q m x) fc3 isCompact i j k l m n =
      conj (r2rEntry expi at' q fc3 isCompact i j k l m n) := by
  have t : ∀ (m : Fin 3) i, phaseTable expi at' (fun m x => -q m x) m i =
      fun j => conj (phaseTable expi at' q m i j) := by
    intro m i
    funext j
    exact phaseFactor_neg expi he _ _ _
  unfold r2rEntry
  simp only [t, pre_neg expi he, r2rElement_conj]
  split_ifs
  · rw [conj_scale, conj_add, conj_add, conj_mul, conj_mul, conj_mul]
  · rw [conj_mul]

/-- The transform only reads the listed elements of the force constants. -/
theorem r2rElement_congr (at' : AtomTriplets K) (phase1 phase2 : Nat → Cplx K) (f g : Int → K)
    (cf cg : Bool) (pi0 pi1 pi2 leg l : Nat)
    (h : ∀ j < at'.numSatom, ∀ k < at'.numSatom,
      f ((if cf then (pi0 : Int) else at'.p2s pi0) * 27 * at'.numSatom * at'.numSatom
              + j * 27 * at'.numSatom + k * 27 + l) =
      g ((if cg then (pi0 : Int) else at'.p2s pi0) * 27 * at'.numSatom * at'.numSatom
              + j * 27 * at'.numSatom + k * 27 + l)) :
    r2rElement at' phase1 phase2 f cf pi0 pi1 pi2 leg l =
      r2rElement at' phase1 phase2 g cg pi0 pi1 pi2 leg l := by
  rw [r2rElement_eq, r2rElement_eq]
  refine Finset.sum_congr rfl fun j hj => Finset.sum_congr rfl fun k hk => ?_
  rw [h j (Finset.mem_range.1 hj) k (Finset.mem_range.1 hk)]

/-- Exchange of the second and the third atom. -/
theorem r2rElement_swap (at' : AtomTriplets K) (phase1 phase2 : Nat → Cplx K) (fc3 : Int → K)
    (cf : Bool) (pi0 pi1 pi2 leg leg' l l' : Nat)
    (h : ∀ j < at'.numSatom, ∀ k < at'.numSatom,
      fc3 ((if cf then (pi0 : Int) else at'.p2s pi0) * 27 * at'.numSatom * at'.numSatom
              + j * 27 * at'.numSatom + k * 27 + l) * legFactor at' pi0 leg j k =
      fc3 ((if cf then (pi0 : Int) else at'.p2s pi0) * 27 * at'.numSatom * at'.numSatom
              + k * 27 * at'.numSatom + j * 27 + l') * legFactor at' pi0 leg' k j) :
    r2rElement at' phase1 phase2 fc3 cf pi0 pi1 pi2 leg l =
      r2rElement at' phase2 phase1 fc3 cf pi0 pi2 pi1 leg' l' := by
  rw [r2rElement_eq, r2rElement_eq, Finset.sum_comm]
  refine Finset.sum_congr rfl fun k hk => Finset.sum_congr rfl fun j hj => ?_
  rw [h j (Finset.mem_range.1 hj) k (Finset.mem_range.1 hk), mul_comm (phase1 j)]
  simp only [and_comm]

/-- With only shortest vectors, the legs two and three vanish and the first counts three times. -/
theorem r2rElement_short (at' : AtomTriplets K) (phase1 phase2 : Nat → Cplx K) (fc3 : Int → K)
    (cf : Bool) (pi0 pi1 pi2 leg l : Nat)
    (h : ∀ j < at'.numSatom, ∀ k < at'.numSatom,
      at'.allShortest (pi0 * at'.numSatom * at'.numSatom + j * at'.numSatom + k) = true) :
    r2rElement at' phase1 phase2 fc3 cf pi0 pi1 pi2 leg l =
      (r2rElement at' phase1 phase2 fc3 cf pi0 pi1 pi2 0 l).scale
        (if leg = 1 then 3 else if leg > 1 then 0 else 1) := by
  rw [r2rElement_eq, r2rElement_eq, scale_eq, Finset.sum_mul]
  refine Finset.sum_congr rfl fun j hj => ?_
  rw [Finset.sum_mul]
  refine Finset.sum_congr rfl fun k hk => ?_
  unfold legFactor
  rw [if_pos (h j (Finset.mem_range.1 hj) k (Finset.mem_range.1 hk))]
  have z : (if (0:Nat) = 1 then (3:K) else if (0:Nat) > 1 then 0 else 1) = 1 := by norm_num
  rw [if_pos (h j (Finset.mem_range.1 hj) k (Finset.mem_range.1 hk)), z]
  split_ifs <;> (ext <;> simp [Cplx.scale] <;> ring)

/-! ### Contractions with eigenvectors -/

/-- The complex amplitude of which `modeStrength` takes the square. -/
def amplitude (n : Nat) (s : Nat → K) (Phi : Nat → Nat → Nat → Cplx K) (e0 e1 e2 : Nat → Cplx K) :
    Cplx K :=
  ∑ a ∈ Finset.range n, ∑ b ∈ Finset.range n, ∑ c ∈ Finset.range n,
    (Phi a b c * (e0 a * e1 b * e2 c)).scale (1 / (s a * s b * s c))

theorem modeStrength_eq (cutoff : K) (n : Nat) (s : Nat → K) (Phi : Nat → Nat → Nat → Cplx K)
    (f : Fin 3 → K) (e : Fin 3 → Nat → Cplx K) :
    modeStrength cutoff n s Phi f e = if ∀ m, cutoff < f m then
      (amplitude n s Phi (e 0) (e 1) (e 2)).normSq / (f 0 * f 1 * f 2) else 0 := rfl

theorem modeStrength_congr {cutoff : K} {n : Nat} {s s' : Nat → K}
    {Phi Phi' : Nat → Nat → Nat → Cplx K} {f f' : Fin 3 → K} {e e' : Fin 3 → Nat → Cplx K}
    (hf : ∀ m, f m = f' m)
    (h : (amplitude n s Phi (e 0) (e 1) (e 2)).normSq =
      (amplitude n s' Phi' (e' 0) (e' 1) (e' 2)).normSq) :
    modeStrength cutoff n s Phi f e = modeStrength cutoff n s' Phi' f' e' := by
  rw [modeStrength_eq, modeStrength_eq, h, show f = f' from funext hf]

theorem amplitude_congr {n : Nat} {s : Nat → K} {Phi Phi' : Nat → Nat → Nat → Cplx K}
    {e0 e1 e2 e0' e1' e2' : Nat → Cplx K}
    (hP : ∀ a < n, ∀ b < n, ∀ c < n, Phi a b c = Phi' a b c)
    (h0 : ∀ a < n, e0 a = e0' a) (h1 : ∀ a < n, e1 a = e1' a) (h2 : ∀ a < n, e2 a = e2' a) :
    amplitude n s Phi e0 e1 e2 = amplitude n s Phi' e0' e1' e2' := by
  unfold amplitude
  refine Finset.sum_congr rfl fun a ha => Finset.sum_congr rfl fun b hb =>
    Finset.sum_congr rfl fun c hc => ?_
  rw [Finset.mem_range] at ha hb hc
  rw [hP a ha b hb c hc, h0 a ha, h1 b hb, h2 c hc]

theorem amplitude_phase (n : Nat) (s : Nat → K) (Phi : Nat → Nat → Nat → Cplx K)
    (e0 e1 e2 : Nat → Cplx K) (u v w : Cplx K) :
    amplitude n s Phi (fun a => u * e0 a) (fun a => v * e1 a) (fun a => w * e2 a) =
      u * v * w * amplitude n s Phi e0 e1 e2 := by
  unfold amplitude
  simp only [Finset.mul_sum]
  refine Finset.sum_congr rfl fun a _ => Finset.sum_congr rfl fun b _ =>
    Finset.sum_congr rfl fun c _ => ?_
  rw [scale_eq, scale_eq]
  ring

theorem amplitude_conj (n : Nat) (s : Nat → K) (Phi : Nat → Nat → Nat → Cplx K)
    (e0 e1 e2 : Nat → Cplx K) :
    amplitude n s (fun a b c => conj (Phi a b c)) (fun a => conj (e0 a)) (fun a => conj (e1 a))
      (fun a => conj (e2 a)) = conj (amplitude n s Phi e0 e1 e2) := by
  unfold amplitude
  simp only [conj_sum, conj_scale, conj_mul]

theorem amplitude_swap (n : Nat) (s : Nat → K) (Phi : Nat → Nat → Nat → Cplx K)
    (e0 e1 e2 : Nat → Cplx K) :
    amplitude n s (fun a b c => Phi a c b) e0 e2 e1 = amplitude n s Phi e0 e1 e2 := by
  unfold amplitude
  refine Finset.sum_congr rfl fun a _ => ?_
  rw [Finset.sum_comm]
  refine Finset.sum_congr rfl fun b _ => Finset.sum_congr rfl fun c _ => ?_
  rw [show s a * s c * s b = s a * s b * s c by ring,
    show e0 a * e2 c * e1 b = e0 a * e1 b * e2 c by ring]

theorem amplitude_sum0 {ι : Type _} (S : Finset ι) (n : Nat) (s : Nat → K)
    (Phi : Nat → Nat → Nat → Cplx K) (x : ι → Nat → Cplx K) (e1 e2 : Nat → Cplx K) (u : ι → Cplx K) :
    amplitude n s Phi (fun a => ∑ i ∈ S, u i * x i a) e1 e2 =
      ∑ i ∈ S, u i * amplitude n s Phi (x i) e1 e2 := by
  unfold amplitude
  simp only [Finset.mul_sum]
  symm
  rw [Finset.sum_comm]
  refine Finset.sum_congr rfl fun a _ => ?_
  rw [Finset.sum_comm]
  refine Finset.sum_congr rfl fun b _ => ?_
  rw [Finset.sum_comm]
  refine Finset.sum_congr rfl fun c _ => ?_
  rw [scale_eq, Finset.sum_mul, Finset.sum_mul, Finset.mul_sum, Finset.sum_mul]
  refine Finset.sum_congr rfl fun i _ => ?_
  rw [scale_eq]
  ring

theorem amplitude_rot (n : Nat) (s : Nat → K) (Phi : Nat → Nat → Nat → Cplx K)
    (e0 e1 e2 : Nat → Cplx K) :
    amplitude n s (fun a b c => Phi b a c) e1 e0 e2 = amplitude n s Phi e0 e1 e2 := by
  unfold amplitude
  rw [Finset.sum_comm]
  refine Finset.sum_congr rfl fun a _ => Finset.sum_congr rfl fun b _ =>
    Finset.sum_congr rfl fun c _ => ?_
  rw [show s b * s a * s c = s a * s b * s c by ring,
    show e1 b * e0 a * e2 c = e0 a * e1 b * e2 c by ring]

theorem amplitude_sum1 {ι : Type _} (S : Finset ι) (n : Nat) (s : Nat → K)
    (Phi : Nat → Nat → Nat → Cplx K) (x : ι → Nat → Cplx K) (e0 e2 : Nat → Cplx K) (u : ι → Cplx K) :
    amplitude n s Phi e0 (fun a => ∑ i ∈ S, u i * x i a) e2 =
      ∑ i ∈ S, u i * amplitude n s Phi e0 (x i) e2 := by
  rw [← amplitude_rot, amplitude_sum0]
  refine Finset.sum_congr rfl fun i _ => ?_
  rw [← amplitude_rot n s Phi]

theorem amplitude_sum2 {ι : Type _} (S : Finset ι) (n : Nat) (s : Nat → K)
    (Phi : Nat → Nat → Nat → Cplx K) (x : ι → Nat → Cplx K) (e0 e1 : Nat → Cplx K) (u : ι → Cplx K) :
    amplitude n s Phi e0 e1 (fun a => ∑ i ∈ S, u i * x i a) =
      ∑ i ∈ S, u i * amplitude n s Phi e0 e1 (x i) := by
  rw [← amplitude_swap, amplitude_sum1]
  refine Finset.sum_congr rfl fun i _ => ?_
  rw [← amplitude_swap n s Phi]

theorem normSq_eq (z : Cplx K) : (⟨z.normSq, 0⟩ : Cplx K) = z * conj z := by
  ext <;> simp [conj, Cplx.normSq]; ring

theorem ofReal_sum {ι : Type _} (S : Finset ι) (f : ι → K) :
    (Cplx.mk (∑ i ∈ S, f i) 0) = ∑ i ∈ S, (Cplx.mk (f i) 0) := by
  classical
  induction S using Finset.induction_on with
  | empty => rfl
  | insert a s ha ih =>
    rw [Finset.sum_insert ha, Finset.sum_insert (M := Cplx K) ha, ← ih]
    ext <;> simp

/-- A unitary mixture leaves the sum of the squares unchanged. -/
theorem unitary_sum {ι : Type _} [DecidableEq ι] (S : Finset ι) (U : ι → ι → Cplx K) (V : ι → Cplx K)
    (hU : ∀ i ∈ S, ∀ j ∈ S, (∑ l ∈ S, U i l * conj (U j l)) = if i = j then 1 else 0) :
    ∑ l ∈ S, (∑ i ∈ S, U i l * V i).normSq = ∑ i ∈ S, (V i).normSq := by
  have h : (⟨∑ l ∈ S, (∑ i ∈ S, U i l * V i).normSq, 0⟩ : Cplx K) =
      ⟨∑ i ∈ S, (V i).normSq, 0⟩ := by
    rw [ofReal_sum, ofReal_sum]
    simp only [normSq_eq, conj_sum, conj_mul]
    have e : ∀ l ∈ S, (∑ i ∈ S, U i l * V i) * (∑ j ∈ S, conj (U j l) * conj (V j)) =
        ∑ i ∈ S, ∑ j ∈ S, (V i * conj (V j)) * (U i l * conj (U j l)) := by
      intro l _
      rw [Finset.sum_mul]
      refine Finset.sum_congr rfl fun i _ => ?_
      rw [Finset.mul_sum]
      exact Finset.sum_congr rfl fun j _ => by ring
    rw [Finset.sum_congr rfl e, Finset.sum_comm]
    refine Finset.sum_congr rfl fun i hi => ?_
    rw [Finset.sum_comm, Finset.sum_eq_single i]
    · rw [← Finset.mul_sum, hU i hi i hi, if_pos rfl, mul_one]
    · intro j hj hne
      rw [← Finset.mul_sum, hU i hi j hj, if_neg (Ne.symm hne), mul_zero]
    · exact fun h => absurd hi h
  exact congrArg Cplx.re h

end
end Phono3py
