import Verif.Model.DynMat
import Verif.Spec.DynMat
import Verif.Lemmas.Isotope
import Verif.Lemmas.Adds
import Mathlib.Tactic.Ring
import Mathlib.Tactic.FieldSimp
import Mathlib.Algebra.BigOperators.Ring.Finset

/-!
# Lemmas about dynamical matrices
-/

namespace Phono3py

open Finset Spec

section
variable {K : Type} [Field K] [LinearOrder K] [IsStrictOrderedRing K]

/-! ### Hermitization in place -/

/-- Half the sum of a number and the conjugate of another. -/
def herm (x y : Cplx K) : Cplx K := ⟨(x.re + y.re) / 2, (x.im - y.im) / 2⟩

theorem herm_conj (x y : Cplx K) : herm x y = conj (herm y x) := by
  ext <;> simp [herm, conj] <;> ring

theorem adrs_ne {n i j r c : Nat} (hj : j < n) (hc : c < n) (h : ¬(r = i ∧ c = j)) :
    ((r * n + c : Nat) : Int) ≠ ((i * n + j : Nat) : Int) := by
  intro e
  have := digits2 hc hj (by exact_mod_cast e)
  exact h ⟨this.1, this.2⟩

theorem hermStep_hit {n i j : Nat} (a : Int → Cplx K) (hi : i < n) (hj : j < n) :
    hermStep n a i j (i * n + j : Nat) = herm (a (i * n + j : Nat)) (a (j * n + i : Nat)) ∧
    hermStep n a i j (j * n + i : Nat) = herm (a (j * n + i : Nat)) (a (i * n + j : Nat)) := by
  unfold hermStep
  dsimp only
  constructor
  · by_cases h : i = j
    · subst h
      rw [upd_same]
      ext <;> simp [herm]
    · rw [upd_other _ _ (adrs_ne hi hj (fun e => h e.1)), upd_same]
      rfl
  · rw [upd_same]
    ext <;> simp [herm] <;> ring

theorem hermStep_miss {n i j r c : Nat} (a : Int → Cplx K) (hi : i < n) (hj : j < n) (hc : c < n)
    (h1 : ¬(r = i ∧ c = j)) (h2 : ¬(r = j ∧ c = i)) :
    hermStep n a i j (r * n + c : Nat) = a (r * n + c : Nat) := by
  unfold hermStep
  dsimp only
  rw [upd_other _ _ (adrs_ne hi hc h2), upd_other _ _ (adrs_ne hj hc h1)]

theorem hermFold {n : Nat} (L : List (Nat × Nat)) (hL : ∀ p ∈ L, p.1 ≤ p.2 ∧ p.2 < n)
    (hd : L.Nodup) (a : Int → Cplx K) {r c : Nat} (hr : r < n) (hc : c < n) :
    L.foldl (fun a p => hermStep n a p.1 p.2) a (r * n + c : Nat) =
      if (min r c, max r c) ∈ L then herm (a (r * n + c : Nat)) (a (c * n + r : Nat))
      else a (r * n + c : Nat) := by
  induction L generalizing a with
  | nil => simp
  | cons p L ih =>
    obtain ⟨i, j⟩ := p
    obtain ⟨hij, hj⟩ := hL (i, j) (by simp)
    simp only at hij hj
    have hi : i < n := by omega
    rw [List.foldl_cons, ih (fun p hp => hL p (by simp [hp])) (List.nodup_cons.1 hd).2]
    have hnot := (List.nodup_cons.1 hd).1
    by_cases hp : (min r c, max r c) = (i, j)
    · rw [if_neg (by rw [hp]; exact hnot), if_pos (by rw [hp]; simp)]
      have := Prod.ext_iff.1 hp
      simp only at this
      have h2 : (r = i ∧ c = j) ∨ (r = j ∧ c = i) := by omega
      have h3 := hermStep_hit a hi hj
      rcases h2 with ⟨rfl, rfl⟩ | ⟨rfl, rfl⟩
      · exact h3.1
      · exact h3.2
    · have h1 : ¬(r = i ∧ c = j) := by
        rintro ⟨rfl, rfl⟩
        exact hp (by simp [min_eq_left hij, max_eq_right hij])
      have h2 : ¬(r = j ∧ c = i) := by
        rintro ⟨rfl, rfl⟩
        exact hp (by simp [min_eq_right hij, max_eq_left hij])
      rw [hermStep_miss a hi hj hc h1 h2,
        hermStep_miss a hi hj hr (fun e => h2 ⟨e.2, e.1⟩) (fun e => h1 ⟨e.2, e.1⟩)]
      have : (min r c, max r c) ∈ (i, j) :: L ↔ (min r c, max r c) ∈ L := by
        rw [List.mem_cons]
        exact ⟨fun h => h.resolve_left hp, Or.inr⟩
      simp only [this]

theorem foldl_flatMap {α β γ : Type} (l : List β) (f : β → List γ) (g : α → γ → α) (a : α) :
    (l.flatMap f).foldl g a = l.foldl (fun a b => (f b).foldl g a) a := by
  induction l generalizing a with
  | nil => rfl
  | cons b l ih => rw [List.flatMap_cons, List.foldl_append, ih]; rfl

/-- Every pair is averaged exactly once. -/
theorem makeHermitian_entry {n r c : Nat} (a : Int → Cplx K) (hr : r < n) (hc : c < n) :
    makeHermitian n a (r * n + c : Nat) = herm (a (r * n + c : Nat)) (a (c * n + r : Nat)) := by
  have e : makeHermitian n a =
      ((List.range n).flatMap fun i => (List.range' i (n - i)).map fun j => (i, j)).foldl
        (fun a p => hermStep n a p.1 p.2) a := by
    rw [foldl_flatMap]
    unfold makeHermitian
    simp only [List.foldl_map]
  rw [e, hermFold _ _ _ a hr hc, if_pos]
  · rw [List.mem_flatMap]
    refine ⟨min r c, by simp; omega, ?_⟩
    rw [List.mem_map]
    exact ⟨max r c, by rw [List.mem_range'_1]; omega, rfl⟩
  · intro p hp
    obtain ⟨i, hi, hp⟩ := List.mem_flatMap.1 hp
    obtain ⟨j, hj, rfl⟩ := List.mem_map.1 hp
    rw [List.mem_range'_1] at hj
    rw [List.mem_range] at hi
    exact ⟨hj.1, by simp only; omega⟩
  · rw [List.nodup_flatMap]
    refine ⟨fun i _ => List.Nodup.map (fun a b h => by simpa using h) List.nodup_range', ?_⟩
    refine List.Pairwise.imp ?_ (List.nodup_range (n := n))
    intro i i' hne
    rw [Function.onFun, List.disjoint_left]
    intro p hp hp'
    obtain ⟨j, hj, rfl⟩ := List.mem_map.1 hp
    obtain ⟨j', hj', h⟩ := List.mem_map.1 hp'
    exact hne (by simpa using (congrArg Prod.fst h).symm)

/-! ### The block written for a pair of atoms -/

/-- The mass-weighted sum before Hermitization. -/
def rawBlock (sqrt : K → K) (expi : K → Cplx K) (c : Fc2Cell K)
    (charge : Option (Nat → Nat → Nat → K)) (q : Nat → K) (i k j l : Nat) : Cplx K :=
  ⟨(dmElem expi c charge q i j k l).re / sqrt (c.mass i * c.mass j),
   (dmElem expi c charge q i j k l).im / sqrt (c.mass i * c.mass j)⟩

theorem block_lt {np i k : Nat} (hi : i < np) (hk : k < 3) : i * 3 + k < np * 3 := by omega

theorem runWrites_block (np : Nat) (F : Nat → Nat → Nat → Nat → Cplx K) (mem : Int → Cplx K)
    {i k j l : Nat} (hi : i < np) (hk : k < 3) (hj : j < np) (hl : l < 3) :
    dynBlock np (runWrites mem (loop np fun i => loop np fun j => loop 3 fun k => loop 3 fun l =>
      [((((i * 3 + k) * np * 3 + j * 3 + l : Nat) : Int), F i k j l)])) i k j l = F i k j l := by
  have key : ∀ {i k j l i' k' j' l' : Nat}, k < 3 → j < np → l < 3 → k' < 3 → j' < np → l' < 3 →
      (i * 3 + k) * np * 3 + j * 3 + l = (i' * 3 + k') * np * 3 + j' * 3 + l' →
      i = i' ∧ k = k' ∧ j = j' ∧ l = l' := by
    intro i k j l i' k' j' l' hk hj hl hk' hj' hl' h
    have h1 : (i * 3 + k) * (np * 3) + (j * 3 + l) = (i' * 3 + k') * (np * 3) + (j' * 3 + l') := by
      rw [← mul_assoc, ← mul_assoc]; omega
    have h2 := digits2 (block_lt hj hl) (block_lt hj' hl') h1
    have h3 := digits2 hk hk' h2.1
    have h4 := digits2 hl hl' h2.2
    exact ⟨h3.1, h3.2, h4.1, h4.2⟩
  have e : ((((i * 3 + k) * (np * 3) + (j * 3 + l) : Nat) : Int)) =
      (((i * 3 + k) * np * 3 + j * 3 + l : Nat) : Int) := by
    rw [← mul_assoc, ← add_assoc]
  unfold dynBlock
  rw [e]
  refine runWrites_value mem _ ?_
    ((((i * 3 + k) * np * 3 + j * 3 + l : Nat) : Int), F i k j l) ?_
  · intro u hu w hw h
    obtain ⟨i, hi, hu⟩ := mem_loop.1 hu
    obtain ⟨j, hj, hu⟩ := mem_loop.1 hu
    obtain ⟨k, hk, hu⟩ := mem_loop.1 hu
    obtain ⟨l, hl, hu⟩ := mem_loop.1 hu
    obtain ⟨i', hi', hw⟩ := mem_loop.1 hw
    obtain ⟨j', hj', hw⟩ := mem_loop.1 hw
    obtain ⟨k', hk', hw⟩ := mem_loop.1 hw
    obtain ⟨l', hl', hw⟩ := mem_loop.1 hw
    rw [List.mem_singleton] at hu hw
    subst hu hw
    obtain ⟨rfl, rfl, rfl, rfl⟩ := key hk hj hl hk' hj' hl' (Int.ofNat_inj.1 h)
    rfl
  · exact mem_loop.2 ⟨i, hi, mem_loop.2 ⟨j, hj, mem_loop.2 ⟨k, hk, mem_loop.2 ⟨l, hl, by simp⟩⟩⟩⟩

theorem dynmat_block (sqrt : K → K) (expi : K → Cplx K) (c : Fc2Cell K)
    (charge : Option (Nat → Nat → Nat → K)) (q : Nat → K) (mem : Int → Cplx K)
    {i k j l : Nat} (hi : i < c.numPatom) (hk : k < 3) (hj : j < c.numPatom) (hl : l < 3) :
    dynBlock c.numPatom (dynamicalMatrixAtQ sqrt expi c charge q mem) i k j l =
      herm (rawBlock sqrt expi c charge q i k j l) (rawBlock sqrt expi c charge q j l i k) := by
  have h := @runWrites_block K _ _ _ c.numPatom (rawBlock sqrt expi c charge q) mem
  have h1 := h hi hk hj hl
  have h2 := h hj hl hi hk
  unfold dynBlock at h1 h2 ⊢
  unfold dynamicalMatrixAtQ
  rw [makeHermitian_entry _ (block_lt hi hk) (block_lt hj hl)]
  exact congrArg₂ herm h1 h2

theorem dmElem_eq (expi : K → Cplx K) (c : Fc2Cell K) (charge : Option (Nat → Nat → Nat → K))
    (q : Nat → K) (i j l m : Nat) :
    dmElem expi c charge q i j l m = ∑ s ∈ range c.numSatom,
      if c.s2p s = c.p2s j then (pairPhase expi c q i s).scale (fcElem c charge i j s l m)
      else 0 := by
  have : dmElem expi c charge q i j l m = sumLoop c.numSatom fun s =>
      if c.s2p s = c.p2s j then (pairPhase expi c q i s).scale (fcElem c charge i j s l m)
      else 0 := by
    unfold dmElem sumLoop
    congr 1
    funext s k
    dsimp only
    by_cases h : c.s2p k = c.p2s j
    · rw [if_neg (by simpa using h), if_pos h]
      congr 1
      ext <;> simp [Cplx.scale, mul_comm]
    · rw [if_pos h, if_neg h, add_zero]
  rw [this, sumLoop_eq]

theorem im_sum {ι : Type _} (t : Finset ι) (f : ι → Cplx K) :
    (∑ i ∈ t, f i).im = ∑ i ∈ t, (f i).im := by
  classical
  induction t using Finset.induction_on with
  | empty => simp
  | insert a t h ih => rw [Finset.sum_insert h, Finset.sum_insert h, Cplx.add_im, ih]

theorem scale_sum {ι : Type _} (t : Finset ι) (f : ι → Cplx K) (r : K) :
    (∑ i ∈ t, f i).scale r = ∑ i ∈ t, (f i).scale r := by
  ext <;> simp [Cplx.scale, re_sum, im_sum, Finset.sum_mul]

theorem pairPhase_eq (expi : K → Cplx K) (c : Fc2Cell K) (q : Nat → K) (i s : Nat) :
    pairPhase expi c q i s = meanPhaseN expi q c.svecs (c.multi (s * c.numPatom + i)).1
      (c.multi (s * c.numPatom + i)).2 := by
  unfold pairPhase meanPhaseN
  dsimp only
  rw [sumLoop_eq, scale_sum]
  refine Finset.sum_congr rfl fun x _ => ?_
  rw [sumLoop_eq]
  ext <;> simp [Cplx.scale, dotN, div_eq_mul_inv]

/-! ### The dipole-dipole sum -/

theorem ddAdrs_eq (np i k j l : Nat) :
    ddAdrs np i k j l = (i * 3 + k) * (np * 3) + (j * 3 + l) := by
  unfold ddAdrs
  ring

theorem block_ddAdrs (np : Nat) (a : Int → Cplx K) (i k j l : Nat) :
    a (ddAdrs np i k j l : Nat) = dynBlock np a i k j l := by
  rw [ddAdrs_eq]
  rfl

theorem ddAdrs_inj {np i k j l i' k' j' l' : Nat} (hk : k < 3) (hj : j < np) (hl : l < 3)
    (hk' : k' < 3) (hj' : j' < np) (hl' : l' < 3)
    (h : ddAdrs np i k j l = ddAdrs np i' k' j' l') : i = i' ∧ k = k' ∧ j = j' ∧ l = l' := by
  rw [ddAdrs_eq, ddAdrs_eq] at h
  have h2 := digits2 (block_lt hj hl) (block_lt hj' hl') h
  have h3 := digits2 hk hk' h2.1
  have h4 := digits2 hl hl' h2.2
  exact ⟨h3.1, h3.2, h4.1, h4.2⟩

theorem sum_one {α : Type} [AddCommMonoid α] {n i : Nat} (hi : i < n) (f : Nat → α)
    (h : ∀ j < n, j ≠ i → f j = 0) : ∑ j ∈ range n, f j = f i :=
  Finset.sum_eq_single i (fun j hj hne => h j (by simpa using hj) hne)
    (fun hn => absurd (by simpa using hi) hn)

theorem addsAt_block (np : Nat) (body : Nat → Nat → Nat → Nat → List (Int × Cplx K))
    (V : Nat → Nat → Nat → Nat → Cplx K)
    (hb : ∀ i k j l, ∀ x : Int, addsAt (body i j k l) x =
      if ((ddAdrs np i k j l : Nat) : Int) = x then V i k j l else 0)
    {i k j l : Nat} (hi : i < np) (hk : k < 3) (hj : j < np) (hl : l < 3) :
    addsAt (loop np fun i => loop np fun j => loop 3 fun k => loop 3 fun l => body i j k l)
      (ddAdrs np i k j l : Nat) = V i k j l := by
  have hz : ∀ i' k' j' l', k' < 3 → j' < np → l' < 3 →
      ¬(i' = i ∧ k' = k ∧ j' = j ∧ l' = l) →
      addsAt (body i' j' k' l') (ddAdrs np i k j l : Nat) = 0 := by
    intro i' k' j' l' hk' hj' hl' hn
    rw [hb, if_neg]
    intro h
    exact hn (ddAdrs_inj hk' hj' hl' hk hj hl (Int.ofNat_inj.1 h))
  simp only [addsAt_loop]
  rw [sum_one hi, sum_one hj, sum_one hk, sum_one hl, hb, if_pos rfl]
  · exact fun l' h' hne => hz i k j l' hk hj h' (fun e => hne e.2.2.2)
  · exact fun k' h' hne => Finset.sum_eq_zero fun l' hl' =>
      hz i k' j l' h' hj (by simpa using hl') (fun e => hne e.2.1)
  · exact fun j' h' hne => Finset.sum_eq_zero fun k' hk' => Finset.sum_eq_zero fun l' hl' =>
      hz i k' j' l' (by simpa using hk') h' (by simpa using hl') (fun e => hne e.2.2.1)
  · exact fun i' h' hne => Finset.sum_eq_zero fun j' hj' => Finset.sum_eq_zero fun k' hk' =>
      Finset.sum_eq_zero fun l' hl' =>
        hz i' k' j' l' (by simpa using hk') (by simpa using hj') (by simpa using hl')
          (fun e => hne e.1)

/-- Element of the sum over reciprocal-lattice points. -/
def ddSum (sqrt exp : K → K) (expi : K → Cplx K) (s : DipoleSum K) (eps : Nat → Nat → K)
    (q : Nat → K) (dir : Option (Nat → K)) (i k j l : Nat) : Cplx K :=
  ∑ g ∈ range s.numG,
    (expi (∑ d ∈ range 3, (s.pos i d - s.pos j d) * s.bigG g d)).scale
      (kk sqrt exp eps s.lambda s.tolerance q dir (s.bigG g) k l)

theorem getDd_block (sqrt exp : K → K) (expi : K → Cplx K) (np : Nat) (s : DipoleSum K)
    (eps : Nat → Nat → K) (q : Nat → K) (dir : Option (Nat → K))
    {i k j l : Nat} (hi : i < np) (hk : k < 3) (hj : j < np) (hl : l < 3) :
    dynBlock np (getDd sqrt exp expi np s eps q dir) i k j l =
      ddSum sqrt exp expi s eps q dir i k j l := by
  rw [← block_ddAdrs]
  unfold getDd ddSum
  rw [runAdds_value, addsAt_loop, zero_add]
  refine Finset.sum_congr rfl fun g _ => ?_
  unfold ddAtG
  dsimp only
  rw [addsAt_block np _ (fun i k j l =>
    (expi (∑ d ∈ range 3, (s.pos i d - s.pos j d) * s.bigG g d)).scale
      (kk sqrt exp eps s.lambda s.tolerance q dir (s.bigG g) k l)) ?_ hi hk hj hl]
  intro i k j l x
  rw [addsAt_single, sumLoop_eq]
  congr 1
  ext <;> simp [Cplx.scale, mul_comm]

theorem multiplyBorns_block (np : Nat) (born : Nat → Nat → Nat → K) (dd : Int → Cplx K)
    {i k j l : Nat} (hi : i < np) (hk : k < 3) (hj : j < np) (hl : l < 3) :
    dynBlock np (multiplyBorns np born dd) i k j l =
      ∑ m ∈ range 3, ∑ n ∈ range 3, (dynBlock np dd i m j n).scale (born i m k * born j n l) := by
  rw [← block_ddAdrs]
  unfold multiplyBorns
  rw [runAdds_value, zero_add]
  rw [addsAt_block np _ (fun i k j l => ∑ m ∈ range 3, ∑ n ∈ range 3,
    (dynBlock np dd i m j n).scale (born i m k * born j n l)) ?_ hi hk hj hl]
  intro i k j l x
  simp only [addsAt_loop, addsAt_single]
  split
  · simp only [block_ddAdrs]
    rfl
  · simp

theorem q0Adrs_inj {i k l i' k' l' : Nat} (hk : k < 3) (hl : l < 3) (hk' : k' < 3) (hl' : l' < 3)
    (h : i * 9 + k * 3 + l = i' * 9 + k' * 3 + l') : i = i' ∧ k = k' ∧ l = l' := by omega

theorem dipoleQ0Sum_entry (sqrt exp : K → K) (expi : K → Cplx K) (np : Nat) (s : DipoleSum K)
    (p : NacParams K) {i k l : Nat} (hi : i < np) (hk : k < 3) (hl : l < 3) :
    dipoleQ0Sum sqrt exp expi np s p (i * 9 + k * 3 + l : Nat) =
      ∑ j ∈ range np, dynBlock np (multiplyBorns np p.born
        (getDd sqrt exp expi np s p.dielectric (fun _ => 0) none)) i k j l := by
  unfold dipoleQ0Sum
  rw [runAdds_value, zero_add]
  simp only [addsAt_loop, addsAt_single, block_ddAdrs]
  have hz : ∀ i' k' l' j', k' < 3 → l' < 3 → ¬(i' = i ∧ k' = k ∧ l' = l) →
      (if ((i' * 9 + k' * 3 + l' : Nat) : Int) = (i * 9 + k * 3 + l : Nat) then
        dynBlock np (multiplyBorns np p.born
          (getDd sqrt exp expi np s p.dielectric (fun _ => 0) none)) i' k' j' l' else 0) = 0 := by
    intro i' k' l' j' hk' hl' hn
    rw [if_neg]
    intro h
    exact hn (q0Adrs_inj hk' hl' hk hl (Int.ofNat_inj.1 h))
  rw [sum_one hi, sum_one hk, sum_one hl]
  · simp
  · exact fun l' h' hne => Finset.sum_eq_zero fun j _ => hz i k l' j hk h' (fun e => hne e.2.2)
  · exact fun k' h' hne => Finset.sum_eq_zero fun l' hl' => Finset.sum_eq_zero fun j _ =>
      hz i k' l' j h' (by simpa using hl') (fun e => hne e.2.1)
  · exact fun i' h' hne => Finset.sum_eq_zero fun k' hk' => Finset.sum_eq_zero fun l' hl' =>
      Finset.sum_eq_zero fun j _ =>
        hz i' k' l' j (by simpa using hk') (by simpa using hl') (fun e => hne e.1)

theorem q0Step_hit (a : Int → Cplx K) {i k l : Nat} (hk : k < 3) (hl : l < 3) :
    q0Step a i k l (i * 9 + k * 3 + l : Nat) =
      herm (a (i * 9 + k * 3 + l : Nat)) (a (i * 9 + l * 3 + k : Nat)) ∧
    q0Step a i k l (i * 9 + l * 3 + k : Nat) =
      herm (a (i * 9 + l * 3 + k : Nat)) (a (i * 9 + k * 3 + l : Nat)) := by
  unfold q0Step
  dsimp only
  constructor
  · by_cases h : k = l
    · subst h
      rw [upd_same]
      ext <;> simp [herm]
    · rw [upd_other _ _ (by intro e; have := q0Adrs_inj hk hl hl hk (Int.ofNat_inj.1 e); omega),
        upd_same]
      rfl
  · rw [upd_same]
    ext <;> simp [herm] <;> ring

theorem q0Step_miss (a : Int → Cplx K) {i k l i' k' l' : Nat} (hk : k < 3) (hl : l < 3)
    (hk' : k' < 3) (hl' : l' < 3) (h1 : ¬(i' = i ∧ k' = k ∧ l' = l))
    (h2 : ¬(i' = i ∧ k' = l ∧ l' = k)) :
    q0Step a i k l (i' * 9 + k' * 3 + l' : Nat) = a (i' * 9 + k' * 3 + l' : Nat) := by
  unfold q0Step
  dsimp only
  rw [upd_other _ _ (fun e => h2 (q0Adrs_inj hk' hl' hl hk (Int.ofNat_inj.1 e))),
    upd_other _ _ (fun e => h1 (q0Adrs_inj hk' hl' hk hl (Int.ofNat_inj.1 e)))]

theorem herm_herm (x y : Cplx K) : herm (herm x y) (herm y x) = herm x y := by
  ext <;> simp [herm] <;> ring

theorem q0Fold (L : List (Nat × Nat × Nat)) (hL : ∀ p ∈ L, p.2.1 < 3 ∧ p.2.2 < 3)
    (a : Int → Cplx K) {i k l : Nat} (hk : k < 3) (hl : l < 3) :
    L.foldl (fun a p => q0Step a p.1 p.2.1 p.2.2) a (i * 9 + k * 3 + l : Nat) =
      if (i, k, l) ∈ L ∨ (i, l, k) ∈ L then
        herm (a (i * 9 + k * 3 + l : Nat)) (a (i * 9 + l * 3 + k : Nat))
      else a (i * 9 + k * 3 + l : Nat) := by
  induction L generalizing a with
  | nil => simp
  | cons p L ih =>
    obtain ⟨i', k', l'⟩ := p
    obtain ⟨hk', hl'⟩ := hL (i', k', l') (by simp)
    simp only at hk' hl'
    rw [List.foldl_cons, ih (fun p hp => hL p (by simp [hp]))]
    by_cases hp : (i, k, l) = (i', k', l') ∨ (i, l, k) = (i', k', l')
    · have h3 : q0Step a i' k' l' (i * 9 + k * 3 + l : Nat) =
          herm (a (i * 9 + k * 3 + l : Nat)) (a (i * 9 + l * 3 + k : Nat)) ∧
          q0Step a i' k' l' (i * 9 + l * 3 + k : Nat) =
          herm (a (i * 9 + l * 3 + k : Nat)) (a (i * 9 + k * 3 + l : Nat)) := by
        rcases hp with hp | hp
        · simp only [Prod.mk.injEq] at hp
          obtain ⟨rfl, rfl, rfl⟩ := hp
          exact q0Step_hit a hk hl
        · simp only [Prod.mk.injEq] at hp
          obtain ⟨rfl, rfl, rfl⟩ := hp
          exact (q0Step_hit a hl hk).symm
      have hc : (i, k, l) ∈ (i', k', l') :: L ∨ (i, l, k) ∈ (i', k', l') :: L :=
        hp.imp (fun h => List.mem_cons.2 (Or.inl h)) (fun h => List.mem_cons.2 (Or.inl h))
      rw [if_pos hc, h3.1, h3.2, herm_herm, ite_self]
    · have h1 : ¬(i = i' ∧ k = k' ∧ l = l') := fun e =>
        hp (Or.inl (by rw [e.1, e.2.1, e.2.2]))
      have h2 : ¬(i = i' ∧ k = l' ∧ l = k') := fun e =>
        hp (Or.inr (by rw [e.1, e.2.1, e.2.2]))
      rw [q0Step_miss a hk' hl' hk hl h1 h2,
        q0Step_miss a hk' hl' hl hk (fun e => h2 ⟨e.1, e.2.2, e.2.1⟩)
          (fun e => h1 ⟨e.1, e.2.2, e.2.1⟩)]
      push Not at hp
      simp [hp.1, hp.2]

/-- The on-site terms are the Hermitian part of the row sums. -/
theorem dipoleQ0_entry (sqrt exp : K → K) (expi : K → Cplx K) (np : Nat) (s : DipoleSum K)
    (p : NacParams K) {i k l : Nat} (hi : i < np) (hk : k < 3) (hl : l < 3) :
    dipoleQ0 sqrt exp expi np s p (i * 9 + k * 3 + l : Nat) =
      herm (dipoleQ0Sum sqrt exp expi np s p (i * 9 + k * 3 + l : Nat))
        (dipoleQ0Sum sqrt exp expi np s p (i * 9 + l * 3 + k : Nat)) := by
  have e : dipoleQ0 sqrt exp expi np s p =
      ((List.range np).flatMap fun i => (List.range 3).flatMap fun k =>
        (List.range 3).map fun l => (i, k, l)).foldl
        (fun a p => q0Step a p.1 p.2.1 p.2.2) (dipoleQ0Sum sqrt exp expi np s p) := by
    unfold dipoleQ0
    simp only [foldl_flatMap, List.foldl_map]
  rw [e, q0Fold _ _ _ hk hl, if_pos]
  · left
    simp only [List.mem_flatMap, List.mem_map, List.mem_range]
    exact ⟨i, hi, k, hk, l, hl, rfl⟩
  · intro p hp
    simp only [List.mem_flatMap, List.mem_map, List.mem_range] at hp
    obtain ⟨i, hi, k, hk, l, hl, rfl⟩ := hp
    exact ⟨hk, hl⟩

theorem dipoleDipole_block (sqrt exp : K → K) (expi : K → Cplx K) (np : Nat) (s : DipoleSum K)
    (p : NacParams K) (q0 : Int → Cplx K) (q : Nat → K) (dir : Option (Nat → K))
    {i k j l : Nat} (hi : i < np) (hk : k < 3) (hj : j < np) (hl : l < 3) :
    dynBlock np (dipoleDipole sqrt exp expi np s p q0 q dir) i k j l =
      (dynBlock np (multiplyBorns np p.born (getDd sqrt exp expi np s p.dielectric q dir)) i k j l -
        if i = j then q0 (i * 9 + k * 3 + l : Nat) else 0).scale p.factor := by
  have hlt : (i * 3 + k) * (np * 3) + (j * 3 + l) < np * np * 9 := by
    have := digits_lt (block_lt hi hk) (block_lt hj hl)
    have e : np * 3 * (np * 3) = np * np * 9 := by ring
    omega
  unfold dipoleDipole
  dsimp only
  generalize multiplyBorns np p.born (getDd sqrt exp expi np s p.dielectric q dir) = dd
  have h2 : ∀ x : Int, addsAt (loop np fun i => loop 3 fun k => loop 3 fun l =>
      [(((ddAdrs np i k i l : Nat) : Int), -q0 (i * 9 + k * 3 + l : Nat))]) x =
      ∑ i ∈ range np, ∑ k ∈ range 3, ∑ l ∈ range 3,
        if ((ddAdrs np i k i l : Nat) : Int) = x then -q0 (i * 9 + k * 3 + l : Nat) else 0 := by
    intro x
    simp only [addsAt_loop, addsAt_single]
  have hz : ∀ i' k' l', i' < np → k' < 3 → l' < 3 → ¬(i' = i ∧ k' = k ∧ i' = j ∧ l' = l) →
      (if ((ddAdrs np i' k' i' l' : Nat) : Int) = (ddAdrs np i k j l : Nat) then
        -q0 (i' * 9 + k' * 3 + l' : Nat) else 0) = 0 := by
    intro i' k' l' hi' hk' hl' hn
    rw [if_neg]
    intro h
    exact hn (ddAdrs_inj hk' hi' hl' hk hj hl (Int.ofNat_inj.1 h))
  have h1 : dynBlock np (runAdds dd (loop np fun i => loop 3 fun k => loop 3 fun l =>
      [(((ddAdrs np i k i l : Nat) : Int), -q0 (i * 9 + k * 3 + l : Nat))])) i k j l =
      dynBlock np dd i k j l - if i = j then q0 (i * 9 + k * 3 + l : Nat) else 0 := by
    rw [← block_ddAdrs, runAdds_value, h2, block_ddAdrs np dd, sub_eq_add_neg]
    congr 1
    rw [sum_one hi, sum_one hk, sum_one hl]
    · by_cases hij : i = j
      · subst hij
        simp
      · rw [if_neg hij, hz i k l hi hk hl (fun e => hij e.2.2.1), neg_zero]
    · exact fun l' h' hne => hz i k l' hi hk h' (fun e => hne e.2.2.2)
    · exact fun k' h' hne => Finset.sum_eq_zero fun l' hl' =>
        hz i k' l' hi h' (by simpa using hl') (fun e => hne e.2.1)
    · exact fun i' h' hne => Finset.sum_eq_zero fun k' hk' => Finset.sum_eq_zero fun l' hl' =>
        hz i' k' l' h' (by simpa using hk') (by simpa using hl') (fun e => hne e.1)
  generalize runAdds dd (loop np fun i => loop 3 fun k => loop 3 fun l =>
      [(((ddAdrs np i k i l : Nat) : Int), -q0 (i * 9 + k * 3 + l : Nat))]) = dd' at h1 ⊢
  rw [← h1]
  unfold dynBlock
  refine runWrites_value dd' _ ?_ ((((i * 3 + k) * (np * 3) + (j * 3 + l) : Nat) : Int), _) ?_
  · intro u hu w hw h
    obtain ⟨x, hx, hu⟩ := mem_loop.1 hu
    obtain ⟨y, hy, hw⟩ := mem_loop.1 hw
    rw [List.mem_singleton] at hu hw
    subst hu hw
    have : x = y := Int.ofNat_inj.1 h
    subst this
    rfl
  · exact mem_loop.2 ⟨_, hlt, List.mem_singleton.2 rfl⟩

theorem gonze_block (sqrt exp : K → K) (expi : K → Cplx K) (c : Fc2Cell K) (p : NacParams K)
    (s : DipoleSum K) (q0 : Int → Cplx K) (recip : Nat → Nat → K) (q : Nat → K)
    (dir : Option (Nat → K)) (mem : Int → Cplx K)
    {i k j l : Nat} (hi : i < c.numPatom) (hk : k < 3) (hj : j < c.numPatom) (hl : l < 3) :
    dynBlock c.numPatom (gonzeMatrix sqrt exp expi c p s q0 recip q dir mem) i k j l =
      dynBlock c.numPatom (dynamicalMatrixAtQ sqrt expi c none q mem) i k j l +
        (dynBlock c.numPatom (dipoleDipole sqrt exp expi c.numPatom s p q0 (qCart recip q)
          (dir.map (qCart recip))) i k j l).scale (1 / sqrt (c.mass i * c.mass j)) := by
  rw [← block_ddAdrs]
  unfold gonzeMatrix
  dsimp only
  rw [runAdds_value, block_ddAdrs c.numPatom (dynamicalMatrixAtQ sqrt expi c none q mem)]
  congr 1
  rw [addsAt_block c.numPatom _ (fun i k j l => (dynBlock c.numPatom (dipoleDipole sqrt exp expi
    c.numPatom s p q0 (qCart recip q) (dir.map (qCart recip))) i k j l).scale
      (1 / sqrt (c.mass i * c.mass j))) ?_ hi hk hj hl]
  intro i k j l x
  rw [addsAt_single, block_ddAdrs c.numPatom (dipoleDipole sqrt exp expi c.numPatom s p q0
    (qCart recip q) (dir.map (qCart recip)))]
  congr 1
  ext <;> simp [Cplx.scale, div_eq_mul_inv]

end
end Phono3py
