/- Range test, skipped weights and array layout of the integration weights. -/
import Verif.Model.IntegrationWeight
import Verif.Lemmas.Writes
import Verif.Lemmas.Tetrahedron
import Verif.Spec.Array

set_option linter.unusedSectionVars false

namespace Phono3py
open Spec

section
variable {K : Type _} [Field K] [LinearOrder K] [IsStrictOrderedRing K]

/-! ### The range test -/

/-- One comparison step. -/
def rangeStep (st : K × K) (x : K) : K × K :=
  (if st.1 > x then x else st.1, if st.2 < x then x else st.2)

theorem rangeStep_fold (L : List K) : ∀ (st : K × K),
    ((L.foldl rangeStep st).1 ∈ st.1 :: L ∧ ∀ x ∈ st.1 :: L, (L.foldl rangeStep st).1 ≤ x) ∧
    ((L.foldl rangeStep st).2 ∈ st.2 :: L ∧ ∀ x ∈ st.2 :: L, x ≤ (L.foldl rangeStep st).2) := by
  induction L with
  | nil => intro st; simp
  | cons y L ih =>
    intro st
    obtain ⟨⟨a, b⟩, c, d⟩ := ih (rangeStep st y)
    simp only [List.foldl_cons]
    have e1 : (rangeStep st y).1 = st.1 ∧ st.1 ≤ y ∨ (rangeStep st y).1 = y ∧ y ≤ st.1 := by
      unfold rangeStep
      by_cases h : st.1 > y
      · right; simp [h, le_of_lt h]
      · left; simp [h, not_lt.1 h]
    have e2 : (rangeStep st y).2 = st.2 ∧ y ≤ st.2 ∨ (rangeStep st y).2 = y ∧ st.2 ≤ y := by
      unfold rangeStep
      by_cases h : st.2 < y
      · right; simp [h, le_of_lt h]
      · left; simp [h, not_lt.1 h]
    have b0 := b _ (List.mem_cons_self ..)
    have d0 := d _ (List.mem_cons_self ..)
    refine ⟨⟨?_, ?_⟩, ?_, ?_⟩
    · rcases List.mem_cons.1 a with a | a
      · rw [a]; rcases e1 with ⟨e, -⟩ | ⟨e, -⟩ <;> rw [e] <;> simp
      · exact List.mem_cons_of_mem _ (List.mem_cons_of_mem _ a)
    · intro x hx
      rcases List.mem_cons.1 hx with rfl | hx
      · rcases e1 with ⟨e, h⟩ | ⟨e, h⟩ <;> rw [e] at b0
        · exact b0
        · exact b0.trans h
      · rcases List.mem_cons.1 hx with rfl | hx
        · rcases e1 with ⟨e, h⟩ | ⟨e, h⟩ <;> rw [e] at b0
          · exact b0.trans h
          · exact b0
        · exact b x (List.mem_cons_of_mem _ hx)
    · rcases List.mem_cons.1 c with c | c
      · rw [c]; rcases e2 with ⟨e, -⟩ | ⟨e, -⟩ <;> rw [e] <;> simp
      · exact List.mem_cons_of_mem _ (List.mem_cons_of_mem _ c)
    · intro x hx
      rcases List.mem_cons.1 hx with rfl | hx
      · rcases e2 with ⟨e, h⟩ | ⟨e, h⟩ <;> rw [e] at d0
        · exact d0
        · exact h.trans d0
      · rcases List.mem_cons.1 hx with rfl | hx
        · rcases e2 with ⟨e, h⟩ | ⟨e, h⟩ <;> rw [e] at d0
          · exact h.trans d0
          · exact d0
        · exact d x (List.mem_cons_of_mem _ hx)

/-- All vertex frequencies, in scan order. -/
def vertexList (fv : Fin 24 → Fin 4 → K) : List K :=
  (List.finRange 24).flatMap fun i => (List.finRange 4).map fun j => fv i j

theorem mem_vertexList {fv : Fin 24 → Fin 4 → K} {x : K} :
    x ∈ vertexList fv ↔ ∃ i j, fv i j = x := by
  simp [vertexList]

theorem thmInTetrahedra_iff (f0 : K) (fv : Fin 24 → Fin 4 → K) :
    thmInTetrahedra f0 fv = true ↔ (∃ i j, fv i j ≤ f0) ∧ ∃ i j, f0 ≤ fv i j := by
  have e : (List.finRange 24).foldl
      (fun (st : K × K) i => (List.finRange 4).foldl
        (fun (st : K × K) j =>
          let fmin := if st.1 > fv i j then fv i j else st.1
          let fmax := if st.2 < fv i j then fv i j else st.2
          (fmin, fmax)) st) (fv 0 0, fv 0 0) = (vertexList fv).foldl rangeStep (fv 0 0, fv 0 0) := by
    unfold vertexList
    rw [List.foldl_flatMap]
    simp only [List.foldl_map]
    rfl
  unfold thmInTetrahedra
  simp only
  rw [e]
  obtain ⟨⟨a, b⟩, c, d⟩ := rangeStep_fold (vertexList fv) (fv 0 0, fv 0 0)
  generalize (vertexList fv).foldl rangeStep (fv 0 0, fv 0 0) = st at *
  have a' : ∃ i j, fv i j = st.1 := by
    rcases List.mem_cons.1 a with a | a
    · exact ⟨0, 0, a.symm⟩
    · exact mem_vertexList.1 a
  have c' : ∃ i j, fv i j = st.2 := by
    rcases List.mem_cons.1 c with c | c
    · exact ⟨0, 0, c.symm⟩
    · exact mem_vertexList.1 c
  constructor
  · intro h
    by_cases hc : st.1 > f0 ∨ st.2 < f0
    · rw [if_pos hc] at h; exact absurd h (by simp)
    · push Not at hc
      obtain ⟨i, j, hij⟩ := a'
      obtain ⟨k, l, hkl⟩ := c'
      exact ⟨⟨i, j, hij.le.trans hc.1⟩, k, l, hc.2.trans hkl.ge⟩
  · rintro ⟨⟨i, j, hij⟩, k, l, hkl⟩
    rw [if_neg]
    push Not
    exact ⟨(b _ (List.mem_cons_of_mem _ (mem_vertexList.2 ⟨i, j, rfl⟩))).trans hij,
      hkl.trans (d _ (List.mem_cons_of_mem _ (mem_vertexList.2 ⟨k, l, rfl⟩)))⟩

/-! ### Outside the range -/

theorem sorted_mem (v : Fin 4 → K) (k : Fin 4) : ∃ j, v j = (sortOmegas v).1 k := by
  have hm : (sortOmegas v).1 k ∈ List.ofFn v :=
    (sortOmegas_perm v).mem_iff.1 (List.mem_ofFn.2 ⟨k, rfl⟩)
  exact List.mem_ofFn.1 hm

theorem weight_outside (eps w : K) (om : Fin 24 → Fin 4 → K)
    (h : (∀ i j, w < om i j) ∨ ∀ i j, om i j < w) : thmIntegrationWeight eps true w om = 0 := by
  have t : ∀ i, tetraTerm (gFunc eps) (iFunc eps) (sortOmegas (om i)).2 w (sortOmegas (om i)).1
      = 0 := by
    intro i
    have hs := sortOmegas_sorted (om i)
    rcases h with h | h
    · obtain ⟨j, hj⟩ := sorted_mem (om i) 0
      rw [tetraTerm_interval (i := 0) _ _ _ hs (by change w < _; rw [← hj]; exact h i j)]
      simp [gFunc]
    · obtain ⟨j, hj⟩ := sorted_mem (om i) 3
      rw [tetraTerm_interval (i := 4) _ _ _ hs (by change _ < w; rw [← hj]; exact h i j)]
      simp [gFunc]
  unfold thmIntegrationWeight integrationWeight
  simp only [if_true, t, add_zero]
  have : ∀ (l : List (Fin 24)) (a : K), l.foldl (fun s _ => s) a = a := by
    intro l; induction l with
    | nil => intro a; rfl
    | cons _ _ ih => intro a; simpa using ih a
  rw [this, zero_div]

theorem weight_not_in (eps w : K) (om : Fin 24 → Fin 4 → K) (h : thmInTetrahedra w om = false) :
    thmIntegrationWeight eps true w om = 0 := by
  have h' : ¬ thmInTetrahedra w om = true := by rw [h]; simp
  rw [thmInTetrahedra_iff, not_and_or] at h'
  apply weight_outside
  rcases h' with h' | h'
  · left; intro i j; by_contra hc; exact h' ⟨i, j, not_lt.1 hc⟩
  · right; intro i j; by_contra hc; exact h' ⟨i, j, not_lt.1 hc⟩

/-! ### `set_g` -/

theorem setG_fold (eps f0 : K) (fv : Fin 3 → Fin 24 → Fin 4 → K) (maxI : Nat)
    (l : List (Fin 3)) : ∀ st : (Fin 3 → K) × Bool,
    let r := l.foldl
      (fun (st : (Fin 3 → K) × Bool) i =>
        if i.1 < maxI then
          if thmInTetrahedra f0 (fv i) then
            (fun k => if k = i then thmIntegrationWeight eps true f0 (fv i) else st.1 k, false)
          else (fun k => if k = i then 0 else st.1 k, st.2)
        else st) st
    (∀ k, r.1 k = if k ∈ l ∧ k.1 < maxI then thmIntegrationWeight eps true f0 (fv k)
      else st.1 k) ∧
    (r.2 = true ↔ st.2 = true ∧ ∀ k ∈ l, k.1 < maxI → thmInTetrahedra f0 (fv k) = false) := by
  induction l with
  | nil => intro st; simp
  | cons a l ih =>
    intro st
    simp only [List.foldl_cons]
    obtain ⟨h1, h2⟩ := ih (if a.1 < maxI then
          if thmInTetrahedra f0 (fv a) then
            (fun k => if k = a then thmIntegrationWeight eps true f0 (fv a) else st.1 k, false)
          else (fun k => if k = a then 0 else st.1 k, st.2)
        else st)
    refine ⟨fun k => ?_, ?_⟩
    · rw [h1 k]
      by_cases hk : k ∈ l ∧ k.1 < maxI
      · rw [if_pos hk, if_pos ⟨List.mem_cons_of_mem _ hk.1, hk.2⟩]
      · rw [if_neg hk]
        by_cases ha : a.1 < maxI
        · rw [if_pos ha]
          by_cases e : k = a
          · subst e
            have hm : k ∈ k :: l ∧ k.1 < maxI := ⟨List.mem_cons_self .., ha⟩
            by_cases hin : thmInTetrahedra f0 (fv k) = true
            · rw [if_pos hin, if_pos hm]; simp
            · rw [if_neg hin, if_pos hm, weight_not_in eps f0 (fv k) (by simpa using hin)]; simp
          · have hn : ¬ (k ∈ a :: l ∧ k.1 < maxI) := by
              rintro ⟨p, q⟩
              rcases List.mem_cons.1 p with p | p
              · exact e p
              · exact hk ⟨p, q⟩
            rw [if_neg hn]
            by_cases hin : thmInTetrahedra f0 (fv a) = true
            · rw [if_pos hin]; simp [e]
            · rw [if_neg hin]; simp [e]
        · rw [if_neg ha, if_neg]
          rintro ⟨p, q⟩
          rcases List.mem_cons.1 p with rfl | p
          · exact ha q
          · exact hk ⟨p, q⟩
    · rw [h2]
      by_cases ha : a.1 < maxI
      · rw [if_pos ha]
        by_cases hin : thmInTetrahedra f0 (fv a) = true
        · rw [if_pos hin]
          simp only [Bool.false_eq_true, false_and, false_iff, not_and]
          intro _ h
          have := h a (List.mem_cons_self ..) ha
          rw [hin] at this
          exact absurd this (by simp)
        · rw [if_neg hin]
          simp only [List.mem_cons, forall_eq_or_imp]
          constructor
          · rintro ⟨p, q⟩; exact ⟨p, fun _ => by simpa using hin, q⟩
          · rintro ⟨p, -, q⟩; exact ⟨p, q⟩
      · rw [if_neg ha]
        simp only [List.mem_cons, forall_eq_or_imp]
        constructor
        · rintro ⟨p, q⟩; exact ⟨p, fun h => absurd h ha, q⟩
        · rintro ⟨p, -, q⟩; exact ⟨p, q⟩

theorem setG_value (eps : K) (g : Fin 3 → K) (f0 : K) (fv : Fin 3 → Fin 24 → Fin 4 → K)
    (maxI : Nat) (k : Fin 3) (hk : k.1 < maxI) :
    (setG eps g f0 fv maxI).1 k = thmIntegrationWeight eps true f0 (fv k) := by
  have := (setG_fold eps f0 fv maxI (List.finRange 3) (g, true)).1 k
  rw [if_pos ⟨List.mem_finRange k, hk⟩] at this
  exact this

theorem setG_flag (eps : K) (g : Fin 3 → K) (f0 : K) (fv : Fin 3 → Fin 24 → Fin 4 → K)
    (maxI : Nat) :
    (setG eps g f0 fv maxI).2 = true ↔ ∀ k : Fin 3, k.1 < maxI → thmInTetrahedra f0 (fv k) = false := by
  have := (setG_fold eps f0 fv maxI (List.finRange 3) (g, true)).2
  unfold setG
  rw [this]
  simp

/-! ### Layout -/

/-- Number of slabs stored for a tp_type. -/
def slabs (tpType : Nat) : Nat :=
  if tpType = 2 then 2 else if tpType = 3 then 3 else if tpType = 4 then 1 else 0

/-- Content of slab `s`. -/
def slab (tpType s : Nat) (g : Fin 3 → K) : K :=
  if tpType = 4 then g 0 else if s = 0 then g 2 else if s = 1 then g 0 - g 1 else g 0 + g 1 + g 2

theorem mem_iwStores {tpType : Nat} {shift prod : Int} {g : Fin 3 → K} {w : Int × K} :
    w ∈ iwStores tpType shift prod g ↔
      ∃ s < slabs tpType, w = (shift + s * prod, slab tpType s g) := by
  unfold iwStores slabs slab
  by_cases h2 : tpType = 2
  · subst h2
    simp only [if_true, show ¬ (2 = 3) by decide, show ¬ (2 = 4) by decide, if_false,
      List.append_nil, List.mem_cons, List.not_mem_nil, or_false]
    constructor
    · rintro (h | h)
      · exact ⟨0, by omega, by simpa using h⟩
      · exact ⟨1, by omega, by simpa using h⟩
    · rintro ⟨s, hs, h⟩
      obtain rfl | rfl : s = 0 ∨ s = 1 := by omega
      · left; simpa using h
      · right; simpa using h
  by_cases h3 : tpType = 3
  · subst h3
    simp only [if_true, show ¬ (3 = 2) by decide, show ¬ (3 = 4) by decide, if_false,
      List.append_nil, List.nil_append, List.mem_cons, List.not_mem_nil, or_false]
    constructor
    · rintro (h | h | h)
      · exact ⟨0, by omega, by simpa using h⟩
      · exact ⟨1, by omega, by simpa using h⟩
      · exact ⟨2, by omega, by rw [h]; simp; ring⟩
    · rintro ⟨s, hs, h⟩
      obtain rfl | rfl | rfl : s = 0 ∨ s = 1 ∨ s = 2 := by omega
      · left; simpa using h
      · right; left; simpa using h
      · right; right; rw [h]; simp; ring
  by_cases h4 : tpType = 4
  · subst h4
    simp only [if_true, show ¬ (4 = 2) by decide, show ¬ (4 = 3) by decide, if_false,
      List.nil_append, List.mem_cons, List.not_mem_nil, or_false]
    constructor
    · intro h; exact ⟨0, by omega, by simpa using h⟩
    · rintro ⟨s, hs, h⟩
      obtain rfl : s = 0 := by omega
      simpa using h
  · simp [h2, h3, h4]

theorem adrsShift_eq (n1 n2 j b12 : Nat) :
    adrsShift n1 n2 j (b12 / n2) (b12 % n2) = j * (n1 * n2) + b12 := by
  unfold adrsShift
  have := Nat.div_add_mod b12 n2
  rw [mul_comm (b12 / n2) n2, add_assoc, this, mul_assoc]

/-- The common loop nest: triplets, band pairs, frequency points. -/
def nest (numTriplets numBand0 numBand1 numBand2 tpType : Nat) (val : Nat → Nat → Nat → Fin 3 → K) :
    List (Int × K) :=
  loop numTriplets fun i => loop (numBand1 * numBand2) fun b12 => loop numBand0 fun j =>
    iwStores tpType
      ((i * (numBand0 * numBand1 * numBand2) : Nat)
        + (adrsShift numBand1 numBand2 j (b12 / numBand2) (b12 % numBand2) : Int))
      (numTriplets * numBand0 * numBand1 * numBand2 : Nat) (val i j b12)

/-- The flag stores of the same nest. -/
def zeroNest (numTriplets numBand0 numBand1 numBand2 : Nat) (val : Nat → Nat → Nat → Bool) :
    List (Int × Bool) :=
  loop numTriplets fun i => loop (numBand1 * numBand2) fun b12 => loop numBand0 fun j =>
    [((i * (numBand0 * numBand1 * numBand2) : Nat)
        + (adrsShift numBand1 numBand2 j (b12 / numBand2) (b12 % numBand2) : Int), val i j b12)]

theorem mem_nest {nt n0 n1 n2 tp : Nat} {val : Nat → Nat → Nat → Fin 3 → K} {w : Int × K} :
    w ∈ nest nt n0 n1 n2 tp val ↔ ∃ s < slabs tp, ∃ i < nt, ∃ j < n0, ∃ b1 < n1, ∃ b2 < n2,
      w = (((at5 nt n0 n1 n2 s i j b1 b2 : Nat) : Int), slab tp s (val i j (b1 * n2 + b2))) := by
  unfold nest
  simp only [mem_loop, mem_iwStores, adrsShift_eq]
  constructor
  · rintro ⟨i, hi, b12, hb, j, hj, s, hs, rfl⟩
    have hn2 : 0 < n2 := by
      rcases Nat.eq_zero_or_pos n2 with rfl | h
      · simp at hb
      · exact h
    refine ⟨s, hs, i, hi, j, hj, b12 / n2, (Nat.div_lt_iff_lt_mul hn2).2 hb, b12 % n2,
      Nat.mod_lt _ hn2, ?_⟩
    have e : b12 / n2 * n2 + b12 % n2 = b12 := by rw [mul_comm]; exact Nat.div_add_mod ..
    rw [e]
    congr 1
    unfold at5
    have e' : (b12 : Int) = (b12 / n2 : Nat) * n2 + (b12 % n2 : Nat) := by exact_mod_cast e.symm
    push_cast at e' ⊢
    linear_combination e'
  · rintro ⟨s, hs, i, hi, j, hj, b1, h1, b2, h2, rfl⟩
    refine ⟨i, hi, b1 * n2 + b2, digits_lt h1 h2, j, hj, s, hs, ?_⟩
    congr 1
    unfold at5
    push_cast
    ring

theorem mem_zeroNest {nt n0 n1 n2 : Nat} {val : Nat → Nat → Nat → Bool} {w : Int × Bool} :
    w ∈ zeroNest nt n0 n1 n2 val ↔ ∃ i < nt, ∃ j < n0, ∃ b1 < n1, ∃ b2 < n2,
      w = (((at4 n0 n1 n2 i j b1 b2 : Nat) : Int), val i j (b1 * n2 + b2)) := by
  unfold zeroNest
  simp only [mem_loop, adrsShift_eq, List.mem_singleton]
  constructor
  · rintro ⟨i, hi, b12, hb, j, hj, rfl⟩
    have hn2 : 0 < n2 := by
      rcases Nat.eq_zero_or_pos n2 with rfl | h
      · simp at hb
      · exact h
    refine ⟨i, hi, j, hj, b12 / n2, (Nat.div_lt_iff_lt_mul hn2).2 hb, b12 % n2,
      Nat.mod_lt _ hn2, ?_⟩
    have e : b12 / n2 * n2 + b12 % n2 = b12 := by rw [mul_comm]; exact Nat.div_add_mod ..
    rw [e]
    congr 1
    unfold at4
    have e' : (b12 : Int) = (b12 / n2 : Nat) * n2 + (b12 % n2 : Nat) := by exact_mod_cast e.symm
    push_cast at e' ⊢
    linear_combination e'
  · rintro ⟨i, hi, j, hj, b1, h1, b2, h2, rfl⟩
    refine ⟨i, hi, b1 * n2 + b2, digits_lt h1 h2, j, hj, ?_⟩
    congr 1
    unfold at4
    push_cast
    ring

theorem at5_inj {n1 n2 n3 n4 a b c d e a' b' c' d' e' : Nat} (hb : b < n1) (hc : c < n2)
    (hd : d < n3) (he : e < n4) (hb' : b' < n1) (hc' : c' < n2) (hd' : d' < n3) (he' : e' < n4)
    (h : at5 n1 n2 n3 n4 a b c d e = at5 n1 n2 n3 n4 a' b' c' d' e') :
    a = a' ∧ b = b' ∧ c = c' ∧ d = d' ∧ e = e' := by
  unfold at5 at h
  obtain ⟨h, h4⟩ := digits2 he he' h
  obtain ⟨h, h3⟩ := digits2 hd hd' h
  obtain ⟨h, h2⟩ := digits2 hc hc' h
  obtain ⟨h, h1⟩ := digits2 hb hb' h
  exact ⟨h, h1, h2, h3, h4⟩

theorem at4_inj {n1 n2 n3 a b c d a' b' c' d' : Nat} (hb : b < n1) (hc : c < n2)
    (hd : d < n3) (hb' : b' < n1) (hc' : c' < n2) (hd' : d' < n3)
    (h : at4 n1 n2 n3 a b c d = at4 n1 n2 n3 a' b' c' d') :
    a = a' ∧ b = b' ∧ c = c' ∧ d = d' := by
  unfold at4 at h
  obtain ⟨h, h3⟩ := digits2 hd hd' h
  obtain ⟨h, h2⟩ := digits2 hc hc' h
  obtain ⟨h, h1⟩ := digits2 hb hb' h
  exact ⟨h, h1, h2, h3⟩

theorem nest_agree (nt n0 n1 n2 tp : Nat) (val : Nat → Nat → Nat → Fin 3 → K) :
    Agree (nest nt n0 n1 n2 tp val) := by
  intro u hu w hw e
  obtain ⟨s, hs, i, hi, j, hj, b1, h1, b2, h2, rfl⟩ := mem_nest.1 hu
  obtain ⟨s', hs', i', hi', j', hj', b1', h1', b2', h2', rfl⟩ := mem_nest.1 hw
  obtain ⟨rfl, rfl, rfl, rfl, rfl⟩ := at5_inj hi hj h1 h2 hi' hj' h1' h2' (Int.ofNat.inj e)
  rfl

theorem zeroNest_agree (nt n0 n1 n2 : Nat) (val : Nat → Nat → Nat → Bool) :
    Agree (zeroNest nt n0 n1 n2 val) := by
  intro u hu w hw e
  obtain ⟨i, hi, j, hj, b1, h1, b2, h2, rfl⟩ := mem_zeroNest.1 hu
  obtain ⟨i', hi', j', hj', b1', h1', b2', h2', rfl⟩ := mem_zeroNest.1 hw
  obtain ⟨rfl, rfl, rfl, rfl⟩ := at4_inj hj h1 h2 hj' h1' h2' (Int.ofNat.inj e)
  rfl

theorem nest_value (a : Int → K) {nt n0 n1 n2 tp : Nat} {val : Nat → Nat → Nat → Fin 3 → K}
    {s i j b1 b2 : Nat} (hs : s < slabs tp) (hi : i < nt) (hj : j < n0) (h1 : b1 < n1)
    (h2 : b2 < n2) :
    runWrites a (nest nt n0 n1 n2 tp val) (at5 nt n0 n1 n2 s i j b1 b2 : Nat) =
      slab tp s (val i j (b1 * n2 + b2)) :=
  runWrites_value a _ (nest_agree _ _ _ _ _ _)
    (((at5 nt n0 n1 n2 s i j b1 b2 : Nat) : Int), slab tp s (val i j (b1 * n2 + b2)))
    (mem_nest.2 ⟨s, hs, i, hi, j, hj, b1, h1, b2, h2, rfl⟩)

theorem zeroNest_value (a : Int → Bool) {nt n0 n1 n2 : Nat} {val : Nat → Nat → Nat → Bool}
    {i j b1 b2 : Nat} (hi : i < nt) (hj : j < n0) (h1 : b1 < n1) (h2 : b2 < n2) :
    runWrites a (zeroNest nt n0 n1 n2 val) (at4 n0 n1 n2 i j b1 b2 : Nat) =
      val i j (b1 * n2 + b2) :=
  runWrites_value a _ (zeroNest_agree _ _ _ _ _)
    (((at4 n0 n1 n2 i j b1 b2 : Nat) : Int), val i j (b1 * n2 + b2))
    (mem_zeroNest.2 ⟨i, hi, j, hj, b1, h1, b2, h2, rfl⟩)

theorem band_digits {n2 b1 b2 : Nat} (h2 : b2 < n2) :
    (b1 * n2 + b2) / n2 = b1 ∧ (b1 * n2 + b2) % n2 = b2 := by
  constructor
  · rw [mul_comm, Nat.mul_add_div (by omega), Nat.div_eq_of_lt h2, add_zero]
  · rw [mul_comm, Nat.mul_add_mod, Nat.mod_eq_of_lt h2]

end
end Phono3py
