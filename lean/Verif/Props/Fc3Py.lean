/-
C177: fc3 made without the C library.
-/
import Verif.Model.Fc3Py
import Verif.Spec.Fc3Py
import Verif.Props.Fc3Solve

set_option linter.unusedSectionVars false

namespace Phono3py.Props
open Phono3py Phono3py.Spec

section
variable {K : Type _} [Field K]

theorem cart27_range : cart27 = (List.range 27).map fun l => (l / 9, l % 9 / 3, l % 3) := by decide +kernel

theorem cartPos_digits (l : Nat) : cartPos (l / 9, l % 9 / 3, l % 3) = l := by
  show l / 9 * 9 + l % 9 / 3 * 3 + l % 3 = l
  omega

/-- One tensor stored by Python is 27 rounds of C. -/
theorem pyDistributeStep_eq {n target source : Nat} {mapping : Nat → Nat} (hmap : ∀ i < n, mapping i < n)
    (hne : target ≠ source) (r : Nat → Nat → K) (A : Int → K) (i j : Nat) (hi : i < n) (hj : j < n) :
    pyDistributeStep n target source mapping r A (i, j) =
      ((List.range 27).map fun (l : Nat) => (i, j, l)).foldl (distributeStep n target source mapping r) A := by
  unfold pyDistributeStep
  rw [cart27_range, List.map_map, List.foldl_map]
  symm
  refine (foldl_inplace (fun (l : Nat) => (((n * n * target + n * i + j) * 27 + l : Nat) : Int))
    (fun A l => tensor3RotationElem (fun p => A ((n * n * source + n * mapping i + mapping j) * 27 + p : Nat)) r l)
    (fun p => ∃ l < 27, p = (((n * n * source + n * mapping i + mapping j) * 27 + l : Nat) : Int))
    (List.range 27) ?_ ?_ A).trans ?_
  · rintro l hl ⟨l', hl', he⟩
    rw [List.mem_range] at hl
    have he' := Int.ofNat.inj he
    have h1 : n * n * target + n * i + j = n * n * source + n * mapping i + mapping j := by omega
    have h2 : (target * n + i) * n + j = (source * n + mapping i) * n + mapping j := by
      have e1 : (target * n + i) * n + j = n * n * target + n * i + j := by ring
      have e2 : (source * n + mapping i) * n + mapping j = n * n * source + n * mapping i + mapping j := by ring
      omega
    exact hne (digits2 hi (hmap i hi) (digits2 hj (hmap j hj) h2).1).1
  · intro a a' h l hl
    rw [tensor3RotationElem_eq, tensor3RotationElem_eq]
    refine Finset.sum_congr rfl fun x hx => Finset.sum_congr rfl fun y hy => Finset.sum_congr rfl fun z hz => ?_
    rw [Finset.mem_range] at hx hy hz
    rw [h _ ⟨x * 9 + y * 3 + z, by omega, rfl⟩]
  · refine congrArg (runWrites A) (List.map_congr_left ?_)
    intro l _
    simp only [Function.comp, cartPos_digits]
    rfl

theorem foldl_congr_mem {α β : Type _} (f g : α → β → α) (l : List β) (h : ∀ a, ∀ b ∈ l, f a b = g a b) (a : α) :
    l.foldl f a = l.foldl g a := by
  induction l generalizing a with
  | nil => rfl
  | cons b l ih =>
    rw [List.foldl_cons, List.foldl_cons, h a b (by simp)]
    exact ih (fun a b hb => h a b (by simp [hb])) _

theorem pyDistributeRow_eq {rows n target source : Nat} {mapping : Nat → Nat} (hmap : ∀ i < n, mapping i < n)
    (hne : target ≠ source) (r : Nat → Nat → K) (A : Int → K) (ht : target < rows) (hs : source < rows) :
    pyDistributeRow rows n target source mapping r A = some (distributeRow n target source mapping r A) := by
  unfold pyDistributeRow
  rw [if_pos ⟨ht, hs⟩]
  refine congrArg some ?_
  unfold distributeRow loop
  rw [List.foldl_flatMap, List.foldl_flatMap]
  apply foldl_congr_mem
  intro a i hi
  rw [List.foldl_flatMap, List.foldl_map]
  apply foldl_congr_mem
  intro a j hj
  exact pyDistributeStep_eq hmap hne r a i j (List.mem_range.1 hi) (List.mem_range.1 hj)

theorem findSource_mem {ops : List (SymOp K)} {target : Nat} {firsts : List Nat} {d : Nat × SymOp K}
    (h : findSource ops target firsts = some d) : d.1 ∈ firsts ∧ d.2 ∈ ops := by
  induction firsts with
  | nil => simp [findSource] at h
  | cons x l ih =>
    unfold findSource at h
    cases hc : chooseOp ops target x with
    | none =>
      rw [hc] at h
      exact ⟨List.mem_cons_of_mem _ (ih h).1, (ih h).2⟩
    | some o =>
      rw [hc] at h
      obtain rfl := Option.some.inj h
      refine ⟨by simp, ?_⟩
      unfold chooseOp at hc
      simp only at hc
      split at hc
      · rename_i o' ho'
        obtain rfl := Option.some.inj hc
        exact (List.mem_filter.1 (List.mem_of_find?_eq_some ho')).1
      · exact (List.mem_filter.1 (List.mem_of_mem_head? hc)).1

/-- C177. For full arrays the distribution over equivalent atoms gives the same array, or the same
failure, in Python and in C. Partial: the full claim includes compact arrays; see
`C177_compact_fails`. -/
theorem C177_distribute_partial (n : Nat) (ops : List (SymOp K)) (firsts targets : List Nat)
    (hperm : ∀ o ∈ ops, ∀ i < n, o.perm i < n) (hf : ∀ i ∈ firsts, i < n)
    (ht : ∀ i ∈ targets, i < n ∧ i ∉ firsts) (A : Int → K) :
    pyDistributeFc3 n n ops firsts targets A = distributeFc3 n id ops firsts targets A := by
  induction targets generalizing A with
  | nil => rfl
  | cons t l ih =>
    unfold pyDistributeFc3 distributeFc3 distributeTarget
    cases hs : findSource ops t firsts with
    | none => rfl
    | some d =>
      obtain ⟨h1, h2⟩ := findSource_mem hs
      have hne : t ≠ d.1 := fun e => (ht t (by simp)).2 (e ▸ h1)
      simp only [Option.bind_some, Option.map_some, id_eq]
      rw [pyDistributeRow_eq (hperm _ h2) hne _ A (ht t (by simp)).1 (hf _ h1)]
      exact ih (fun i hi => ht i (by simp [hi])) _

/-- C177 fails for compact arrays: the Python code does not look rows up, and ends with an error
whenever an atom of the primitive cell has a supercell index beyond the number of rows. -/
theorem C177_compact_fails (rows n : Nat) (ops : List (SymOp K)) (firsts targets : List Nat) (t : Nat)
    (ht : t ∈ targets) (hr : rows ≤ t) (A : Int → K) : pyDistributeFc3 rows n ops firsts targets A = none := by
  induction targets generalizing A with
  | nil => simp at ht
  | cons x l ih =>
    unfold pyDistributeFc3
    rcases List.mem_cons.1 ht with rfl | hl
    · have : (findSource ops t firsts).bind (fun d =>
          pyDistributeRow rows n t d.1 d.2.perm (fun l i => d.2.rotCart i l) A) = none := by
        cases findSource ops t firsts with
        | none => rfl
        | some d =>
          simp only [Option.bind_some, pyDistributeRow]
          rw [if_neg (by omega)]
      rw [this]
    · split
      · exact ih hl _
      · rfl

/-! ### Solving for one atom -/

theorem inverse_transpose {R S : Nat → Nat → K} (hR : Orthogonal R) (hS : InverseOf R S) (a b : Nat) (ha : a < 3)
    (hb : b < 3) : S a b = R b a := by
  have h1 : ∑ k ∈ Finset.range 3, (∑ c ∈ Finset.range 3, R c a * R c k) * S k b = S a b := by
    rw [Finset.sum_congr rfl fun k hk => by rw [hR a ha k (Finset.mem_range.1 hk)]]
    simp [ha]
  have h2 : ∑ c ∈ Finset.range 3, R c a * (∑ k ∈ Finset.range 3, R c k * S k b) = R b a := by
    rw [Finset.sum_congr rfl fun c hc => by rw [hS c (Finset.mem_range.1 hc) b hb]]
    simp [hb]
  rw [← h1, ← h2]
  simp only [Finset.sum_mul, Finset.mul_sum]
  rw [Finset.sum_comm]
  refine Finset.sum_congr rfl fun c _ => Finset.sum_congr rfl fun k _ => by ring

theorem pySimilarity_eq {R S : Nat → Nat → K} (hR : Orthogonal R) (hS : InverseOf R S) (T : Nat → Nat → K)
    (i j : Nat) (hj : j < 3) : pySimilarity R S T i j = tensor2RotationElem T R i j := by
  unfold pySimilarity tensor2RotationElem
  simp only [sumLoop_eq]
  refine Finset.sum_congr rfl fun k _ => ?_
  rw [Finset.mul_sum]
  refine Finset.sum_congr rfl fun l hl => ?_
  rw [inverse_transpose hR hS l j (Finset.mem_range.1 hl) hj]
  ring

theorem getD_flatMap_range {β : Type _} (D S : Nat) (f : Nat → Nat → β) (d y : Nat) (hd : d < D) (hy : y < S) (z : β) :
    ((List.range D).flatMap fun d => (List.range S).map fun y => f d y).getD (d * S + y) z = f d y := by
  have hlen : ∀ D, ((List.range D).flatMap fun d => (List.range S).map fun y => f d y).length = D * S := by
    intro D
    simp
  induction D with
  | zero => omega
  | succ D ih =>
    rw [List.range_succ, List.flatMap_append]
    rcases Nat.lt_succ_iff_lt_or_eq.1 hd with h | rfl
    · have hlt := digits_lt h hy
      rw [List.getD_eq_getElem?_getD, List.getElem?_append_left (by rw [hlen]; exact hlt), ← List.getD_eq_getElem?_getD]
      exact ih h
    · rw [List.getD_eq_getElem?_getD, List.getElem?_append_right (by rw [hlen]; omega), hlen]
      simp [hy]

/-- C177. The row of fc3 of one displaced atom is the same in Python and in C, provided that
rotations are orthogonal and numpy inverts them. -/
theorem C177_solve (s : SiteData K) (inv : Nat → Nat → Nat → K) (ho : ∀ y < s.numSym, Orthogonal (s.siteSymCart y))
    (hinv : ∀ y < s.numSym, InverseOf (s.siteSymCart y) (inv y)) (mem A : Int → K) (i j k l m : Nat)
    (hi : i < s.numAtom) (hj : j < s.numAtom) (hk : k < 3) (hl : l < 3) (hm : m < 3) :
    pySolveFc3 s inv A ((((i * s.numAtom + j) * 3 + k) * 3 + l) * 3 + m : Nat) =
      rotateDeltaFc2 s mem A ((((i * s.numAtom + j) * 3 + k) * 3 + l) * 3 + m : Nat) := by
  have hC : rotateDeltaFc2 s mem A ((((i * s.numAtom + j) * 3 + k) * 3 + l) * 3 + m : Nat) =
      solvedElem s i j k l m := by
    have e : (((i * s.numAtom + j) * 3 + k) * 3 + l) * 3 + m = (i * s.numAtom + j) * 27 + k * 9 + l * 3 + m := by ring
    unfold rotateDeltaFc2
    rw [e, rotateDelta_fold s A mem (s.numAtom * s.numAtom) (digits_lt hi hj) hk hl hm]
    have hn : 0 < s.numAtom := by omega
    have e1 : (i * s.numAtom + j) / s.numAtom = i := by
      rw [mul_comm, Nat.mul_add_div hn, Nat.div_eq_of_lt hj, add_zero]
    have e2 : (i * s.numAtom + j) % s.numAtom = j := by
      rw [mul_comm, Nat.mul_add_mod, Nat.mod_eq_of_lt hj]
    rw [e1, e2]
  rw [hC]
  have hE : pySolveElem s inv i j k l m = solvedElem s i j k l m := by
    unfold pySolveElem solvedElem
    rw [sumLoop_eq, mul_comm s.numSym, sum_pairs]
    refine Finset.sum_congr rfl fun d hd => Finset.sum_congr rfl fun y hy => ?_
    rw [Finset.mem_range] at hd hy
    unfold pyRotatedFc2s
    have ea : at2 s.numSym d y = d * s.numSym + y := rfl
    rw [ea]
    rw [getD_flatMap_range _ _ _ d y hd hy, pySimilarity_eq (ho y hy) (hinv y hy) _ l m hm]
    unfold tensor2RotationElem rotatedDelta
    simp only [sumLoop_eq]
  rw [← hE]
  unfold pySolveFc3
  refine runWrites_value A _ ?_ (((((((i * s.numAtom + j) * 3 + k) * 3 + l) * 3 + m : Nat)) : Int),
    pySolveElem s inv i j k l m) ?_
  · intro u hu w hw he
    simp only [mem_loop, List.mem_singleton] at hu hw
    obtain ⟨i1, hi1, j1, hj1, k1, hk1, l1, hl1, m1, hm1, rfl⟩ := hu
    obtain ⟨i2, hi2, j2, hj2, k2, hk2, l2, hl2, m2, hm2, rfl⟩ := hw
    have h := Int.ofNat.inj he
    obtain ⟨h', rfl⟩ := digits2 hm1 hm2 h
    obtain ⟨h'', rfl⟩ := digits2 hl1 hl2 h'
    obtain ⟨h3, rfl⟩ := digits2 hk1 hk2 h''
    obtain ⟨rfl, rfl⟩ := digits2 hj1 hj2 h3
    rfl
  · simp only [mem_loop, List.mem_singleton]
    exact ⟨i, hi, j, hj, k, hk, l, hl, m, hm, rfl⟩

/-- C177. Without the C library, too, exact force constants are recovered from the changes of fc2
that displacements of one atom induce. -/
theorem C177_solve_exact (s : SiteData K) (f : Legs → K) (first : Nat) (u : Nat → Nat → K)
    (perm : Nat → Nat → Nat) (h : s.Fits f first u perm) (inv : Nat → Nat → Nat → K)
    (ho : ∀ y < s.numSym, Orthogonal (s.siteSymCart y))
    (hinv : ∀ y < s.numSym, InverseOf (s.siteSymCart y) (inv y)) (A : Int → K) (i j k l m : Nat)
    (hi : i < s.numAtom) (hj : j < s.numAtom) (hk : k < 3) (hl : l < 3) (hm : m < 3) :
    pySolveFc3 s inv A ((((i * s.numAtom + j) * 3 + k) * 3 + l) * 3 + m : Nat) = f ![(first, k), (i, l), (j, m)] := by
  rw [C177_solve s inv ho hinv A A i j k l m hi hj hk hl hm]
  exact C73_solve s f first u perm h A A i j k l m hi hj hk hl hm

end

/-! ### Concrete cases -/

example : (∀ o ∈ exampleOps, ∀ i < 2, o.perm i < 2) ∧ (∀ i ∈ [0], i < 2) ∧ ∀ i ∈ [1], i < 2 ∧ i ∉ [0] := by
  refine ⟨?_, by decide, by decide⟩
  intro o ho
  fin_cases ho <;> intro i hi
  · exact hi
  · show 1 - i < 2; omega
/-- The row of atom 1 is made from that of atom 0 with the sign changed. -/
example : (pyDistributeFc3 2 2 exampleOps [0] [1] (fun p => if p < 108 then (p : ℚ) else 0)).map
    (fun A => (A 5, A 108, A 113)) = some (5, -81, -86) := by decide +kernel
/-- Identity and inversion in a supercell of four atoms with the primitive atoms 0 and 2. -/
def exampleFour : List (SymOp ℚ) :=
  [⟨true, id, fun i j => if i = j then 1 else 0⟩,
    ⟨false, fun i => (i + 2) % 4, fun i j => if i = j then -1 else 0⟩]
/-- The compact array has two rows. C fills the second one, of atom 2; Python fails. -/
example : (distributeFc3 4 (fun i => i / 2) exampleFour [0] [2] (fun p => if p < 432 then (p : ℚ) else 0)).map
      (fun A => A 432) = some (-270) ∧
    (pyDistributeFc3 2 4 exampleFour [0] [2] (fun p => (p : ℚ))).isNone = true := by decide +kernel
/-- Inversion, its inverse and the identity. -/
example : Orthogonal (fun i j : Nat => if i = j then (-1 : ℚ) else 0) ∧
    InverseOf (fun i j : Nat => if i = j then (-1 : ℚ) else 0) (fun i j => if i = j then -1 else 0) := by
  unfold Orthogonal InverseOf
  decide +kernel

end Phono3py.Props
