import Verif.Model.PpFile
import Mathlib.Algebra.BigOperators.Group.List.Basic
import Mathlib.Tactic.FinCases
import Mathlib.Tactic.IntervalCases

/-!
# C44: interaction strengths written to file are read back unchanged
-/

namespace Phono3py.Props

open Phono3py

variable {K : Type} [Zero K]

/-- A flag as it comes back: 0 stays 0, anything else is 1. -/
def flag (m : Int) : Int := if m = 0 then 0 else 1

theorem flag_bit (m : Int) : flag m = (((if m = 0 then 0 else 1 : Nat)) : Int) := by
  unfold flag; split <;> rfl

theorem unpack_packByte (l : List Int) :
    unpackByte (packByte l) = (List.range 8).map (fun i => flag (l.getD i 0)) := by
  have h : ∀ b0 b1 b2 b3 b4 b5 b6 b7 : Bool,
      unpackByte ([b0, b1, b2, b3, b4, b5, b6, b7].foldl
        (fun acc b => 2 * acc + (if b then 0 else 1)) 0) =
      [b0, b1, b2, b3, b4, b5, b6, b7].map (fun b => if b then (0 : Int) else 1) := by
    decide +kernel
  have := h (decide (l.getD 0 0 = 0)) (decide (l.getD 1 0 = 0)) (decide (l.getD 2 0 = 0))
    (decide (l.getD 3 0 = 0)) (decide (l.getD 4 0 = 0)) (decide (l.getD 5 0 = 0))
    (decide (l.getD 6 0 = 0)) (decide (l.getD 7 0 = 0))
  simp only [List.foldl_cons, List.foldl_nil, List.map_cons, List.map_nil,
    decide_eq_true_eq] at this
  unfold packByte flag
  simp only [List.range_succ, List.range_zero, List.nil_append, List.cons_append,
    List.foldl_cons, List.foldl_nil, List.map_cons, List.map_nil]
  exact this

theorem range_getD (l : List Int) (n : Nat) (h : l.length ≤ n) :
    (List.range n).map (fun i => flag (l.getD i 0)) =
      l.map flag ++ List.replicate (n - l.length) 0 := by
  apply List.ext_getElem?
  intro i
  by_cases h1 : i < l.length
  · rw [List.getElem?_append_left (by simpa using h1)]
    simp [show i < n by omega, h1, List.getD]
  · by_cases h2 : i < n
    · rw [List.getElem?_append_right (by simpa using h1)]
      simp [h2, List.getElem?_replicate, List.getD, List.getElem?_eq_none (not_lt.1 h1), flag,
        show i - l.length < n - l.length by omega]
    · rw [List.getElem?_append_right (by simpa using h1)]
      simp [h2, List.getElem?_replicate, show ¬ (i - l.length < n - l.length) by omega]

/-- Unpacking the packed flags gives them back, padded with zeros to whole bytes. -/
theorem unpack_pack (l : List Int) :
    unpackBits (packBits l) = l.map flag ++ List.replicate ((8 - l.length % 8) % 8) 0 := by
  induction l using packBits.induct with
  | case1 => simp [packBits, unpackBits]
  | case2 x l ih =>
    rw [packBits]
    unfold unpackBits at ih ⊢
    rw [List.flatMap_cons, ih, unpack_packByte]
    rw [range_getD _ 8 (by simp)]
    by_cases h : l.length ≤ 7
    · have h1 : l.take 7 = l := List.take_of_length_le h
      have h2 : l.drop 7 = [] := List.drop_of_length_le h
      simp only [h1, h2, List.map_nil, List.length_nil, List.nil_append, List.length_cons]
      simp
      interval_cases l.length <;> rfl
    · have h1 : (x :: l.take 7).length = 8 := by simp; omega
      rw [h1]
      have : (8 - (l.drop 7).length % 8) % 8 = (8 - (x :: l).length % 8) % 8 := by
        simp; omega
      rw [this]
      simp only [Nat.sub_self, List.replicate_zero, List.append_nil, List.map_cons,
        List.cons_append, ← List.append_assoc, ← List.map_append, List.take_append_drop]

theorem scatter_select (ms : List Int) (vs : List K) (h : ms.length = vs.length) :
    scatterZero (ms.map flag) (selectZero ms vs) =
      some (List.zipWith (fun m v => if m = 0 then v else 0) ms vs) := by
  induction ms generalizing vs with
  | nil => cases vs with
    | nil => rfl
    | cons => simp at h
  | cons m ms ih =>
    cases vs with
    | nil => simp at h
    | cons v vs =>
      by_cases hm : m = 0
      · simp [scatterZero, selectZero, flag, hm, ih vs (by simpa using h)]
      · simp [scatterZero, selectZero, flag, hm, ih vs (by simpa using h)]

/-- For every shape and every mask, what is written is read back: each strength whose mask is unset
comes back unchanged, the others as zero, and the mask comes back as zeros and ones. -/
theorem C44_round_trip (shape : List Nat) (pp : List K) (mask : List Int)
    (hshape : shape.prod = pp.length) (hmask : mask.length = pp.length) :
    ∃ f, writePp shape pp (some mask) = some f ∧
      readPp f = some (List.zipWith (fun m v => if m = 0 then v else 0) mask pp,
        some (mask.map (fun m => if m = 0 then 0 else 1))) := by
  have hsize : shape.foldl (· * ·) 1 = mask.length := by
    rw [hmask, ← hshape, List.prod_eq_foldl]
  have hbits : unpackBits (packBits (mask.take (mask.length / 8 * 8))) =
      (mask.take (mask.length / 8 * 8)).map flag := by
    rw [unpack_pack]
    have : (8 - (mask.take (mask.length / 8 * 8)).length % 8) % 8 = 0 := by
      rw [List.length_take]; omega
    rw [this]; simp
  have hlen : ((mask.take (mask.length / 8 * 8)).map flag).length = mask.length / 8 * 8 := by
    simp; omega
  have hgoal : ∀ f : PpFile K, f.nonzeroPp = some (selectZero mask pp) → f.ppShape = shape →
      f.gZeroBits = packBits (mask.take (mask.length / 8 * 8)) →
      f.gZeroBitsReminder = (if mask.length % 8 ≠ 0 then
        some (packBits (mask.drop (mask.length / 8 * 8))) else none) →
      readPp f = some (List.zipWith (fun m v => if m = 0 then v else 0) mask pp,
        some (mask.map flag)) := by
    intro f h1 h2 h3 h4
    unfold readPp
    simp only [h1, h2, h3, h4, hsize, hbits, hlen]
    by_cases hr : mask.length % 8 = 0
    · have hm : mask.take (mask.length / 8 * 8) = mask :=
        List.take_of_length_le (by omega)
      simp [hr, hm, scatter_select mask pp hmask, show mask.length - mask.length / 8 * 8 = 0 by omega]
    · have hrem : (unpackBits (packBits (mask.drop (mask.length / 8 * 8)))).take
          (mask.length - mask.length / 8 * 8) = (mask.drop (mask.length / 8 * 8)).map flag := by
        rw [unpack_pack]
        rw [List.take_append_of_le_length (by simp)]
        exact List.take_of_length_le (by simp)
      have hne : mask.length - mask.length / 8 * 8 ≠ 0 := by omega
      have hsub : mask.length - (mask.length - mask.length / 8 * 8) = mask.length / 8 * 8 := by omega
      simp only [ne_eq, hr, not_false_eq_true, if_true, not_true_eq_false, if_false,
        Option.getD_some, hrem, hne, true_and, hsub]
      have hl2 : ((mask.drop (mask.length / 8 * 8)).map flag).length =
          mask.length - mask.length / 8 * 8 := by simp
      rw [if_neg (by rw [hl2]; simp)]
      have htake : ((mask.take (mask.length / 8 * 8)).map flag ++
          List.replicate (mask.length - mask.length / 8 * 8) 0).take (mask.length / 8 * 8) =
          (mask.take (mask.length / 8 * 8)).map flag := by
        rw [List.take_append_of_le_length (by rw [hlen])]
        exact List.take_of_length_le (by rw [hlen])
      rw [htake, ← List.map_append, List.take_append_drop, scatter_select mask pp hmask]
      rfl
  refine ⟨_, by unfold writePp; simp [hmask]; rfl, ?_⟩
  apply hgoal <;> simp [hmask]

/-- With a mask of zeros and ones, as the collision-frequency code produces, the mask itself is
recovered, and each strength at an unset position. -/
theorem C44_mask (shape : List Nat) (pp : List K) (mask : List Int)
    (hshape : shape.prod = pp.length) (hmask : mask.length = pp.length)
    (h01 : ∀ m ∈ mask, m = 0 ∨ m = 1) :
    ∃ f pp', writePp shape pp (some mask) = some f ∧ readPp f = some (pp', some mask) ∧
      pp'.length = pp.length ∧
      ∀ i (h : i < pp.length), pp'[i]? = some (if mask[i] = 0 then pp[i] else 0) := by
  obtain ⟨f, h1, h2⟩ := C44_round_trip shape pp mask hshape hmask
  refine ⟨f, List.zipWith (fun m v => if m = 0 then v else 0) mask pp, h1, ?_, ?_, ?_⟩
  · rw [h2]
    have : mask.map (fun m => if m = 0 then (0 : Int) else 1) = mask := by
      conv_rhs => rw [← List.map_id mask]
      apply List.map_congr_left
      intro m hm
      rcases h01 m hm with rfl | rfl <;> rfl
    rw [this]
  · simp [hmask]
  · intro i hi
    rw [List.getElem?_eq_getElem (by simp [hmask, hi])]
    simp

/-- Without a mask the strengths come back unchanged and there is no mask. -/
theorem C44_no_mask (shape : List Nat) (pp : List K) :
    ∃ f, writePp shape pp none = some f ∧ readPp f = some (pp, none) :=
  ⟨_, rfl, rfl⟩

/-- The round trip does not depend on the strengths under the mask: they are not stored.  Two arrays
that agree where the mask is unset give the same file. -/
theorem C44_masked_not_stored (shape : List Nat) (pp pp' : List K) (mask : List Int)
    (hlen : pp.length = pp'.length)
    (h : ∀ i : Nat, mask[i]? = some 0 → pp[i]? = pp'[i]?) :
    writePp shape pp (some mask) = writePp shape pp' (some mask) := by
  have hsel : selectZero mask pp = selectZero mask pp' := by
    induction mask generalizing pp pp' with
    | nil => rfl
    | cons m ms ih =>
      cases pp with
      | nil => cases pp' with
        | nil => rfl
        | cons => simp at hlen
      | cons v vs => cases pp' with
        | nil => simp at hlen
        | cons w ws =>
          have hrest := ih vs ws (by simpa using hlen) (fun i hi => by
            have := h (i + 1) (by simpa using hi); simpa using this)
          by_cases hm : m = 0
          · have := h 0 (by simp [hm])
            simp at this
            simp [selectZero, hm, hrest, this]
          · simp [selectZero, hm, hrest]
  unfold writePp
  simp [hsel, hlen]

/-- A concrete case: 11 strengths (one whole byte and a remainder of three flags). -/
example : (writePp [11] [(10 : Int), 11, 12, 13, 14, 15, 16, 17, 18, 19, 20]
      (some [0, 1, 0, 0, 1, 0, 0, 0, 1, 0, 1])).bind readPp =
    some ([10, 0, 12, 13, 0, 15, 16, 17, 0, 19, 0],
      some [0, 1, 0, 0, 1, 0, 0, 0, 1, (0 : Int), 1]) := by
  obtain ⟨f, h1, h2⟩ := C44_round_trip [11] [10, 11, 12, 13, 14, 15, 16, 17, 18, 19, (20 : Int)]
    [0, 1, 0, 0, 1, 0, 0, 0, 1, 0, 1] rfl rfl
  rw [h1]
  simpa using h2

end Phono3py.Props
