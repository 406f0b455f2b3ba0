/- Lemmas about the pseudo-inverse. -/
import Verif.Model.Collision
import Verif.Lemmas.Writes
import Verif.Lemmas.Adds
import Verif.Spec.Array
import Mathlib.Data.Matrix.Mul
import Mathlib.Algebra.BigOperators.Fin
import Mathlib.Algebra.Order.Field.Basic

namespace Phono3py
open Spec

section
variable {K : Type _} [Field K] [LinearOrder K] [IsStrictOrderedRing K]

theorem pinvSum_eq (tmp eigvals : Int → K) (method : Int) (cutoff : K) (size is js : Nat) :
    pinvSum tmp eigvals (keptModes method cutoff eigvals size) is js =
      ∑ k ∈ Finset.range size, if keepEigenvalue method cutoff (eigvals k) then
        tmp ((is + k : Nat) : Int) * tmp ((js + k : Nat) : Int) / eigvals k else 0 := by
  have h : ∀ (l : List Nat) (z : K), (l.filter fun (i : Nat) =>
      keepEigenvalue method cutoff (eigvals i)).foldl (fun s (k : Nat) =>
        s + tmp ((is + k : Nat) : Int) * tmp ((js + k : Nat) : Int) / eigvals k) z =
      z + (l.map fun (k : Nat) => if keepEigenvalue method cutoff (eigvals k) then
        tmp ((is + k : Nat) : Int) * tmp ((js + k : Nat) : Int) / eigvals k else 0).sum := by
    intro l
    induction l with
    | nil => intro z; simp
    | cons x l ih =>
      intro z
      rw [List.filter_cons, List.map_cons, List.sum_cons]
      split_ifs with hx
      · rw [List.foldl_cons, ih]; ring
      · rw [ih]; ring
  unfold pinvSum keptModes
  rw [h, zero_add, sum_range_list]

theorem pinvSum_comm (tmp eigvals : Int → K) (kept : List Nat) (is js : Nat) :
    pinvSum tmp eigvals kept is js = pinvSum tmp eigvals kept js is := by
  unfold pinvSum
  congr 1
  funext s k
  rw [mul_comm (tmp ((is + k : Nat) : Int))]

theorem mem_pinvRow {tmp eigvals : Int → K} {kept : List Nat} {size i : Nat} {w : Int × K} :
    w ∈ pinvRow tmp eigvals kept size i ↔ ∃ j, i ≤ j ∧ j < size ∧
      (w = (((i * size + j : Nat) : Int), pinvSum tmp eigvals kept (i * size) (j * size)) ∨
       w = (((j * size + i : Nat) : Int), pinvSum tmp eigvals kept (j * size) (i * size))) := by
  unfold pinvRow
  rw [List.mem_flatMap]
  constructor
  · rintro ⟨j, hj, hw⟩
    rw [List.mem_range'_1] at hj
    refine ⟨j, hj.1, by omega, ?_⟩
    rw [pinvSum_comm tmp eigvals kept (j * size)]
    simpa using hw
  · rintro ⟨j, h1, h2, hw⟩
    refine ⟨j, by rw [List.mem_range'_1]; omega, ?_⟩
    rw [pinvSum_comm tmp eigvals kept (j * size)] at hw
    simpa using hw

/-- The stores of the routine. -/
def pinvWrites (data eigvals : Int → K) (kept : List Nat) (size : Nat) : List (Int × K) :=
  (loop (size / 2) fun i =>
      pinvRow data eigvals kept size i ++ pinvRow data eigvals kept size (size - i - 1)) ++
    if size % 2 = 1 then pinvRow data eigvals kept size ((size - 1) / 2) else []

theorem mem_pinvWrites {data eigvals : Int → K} {kept : List Nat} {size : Nat} {w : Int × K} :
    w ∈ pinvWrites data eigvals kept size ↔ ∃ i < size, ∃ j < size,
      w = (((i * size + j : Nat) : Int), pinvSum data eigvals kept (i * size) (j * size)) := by
  have key : w ∈ pinvWrites data eigvals kept size ↔
      ∃ i < size, w ∈ pinvRow data eigvals kept size i := by
    unfold pinvWrites
    rw [List.mem_append, mem_loop]
    constructor
    · rintro (⟨i, hi, hw⟩ | hw)
      · rcases List.mem_append.1 hw with hw | hw
        · exact ⟨i, by omega, hw⟩
        · exact ⟨_, by omega, hw⟩
      · split_ifs at hw with ho
        · exact ⟨_, by omega, hw⟩
        · cases hw
    · rintro ⟨i, hi, hw⟩
      by_cases h1 : i < size / 2
      · exact .inl ⟨i, h1, List.mem_append.2 (.inl hw)⟩
      · by_cases h2 : size - 1 - i < size / 2
        · refine .inl ⟨_, h2, List.mem_append.2 (.inr ?_)⟩
          rwa [show size - (size - 1 - i) - 1 = i by omega]
        · right
          rw [if_pos (by omega), show (size - 1) / 2 = i by omega]
          exact hw
  rw [key]
  constructor
  · rintro ⟨i, hi, hw⟩
    obtain ⟨j, hij, hj, rfl | rfl⟩ := mem_pinvRow.1 hw
    · exact ⟨i, hi, j, hj, rfl⟩
    · exact ⟨j, hj, i, hi, rfl⟩
  · rintro ⟨i, hi, j, hj, rfl⟩
    by_cases h : i ≤ j
    · exact ⟨i, hi, mem_pinvRow.2 ⟨j, h, hj, .inl rfl⟩⟩
    · exact ⟨j, hj, mem_pinvRow.2 ⟨i, by omega, hi, .inr rfl⟩⟩

theorem pinv_agree (data eigvals : Int → K) (kept : List Nat) (size : Nat) :
    Agree (pinvWrites data eigvals kept size) := by
  intro u hu w hw h
  obtain ⟨i, hi, j, hj, rfl⟩ := mem_pinvWrites.1 hu
  obtain ⟨i', hi', j', hj', rfl⟩ := mem_pinvWrites.1 hw
  obtain ⟨rfl, rfl⟩ := digits2 hj hj' (Int.ofNat_inj.1 h)
  rfl

theorem pinv_value (eigvals : Int → K) (size : Nat) (cutoff : K) (method : Int) (data : Int → K)
    {i j : Nat} (hi : i < size) (hj : j < size) :
    pinvFromEigensolution eigvals size cutoff method data (at2 size i j : Nat) =
      ∑ k ∈ Finset.range size, if keepEigenvalue method cutoff (eigvals k) then
        data (at2 size i k : Nat) * data (at2 size j k : Nat) / eigvals k else 0 := by
  have h := runWrites_value data _ (pinv_agree data eigvals
    (keptModes method cutoff eigvals size) size) _ (mem_pinvWrites.2 ⟨i, hi, j, hj, rfl⟩)
  refine Eq.trans h ?_
  exact pinvSum_eq data eigvals method cutoff size _ _

theorem pinv_outside (eigvals : Int → K) (size : Nat) (cutoff : K) (method : Int) (data : Int → K)
    {p : Int} (hp : p < 0 ∨ ((size * size : Nat) : Int) ≤ p) :
    pinvFromEigensolution eigvals size cutoff method data p = data p := by
  refine runWrites_untouched data (pinvWrites data eigvals _ size) p fun w hw e => ?_
  obtain ⟨i, hi, j, hj, rfl⟩ := mem_pinvWrites.1 hw
  have h1 : i * size + j < size * size := by
    have : (i + 1) * size ≤ size * size := Nat.mul_le_mul_right _ hi
    rw [add_mul] at this
    omega
  have h2 : ((i * size + j : Nat) : Int) = p := e
  omega

end
end Phono3py
