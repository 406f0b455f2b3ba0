/- Stores to distinct places. -/
import Verif.Model.Writes
import Mathlib.Data.List.Perm.Basic
import Mathlib.Data.List.Nodup
import Mathlib.Tactic.Linarith
import Mathlib.Tactic.Ring

namespace Phono3py

section
variable {α β : Type _}

theorem upd_same (a : Int → α) (k : Int) (x : α) : upd a k x k = x := if_pos rfl

theorem upd_other (a : Int → α) {k l : Int} (x : α) (h : l ≠ k) : upd a k x l = a l := if_neg h

theorem runWrites_append (a : Int → α) (u w : List (Int × α)) :
    runWrites a (u ++ w) = runWrites (runWrites a u) w := List.foldl_append ..

theorem runWrites_untouched (a : Int → α) (ws : List (Int × α)) (k : Int)
    (h : ∀ w ∈ ws, w.1 ≠ k) : runWrites a ws k = a k := by
  induction ws generalizing a with
  | nil => rfl
  | cons w ws ih =>
    change runWrites (upd a w.1 w.2) ws k = a k
    rw [ih _ (fun u hu => h u (List.mem_cons_of_mem _ hu)),
      upd_other _ _ (h w (List.mem_cons_self ..)).symm]

/-- The stores agree: two stores to the same place store the same value. -/
def Agree (ws : List (Int × α)) : Prop := ∀ u ∈ ws, ∀ w ∈ ws, u.1 = w.1 → u.2 = w.2

theorem runWrites_value (a : Int → α) (ws : List (Int × α)) (h : Agree ws) (w : Int × α)
    (hw : w ∈ ws) : runWrites a ws w.1 = w.2 := by
  induction ws generalizing a w with
  | nil => cases hw
  | cons u ws ih =>
    change runWrites (upd a u.1 u.2) ws w.1 = w.2
    have h' : Agree ws := fun x hx y hy => h x (List.mem_cons_of_mem _ hx) y
      (List.mem_cons_of_mem _ hy)
    by_cases hm : ∃ x ∈ ws, x.1 = w.1
    · obtain ⟨x, hx, e⟩ := hm
      rw [← e, ih _ h' x hx]
      exact h x (List.mem_cons_of_mem _ hx) w hw e
    · push Not at hm
      rw [runWrites_untouched _ _ _ hm]
      rcases List.mem_cons.1 hw with rfl | hw'
      · exact upd_same ..
      · exact absurd rfl (hm w hw')

/-- Agreeing stores can be done in any order: this is every schedule of a parallel loop. -/
theorem runWrites_perm (a : Int → α) {u w : List (Int × α)} (hp : u.Perm w) (h : Agree u) :
    runWrites a u = runWrites a w := by
  have h' : Agree w := fun x hx y hy => h x (hp.mem_iff.2 hx) y (hp.mem_iff.2 hy)
  funext k
  by_cases hm : ∃ x ∈ u, x.1 = k
  · obtain ⟨x, hx, rfl⟩ := hm
    rw [runWrites_value a u h x hx, runWrites_value a w h' x (hp.mem_iff.1 hx)]
  · push Not at hm
    rw [runWrites_untouched _ _ _ hm,
      runWrites_untouched _ _ _ (fun x hx => hm x (hp.mem_iff.2 hx))]

theorem mem_loop {n : Nat} {body : Nat → List β} {x : β} :
    x ∈ loop n body ↔ ∃ i < n, x ∈ body i := by
  simp [loop]

end

/-- Two-digit numbers determine their digits. -/
theorem digits2 {n a a' b b' : Nat} (hb : b < n) (hb' : b' < n) (h : a * n + b = a' * n + b') :
    a = a' ∧ b = b' := by
  have h1 : (a * n + b) / n = (a' * n + b') / n := by rw [h]
  rw [mul_comm a, mul_comm a', Nat.mul_add_div (by omega), Nat.mul_add_div (by omega),
    Nat.div_eq_of_lt hb, Nat.div_eq_of_lt hb'] at h1
  have : a = a' := by simpa using h1
  subst this
  exact ⟨rfl, by omega⟩

theorem digits_lt {n m a b : Nat} (ha : a < m) (hb : b < n) : a * n + b < m * n := by
  have : (a + 1) * n ≤ m * n := Nat.mul_le_mul_right n ha
  rw [add_mul] at this
  omega

end Phono3py
