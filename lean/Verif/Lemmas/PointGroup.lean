import Verif.Lemmas.Grid
import Mathlib.Data.List.Dedup
import Mathlib.Data.List.Nodup
import Mathlib.Data.List.Perm.Subperm

namespace Phono3py
open Spec

/-! tables written by `upd` -/

theorem foldl_upd_not {α β : Type _} (idx : β → Int) (val : β → α) (l : List β) (t : Int → α)
    (g : Int) (h : ∀ x ∈ l, idx x ≠ g) :
    l.foldl (fun t x => upd t (idx x) (val x)) t g = t g := by
  induction l generalizing t with
  | nil => rfl
  | cons a l ih =>
    simp only [List.foldl_cons]
    rw [ih _ (fun x hx => h x (by simp [hx]))]
    have := h a (by simp)
    simp [upd, Ne.symm this]

theorem foldl_upd_mem {α β : Type _} (idx : β → Int) (val : β → α) (l : List β) (t : Int → α)
    (g : Int) (v : α) (hv : ∀ x ∈ l, idx x = g → val x = v) (hex : ∃ x ∈ l, idx x = g) :
    l.foldl (fun t x => upd t (idx x) (val x)) t g = v := by
  induction l generalizing t with
  | nil => simp at hex
  | cons a l ih =>
    simp only [List.foldl_cons]
    by_cases hl : ∃ x ∈ l, idx x = g
    · exact ih _ (fun x hx => hv x (by simp [hx])) hl
    · push Not at hl
      rw [foldl_upd_not idx val l _ g hl]
      obtain ⟨x, hx, hxg⟩ := hex
      rcases List.mem_cons.1 hx with rfl | hx'
      · simp [upd, ← hxg]; exact hv x (by simp) hxg
      · exact absurd hxg (hl x hx')

/-- All triples in loop order. -/
def cellList (D : V3) : List V3 :=
  (List.range D.x.toNat).flatMap fun (i : Nat) =>
    (List.range D.y.toNat).flatMap fun (j : Nat) =>
      (List.range D.z.toNat).map fun (k : Nat) => ⟨(i : Int), (j : Int), (k : Int)⟩

theorem mem_cellList (D a : V3) : a ∈ cellList D ↔ InCell D a := by
  simp only [cellList, List.mem_flatMap, List.mem_range, List.mem_map, InCell]
  constructor
  · rintro ⟨i, hi, j, hj, k, hk, rfl⟩
    simp only []
    omega
  · rintro ⟨⟨a1, a2⟩, ⟨b1, b2⟩, c1, c2⟩
    refine ⟨a.x.toNat, by omega, a.y.toNat, by omega, a.z.toNat, by omega, ?_⟩
    ext <;> simp <;> omega

theorem allGridAddresses_eq (D : V3) (init : Int → V3) :
    allGridAddresses D init =
      (cellList D).foldl (fun t a => upd t (gridIndexFromAddress a D) a) init := by
  simp only [allGridAddresses, cellList, List.foldl_flatMap, List.foldl_map]

theorem allGridAddresses_spec (D : V3) (hD : PosMesh D) (init : Int → V3) (g : Int) :
    allGridAddresses D init g =
      if 0 ≤ g ∧ g < numGrid D then gridAddressFromIndex g D else init g := by
  rw [allGridAddresses_eq]
  split
  · rename_i h
    apply foldl_upd_mem (fun a => gridIndexFromAddress a D) (fun a => a)
    · intro a ha e
      rw [← e, address_of_index a D ((mem_cellList D a).1 ha)]
    · have := index_of_address g D hD h.1 h.2
      exact ⟨_, (mem_cellList _ _).2 this.1, this.2⟩
  · rename_i h
    apply foldl_upd_not (fun a => gridIndexFromAddress a D) (fun a => a)
    intro a ha e
    exact h (e ▸ index_bounds a D ((mem_cellList D a).1 ha))

/-! collectUnique -/

theorem any_same (r : M3) (l : List M3) : l.any (fun s => r.same s) = true ↔ r ∈ l := by
  simp [List.any_eq_true, M3.same_iff]

theorem collectUnique_some (acc rots : List M3) (u : List M3) (hacc : acc.Nodup)
    (h : collectUnique acc rots = some u) :
    u.Nodup ∧ ∀ r, r ∈ u ↔ r ∈ acc ∨ r ∈ rots := by
  induction rots generalizing acc with
  | nil => simp [collectUnique] at h; subst h; simp [hacc]
  | cons a l ih =>
    unfold collectUnique at h
    split at h
    · rename_i hm
      rw [any_same] at hm
      obtain ⟨h1, h2⟩ := ih acc hacc h
      refine ⟨h1, fun r => ?_⟩
      rw [h2 r, List.mem_cons]
      constructor
      · rintro (h | h) <;> simp [h]
      · rintro (h | h | h)
        · exact Or.inl h
        · subst h; exact Or.inl hm
        · exact Or.inr h
    · rename_i hm
      rw [any_same] at hm
      split at h
      · exact absurd h (by simp)
      · have hn : (acc ++ [a]).Nodup := by
          rw [List.nodup_append]
          refine ⟨hacc, by simp, ?_⟩
          intro x hx y hy
          simp at hy; subst hy
          intro e; subst e; exact hm hx
        obtain ⟨h1, h2⟩ := ih _ hn h
        refine ⟨h1, fun r => ?_⟩
        rw [h2 r]; simp [or_assoc]

theorem collectUnique_none_iff (acc rots : List M3) (hacc : acc.Nodup) (hl : acc.length ≤ 48) :
    collectUnique acc rots = none ↔ 48 < (acc ++ rots).dedup.length := by
  induction rots generalizing acc with
  | nil =>
    simp only [collectUnique, List.append_nil]
    have : acc.dedup.length ≤ acc.length := (List.dedup_sublist acc).length_le
    simp; omega
  | cons a l ih =>
    unfold collectUnique
    split
    · rename_i hm
      rw [any_same] at hm
      rw [ih acc hacc hl]
      have : (acc ++ a :: l).dedup.length = (acc ++ l).dedup.length := by
        apply List.Perm.length_eq
        rw [List.perm_ext_iff_of_nodup (List.nodup_dedup _) (List.nodup_dedup _)]
        intro r
        simp only [List.mem_dedup, List.mem_append, List.mem_cons]
        constructor
        · rintro (h | h | h)
          · exact Or.inl h
          · subst h; exact Or.inl hm
          · exact Or.inr h
        · rintro (h | h) <;> simp [h]
      rw [this]
    · rename_i hm
      rw [any_same] at hm
      have hn : (acc ++ [a]).Nodup := by
        rw [List.nodup_append]
        refine ⟨hacc, by simp, ?_⟩
        intro x hx y hy
        simp at hy; subst hy
        intro e; subst e; exact hm hx
      split
      · rename_i h48
        simp only [true_iff]
        have hsub : (acc ++ [a]) ⊆ (acc ++ a :: l).dedup := by
          intro x hx
          rw [List.mem_dedup]
          simp at hx ⊢; tauto
        have := (hn.subperm hsub).length_le
        simp at this; omega
      · rw [ih _ hn (by simp; omega)]
        simp

end Phono3py
