import Verif.Lemmas.Grid
import Mathlib.Tactic.Ring

namespace Phono3py
open Spec

/-- `r` is the least index reached from `g`. -/
def IsMinOrbit (G : List M3) (D PS : V3) (g r : Int) : Prop :=
  (∃ R ∈ G, rotateGridIndex g R D PS = r) ∧ ∀ R ∈ G, r ≤ rotateGridIndex g R D PS

variable {G : List M3} {D PS : V3}

theorem IsMinOrbit.of_rot (h : GridGroup G D PS) {R : M3} (hR : R ∈ G) {g m : Int}
    (hm : IsMinOrbit G D PS (rotateGridIndex g R D PS) m) : IsMinOrbit G D PS g m := by
  obtain ⟨⟨S, hS, hSm⟩, hmin⟩ := hm
  refine ⟨⟨S.mul R, h.grp.mul_mem _ hS _ hR, ?_⟩, ?_⟩
  · rw [← rotate_comp h.pos (h.mesh _ hS) (h.shift _ hS) (h.shift _ hR)]; exact hSm
  · intro T hT
    obtain ⟨R', hR', hinv⟩ := h.grp.inv_mem R hR
    have hTR := h.grp.mul_mem _ hT _ hR'
    have := hmin _ hTR
    rw [rotate_comp h.pos (h.mesh _ hTR) (h.shift _ hTR) (h.shift _ hR), M3.mul_assoc, hinv,
      M3.mul_one] at this
    exact this

theorem IsMinOrbit.unique {g r r' : Int} (h : IsMinOrbit G D PS g r) (h' : IsMinOrbit G D PS g r') :
    r = r' := by
  obtain ⟨⟨R, hR, e⟩, hm⟩ := h
  obtain ⟨⟨R', hR', e'⟩, hm'⟩ := h'
  have a := hm _ hR'; have b := hm' _ hR
  omega

theorem IsMinOrbit.rot (h : GridGroup G D PS) {R : M3} (hR : R ∈ G) {g m : Int}
    (h0 : 0 ≤ g) (h1 : g < numGrid D)
    (hm : IsMinOrbit G D PS g m) : IsMinOrbit G D PS (rotateGridIndex g R D PS) m := by
  obtain ⟨R', hR', hinv⟩ := h.grp.inv_mem R hR
  apply IsMinOrbit.of_rot h hR'
  rw [rotate_comp h.pos (h.mesh _ hR') (h.shift _ hR') (h.shift _ hR), hinv, rotate_one h.pos g h0 h1]
  exact hm

/-- The array after the first `k` iterations. -/
def irPartial (rots : List M3) (D PS : V3) (k : Nat) : Int → Int :=
  (List.range k).foldl (fun m (gp : Nat) => irStep rots D PS m gp) (fun _ => numGrid D)

theorem irPartial_succ (rots : List M3) (D PS : V3) (k : Nat) :
    irPartial rots D PS (k + 1) = irStep rots D PS (irPartial rots D PS k) k := by
  simp [irPartial, List.range_succ]

theorem irPartial_inv (h : GridGroup G D PS) (k : Nat) (hk : (k : Int) ≤ numGrid D) :
    (∀ g : Int, 0 ≤ g → g < k → IsMinOrbit G D PS g (irPartial G D PS k g)) ∧
    (∀ g : Int, (k : Int) ≤ g → irPartial G D PS k g = numGrid D) := by
  induction k with
  | zero =>
    refine ⟨fun g h0 h1 => by simp at h1; omega, fun g _ => by simp [irPartial]⟩
  | succ k ih =>
    have hk' : (k : Int) < numGrid D := by push_cast at hk; omega
    obtain ⟨ih1, ih2⟩ := ih hk'.le
    rw [irPartial_succ]
    set m := irPartial G D PS k with hm
    have hmin_bound : ∀ g r, IsMinOrbit G D PS g r → r < numGrid D := by
      intro g r hr
      obtain ⟨⟨R, _, e⟩, _⟩ := hr
      rw [← e]; exact (rotateGridIndex_bounds g R D PS h.pos).2
    unfold irStep
    cases hf : G.find? (fun R => decide (rotateGridIndex k R D PS < k)) with
    | some R =>
      have hRmem := List.mem_of_find?_eq_some hf
      have hlt : rotateGridIndex k R D PS < k := by
        have := List.find?_some hf; simpa using this
      have hr0 := (rotateGridIndex_bounds k R D PS h.pos).1
      have hmo := IsMinOrbit.of_rot h hRmem (ih1 _ hr0 hlt)
      have hne : m (rotateGridIndex k R D PS) ≠ numGrid D := (hmin_bound _ _ hmo).ne
      have hu : upd m k (m (rotateGridIndex k R D PS)) k = m (rotateGridIndex k R D PS) := by
        simp [upd]
      simp only [hu, hne, if_false]
      refine ⟨fun g h0 h1 => ?_, fun g hg => ?_⟩
      · by_cases hgk : g = k
        · subst hgk; rw [hu]; exact hmo
        · have : upd m k (m (rotateGridIndex k R D PS)) g = m g := by simp [upd, hgk]
          rw [this]; exact ih1 g h0 (by push_cast at h1; omega)
      · push_cast at hg
        have : upd m k (m (rotateGridIndex k R D PS)) g = m g := by
          simp [upd]; omega
        rw [this]; exact ih2 g (by omega)
    | none =>
      have hall : ∀ R ∈ G, (k : Int) ≤ rotateGridIndex k R D PS := by
        intro R hR
        have := List.find?_eq_none.1 hf R hR
        simpa using this
      simp only [ih2 k le_rfl, if_true]
      have hmo : IsMinOrbit G D PS k k :=
        ⟨⟨M3.one, h.grp.one_mem, rotate_one h.pos k (by omega) hk'⟩, hall⟩
      refine ⟨fun g h0 h1 => ?_, fun g hg => ?_⟩
      · by_cases hgk : g = k
        · subst hgk; simpa [upd] using hmo
        · have : upd m k (k : Int) g = m g := by simp [upd, hgk]
          rw [this]; exact ih1 g h0 (by push_cast at h1; omega)
      · push_cast at hg
        have : upd m k (k : Int) g = m g := by simp [upd]; omega
        rw [this]; exact ih2 g (by omega)

theorem irGridMap_min (h : GridGroup G D PS) (g : Int) (h0 : 0 ≤ g) (h1 : g < numGrid D) :
    IsMinOrbit G D PS g (irGridMap G D PS g) := by
  have hN := numGrid_pos D h.pos
  have := (irPartial_inv h (numGrid D).toNat (by omega)).1 g h0 (by omega)
  exact this

theorem irGridMap_bounds (h : GridGroup G D PS) (g : Int) (h0 : 0 ≤ g) (h1 : g < numGrid D) :
    0 ≤ irGridMap G D PS g ∧ irGridMap G D PS g ≤ g := by
  obtain ⟨⟨R, hR, e⟩, hm⟩ := irGridMap_min h g h0 h1
  refine ⟨?_, ?_⟩
  · rw [← e]; exact (rotateGridIndex_bounds g R D PS h.pos).1
  · have := hm _ h.grp.one_mem
    rw [rotate_one h.pos g h0 h1] at this; exact this

theorem irGridMap_rot (h : GridGroup G D PS) (g : Int) (h0 : 0 ≤ g) (h1 : g < numGrid D) {R : M3}
    (hR : R ∈ G) : irGridMap G D PS (rotateGridIndex g R D PS) = irGridMap G D PS g := by
  have hb := rotateGridIndex_bounds g R D PS h.pos
  exact (irGridMap_min h _ hb.1 hb.2).unique ((irGridMap_min h g h0 h1).rot h hR h0 h1)

theorem irGridMap_eq_iff (h : GridGroup G D PS) (g k : Int) (h0 : 0 ≤ g) (h1 : g < numGrid D)
    (k0 : 0 ≤ k) (k1 : k < numGrid D) :
    irGridMap G D PS g = irGridMap G D PS k ↔ ∃ R ∈ G, rotateGridIndex g R D PS = k := by
  constructor
  · intro he
    obtain ⟨⟨R, hR, e⟩, _⟩ := irGridMap_min h g h0 h1
    obtain ⟨⟨S, hS, e'⟩, _⟩ := irGridMap_min h k k0 k1
    obtain ⟨S', hS', hinv⟩ := h.grp.inv_mem S hS
    refine ⟨S'.mul R, h.grp.mul_mem _ hS' _ hR, ?_⟩
    rw [← rotate_comp h.pos (h.mesh _ hS') (h.shift _ hS') (h.shift _ hR), e, he, ← e',
      rotate_comp h.pos (h.mesh _ hS') (h.shift _ hS') (h.shift _ hS), hinv, rotate_one h.pos k k0 k1]
  · rintro ⟨R, hR, e⟩
    rw [← e, irGridMap_rot h g h0 h1 hR]

/-! counting -/

theorem sum_map_add (f g : Nat → Nat) (l : List Nat) :
    (l.map (fun v => f v + g v)).sum = (l.map f).sum + (l.map g).sum := by
  induction l with
  | nil => rfl
  | cons a l ih => simp only [List.map_cons, List.sum_cons, ih]; omega

theorem sum_map_zero (f : Nat → Nat) (l : List Nat) (h : ∀ v ∈ l, f v = 0) : (l.map f).sum = 0 := by
  induction l with
  | nil => rfl
  | cons a l ih =>
    simp only [List.map_cons, List.sum_cons, h a (by simp), ih (fun v hv => h v (by simp [hv]))]

theorem sum_indicator (n a : Nat) (ha : a < n) :
    ((List.range n).map (fun v => if a = v then 1 else 0)).sum = 1 := by
  induction n with
  | zero => omega
  | succ n ih =>
    rw [List.range_succ, List.map_append, List.sum_append]
    by_cases hn : a = n
    · subst hn
      rw [sum_map_zero _ _ (fun v hv => by
        have : a ≠ v := by simp at hv; omega
        simp [this])]
      simp
    · rw [ih (by omega)]; simp [hn]

theorem sum_count_filter (n : Nat) (t : List Nat) (ht : ∀ v ∈ t, v < n) :
    ((uniqueBelow n t).map (fun v => t.count v)).sum = t.length := by
  have h1 : ((uniqueBelow n t).map (fun v => t.count v)).sum
      = ((List.range n).map (fun v => t.count v)).sum := by
    unfold uniqueBelow
    induction (List.range n) with
    | nil => rfl
    | cons a l ih =>
      by_cases ha : a ∈ t
      · simp [ha, ih]
      · simp [ha, ih, List.count_eq_zero_of_not_mem ha]
  rw [h1]
  clear h1
  induction t with
  | nil => exact sum_map_zero _ _ (fun v _ => by simp)
  | cons a l ih =>
    have ha : a < n := ht a (by simp)
    have ih' := ih (fun v hv => ht v (by simp [hv]))
    have e : (fun v => (a :: l).count v) = (fun v => l.count v + if a = v then 1 else 0) := by
      funext v; rw [List.count_cons]; simp
    rw [e, sum_map_add, ih', sum_indicator n a ha]; simp

end Phono3py
