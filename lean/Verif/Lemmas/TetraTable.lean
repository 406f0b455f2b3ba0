/- Tiling by the tabulated tetrahedra. -/
import Verif.Spec.Tetrahedron
import Mathlib.Algebra.Order.Floor.Ring
import Mathlib.Data.List.Perm.Basic
import Mathlib.Tactic.Linarith
import Mathlib.Tactic.Ring
import Mathlib.Tactic.FinCases
import Mathlib.Tactic.IntervalCases
import Mathlib.Data.Fintype.Basic
import Mathlib.Algebra.BigOperators.Ring.List

set_option linter.unusedSectionVars false

namespace Phono3py
open Spec

/-- Table of one diagonal. -/
abbrev tab (d : Nat) : List (List V3) := dbRelativeGridAddress.getD d []

/-- The six tetrahedra of the unit cell around the diagonal (1,1,1). -/
def kuhn : List (List V3) :=
  [[⟨0, 0, 0⟩, ⟨1, 0, 0⟩, ⟨1, 1, 0⟩, ⟨1, 1, 1⟩], [⟨0, 0, 0⟩, ⟨1, 0, 0⟩, ⟨1, 0, 1⟩, ⟨1, 1, 1⟩],
   [⟨0, 0, 0⟩, ⟨0, 1, 0⟩, ⟨1, 1, 0⟩, ⟨1, 1, 1⟩], [⟨0, 0, 0⟩, ⟨0, 1, 0⟩, ⟨0, 1, 1⟩, ⟨1, 1, 1⟩],
   [⟨0, 0, 0⟩, ⟨0, 0, 1⟩, ⟨1, 0, 1⟩, ⟨1, 1, 1⟩], [⟨0, 0, 0⟩, ⟨0, 0, 1⟩, ⟨0, 1, 1⟩, ⟨1, 1, 1⟩]]

/-- Reflection that maps the diagonal (1,1,1) to diagonal number `d`. -/
def reflect (d : Nat) (v : V3) : V3 :=
  if d = 1 then ⟨-v.x, v.y, v.z⟩ else if d = 2 then ⟨v.x, -v.y, v.z⟩
  else if d = 3 then ⟨v.x, v.y, -v.z⟩ else v

theorem tab_kuhn : ∀ S ∈ kuhn, S ∈ tab 0 := by decide +kernel

theorem tab0_from_kuhn : ∀ T ∈ tab 0, ∃ S ∈ kuhn, ∃ p ∈ S, T.Perm (S.map (· - p)) := by
  decide +kernel

theorem tab_reflect : ∀ d < 4, (∀ T ∈ tab d, ∃ T' ∈ tab 0, T.Perm (T'.map (reflect d))) ∧
    ∀ T' ∈ tab 0, ∃ T ∈ tab d, T.Perm (T'.map (reflect d)) := by
  decide +kernel

section
variable {K : Type _} [Field K] [LinearOrder K] [IsStrictOrderedRing K]

theorem combination_perm {T T' : List V3} (h : T.Perm T') {x : Fin 3 → K} {l : V3 → K} :
    IsCombination T x l ↔ IsCombination T' x l := by
  unfold IsCombination
  rw [(h.map l).sum_eq]
  have : ∀ i : Fin 3, (T.map fun v => l v * (v.e i : K)).sum
      = (T'.map fun v => l v * (v.e i : K)).sum := fun i => (h.map _).sum_eq
  simp only [this]

/-- An affine change of vertices carries combinations along. -/
theorem combination_map {T : List V3} {f g : V3 → V3} (hgf : ∀ v, g (f v) = v) {x : Fin 3 → K}
    {l : V3 → K} (y : Fin 3 → K)
    (hxy : (T.map l).sum = 1 → (∀ i, x i = (T.map fun v => l v * (v.e i : K)).sum) →
      ∀ i, y i = (T.map fun v => l v * ((f v).e i : K)).sum)
    (h : IsCombination T x l) : IsCombination (T.map f) y (fun v => l (g v)) := by
  obtain ⟨h1, h2⟩ := h
  refine ⟨?_, ?_⟩
  · rw [List.map_map]
    have : (fun v => l (g v)) ∘ f = l := by funext v; simp [hgf]
    rw [this]; exact h1
  · intro i
    rw [List.map_map, hxy h1 h2 i]
    congr 1
    apply List.map_congr_left
    intro v _
    simp [hgf]

theorem e_add (a b : V3) (i : Fin 3) : (a + b).e i = a.e i + b.e i := by
  fin_cases i <;> simp [V3.e]

theorem e_sub (a b : V3) (i : Fin 3) : (a - b).e i = a.e i - b.e i := by
  fin_cases i <;> simp [V3.e]

theorem sum_shift (T : List V3) (l : V3 → K) (t : V3) (i : Fin 3) :
    (T.map fun v => l v * ((v + t).e i : K)).sum
      = (T.map fun v => l v * (v.e i : K)).sum + (T.map l).sum * (t.e i : K) := by
  induction T with
  | nil => simp
  | cons v T ih =>
    simp only [List.map_cons, List.sum_cons]
    rw [ih, e_add]
    push_cast; ring

theorem combination_shift {T : List V3} {x : Fin 3 → K} {l : V3 → K} (t : V3)
    (h : IsCombination T x l) :
    IsCombination (T.map (· + t)) (fun i => x i + (t.e i : K)) (fun v => l (v - t)) := by
  refine combination_map (g := (· - t)) (fun v => ?_) _ ?_ h
  · ext <;> simp
  · intro h1 h2 i
    rw [sum_shift, h1, h2 i, one_mul]

theorem interior_shift {T : List V3} {x : Fin 3 → K} (t : V3) (h : InInterior T x) :
    InInterior (T.map (· + t)) (fun i => x i + (t.e i : K)) := by
  obtain ⟨l, hl, hc⟩ := h
  refine ⟨_, ?_, combination_shift t hc⟩
  intro v hv
  obtain ⟨w, hw, rfl⟩ := List.mem_map.1 hv
  have : w + t - t = w := by ext <;> simp
  simp only [this]
  exact hl w hw

/-- Sign of component `i` under the reflection. -/
def reflSign (d : Nat) (i : Fin 3) : Int := if (i : Nat) + 1 = d then -1 else 1

theorem reflect_e (d : Nat) (hd : d < 4) (v : V3) (i : Fin 3) :
    (reflect d v).e i = reflSign d i * v.e i := by
  interval_cases d <;> fin_cases i <;> simp [reflect, reflSign, V3.e]

theorem reflect_reflect (d : Nat) (v : V3) : reflect d (reflect d v) = v := by
  unfold reflect
  split_ifs <;> ext <;> simp

theorem reflSign_mul (d : Nat) (i : Fin 3) : reflSign d i * reflSign d i = 1 := by
  unfold reflSign; split_ifs <;> norm_num

theorem combination_reflect {T : List V3} {x : Fin 3 → K} {l : V3 → K} (d : Nat) (hd : d < 4)
    (h : IsCombination T x l) :
    IsCombination (T.map (reflect d)) (fun i => (reflSign d i : K) * x i)
      (fun v => l (reflect d v)) := by
  refine combination_map (reflect_reflect d) _ ?_ h
  intro _ h2 i
  rw [h2 i]
  simp only [reflect_e d hd]
  rw [← List.sum_map_mul_left]
  congr 1
  apply List.map_congr_left
  intro v _
  push_cast; ring

theorem inTetra_reflect {T : List V3} {x : Fin 3 → K} (d : Nat) (hd : d < 4) (h : InTetra T x) :
    InTetra (T.map (reflect d)) (fun i => (reflSign d i : K) * x i) := by
  obtain ⟨l, hl, hc⟩ := h
  refine ⟨_, ?_, combination_reflect d hd hc⟩
  intro v hv
  obtain ⟨w, hw, rfl⟩ := List.mem_map.1 hv
  simp only [reflect_reflect]
  exact hl w hw

theorem interior_reflect {T : List V3} {x : Fin 3 → K} (d : Nat) (hd : d < 4)
    (h : InInterior T x) :
    InInterior (T.map (reflect d)) (fun i => (reflSign d i : K) * x i) := by
  obtain ⟨l, hl, hc⟩ := h
  refine ⟨_, ?_, combination_reflect d hd hc⟩
  intro v hv
  obtain ⟨w, hw, rfl⟩ := List.mem_map.1 hv
  simp only [reflect_reflect]
  exact hl w hw

theorem inTetra_perm {T T' : List V3} (h : T.Perm T') {x : Fin 3 → K} (hx : InTetra T x) :
    InTetra T' x := by
  obtain ⟨l, hl, hc⟩ := hx
  exact ⟨l, fun v hv => hl v (h.mem_iff.2 hv), (combination_perm h).1 hc⟩

theorem interior_perm {T T' : List V3} (h : T.Perm T') {x : Fin 3 → K} (hx : InInterior T x) :
    InInterior T' x := by
  obtain ⟨l, hl, hc⟩ := hx
  exact ⟨l, fun v hv => hl v (h.mem_iff.2 hv), (combination_perm h).1 hc⟩

/-- Explicit tetrahedron. -/
theorem inTetra_explicit (a b c d : V3) (hab : a ≠ b) (hac : a ≠ c) (had : a ≠ d) (hbc : b ≠ c)
    (hbd : b ≠ d) (hcd : c ≠ d) (x : Fin 3 → K) (la lb lc ld : K) (h0 : 0 ≤ la) (h1 : 0 ≤ lb)
    (h2 : 0 ≤ lc) (h3 : 0 ≤ ld) (hs : la + lb + lc + ld = 1)
    (hx : ∀ i, x i = la * (a.e i : K) + lb * (b.e i : K) + lc * (c.e i : K) + ld * (d.e i : K)) :
    InTetra [a, b, c, d] x := by
  refine ⟨fun v => if v = a then la else if v = b then lb else if v = c then lc else ld, ?_, ?_, ?_⟩
  · intro v _
    simp only
    split_ifs <;> assumption
  · simp [hab.symm, hac.symm, had.symm, hbc.symm, hbd.symm, hcd.symm]
    linarith
  · intro i
    rw [hx i]
    simp [hab.symm, hac.symm, had.symm, hbc.symm, hbd.symm, hcd.symm]
    ring

/-- Every point of the unit cell lies in one of the six. -/
theorem kuhn_cover (y : Fin 3 → K) (h0 : ∀ i, 0 ≤ y i) (h1 : ∀ i, y i ≤ 1) :
    ∃ S ∈ kuhn, InTetra S y := by
  have a0 := h0 0; have a1 := h0 1; have a2 := h0 2
  have b0 := h1 0; have b1 := h1 1; have b2 := h1 2
  rcases le_total (y 0) (y 1) with p | p <;> rcases le_total (y 0) (y 2) with q | q <;>
    rcases le_total (y 1) (y 2) with r | r
  · exact ⟨_, by decide, inTetra_explicit ⟨0, 0, 0⟩ ⟨0, 0, 1⟩ ⟨0, 1, 1⟩ ⟨1, 1, 1⟩ (by decide)
      (by decide) (by decide) (by decide) (by decide) (by decide) y (1 - y 2) (y 2 - y 1)
      (y 1 - y 0) (y 0) (by linarith) (by linarith) (by linarith) a0 (by ring)
      (by intro i; fin_cases i <;> simp [V3.e])⟩
  · exact ⟨_, by decide, inTetra_explicit ⟨0, 0, 0⟩ ⟨0, 1, 0⟩ ⟨0, 1, 1⟩ ⟨1, 1, 1⟩ (by decide)
      (by decide) (by decide) (by decide) (by decide) (by decide) y (1 - y 1) (y 1 - y 2)
      (y 2 - y 0) (y 0) (by linarith) (by linarith) (by linarith) a0 (by ring)
      (by intro i; fin_cases i <;> simp [V3.e])⟩
  · exact ⟨_, by decide, inTetra_explicit ⟨0, 0, 0⟩ ⟨0, 0, 1⟩ ⟨0, 1, 1⟩ ⟨1, 1, 1⟩ (by decide)
      (by decide) (by decide) (by decide) (by decide) (by decide) y (1 - y 2) (y 2 - y 1)
      (y 1 - y 0) (y 0) (by linarith) (by linarith) (by linarith) a0 (by ring)
      (by intro i; fin_cases i <;> simp [V3.e])⟩
  · exact ⟨_, by decide, inTetra_explicit ⟨0, 0, 0⟩ ⟨0, 1, 0⟩ ⟨1, 1, 0⟩ ⟨1, 1, 1⟩ (by decide)
      (by decide) (by decide) (by decide) (by decide) (by decide) y (1 - y 1) (y 1 - y 0)
      (y 0 - y 2) (y 2) (by linarith) (by linarith) (by linarith) a2 (by ring)
      (by intro i; fin_cases i <;> simp [V3.e])⟩
  · exact ⟨_, by decide, inTetra_explicit ⟨0, 0, 0⟩ ⟨0, 0, 1⟩ ⟨1, 0, 1⟩ ⟨1, 1, 1⟩ (by decide)
      (by decide) (by decide) (by decide) (by decide) (by decide) y (1 - y 2) (y 2 - y 0)
      (y 0 - y 1) (y 1) (by linarith) (by linarith) (by linarith) a1 (by ring)
      (by intro i; fin_cases i <;> simp [V3.e])⟩
  · exact ⟨_, by decide, inTetra_explicit ⟨0, 0, 0⟩ ⟨1, 0, 0⟩ ⟨1, 0, 1⟩ ⟨1, 1, 1⟩ (by decide)
      (by decide) (by decide) (by decide) (by decide) (by decide) y (1 - y 0) (y 0 - y 2)
      (y 2 - y 1) (y 1) (by linarith) (by linarith) (by linarith) a1 (by ring)
      (by intro i; fin_cases i <;> simp [V3.e])⟩
  · exact ⟨_, by decide, inTetra_explicit ⟨0, 0, 0⟩ ⟨1, 0, 0⟩ ⟨1, 0, 1⟩ ⟨1, 1, 1⟩ (by decide)
      (by decide) (by decide) (by decide) (by decide) (by decide) y (1 - y 0) (y 0 - y 2)
      (y 2 - y 1) (y 1) (by linarith) (by linarith) (by linarith) a1 (by ring)
      (by intro i; fin_cases i <;> simp [V3.e])⟩
  · exact ⟨_, by decide, inTetra_explicit ⟨0, 0, 0⟩ ⟨1, 0, 0⟩ ⟨1, 1, 0⟩ ⟨1, 1, 1⟩ (by decide)
      (by decide) (by decide) (by decide) (by decide) (by decide) y (1 - y 0) (y 0 - y 1)
      (y 1 - y 2) (y 2) (by linarith) (by linarith) (by linarith) a2 (by ring)
      (by intro i; fin_cases i <;> simp [V3.e])⟩

/-- Order of the coordinates inside each of the six. -/
theorem kuhn_interior {S : List V3} (hS : S ∈ kuhn) {y : Fin 3 → K} (h : InInterior S y) :
    (∀ i, 0 < y i ∧ y i < 1) ∧
    ((S = [⟨0, 0, 0⟩, ⟨1, 0, 0⟩, ⟨1, 1, 0⟩, ⟨1, 1, 1⟩] ∧ y 0 > y 1 ∧ y 1 > y 2) ∨
     (S = [⟨0, 0, 0⟩, ⟨1, 0, 0⟩, ⟨1, 0, 1⟩, ⟨1, 1, 1⟩] ∧ y 0 > y 2 ∧ y 2 > y 1) ∨
     (S = [⟨0, 0, 0⟩, ⟨0, 1, 0⟩, ⟨1, 1, 0⟩, ⟨1, 1, 1⟩] ∧ y 1 > y 0 ∧ y 0 > y 2) ∨
     (S = [⟨0, 0, 0⟩, ⟨0, 1, 0⟩, ⟨0, 1, 1⟩, ⟨1, 1, 1⟩] ∧ y 1 > y 2 ∧ y 2 > y 0) ∨
     (S = [⟨0, 0, 0⟩, ⟨0, 0, 1⟩, ⟨1, 0, 1⟩, ⟨1, 1, 1⟩] ∧ y 2 > y 0 ∧ y 0 > y 1) ∨
     (S = [⟨0, 0, 0⟩, ⟨0, 0, 1⟩, ⟨0, 1, 1⟩, ⟨1, 1, 1⟩] ∧ y 2 > y 1 ∧ y 1 > y 0)) := by
  obtain ⟨l, hl, hs, hx⟩ := h
  have x0 := hx 0; have x1 := hx 1; have x2 := hx 2
  simp only [kuhn, List.mem_cons, List.not_mem_nil, or_false] at hS
  rcases hS with rfl | rfl | rfl | rfl | rfl | rfl <;>
    simp [V3.e] at hl hs x0 x1 x2 <;>
    obtain ⟨p0, p1, p2, p3⟩ := hl <;>
    (refine ⟨?_, ?_⟩
     · intro i
       fin_cases i <;> simp only [Fin.zero_eta, Fin.mk_one, Fin.reduceFinMk, x0, x1, x2] <;>
         constructor <;> linarith
     · rw [x0, x1, x2]
       simp [p0, p1, p2, p3])

theorem kuhn_unique {S S' : List V3} (hS : S ∈ kuhn) (hS' : S' ∈ kuhn) {y y' : Fin 3 → K}
    (h : InInterior S y) (h' : InInterior S' y') (u : V3)
    (hu : ∀ i, y' i = y i + (u.e i : K)) : S = S' ∧ u = ⟨0, 0, 0⟩ := by
  obtain ⟨b, o⟩ := kuhn_interior hS h
  obtain ⟨b', o'⟩ := kuhn_interior hS' h'
  have hz : ∀ i, u.e i = 0 := by
    intro i
    obtain ⟨p, q⟩ := b i
    obtain ⟨p', q'⟩ := b' i
    rw [hu i] at p' q'
    have h1 : (-1 : K) < (u.e i : K) := by linarith
    have h2 : (u.e i : K) < 1 := by linarith
    have h1' : (-1 : Int) < u.e i := by exact_mod_cast h1
    have h2' : u.e i < (1 : Int) := by exact_mod_cast h2
    omega
  have hu0 : u = ⟨0, 0, 0⟩ := by
    have a := hz 0; have b := hz 1; have c := hz 2
    simp [V3.e] at a b c
    ext <;> assumption
  have hy : y' = y := by
    funext i; rw [hu i, hz i]; simp
  subst hy
  refine ⟨?_, hu0⟩
  rcases o with ⟨rfl, o1, o2⟩ | ⟨rfl, o1, o2⟩ | ⟨rfl, o1, o2⟩ | ⟨rfl, o1, o2⟩ | ⟨rfl, o1, o2⟩ |
      ⟨rfl, o1, o2⟩ <;>
    rcases o' with ⟨rfl, r1, r2⟩ | ⟨rfl, r1, r2⟩ | ⟨rfl, r1, r2⟩ | ⟨rfl, r1, r2⟩ | ⟨rfl, r1, r2⟩ |
      ⟨rfl, r1, r2⟩ <;>
    first | rfl | (exfalso; linarith)

theorem map_shift_shift (T : List V3) (a b : V3) : (T.map (· + a)).map (· + b) = T.map (· + (a + b)) := by
  rw [List.map_map]
  apply List.map_congr_left
  intro v _
  ext <;> simp <;> ring

theorem map_sub_shift (T : List V3) (a b : V3) : (T.map (· - a)).map (· + b) = T.map (· + (b - a)) := by
  rw [List.map_map]
  apply List.map_congr_left
  intro v _
  ext <;> simp <;> ring

/-- Table 0: interiors of translates meet only if the translates coincide. -/
theorem tab0_disjoint {T T' : List V3} (hT : T ∈ tab 0) (hT' : T' ∈ tab 0) (t t' : V3)
    {x : Fin 3 → K} (h : InInterior (T.map (· + t)) x) (h' : InInterior (T'.map (· + t')) x) :
    (T.map (· + t)).Perm (T'.map (· + t')) := by
  obtain ⟨S, hS, p, _, hp⟩ := tab0_from_kuhn T hT
  obtain ⟨S', hS', p', _, hp'⟩ := tab0_from_kuhn T' hT'
  have e1 : (T.map (· + t)).Perm (S.map (· + (t - p))) := by
    rw [← map_sub_shift]; exact hp.map _
  have e2 : (T'.map (· + t')).Perm (S'.map (· + (t' - p'))) := by
    rw [← map_sub_shift]; exact hp'.map _
  have g1 := interior_shift (⟨0, 0, 0⟩ - (t - p)) (interior_perm e1 h)
  have g2 := interior_shift (⟨0, 0, 0⟩ - (t' - p')) (interior_perm e2 h')
  rw [map_shift_shift] at g1 g2
  have z : ∀ (S : List V3) (a : V3), S.map (· + (a + (⟨0, 0, 0⟩ - a))) = S := by
    intro S a
    conv_rhs => rw [← List.map_id S]
    apply List.map_congr_left
    intro v _
    ext <;> simp
  rw [z] at g1 g2
  obtain ⟨rfl, hu⟩ := kuhn_unique hS hS' g1 g2 ((t - p) - (t' - p')) (by
    intro i
    simp only [e_sub]
    have : (V3.e ⟨0, 0, 0⟩ i : Int) = 0 := by fin_cases i <;> rfl
    rw [this]
    push_cast; ring)
  have : t - p = t' - p' := by
    have hx := congrArg V3.x hu
    have hy := congrArg V3.y hu
    have hz := congrArg V3.z hu
    simp at hx hy hz
    ext <;> simp <;> omega
  rw [this] at e1
  exact e1.trans e2.symm

theorem reflect_add (d : Nat) (v t : V3) : reflect d (v + t) = reflect d v + reflect d t := by
  unfold reflect
  split_ifs <;> ext <;> simp <;> ring

theorem tab_disjoint (d : Nat) (hd : d < 4) {T T' : List V3} (hT : T ∈ tab d) (hT' : T' ∈ tab d)
    (t t' : V3) {x : Fin 3 → K} (h : InInterior (T.map (· + t)) x)
    (h' : InInterior (T'.map (· + t')) x) : (T.map (· + t)).Perm (T'.map (· + t')) := by
  obtain ⟨S, hS, hp⟩ := (tab_reflect d hd).1 T hT
  obtain ⟨S', hS', hp'⟩ := (tab_reflect d hd).1 T' hT'
  have key : ∀ (T S : List V3) (t : V3), T.Perm (S.map (reflect d)) →
      ((T.map (· + t)).map (reflect d)).Perm (S.map (· + reflect d t)) := by
    intro T S t hp
    have := (hp.map (· + t)).map (reflect d)
    refine this.trans (List.Perm.of_eq ?_)
    rw [List.map_map, List.map_map]
    apply List.map_congr_left
    intro v _
    simp [reflect_add, reflect_reflect]
  have g := tab0_disjoint hS hS' (reflect d t) (reflect d t')
    (interior_perm (key T S t hp) (interior_reflect d hd h))
    (interior_perm (key T' S' t' hp') (interior_reflect d hd h'))
  have e1 := ((key T S t hp).trans g).trans (key T' S' t' hp').symm
  have e2 := e1.map (reflect d)
  have id : ∀ L : List V3, (L.map (reflect d)).map (reflect d) = L := by
    intro L
    rw [List.map_map]
    conv_rhs => rw [← List.map_id L]
    apply List.map_congr_left
    intro v _
    simp [reflect_reflect]
  rw [id, id] at e2
  exact e2

theorem tab_cover [FloorRing K] (d : Nat) (hd : d < 4) (x : Fin 3 → K) :
    ∃ T ∈ tab d, ∃ t : V3, InTetra (T.map (· + t)) x := by
  obtain ⟨S, hS, hi⟩ := kuhn_cover (fun i => Int.fract ((reflSign d i : K) * x i))
    (fun i => Int.fract_nonneg _) (fun i => (Int.fract_lt_one _).le)
  obtain ⟨T, hT, hp⟩ := (tab_reflect d hd).2 S (tab_kuhn S hS)
  set f : V3 := ⟨⌊(reflSign d 0 : K) * x 0⌋, ⌊(reflSign d 1 : K) * x 1⌋, ⌊(reflSign d 2 : K) * x 2⌋⟩
    with hf
  have fe : ∀ i, f.e i = ⌊(reflSign d i : K) * x i⌋ := by
    intro i; fin_cases i <;> rfl
  obtain ⟨l, hl, hc⟩ := hi
  have h2 : InTetra (S.map (· + f)) (fun i => (reflSign d i : K) * x i) := by
    refine ⟨fun v => l (v - f), ?_, ?_⟩
    · intro v hv
      obtain ⟨w, hw, rfl⟩ := List.mem_map.1 hv
      have : w + f - f = w := by ext <;> simp
      simp only [this]; exact hl w hw
    · have := combination_shift f hc
      convert this using 1
      funext i
      rw [fe i]
      exact (Int.fract_add_floor _).symm
  have h3 := inTetra_reflect d hd h2
  refine ⟨T, hT, reflect d f, ?_⟩
  have e : ((S.map (· + f)).map (reflect d)).Perm (T.map (· + reflect d f)) := by
    have := (hp.map (· + reflect d f)).symm
    refine (List.Perm.of_eq ?_).trans this
    rw [List.map_map, List.map_map]
    apply List.map_congr_left
    intro v _
    simp [reflect_add]
  have h4 := inTetra_perm e h3
  convert h4 using 1
  funext i
  rw [← mul_assoc]
  have : (reflSign d i : K) * (reflSign d i : K) = 1 := by exact_mod_cast reflSign_mul d i
  rw [this, one_mul]

end
end Phono3py
