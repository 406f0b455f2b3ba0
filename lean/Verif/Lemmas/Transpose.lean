/- Transposition of compact force constants. -/
import Mathlib.Tactic.IntervalCases
import Verif.Lemmas.Fc3

namespace Phono3py

open Spec

variable {K : Type _} [Field K] [LinearOrder K] [IsStrictOrderedRing K]
set_option linter.unusedSectionVars false

/-! ### Copies and blocks -/

theorem runCopies_eq (cs : List (Int × Int)) :
    ∀ (A : Int → K), (∀ c ∈ cs, ∀ d ∈ cs, c.1 ≠ d.2) →
      runCopies A cs = runWrites A (cs.map fun c => (c.1, A c.2)) := by
  induction cs with
  | nil => intro A _; rfl
  | cons c cs ih =>
    intro A h
    have h1 : runCopies A (c :: cs) = runCopies (upd A c.1 (A c.2)) cs := rfl
    have h2 : runWrites A ((c :: cs).map fun c => (c.1, A c.2)) =
        runWrites (upd A c.1 (A c.2)) (cs.map fun c => (c.1, A c.2)) := rfl
    rw [h1, h2, ih _ fun a ha b hb => h a (by simp [ha]) b (by simp [hb])]
    congr 1
    apply List.map_congr_left
    intro d hd
    rw [upd_other A (A c.2) (h c (by simp) d (by simp [hd])).symm]

theorem mem_cart27 {c : Nat × Nat × Nat} : c ∈ cart27 ↔ c.1 < 3 ∧ c.2.1 < 3 ∧ c.2.2 < 3 := by
  obtain ⟨a, b, d⟩ := c
  simp only [cart27, mem_loop, List.mem_singleton, Prod.mk.injEq]
  constructor
  · rintro ⟨i, hi, j, hj, k, hk, rfl, rfl, rfl⟩; exact ⟨hi, hj, hk⟩
  · rintro ⟨hi, hj, hk⟩; exact ⟨a, hi, b, hj, d, hk, rfl, rfl, rfl⟩

theorem cartPos_lt {c : Nat × Nat × Nat} (h : c ∈ cart27) : cartPos c < 27 := by
  obtain ⟨h1, h2, h3⟩ := mem_cart27.mp h
  unfold cartPos; omega

theorem cartPos_inj {c d : Nat × Nat × Nat} (h : c ∈ cart27) (h' : d ∈ cart27)
    (e : cartPos c = cartPos d) : c = d := by
  obtain ⟨h1, h2, h3⟩ := mem_cart27.mp h
  obtain ⟨h1', h2', h3'⟩ := mem_cart27.mp h'
  unfold cartPos at e
  refine Prod.ext ?_ (Prod.ext ?_ ?_) <;> omega

/-- Exchanging two blocks, which may be the same block. -/
theorem swapBlocks_spec (tr : Nat × Nat × Nat → Nat × Nat × Nat)
    (htr : ∀ c ∈ cart27, tr c ∈ cart27) (htr2 : ∀ c, tr (tr c) = c) (A : Int → K) (a b : Nat) :
    (∀ c ∈ cart27, swapBlocks tr A (a * 27) (b * 27) ((a * 27 + cartPos c : Nat) : Int) =
      A ((b * 27 + cartPos (tr c) : Nat) : Int)) ∧
    (∀ c ∈ cart27, swapBlocks tr A (a * 27) (b * 27) ((b * 27 + cartPos (tr c) : Nat) : Int) =
      A ((a * 27 + cartPos c : Nat) : Int)) ∧
    (∀ p : Int, (∀ c ∈ cart27, ((a * 27 + cartPos c : Nat) : Int) ≠ p ∧
      ((b * 27 + cartPos (tr c) : Nat) : Int) ≠ p) →
      swapBlocks tr A (a * 27) (b * 27) p = A p) := by
  have hval : ∀ (B : Int → K) (c), c ∈ cart27 →
      runWrites B (cart27.map fun c => (((b * 27 + cartPos (tr c) : Nat) : Int),
        A ((a * 27 + cartPos c : Nat) : Int))) ((b * 27 + cartPos (tr c) : Nat) : Int) =
        A ((a * 27 + cartPos c : Nat) : Int) := by
    intro B c hc
    refine runWrites_value B _ ?_ (((b * 27 + cartPos (tr c) : Nat) : Int),
      A ((a * 27 + cartPos c : Nat) : Int)) (List.mem_map.mpr ⟨c, hc, rfl⟩)
    intro u hu w hw he
    obtain ⟨d, hd, rfl⟩ := List.mem_map.mp hu
    obtain ⟨d', hd', rfl⟩ := List.mem_map.mp hw
    have e1 : cartPos (tr d) = cartPos (tr d') := by
      have : b * 27 + cartPos (tr d) = b * 27 + cartPos (tr d') := Int.ofNat.inj he
      omega
    have e2 := congrArg tr (cartPos_inj (htr d hd) (htr d' hd') e1)
    rw [htr2, htr2] at e2
    subst e2; rfl
  have hout : ∀ (B : Int → K) (p : Int), (∀ c ∈ cart27, ((b * 27 + cartPos (tr c) : Nat) : Int) ≠ p) →
      runWrites B (cart27.map fun c => (((b * 27 + cartPos (tr c) : Nat) : Int),
        A ((a * 27 + cartPos c : Nat) : Int))) p = B p := by
    intro B p hp
    apply runWrites_untouched
    intro w hw
    obtain ⟨d, hd, rfl⟩ := List.mem_map.mp hw
    exact hp d hd
  by_cases hab : a * 27 = b * 27
  · have e : swapBlocks tr A (a * 27) (b * 27) =
        runWrites A (cart27.map fun c => (((b * 27 + cartPos (tr c) : Nat) : Int),
          A ((a * 27 + cartPos c : Nat) : Int))) := by
      unfold swapBlocks
      simp [hab]
    rw [e]
    refine ⟨?_, fun c hc => hval A c hc, fun p hp => hout A p fun c hc => (hp c hc).2⟩
    intro c hc
    have h := hval A (tr c) (htr c hc)
    rw [htr2] at h
    rw [hab] at h ⊢
    exact h
  · have hne : ∀ c ∈ cart27, ∀ d ∈ cart27,
        ((a * 27 + cartPos c : Nat) : Int) ≠ ((b * 27 + cartPos (tr d) : Nat) : Int) := by
      intro c hc d hd h
      have h' : a * 27 + cartPos c = b * 27 + cartPos (tr d) := Int.ofNat.inj h
      have := cartPos_lt hc
      have := cartPos_lt (htr d hd)
      omega
    have hcop : runCopies A (cart27.map fun c => (((a * 27 + cartPos c : Nat) : Int),
        ((b * 27 + cartPos (tr c) : Nat) : Int))) =
        runWrites A (cart27.map fun c => (((a * 27 + cartPos c : Nat) : Int),
          A ((b * 27 + cartPos (tr c) : Nat) : Int))) := by
      rw [runCopies_eq]
      · rw [List.map_map]; rfl
      · intro u hu w hw
        obtain ⟨d, hd, rfl⟩ := List.mem_map.mp hu
        obtain ⟨d', hd', rfl⟩ := List.mem_map.mp hw
        exact hne d hd d' hd'
    have e : swapBlocks tr A (a * 27) (b * 27) =
        runWrites (runWrites A (cart27.map fun c => (((a * 27 + cartPos c : Nat) : Int),
          A ((b * 27 + cartPos (tr c) : Nat) : Int))))
          (cart27.map fun c => (((b * 27 + cartPos (tr c) : Nat) : Int),
            A ((a * 27 + cartPos c : Nat) : Int))) := by
      rw [← hcop]
      unfold swapBlocks
      rw [if_pos hab]
    rw [e]
    refine ⟨?_, fun c hc => hval _ c hc, ?_⟩
    · intro c hc
      rw [hout _ _ fun d hd => (hne c hc d hd).symm]
      refine runWrites_value A _ ?_ (((a * 27 + cartPos c : Nat) : Int),
        A ((b * 27 + cartPos (tr c) : Nat) : Int)) (List.mem_map.mpr ⟨c, hc, rfl⟩)
      intro u hu w hw he
      obtain ⟨d, hd, rfl⟩ := List.mem_map.mp hu
      obtain ⟨d', hd', rfl⟩ := List.mem_map.mp hw
      have e1 : cartPos d = cartPos d' := by
        have : a * 27 + cartPos d = a * 27 + cartPos d' := Int.ofNat.inj he
        omega
      rw [cartPos_inj hd hd' e1]
    · intro p hp
      rw [hout _ p fun c hc => (hp c hc).2]
      apply runWrites_untouched
      intro w hw
      obtain ⟨d, hd, rfl⟩ := List.mem_map.mp hw
      exact (hp d hd).1

/-! ### One exchange in terms of legs -/

/-- The three directions of an element. -/
def cartOf (x : Legs) : Nat × Nat × Nat := ((x 0).2, (x 1).2, (x 2).2)

/-- Legs with given atoms and the directions `c`. -/
def legsOf (a b d : Nat) (c : Nat × Nat × Nat) : Legs := ![(a, c.1), (b, c.2.1), (d, c.2.2)]

theorem pos_block (m : CompactMaps) (x : Legs) :
    m.pos x = ((m.block x * 27 + cartPos (cartOf x) : Nat) : Int) := by
  unfold CompactMaps.pos CompactMaps.block cartOf cartPos
  congr 1
  show ((((m.s2pp (x 0).1 * m.nSatom + m.trans (x 0).1 (x 1).1) * m.nSatom +
    m.trans (x 0).1 (x 2).1) * 3 + (x 0).2) * 3 + (x 1).2) * 3 + (x 2).2 = _
  ring

theorem cartOf_mem {n : Nat} {x : Legs} (hx : Legs.Valid n x) : cartOf x ∈ cart27 :=
  mem_cart27.mpr ⟨(hx 0).2, (hx 1).2, (hx 2).2⟩

/-- Elements of one block stay in one block when their legs are permuted. -/
theorem block_perm {m : CompactMaps} (hm : m.Ok) (s : Equiv.Perm (Fin 3)) {u v : Legs}
    (hu : Legs.Valid m.nSatom u) (hv : Legs.Valid m.nSatom v) (he : m.block u = m.block v) :
    m.block (u ∘ s) = m.block (v ∘ s) := by
  have hw : Legs.Valid m.nSatom (fun r => ((u r).1, (v r).2)) := fun r => ⟨(hu r).1, (hv r).2⟩
  have hp : m.pos (fun r => ((u r).1, (v r).2)) = m.pos v := pos_of_block hm hw hv he fun _ => rfl
  have := (layout_compact hm).same _ _ hw hv hp s
  exact (block_of_pos hm (Legs.Valid.perm hw s) (Legs.Valid.perm hv s) this : _)

/-- Effect of exchanging the block of some legs `y` with the block of `y ∘ s`. -/
theorem swap_effect {m : CompactMaps} (hm : m.Ok) (s : Equiv.Perm (Fin 3)) (hs : s * s = 1)
    (tr : Nat × Nat × Nat → Nat × Nat × Nat) (htr : ∀ c ∈ cart27, tr c ∈ cart27)
    (htr2 : ∀ c, tr (tr c) = c) (htrs : ∀ x : Legs, cartOf (x ∘ s) = tr (cartOf x))
    (A : Int → K) (y : Legs) (hy : Legs.Valid m.nSatom y) (x : Legs) (hx : Legs.Valid m.nSatom x) :
    swapBlocks tr A (m.block y * 27) (m.block (y ∘ s) * 27) (m.pos x) =
      if m.block x = m.block y ∨ m.block (x ∘ s) = m.block y then A (m.pos (x ∘ s))
      else A (m.pos x) := by
  obtain ⟨h1, h2, h3⟩ := swapBlocks_spec tr htr htr2 A (m.block y) (m.block (y ∘ s))
  have hss : ∀ z : Legs, (z ∘ s) ∘ s = z := by
    intro z; funext r
    show z (s (s r)) = z r
    rw [← Equiv.Perm.mul_apply, hs]; rfl
  have hblk := fun u v hu hv he => block_perm hm s (u := u) (v := v) hu hv he
  by_cases hb : m.block x = m.block y
  · rw [if_pos (Or.inl hb), pos_block m x, pos_block m (x ∘ s), hb, h1 _ (cartOf_mem hx), htrs,
      hblk x y hx hy hb]
  by_cases hb' : m.block (x ∘ s) = m.block y
  · rw [if_pos (Or.inr hb')]
    have e := hblk (x ∘ s) y (Legs.Valid.perm hx s) hy hb'
    rw [hss] at e
    have h := h2 (cartOf (x ∘ s)) (cartOf_mem (Legs.Valid.perm hx s))
    rw [← htrs, hss] at h
    rw [pos_block m x, pos_block m (x ∘ s), e, hb', h]
  · rw [if_neg (by tauto)]
    apply h3
    intro c hc
    rw [pos_block m x]
    have hlt := cartPos_lt hc
    have hlt' := cartPos_lt (htr c hc)
    have hx' := cartPos_lt (cartOf_mem hx)
    constructor
    · intro h
      have h' : m.block y * 27 + cartPos c = m.block x * 27 + cartPos (cartOf x) := Int.ofNat.inj h
      exact hb (by omega)
    · intro h
      have h' : m.block (y ∘ s) * 27 + cartPos (tr c) = m.block x * 27 + cartPos (cartOf x) :=
        Int.ofNat.inj h
      have e : m.block x = m.block (y ∘ s) := by omega
      have e2 := hblk x (y ∘ s) hx (Legs.Valid.perm hy s) e
      rw [hss] at e2
      exact hb' e2

/-- Slots that hold no element are not touched. -/
theorem swap_frame {m : CompactMaps} (s : Equiv.Perm (Fin 3))
    (tr : Nat × Nat × Nat → Nat × Nat × Nat) (htr : ∀ c ∈ cart27, tr c ∈ cart27)
    (htr2 : ∀ c, tr (tr c) = c) (htrs : ∀ x : Legs, cartOf (x ∘ s) = tr (cartOf x))
    (A : Int → K) (y : Legs) (hy : Legs.Valid m.nSatom y) (p : Int)
    (hp : ∀ x, Legs.Valid m.nSatom x → m.pos x ≠ p) :
    swapBlocks tr A (m.block y * 27) (m.block (y ∘ s) * 27) p = A p := by
  obtain ⟨-, -, h3⟩ := swapBlocks_spec tr htr htr2 A (m.block y) (m.block (y ∘ s))
  apply h3
  intro c hc
  obtain ⟨c0, c1, c2⟩ := mem_cart27.mp hc
  have hv : Legs.Valid m.nSatom (legsOf (y 0).1 (y 1).1 (y 2).1 c) := by
    intro r; fin_cases r
    · exact ⟨(hy 0).1, c0⟩
    · exact ⟨(hy 1).1, c1⟩
    · exact ⟨(hy 2).1, c2⟩
  have hco : cartOf (legsOf (y 0).1 (y 1).1 (y 2).1 c) = c := rfl
  have hbl : m.block (legsOf (y 0).1 (y 1).1 (y 2).1 c) = m.block y := rfl
  have hbl' : m.block ((legsOf (y 0).1 (y 1).1 (y 2).1 c) ∘ s) = m.block (y ∘ s) := by
    have : ∀ r, ((legsOf (y 0).1 (y 1).1 (y 2).1 c) r).1 = (y r).1 := by
      intro r; fin_cases r <;> rfl
    unfold CompactMaps.block
    simp only [Function.comp, this]
  have g1 := hp _ hv
  have g2 := hp _ (Legs.Valid.perm hv s)
  rw [pos_block, hco, hbl] at g1
  rw [pos_block, htrs, hco, hbl'] at g2
  exact ⟨g1, g2⟩

/-! ### Parity of the exchanges -/

/-- After some exchanges the element `x` is the transposed one iff `par x`. -/
def SwapInv (m : CompactMaps) (s : Equiv.Perm (Fin 3)) (A0 A : Int → K) (par : Legs → Bool) :
    Prop :=
  (∀ x, Legs.Valid m.nSatom x → A (m.pos x) = if par x then A0 (m.pos (x ∘ s)) else A0 (m.pos x)) ∧
    (∀ x, Legs.Valid m.nSatom x → par (x ∘ s) = par x) ∧
    ∀ p, (∀ x, Legs.Valid m.nSatom x → m.pos x ≠ p) → A p = A0 p

theorem swapInv_step {m : CompactMaps} (hm : m.Ok) (s : Equiv.Perm (Fin 3)) (hs : s * s = 1)
    (tr : Nat × Nat × Nat → Nat × Nat × Nat) (htr : ∀ c ∈ cart27, tr c ∈ cart27)
    (htr2 : ∀ c, tr (tr c) = c) (htrs : ∀ x : Legs, cartOf (x ∘ s) = tr (cartOf x))
    (A0 A : Int → K) (par : Legs → Bool) (hI : SwapInv m s A0 A par) (y : Legs)
    (hy : Legs.Valid m.nSatom y) :
    SwapInv m s A0 (swapBlocks tr A (m.block y * 27) (m.block (y ∘ s) * 27))
      fun x => xor (par x) (decide (m.block x = m.block y ∨ m.block (x ∘ s) = m.block y)) := by
  have hss : ∀ z : Legs, (z ∘ s) ∘ s = z := by
    intro z; funext r
    show z (s (s r)) = z r
    rw [← Equiv.Perm.mul_apply, hs]; rfl
  refine ⟨?_, ?_, ?_⟩
  · intro x hx
    rw [swap_effect hm s hs tr htr htr2 htrs A y hy x hx]
    have e1 := hI.1 x hx
    have e2 := hI.1 (x ∘ s) (Legs.Valid.perm hx s)
    rw [hI.2.1 x hx, hss] at e2
    by_cases hb : m.block x = m.block y ∨ m.block (x ∘ s) = m.block y
    · rw [if_pos hb, e2]
      rcases hq : par x <;> simp [hb, hq]
    · rw [if_neg hb, e1]
      rcases hq : par x <;> simp [hb, hq]
  · intro x hx
    show xor (par (x ∘ s)) (decide (m.block (x ∘ s) = m.block y ∨ m.block ((x ∘ s) ∘ s) = m.block y)) =
      xor (par x) (decide (m.block x = m.block y ∨ m.block (x ∘ s) = m.block y))
    rw [hI.2.1 x hx, hss]
    congr 1
    exact decide_eq_decide.mpr or_comm
  · intro p hp
    rw [swap_frame s tr htr htr2 htrs A y hy p hp]
    exact hI.2.2 p hp

/-! ### Rows -/

/-- The pair of legs `0` and `r` up to translations. -/
def CompactMaps.row (m : CompactMaps) (r : Fin 3) (x : Legs) : Nat :=
  m.s2pp (x 0).1 * m.nSatom + m.trans (x 0).1 (x r).1

/-- The other leg. -/
def CompactMaps.col (m : CompactMaps) (o : Fin 3) (x : Legs) : Nat := m.trans (x 0).1 (x o).1

theorem row_perm {m : CompactMaps} (hm : m.Ok) (r : Fin 3) (s : Equiv.Perm (Fin 3))
    (hs0 : s 0 = r) (hsr : s r = 0) {u v : Legs} (hu : Legs.Valid m.nSatom u)
    (hv : Legs.Valid m.nSatom v) (he : m.row r u = m.row r v) :
    m.row r (u ∘ s) = m.row r (v ∘ s) := by
  unfold CompactMaps.row at he ⊢
  obtain ⟨h1, h2⟩ := digits2 (hm.move_lt _ (hu 0).1 _ (hu r).1) (hm.move_lt _ (hv 0).1 _ (hv r).1) he
  simp only [Function.comp, hs0, hsr]
  have key := block_perm hm (Equiv.swap 0 1)
    (u := ![((u 0).1, 0), ((u r).1, 0), ((u r).1, 0)])
    (v := ![((v 0).1, 0), ((v r).1, 0), ((v r).1, 0)])
    (by intro q; fin_cases q <;> simp [(hu _).1])
    (by intro q; fin_cases q <;> simp [(hv _).1])
    (by
      show (m.s2pp (u 0).1 * m.nSatom + m.trans (u 0).1 (u r).1) * m.nSatom +
          m.trans (u 0).1 (u r).1 =
        (m.s2pp (v 0).1 * m.nSatom + m.trans (v 0).1 (v r).1) * m.nSatom + m.trans (v 0).1 (v r).1
      rw [h1, h2])
  have key' : (m.s2pp (u r).1 * m.nSatom + m.trans (u r).1 (u 0).1) * m.nSatom +
      m.trans (u r).1 (u r).1 = (m.s2pp (v r).1 * m.nSatom + m.trans (v r).1 (v 0).1) * m.nSatom +
      m.trans (v r).1 (v r).1 := key
  exact (digits2 (hm.move_lt _ (hu r).1 _ (hu r).1) (hm.move_lt _ (hv r).1 _ (hv r).1) key').1

/-- Parity of the number of `k < n` with `a ∧ ca = k ∨ b ∧ cb = k`. -/
theorem parity_loop (a b : Bool) (ca cb : Nat) (p : Bool) (n : Nat) :
    (List.range n).foldl (fun q k => xor q ((a && decide (ca = k)) || (b && decide (cb = k)))) p =
      xor p (xor (xor (a && decide (ca < n)) (b && decide (cb < n)))
        (a && b && decide (ca = cb) && decide (ca < n))) := by
  induction n with
  | zero => simp
  | succ n ih =>
    rw [List.range_succ, List.foldl_append, ih]
    simp only [List.foldl_cons, List.foldl_nil]
    by_cases h1 : ca < n
    · have e1 : ca < n + 1 := by omega
      have e2 : ca ≠ n := by omega
      by_cases h2 : cb < n
      · have e3 : cb < n + 1 := by omega
        have e4 : cb ≠ n := by omega
        simp [h1, h2, e1, e2, e3, e4]
      · by_cases h3 : cb = n
        · subst h3
          cases a <;> cases b <;> cases p <;> simp [h1, e1, e2]
        · have e3 : ¬ cb < n + 1 := by omega
          cases a <;> cases b <;> cases p <;> simp [h1, h2, e1, e2, h3, e3]
    · by_cases h3 : ca = n
      · subst h3
        by_cases h2 : cb < ca
        · have e3 : cb < ca + 1 := by omega
          have e4 : cb ≠ ca := by omega
          have e5 : ca ≠ cb := by omega
          cases a <;> cases b <;> cases p <;> simp [h2, e3, e4, e5]
        · by_cases h4 : cb = ca
          · subst h4
            cases a <;> cases b <;> cases p <;> simp
          · have e3 : ¬ cb < ca + 1 := by omega
            have e5 : ca ≠ cb := by omega
            cases a <;> cases b <;> cases p <;> simp [h2, h4, e3, e5]
      · have e1 : ¬ ca < n + 1 := by omega
        by_cases h2 : cb < n
        · have e3 : cb < n + 1 := by omega
          have e4 : cb ≠ n := by omega
          cases a <;> cases b <;> cases p <;> simp [h1, h2, h3, e1, e3, e4]
        · by_cases h4 : cb = n
          · subst h4
            cases a <;> cases b <;> cases p <;> simp [h1, h3, e1]
          · have e3 : ¬ cb < n + 1 := by omega
            cases a <;> cases b <;> cases p <;> simp [h1, h2, h3, h4, e1, e3]

/-- What the two types of exchange have in common. -/
structure TransType (m : CompactMaps) (tType : Nat) (r o : Fin 3) (s : Equiv.Perm (Fin 3)) :
    Prop where
  s0 : s 0 = r
  sr : s r = 0
  ss : s * s = 1
  tr_mem : ∀ c ∈ cart27, trCart tType c ∈ cart27
  tr_tr : ∀ c, trCart tType (trCart tType c) = c
  tr_s : ∀ x : Legs, cartOf (x ∘ s) = trCart tType (cartOf x)
  block_iff : ∀ x y : Legs, Legs.Valid m.nSatom x → Legs.Valid m.nSatom y →
    (m.block x = m.block y ↔ m.row r x = m.row r y ∧ m.col o x = m.col o y)
  adrs : ∀ ip < m.nPatom, ∀ j < m.nSatom, ∀ k < m.nSatom, ∃ y : Legs, Legs.Valid m.nSatom y ∧
    (y 0).1 = m.p2s ip ∧ (y r).1 = j ∧ (y o).1 = k ∧
    transAdrs m tType ip j k = (m.block y * 27, m.block (y ∘ s) * 27)

theorem transType0 {m : CompactMaps} (hm : m.Ok) : TransType m 0 1 2 (Equiv.swap 0 1) where
  s0 := by decide
  sr := by decide
  ss := by decide
  tr_mem := by
    intro c hc
    obtain ⟨h0, h1, h2⟩ := mem_cart27.mp hc
    exact mem_cart27.mpr ⟨h1, h0, h2⟩
  tr_tr := fun _ => rfl
  tr_s := fun _ => rfl
  block_iff := by
    intro x y hx hy
    constructor
    · intro h
      exact digits2 (hm.move_lt _ (hx 0).1 _ (hx 2).1) (hm.move_lt _ (hy 0).1 _ (hy 2).1) h
    · rintro ⟨h1, h2⟩
      show m.row 1 x * m.nSatom + m.col 2 x = m.row 1 y * m.nSatom + m.col 2 y
      rw [h1, h2]
  adrs := by
    intro ip hip j hj k hk
    refine ⟨![(m.p2s ip, 0), (j, 0), (k, 0)], ?_, rfl, rfl, rfl, ?_⟩
    · intro q; fin_cases q
      · exact ⟨hm.rep_lt ip hip, Nat.zero_lt_succ 2⟩
      · exact ⟨hj, Nat.zero_lt_succ 2⟩
      · exact ⟨hk, Nat.zero_lt_succ 2⟩
    · have e1 : m.block ![(m.p2s ip, 0), (j, 0), (k, 0)] =
          (m.s2pp (m.p2s ip) * m.nSatom + m.trans (m.p2s ip) j) * m.nSatom +
            m.trans (m.p2s ip) k := rfl
      have e2 : m.block ((![(m.p2s ip, 0), (j, 0), (k, 0)] : Legs) ∘ (Equiv.swap 0 1)) =
          (m.s2pp j * m.nSatom + m.trans j (m.p2s ip)) * m.nSatom + m.trans j k := rfl
      rw [e1, e2, hm.cls_rep ip hip, hm.move_rep ip hip j hj, hm.move_rep ip hip k hk]
      show ((ip * m.nSatom * m.nSatom + j * m.nSatom + k) * 27,
        (m.s2pp j * m.nSatom * m.nSatom + m.trans j (m.p2s ip) * m.nSatom + m.trans j k) * 27) = _
      refine Prod.ext ?_ ?_ <;> ring

theorem transType1 {m : CompactMaps} (hm : m.Ok) : TransType m 1 2 1 (Equiv.swap 0 2) where
  s0 := by decide
  sr := by decide
  ss := by decide
  tr_mem := by
    intro c hc
    obtain ⟨h0, h1, h2⟩ := mem_cart27.mp hc
    exact mem_cart27.mpr ⟨h2, h1, h0⟩
  tr_tr := fun _ => rfl
  tr_s := fun _ => rfl
  block_iff := by
    intro x y hx hy
    constructor
    · intro h
      obtain ⟨h, h2⟩ :=
        digits2 (hm.move_lt _ (hx 0).1 _ (hx 2).1) (hm.move_lt _ (hy 0).1 _ (hy 2).1) h
      obtain ⟨h0, h1⟩ :=
        digits2 (hm.move_lt _ (hx 0).1 _ (hx 1).1) (hm.move_lt _ (hy 0).1 _ (hy 1).1) h
      exact ⟨by unfold CompactMaps.row; rw [h0, h2], h1⟩
    · rintro ⟨h, h1⟩
      obtain ⟨h0, h2⟩ :=
        digits2 (hm.move_lt _ (hx 0).1 _ (hx 2).1) (hm.move_lt _ (hy 0).1 _ (hy 2).1) h
      have h1' : m.trans (x 0).1 (x 1).1 = m.trans (y 0).1 (y 1).1 := h1
      unfold CompactMaps.block
      rw [h0, h1', h2]
  adrs := by
    intro ip hip j hj k hk
    refine ⟨![(m.p2s ip, 0), (k, 0), (j, 0)], ?_, rfl, rfl, rfl, ?_⟩
    · intro q; fin_cases q
      · exact ⟨hm.rep_lt ip hip, Nat.zero_lt_succ 2⟩
      · exact ⟨hk, Nat.zero_lt_succ 2⟩
      · exact ⟨hj, Nat.zero_lt_succ 2⟩
    · have e1 : m.block ![(m.p2s ip, 0), (k, 0), (j, 0)] =
          (m.s2pp (m.p2s ip) * m.nSatom + m.trans (m.p2s ip) k) * m.nSatom +
            m.trans (m.p2s ip) j := rfl
      have e2 : m.block ((![(m.p2s ip, 0), (k, 0), (j, 0)] : Legs) ∘ (Equiv.swap 0 2)) =
          (m.s2pp j * m.nSatom + m.trans j k) * m.nSatom + m.trans j (m.p2s ip) := rfl
      rw [e1, e2, hm.cls_rep ip hip, hm.move_rep ip hip j hj, hm.move_rep ip hip k hk]
      show ((ip * m.nSatom * m.nSatom + k * m.nSatom + j) * 27,
        (m.s2pp j * m.nSatom * m.nSatom + m.trans j k * m.nSatom + m.trans j (m.p2s ip)) * 27) = _
      refine Prod.ext ?_ ?_ <;> ring

/-- The loop over `k` for one pair of atoms. -/
theorem row_loop {m : CompactMaps} (hm : m.Ok) {tType : Nat} {r o : Fin 3}
    {s : Equiv.Perm (Fin 3)} (T : TransType m tType r o s) (A0 : Int → K) {ip j : Nat}
    (hip : ip < m.nPatom) (hj : j < m.nSatom) (ks : List Nat) (hks : ∀ k ∈ ks, k < m.nSatom) :
    ∀ (A : Int → K) (par : Legs → Bool), SwapInv m s A0 A par →
      ∃ par', SwapInv m s A0 (ks.foldl (fun fc3 k => swapBlocks (trCart tType) fc3
        (transAdrs m tType ip j k).1 (transAdrs m tType ip j k).2) A) par' ∧
      ∀ x, Legs.Valid m.nSatom x → par' x = ks.foldl (fun q k =>
        xor q ((decide (m.row r x = ip * m.nSatom + j) && decide (m.col o x = k)) ||
          (decide (m.row r (x ∘ s) = ip * m.nSatom + j) && decide (m.col o (x ∘ s) = k)))) (par x) := by
  induction ks with
  | nil => intro A par hI; exact ⟨par, hI, fun _ _ => rfl⟩
  | cons k ks ih =>
    intro A par hI
    have hk : k < m.nSatom := hks k (by simp)
    obtain ⟨y, hy, y0, yr, yo, he⟩ := T.adrs ip hip j hj k hk
    have h1 := swapInv_step hm s T.ss (trCart tType) T.tr_mem T.tr_tr T.tr_s A0 A par hI y hy
    obtain ⟨par', h2, h3⟩ := ih (fun k' hk' => hks k' (by simp [hk'])) _ _ h1
    have hrow : m.row r y = ip * m.nSatom + j := by
      unfold CompactMaps.row
      rw [y0, yr, hm.cls_rep ip hip, hm.move_rep ip hip j hj]
    have hcol : m.col o y = k := by
      unfold CompactMaps.col
      rw [y0, yo, hm.move_rep ip hip k hk]
    refine ⟨par', ?_, ?_⟩
    · rw [List.foldl_cons, he]
      exact h2
    · intro x hx
      rw [h3 x hx, List.foldl_cons]
      congr 1
      congr 1
      have b1 := T.block_iff x y hx hy
      have b2 := T.block_iff (x ∘ s) y (Legs.Valid.perm hx s) hy
      rw [hrow, hcol] at b1 b2
      simp only [b1, b2, Bool.decide_or, Bool.decide_and]

/-- Elements that the transposition exchanges an even number of times: legs `0` and `r` are
different atoms related by a translation of order two. -/
def HalfPair (m : CompactMaps) (r o : Fin 3) (s : Equiv.Perm (Fin 3)) (x : Legs) : Prop :=
  m.row r x = m.row r (x ∘ s) ∧ m.col o x ≠ m.col o (x ∘ s)

instance (m : CompactMaps) (r o : Fin 3) (s : Equiv.Perm (Fin 3)) (x : Legs) :
    Decidable (HalfPair m r o s x) := inferInstanceAs (Decidable (_ ∧ _))

/-- State of the loops over pairs. -/
def PairInv (m : CompactMaps) (r o : Fin 3) (s : Equiv.Perm (Fin 3)) (A0 : Int → K)
    (st : (Int → K) × (Nat → Bool)) : Prop :=
  (∀ x, Legs.Valid m.nSatom x → st.2 (m.row r (x ∘ s)) = st.2 (m.row r x)) ∧
    ∃ par, SwapInv m s A0 st.1 par ∧ ∀ x, Legs.Valid m.nSatom x →
      par x = (st.2 (m.row r x) && !decide (HalfPair m r o s x))

theorem pairInv_step {m : CompactMaps} (hm : m.Ok) {tType : Nat} {r o : Fin 3}
    {s : Equiv.Perm (Fin 3)} (T : TransType m tType r o s) (A0 : Int → K)
    (st : (Int → K) × (Nat → Bool)) (hI : PairInv m r o s A0 st) {t : Nat × Nat}
    (hip : t.1 < m.nPatom) (hj : t.2 < m.nSatom) :
    PairInv m r o s A0 (transposeStep m tType st t) ∧
      (∀ a, st.2 a = true → (transposeStep m tType st t).2 a = true) ∧
      (transposeStep m tType st t).2 (t.1 * m.nSatom + t.2) = true := by
  by_cases hd : st.2 (t.1 * m.nSatom + t.2) = true
  · have e : transposeStep m tType st t = st := by unfold transposeStep; exact if_pos hd
    rw [e]
    exact ⟨hI, fun _ h => h, hd⟩
  have hd' : st.2 (t.1 * m.nSatom + t.2) = false := by simpa using hd
  set key := t.1 * m.nSatom + t.2 with hkey
  set key' := m.s2pp t.2 * m.nSatom + m.trans t.2 (m.p2s t.1) with hkey'
  have e : transposeStep m tType st t = ((List.range m.nSatom).foldl (fun fc3 k =>
      swapBlocks (trCart tType) fc3 (transAdrs m tType t.1 t.2 k).1
        (transAdrs m tType t.1 t.2 k).2) st.1,
      fun a => if a = key' then true else if a = key then true else st.2 a) := by
    unfold transposeStep
    exact if_neg hd
  have hss : ∀ z : Legs, (z ∘ s) ∘ s = z := by
    intro z; funext q
    show z (s (s q)) = z q
    rw [← Equiv.Perm.mul_apply, T.ss]; rfl
  obtain ⟨y, hy, y0, yr, -, -⟩ := T.adrs t.1 hip t.2 hj t.2 hj
  have hrow : m.row r y = key := by
    unfold CompactMaps.row
    rw [y0, yr, hm.cls_rep _ hip, hm.move_rep _ hip _ hj]
  have hrow' : m.row r (y ∘ s) = key' := by
    unfold CompactMaps.row
    simp only [Function.comp, T.s0, T.sr, y0, yr]
    rfl
  have hiff : ∀ x, Legs.Valid m.nSatom x → (m.row r x = key' ↔ m.row r (x ∘ s) = key) := by
    intro x hx
    constructor
    · intro h
      have := row_perm hm r s T.s0 T.sr hx (Legs.Valid.perm hy s) (h.trans hrow'.symm)
      rw [hss] at this
      rw [this, hrow]
    · intro h
      have := row_perm hm r s T.s0 T.sr (Legs.Valid.perm hx s) hy (h.trans hrow.symm)
      rw [hss] at this
      rw [this, hrow']
  have hiff2 : ∀ x, Legs.Valid m.nSatom x → (m.row r (x ∘ s) = key' ↔ m.row r x = key) := by
    intro x hx
    have := hiff (x ∘ s) (Legs.Valid.perm hx s)
    rwa [hss] at this
  rw [e]
  refine ⟨⟨?_, ?_⟩, ?_, ?_⟩
  · intro x hx
    show (if m.row r (x ∘ s) = key' then true else if m.row r (x ∘ s) = key then true
        else st.2 (m.row r (x ∘ s))) =
      (if m.row r x = key' then true else if m.row r x = key then true else st.2 (m.row r x))
    rw [hI.1 x hx]
    by_cases h1 : m.row r x = key
    · rw [if_pos ((hiff2 x hx).mpr h1)]
      simp [h1]
    · by_cases h2 : m.row r x = key'
      · rw [if_pos h2]
        simp [(hiff x hx).mp h2]
      · rw [if_neg h2, if_neg h1, if_neg (fun h => h1 ((hiff2 x hx).mp h)),
          if_neg (fun h => h2 ((hiff x hx).mpr h))]
  · obtain ⟨par, hS, hpar⟩ := hI.2
    obtain ⟨par', hS', hpar'⟩ := row_loop hm T A0 hip hj (List.range m.nSatom)
      (fun k hk => List.mem_range.mp hk) st.1 par hS
    refine ⟨par', hS', ?_⟩
    intro x hx
    rw [hpar' x hx, parity_loop, hpar x hx]
    have c1 : m.col o x < m.nSatom := hm.move_lt _ (hx 0).1 _ (hx o).1
    have c2 : m.col o (x ∘ s) < m.nSatom :=
      hm.move_lt _ (Legs.Valid.perm hx s 0).1 _ (Legs.Valid.perm hx s o).1
    show _ = ((if m.row r x = key' then true else if m.row r x = key then true
      else st.2 (m.row r x)) && !decide (HalfPair m r o s x))
    have hD1 : m.row r x = key → st.2 (m.row r x) = false := fun h => by rw [h]; exact hd'
    have hD2 : m.row r (x ∘ s) = key → st.2 (m.row r x) = false := fun h => by
      rw [← hI.1 x hx, h]; exact hd'
    have hk' := hiff x hx
    rw [← hkey]
    rw [decide_eq_true c1, decide_eq_true c2]
    have hH : decide (HalfPair m r o s x) =
        (decide (m.row r x = m.row r (x ∘ s)) && !decide (m.col o x = m.col o (x ∘ s))) := by
      by_cases g1 : m.row r x = m.row r (x ∘ s) <;> by_cases g2 : m.col o x = m.col o (x ∘ s) <;>
        simp [HalfPair, g1, g2]
    rw [hH]
    generalize st.2 (m.row r x) = D at hD1 hD2 ⊢
    generalize m.row r x = ra at hD1 hk' ⊢
    generalize m.row r (x ∘ s) = rb at hD2 hk' ⊢
    generalize m.col o x = ca
    generalize m.col o (x ∘ s) = cb
    generalize key' = k' at hk' ⊢
    generalize key = k at hD1 hD2 hk' ⊢
    clear * - hD1 hD2 hk'
    by_cases h1 : ra = k
    · have hD := hD1 h1
      subst hD h1
      by_cases h2 : rb = ra
      · have := hk'.mpr h2
        subst h2
        by_cases hc : ca = cb <;> simp [hc]
      · have h3 : ¬ ra = rb := fun h => h2 h.symm
        simp [h2, h3]
    · by_cases h2 : rb = k
      · have hD := hD2 h2
        have h3 := hk'.mpr h2
        subst hD h2 h3
        simp [h1]
      · have h3 : ¬ ra = k' := fun h => h2 (hk'.mp h)
        simp [h1, h2, h3]
  · intro a ha
    show (if a = key' then true else if a = key then true else st.2 a) = true
    rw [ha]; simp
  · show (if key = key' then true else if key = key then true else st.2 key) = true
    simp

theorem pair_fold {m : CompactMaps} (hm : m.Ok) {tType : Nat} {r o : Fin 3}
    {s : Equiv.Perm (Fin 3)} (T : TransType m tType r o s) (A0 : Int → K) (ts : List (Nat × Nat)) :
    ∀ st : (Int → K) × (Nat → Bool), PairInv m r o s A0 st →
      (∀ t ∈ ts, t.1 < m.nPatom ∧ t.2 < m.nSatom) →
      PairInv m r o s A0 (ts.foldl (transposeStep m tType) st) ∧
        (∀ a, st.2 a = true → (ts.foldl (transposeStep m tType) st).2 a = true) ∧
        ∀ t ∈ ts, (ts.foldl (transposeStep m tType) st).2 (t.1 * m.nSatom + t.2) = true := by
  induction ts with
  | nil => intro st hI _; exact ⟨hI, fun a h => h, by simp⟩
  | cons t ts ih =>
    intro st hI ht
    have h := ht t (by simp)
    obtain ⟨h1, h2, h3⟩ := pairInv_step hm T A0 st hI h.1 h.2
    obtain ⟨k1, k2, k3⟩ := ih _ h1 fun t' ht' => ht t' (by simp [ht'])
    refine ⟨k1, fun a ha => k2 a (h2 a ha), ?_⟩
    intro t' ht'
    rcases List.mem_cons.mp ht' with rfl | ht'
    · exact k2 _ h3
    · exact k3 t' ht'

theorem transpose01_value {m : CompactMaps} (hm : m.Ok) {tType : Nat} {r o : Fin 3}
    {s : Equiv.Perm (Fin 3)} (T : TransType m tType r o s) (A : Int → K) :
    (∀ x, Legs.Valid m.nSatom x → transposeCompactType01 m tType A (m.pos x) =
      if HalfPair m r o s x then A (m.pos x) else A (m.pos (x ∘ s))) ∧
    ∀ p, (∀ x, Legs.Valid m.nSatom x → m.pos x ≠ p) → transposeCompactType01 m tType A p = A p := by
  have h0 : PairInv m r o s A (A, fun _ => false) :=
    ⟨fun _ _ => rfl, fun _ => false, ⟨fun _ _ => rfl, fun _ _ => rfl, fun _ _ => rfl⟩,
      fun _ _ => rfl⟩
  obtain ⟨h1, -, h3⟩ := pair_fold hm T A
    (loop m.nPatom fun ip => (List.range m.nSatom).map fun j => (ip, j)) (A, fun _ => false) h0 (by
      intro t ht
      simp only [mem_loop, List.mem_map, List.mem_range] at ht
      obtain ⟨i, hi, j, hj, rfl⟩ := ht
      exact ⟨hi, hj⟩)
  obtain ⟨-, par, hS, hpar⟩ := h1
  refine ⟨?_, fun p hp => hS.2.2 p hp⟩
  intro x hx
  have hdone := h3 (m.s2pp (x 0).1, m.trans (x 0).1 (x r).1) (by
    simp only [mem_loop, List.mem_map, List.mem_range]
    exact ⟨_, hm.cls_lt _ (hx 0).1, _, hm.move_lt _ (hx 0).1 _ (hx r).1, rfl⟩)
  have e := hS.1 x hx
  have hp := hpar x hx
  have hdone' : ((loop m.nPatom fun ip => (List.range m.nSatom).map fun j => (ip, j)).foldl
    (transposeStep m tType) (A, fun _ => false)).2 (m.row r x) = true := hdone
  rw [hdone', Bool.true_and] at hp
  unfold transposeCompactType01
  rw [e, hp]
  by_cases hh : HalfPair m r o s x <;> simp [hh]

end Phono3py
