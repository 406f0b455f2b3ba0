/- Lemmas on distributing, solving and cutting off fc3. -/
import Verif.Model.Fc3Solve
import Verif.Spec.Fc3Solve
import Verif.Lemmas.Fc3
import Verif.Lemmas.Transpose
import Verif.Lemmas.Adds
import Mathlib.Tactic.Ring
import Mathlib.Tactic.FinCases
import Mathlib.Tactic.LinearCombination
import Mathlib.Algebra.BigOperators.Ring.Finset

namespace Phono3py
open Spec
variable {K : Type _} [Field K]

/-- Updates in place whose values depend only on cells that are never written. -/
theorem foldl_inplace {τ : Type _} (pos : τ → Int) (val : (Int → K) → τ → K) (S : Int → Prop)
    (ws : List τ) (hpos : ∀ t ∈ ws, ¬ S (pos t))
    (hval : ∀ a a' : Int → K, (∀ p, S p → a p = a' p) → ∀ t ∈ ws, val a t = val a' t) :
    ∀ a0 : Int → K, ws.foldl (fun a t => upd a (pos t) (val a t)) a0 =
      runWrites a0 (ws.map fun t => (pos t, val a0 t)) := by
  induction ws with
  | nil => intro a0; rfl
  | cons t ws ih =>
    intro a0
    rw [List.foldl_cons, ih (fun t h => hpos t (by simp [h]))
      (fun a a' h t ht => hval a a' h t (by simp [ht]))]
    rw [List.map_cons]
    show _ = runWrites (upd a0 (pos t) (val a0 t)) _
    congr 1
    apply List.map_congr_left
    intro u hu
    congr 1
    apply hval _ _ _ u (by simp [hu])
    intro p hp
    apply upd_other
    rintro rfl
    exact hpos t (by simp) hp

theorem tensor3RotationElem_eq (tensor : Nat → K) (r : Nat → Nat → K) (pos : Nat) :
    tensor3RotationElem tensor r pos =
      ∑ a ∈ Finset.range 3, ∑ b ∈ Finset.range 3, ∑ c ∈ Finset.range 3,
        r (pos / 9) a * r (pos % 9 / 3) b * r (pos % 3) c * tensor (a * 9 + b * 3 + c) := by
  simp only [tensor3RotationElem, cart27, cartPos, loop, Finset.sum_range_succ,
    Finset.sum_range_zero, List.range_succ, List.range_zero, List.nil_append, List.cons_append,
    List.flatMap_cons, List.flatMap_nil, List.append_nil, List.foldl_cons, List.foldl_nil]
  ring

/-- The element of a row at flat position `l` of the block of atoms `i` and `j`. -/
def rowLegs (row : Nat) (t : Nat × Nat × Nat) : Legs :=
  ![(row, t.2.2 / 9), (t.1, t.2.2 % 9 / 3), (t.2.1, t.2.2 % 3)]

theorem rowLegs_pos (n row : Nat) (t : Nat × Nat × Nat) :
    (n * n * row + n * t.1 + t.2.1) * 27 + t.2.2 = fc3Pos n (rowLegs row t) := by
  obtain ⟨i, j, l⟩ := t
  show _ = ((((row * n + i) * n + j) * 3 + l / 9) * 3 + l % 9 / 3) * 3 + l % 3
  have h : ((row * n + i) * n + j) = n * n * row + n * i + j := by ring
  rw [h]
  show (n * n * row + n * i + j) * 27 + l = _
  omega

theorem rowLegs_slot {n row : Nat} {t : Nat × Nat × Nat} (h1 : t.1 < n) (h2 : t.2.1 < n)
    (h3 : t.2.2 < 27) : Slot n (rowLegs row t) := by
  obtain ⟨i, j, l⟩ := t
  refine ⟨h1, h2, fun s => ?_⟩
  simp only at h3
  fin_cases s
  · show l / 9 < 3; omega
  · show l % 9 / 3 < 3; omega
  · show l % 3 < 3; omega

theorem rowLegs_of (x : Legs) (hx : ∀ s, (x s).2 < 3) :
    rowLegs (x 0).1 ((x 1).1, (x 2).1, (x 0).2 * 9 + (x 1).2 * 3 + (x 2).2) = x := by
  have h0 := hx 0
  have h1 := hx 1
  have h2 := hx 2
  funext s
  fin_cases s
  · show ((x 0).1, ((x 0).2 * 9 + (x 1).2 * 3 + (x 2).2) / 9) = x 0
    exact Prod.ext rfl (by simp only; omega)
  · show ((x 1).1, ((x 0).2 * 9 + (x 1).2 * 3 + (x 2).2) % 9 / 3) = x 1
    exact Prod.ext rfl (by simp only; omega)
  · show ((x 2).1, ((x 0).2 * 9 + (x 1).2 * 3 + (x 2).2) % 3) = x 2
    exact Prod.ext rfl (by simp only; omega)

/-- The triples visited by `distributeRow`. -/
def rowTriples (n : Nat) : List (Nat × Nat × Nat) :=
  loop n fun i => loop n fun j => (List.range 27).map fun l => (i, j, l)

theorem mem_rowTriples {n : Nat} {t : Nat × Nat × Nat} :
    t ∈ rowTriples n ↔ t.1 < n ∧ t.2.1 < n ∧ t.2.2 < 27 := by
  obtain ⟨i, j, l⟩ := t
  simp only [rowTriples, mem_loop, List.mem_map, List.mem_range, Prod.mk.injEq]
  constructor
  · rintro ⟨a, ha, b, hb, c, hc, rfl, rfl, rfl⟩; exact ⟨ha, hb, hc⟩
  · rintro ⟨ha, hb, hc⟩; exact ⟨i, ha, j, hb, l, hc, rfl, rfl, rfl⟩

/-- Element of the rotated source row. -/
def rotatedSource (n source : Nat) (mapping : Nat → Nat) (r : Nat → Nat → K) (A : Int → K)
    (x : Legs) : K :=
  ∑ a ∈ Finset.range 3, ∑ b ∈ Finset.range 3, ∑ c ∈ Finset.range 3,
    r (x 0).2 a * r (x 1).2 b * r (x 2).2 c *
      A (fc3Pos n ![(source, a), (mapping (x 1).1, b), (mapping (x 2).1, c)] : Nat)

theorem distributeStep_eq (n target source : Nat) (mapping : Nat → Nat) (r : Nat → Nat → K)
    (A : Int → K) (t : Nat × Nat × Nat) :
    distributeStep n target source mapping r A t =
      upd A (fc3Pos n (rowLegs target t) : Nat)
        (rotatedSource n source mapping r A (rowLegs target t)) := by
  have hv : tensor3RotationElem
      (fun p => A ((n * n * source + n * mapping t.1 + mapping t.2.1) * 27 + p : Nat)) r t.2.2 =
      rotatedSource n source mapping r A (rowLegs target t) := by
    rw [tensor3RotationElem_eq]
    refine Finset.sum_congr rfl fun a ha => Finset.sum_congr rfl fun b hb =>
      Finset.sum_congr rfl fun c hc => ?_
    rw [Finset.mem_range] at ha hb hc
    have h := rowLegs_of ![(source, a), (mapping t.1, b), (mapping t.2.1, c)]
      (by intro s; fin_cases s <;> assumption)
    have h' := rowLegs_pos n source (mapping t.1, mapping t.2.1, a * 9 + b * 3 + c)
    have e : fc3Pos n ![(source, a), (mapping t.1, b), (mapping t.2.1, c)] =
        (n * n * source + n * mapping t.1 + mapping t.2.1) * 27 + (a * 9 + b * 3 + c) := by
      rw [← h]; exact h'.symm
    have e' : fc3Pos n ![(source, a), (mapping (rowLegs target t 1).1, b),
        (mapping (rowLegs target t 2).1, c)] =
        (n * n * source + n * mapping t.1 + mapping t.2.1) * 27 + (a * 9 + b * 3 + c) := e
    rw [e']
    rfl
  have hp := rowLegs_pos n target t
  show upd A (((n * n * target + n * t.1 + t.2.1) * 27 + t.2.2 : Nat) : Int) _ = _
  rw [hv, hp]

theorem distributeRow_writes {n target source : Nat} {mapping : Nat → Nat}
    (hmap : ∀ i < n, mapping i < n) (hne : target ≠ source) (r : Nat → Nat → K) (A : Int → K) :
    distributeRow n target source mapping r A =
      runWrites A ((rowTriples n).map fun t => ((fc3Pos n (rowLegs target t) : Nat),
        rotatedSource n source mapping r A (rowLegs target t))) := by
  unfold distributeRow
  have e : distributeStep n target source mapping r = fun (A : Int → K) t =>
      upd A (fc3Pos n (rowLegs target t) : Nat)
        (rotatedSource n source mapping r A (rowLegs target t)) := by
    funext A t; exact distributeStep_eq n target source mapping r A t
  rw [e]
  refine foldl_inplace (fun t => ((fc3Pos n (rowLegs target t) : Nat) : Int))
    (fun A t => rotatedSource n source mapping r A (rowLegs target t))
    (fun p => ∃ x, Slot n x ∧ (x 0).1 = source ∧ p = (fc3Pos n x : Nat)) _ ?_ ?_ A
  · rintro t ht ⟨x, hx, hx0, he⟩
    obtain ⟨h1, h2, h3⟩ := mem_rowTriples.mp ht
    have := fc3Pos_inj (rowLegs_slot h1 h2 h3) hx (Int.ofNat.inj he)
    apply hne
    rw [← hx0, ← this]
    rfl
  · intro a a' h t ht
    obtain ⟨h1, h2, h3⟩ := mem_rowTriples.mp ht
    unfold rotatedSource
    refine Finset.sum_congr rfl fun i hi => Finset.sum_congr rfl fun j hj =>
      Finset.sum_congr rfl fun k hk => ?_
    rw [Finset.mem_range] at hi hj hk
    congr 1
    apply h
    refine ⟨_, ⟨hmap _ h1, hmap _ h2, fun s => ?_⟩, rfl, rfl⟩
    fin_cases s <;> assumption

theorem distributeRow_value {n target source : Nat} {mapping : Nat → Nat}
    (hmap : ∀ i < n, mapping i < n) (hne : target ≠ source) (r : Nat → Nat → K) (A : Int → K)
    {x : Legs} (hx : Slot n x) (h0 : (x 0).1 = target) :
    distributeRow n target source mapping r A (fc3Pos n x : Nat) =
      rotatedSource n source mapping r A x := by
  rw [distributeRow_writes hmap hne]
  have hag : Agree ((rowTriples n).map fun t => (((fc3Pos n (rowLegs target t) : Nat) : Int),
      rotatedSource n source mapping r A (rowLegs target t))) := by
    intro u hu w hw he
    obtain ⟨t, ht, rfl⟩ := List.mem_map.mp hu
    obtain ⟨t', ht', rfl⟩ := List.mem_map.mp hw
    obtain ⟨h1, h2, h3⟩ := mem_rowTriples.mp ht
    obtain ⟨h1', h2', h3'⟩ := mem_rowTriples.mp ht'
    have := fc3Pos_inj (rowLegs_slot h1 h2 h3) (rowLegs_slot h1' h2' h3') (Int.ofNat.inj he)
    show rotatedSource n source mapping r A (rowLegs target t) = _
    rw [this]
  have hr := rowLegs_of x hx.2.2
  rw [h0] at hr
  have h0' := hx.2.2 0
  have h1' := hx.2.2 1
  have h2' := hx.2.2 2
  refine runWrites_value A _ hag ((fc3Pos n x : Nat), rotatedSource n source mapping r A x)
    (List.mem_map.mpr ⟨((x 1).1, (x 2).1, (x 0).2 * 9 + (x 1).2 * 3 + (x 2).2),
      mem_rowTriples.mpr ⟨hx.1, hx.2.1, by simp only; omega⟩, ?_⟩)
  rw [hr]

theorem distributeRow_other {n target source : Nat} {mapping : Nat → Nat}
    (r : Nat → Nat → K) (A : Int → K) {p : Int}
    (h : ∀ x, Slot n x → (x 0).1 = target → p ≠ (fc3Pos n x : Nat)) :
    distributeRow n target source mapping r A p = A p := by
  unfold distributeRow
  show (rowTriples n).foldl _ A p = A p
  have key : ∀ (ts : List (Nat × Nat × Nat)) (A : Int → K),
      (∀ t ∈ ts, t ∈ rowTriples n) →
      ts.foldl (distributeStep n target source mapping r) A p = A p := by
    intro ts
    induction ts with
    | nil => intro A _; rfl
    | cons t ts ih =>
      intro A ht
      rw [List.foldl_cons, ih _ fun t h => ht t (by simp [h]), distributeStep_eq]
      apply upd_other
      obtain ⟨h1, h2, h3⟩ := mem_rowTriples.mp (ht t (by simp))
      exact h _ (rowLegs_slot h1 h2 h3) rfl
  exact key _ A fun t h => h

/-! ### Rotations -/

theorem orth_collapse {R : Nat → Nat → K} (hR : Orthogonal R) (F : Nat → K) {l : Nat}
    (hl : l < 3) :
    ∑ a ∈ Finset.range 3, R a l * ∑ a' ∈ Finset.range 3, R a a' * F a' = F l := by
  have e : ∑ a ∈ Finset.range 3, R a l * ∑ a' ∈ Finset.range 3, R a a' * F a' =
      ∑ a' ∈ Finset.range 3, (∑ a ∈ Finset.range 3, R a l * R a a') * F a' := by
    simp only [Finset.mul_sum, Finset.sum_mul]
    rw [Finset.sum_comm]
    refine Finset.sum_congr rfl fun a _ => Finset.sum_congr rfl fun b _ => ?_
    ring
  rw [e, Finset.sum_congr rfl fun a' ha' => by rw [hR l hl a' (Finset.mem_range.mp ha')]]
  simp [hl]

theorem rotate_back {R : Nat → Nat → K} (hR : Orthogonal R) (F : Nat → Nat → Nat → K)
    {l m n : Nat} (hl : l < 3) (hm : m < 3) (hn : n < 3) :
    ∑ a ∈ Finset.range 3, ∑ b ∈ Finset.range 3, ∑ c ∈ Finset.range 3,
      R a l * R b m * R c n * (∑ a' ∈ Finset.range 3, ∑ b' ∈ Finset.range 3,
        ∑ c' ∈ Finset.range 3, R a a' * R b b' * R c c' * F a' b' c') = F l m n := by
  have e1 : ∀ a b c, ∑ a' ∈ Finset.range 3, ∑ b' ∈ Finset.range 3, ∑ c' ∈ Finset.range 3,
      R a a' * R b b' * R c c' * F a' b' c' =
      ∑ c' ∈ Finset.range 3, R c c' * ∑ b' ∈ Finset.range 3, R b b' *
        ∑ a' ∈ Finset.range 3, R a a' * F a' b' c' := by
    intro a b c
    simp only [Finset.sum_range_succ, Finset.sum_range_zero]
    ring
  have e2 : ∀ X : Nat → Nat → Nat → K,
      ∑ a ∈ Finset.range 3, ∑ b ∈ Finset.range 3, ∑ c ∈ Finset.range 3,
        R a l * R b m * R c n * X a b c =
      ∑ a ∈ Finset.range 3, R a l * ∑ b ∈ Finset.range 3, R b m * ∑ c ∈ Finset.range 3,
        R c n * X a b c := by
    intro X
    simp only [Finset.mul_sum]
    refine Finset.sum_congr rfl fun a _ => Finset.sum_congr rfl fun b _ =>
      Finset.sum_congr rfl fun c _ => ?_
    ring
  simp only [e1]
  rw [e2]
  simp only [orth_collapse hR _ hn, orth_collapse hR _ hm, orth_collapse hR _ hl]

theorem moveAtoms_set (p : Nat → Nat) (a b c i j k : Nat) :
    moveAtoms p ![(i, a), (j, b), (k, c)] = ![(p i, a), (p j, b), (p k, c)] := by
  funext s; fin_cases s <;> rfl

/-- Rotating the elements of the moved atoms back gives the original element. -/
theorem invariant_back {n : Nat} {p : Nat → Nat} {R : Nat → Nat → K} {f : Legs → K}
    (hf : InvariantUnder n p R f) (hR : Orthogonal R) {x : Legs} (hx : Legs.Valid n x) :
    ∑ a ∈ Finset.range 3, ∑ b ∈ Finset.range 3, ∑ c ∈ Finset.range 3,
      R a (x 0).2 * R b (x 1).2 * R c (x 2).2 *
        f ![(p (x 0).1, a), (p (x 1).1, b), (p (x 2).1, c)] = f x := by
  have h : ∀ a ∈ Finset.range 3, ∀ b ∈ Finset.range 3, ∀ c ∈ Finset.range 3,
      f ![(p (x 0).1, a), (p (x 1).1, b), (p (x 2).1, c)] =
      ∑ a' ∈ Finset.range 3, ∑ b' ∈ Finset.range 3, ∑ c' ∈ Finset.range 3,
        R a a' * R b b' * R c c' * f ![((x 0).1, a'), ((x 1).1, b'), ((x 2).1, c')] := by
    intro a ha b hb c hc
    rw [Finset.mem_range] at ha hb hc
    rw [← moveAtoms_set]
    apply hf
    intro s
    fin_cases s
    · exact ⟨(hx 0).1, ha⟩
    · exact ⟨(hx 1).1, hb⟩
    · exact ⟨(hx 2).1, hc⟩
  rw [Finset.sum_congr rfl fun a ha => Finset.sum_congr rfl fun b hb =>
    Finset.sum_congr rfl fun c hc => by rw [h a ha b hb c hc]]
  rw [rotate_back hR (fun a b c => f ![((x 0).1, a), ((x 1).1, b), ((x 2).1, c)])
    (hx 0).2 (hx 1).2 (hx 2).2]
  congr 1
  funext s; fin_cases s <;> rfl

/-! ### Choice of operations -/

theorem chooseOp_some {ops : List (SymOp K)} {t d : Nat} {o : SymOp K}
    (h : chooseOp ops t d = some o) :
    o ∈ ops ∧ o.perm t = d ∧
      (o.pure = false → ∀ o' ∈ ops, o'.perm t = d → o'.pure = false) := by
  unfold chooseOp at h
  simp only at h
  have hm : ∀ o', o' ∈ ops.filter (fun o => o.perm t == d) ↔ o' ∈ ops ∧ o'.perm t = d := by
    intro o'; rw [List.mem_filter]; simp
  split at h
  · next o' ho' =>
    obtain rfl : o' = o := Option.some.inj h
    obtain ⟨h1, h2⟩ := (hm _).mp (List.mem_of_find?_eq_some ho')
    refine ⟨h1, h2, fun hf => ?_⟩
    have := List.find?_some ho'
    rw [hf] at this
    exact absurd this (by simp)
  · next hn =>
    obtain ⟨h1, h2⟩ := (hm _).mp (List.mem_of_mem_head? h)
    refine ⟨h1, h2, fun _ o' ho' he => ?_⟩
    have := List.find?_eq_none.mp hn o' ((hm _).mpr ⟨ho', he⟩)
    simpa using this

theorem chooseOp_none {ops : List (SymOp K)} {t d : Nat} :
    chooseOp ops t d = none ↔ ∀ o ∈ ops, o.perm t ≠ d := by
  unfold chooseOp
  simp only
  have hm : ops.filter (fun o => o.perm t == d) = [] ↔ ∀ o ∈ ops, o.perm t ≠ d := by
    rw [List.filter_eq_nil_iff]; simp
  rw [← hm]
  split
  · next o' ho' =>
    have := List.mem_of_find?_eq_some ho'
    simp only [reduceCtorEq, false_iff]
    intro h
    rw [h] at this
    simp at this
  · rw [List.head?_eq_none_iff]

theorem findSource_some {ops : List (SymOp K)} {t : Nat} {firsts : List Nat}
    {d : Nat × SymOp K} (h : findSource ops t firsts = some d) :
    d.1 ∈ firsts ∧ chooseOp ops t d.1 = some d.2 := by
  induction firsts with
  | nil => simp [findSource] at h
  | cons e rest ih =>
    unfold findSource at h
    split at h
    · next o ho =>
      obtain rfl := Option.some.inj h
      exact ⟨by simp, ho⟩
    · exact ⟨by simp [(ih h).1], (ih h).2⟩

theorem findSource_none {ops : List (SymOp K)} {t : Nat} {firsts : List Nat} :
    findSource ops t firsts = none ↔ ∀ d ∈ firsts, ∀ o ∈ ops, o.perm t ≠ d := by
  induction firsts with
  | nil => simp [findSource]
  | cons e rest ih =>
    unfold findSource
    split
    · next o ho =>
      obtain ⟨h1, h2, _⟩ := chooseOp_some ho
      simp only [reduceCtorEq, false_iff]
      intro h
      exact h e (by simp) o h1 h2
    · next hn =>
      rw [ih]
      rw [chooseOp_none] at hn
      constructor
      · intro h d hd o ho
        rcases List.mem_cons.mp hd with rfl | hd
        · exact hn o ho
        · exact h d hd o ho
      · intro h d hd
        exact h d (by simp [hd])

theorem distributeFc3_isSome {n : Nat} {s2c : Nat → Nat} {ops : List (SymOp K)}
    {firsts targets : List Nat} {A : Int → K} :
    (distributeFc3 n s2c ops firsts targets A).isSome ↔
      ∀ t ∈ targets, ∃ d ∈ firsts, ∃ o ∈ ops, o.perm t = d := by
  induction targets generalizing A with
  | nil => simp [distributeFc3]
  | cons t rest ih =>
    unfold distributeFc3 distributeTarget
    cases hs : findSource ops t firsts with
    | none =>
      rw [findSource_none] at hs
      simp only [Option.map_none, Option.isSome_none, Bool.false_eq_true, false_iff]
      intro h
      obtain ⟨d, hd, o, ho, he⟩ := h t (by simp)
      exact hs d hd o ho he
    | some d =>
      simp only [Option.map_some]
      rw [ih]
      obtain ⟨h1, h2⟩ := findSource_some hs
      obtain ⟨h3, h4, _⟩ := chooseOp_some h2
      constructor
      · intro h t' ht'
        rcases List.mem_cons.mp ht' with rfl | ht'
        · exact ⟨d.1, h1, d.2, h3, h4⟩
        · exact h t' ht'
      · intro h t' ht'
        exact h t' (by simp [ht'])

/-! ### Distribution of symmetric force constants -/

theorem setAtom_slot {n : Nat} {x : Legs} (hx : Legs.Valid n x) (row : Nat) :
    Slot n (setAtom x 0 row) := by
  refine ⟨?_, ?_, fun s => ?_⟩
  · show (Function.update x 0 (row, (x 0).2) 1).1 < n
    rw [Function.update_of_ne (by decide)]; exact (hx 1).1
  · show (Function.update x 0 (row, (x 0).2) 2).1 < n
    rw [Function.update_of_ne (by decide)]; exact (hx 2).1
  · unfold setAtom
    by_cases h : s = 0
    · subst h; rw [Function.update_self]; exact (hx 0).2
    · rw [Function.update_of_ne h]; exact (hx s).2

theorem setAtom_zero (x : Legs) (row : Nat) :
    setAtom x 0 row = ![(row, (x 0).2), x 1, x 2] := by
  funext s; fin_cases s <;> rfl

/-- A symmetry operation of a supercell with `n` atoms that leaves `f` invariant. -/
def SymOp.Ok (n : Nat) (f : Legs → K) (o : SymOp K) : Prop :=
  (∀ i < n, o.perm i < n) ∧ Orthogonal o.rotCart ∧ InvariantUnder n o.perm o.rotCart f

theorem distributeTarget_holds {n : Nat} {s2c : Nat → Nat} {ops : List (SymOp K)}
    {firsts : List Nat} {f : Legs → K} {A A' : Int → K} {t : Nat}
    (hops : ∀ o ∈ ops, o.Ok n f)
    (hf : ∀ d ∈ firsts, HoldsRow n A (s2c d) d f) (hne : ∀ d ∈ firsts, s2c t ≠ s2c d)
    (hA : distributeTarget n s2c ops firsts A t = some A') :
    HoldsRow n A' (s2c t) t f ∧
      (∀ row i, row ≠ s2c t → HoldsRow n A row i f → HoldsRow n A' row i f) ∧
      (∀ p : Int, (∀ x, Slot n x → (x 0).1 = s2c t → p ≠ (fc3Pos n x : Nat)) → A' p = A p) := by
  unfold distributeTarget at hA
  obtain ⟨⟨d, o⟩, hs, rfl⟩ := Option.map_eq_some_iff.mp hA
  obtain ⟨hd, hc⟩ := findSource_some hs
  obtain ⟨ho, hp, _⟩ := chooseOp_some hc
  obtain ⟨hlt, horth, hinv⟩ := hops o ho
  simp only at hd hp ⊢
  refine ⟨?_, ?_, fun p hp => distributeRow_other _ A hp⟩
  · intro x hx h0
    rw [distributeRow_value hlt (hne d hd) _ A (setAtom_slot hx _) (by rw [setAtom_zero]; rfl)]
    rw [← invariant_back hinv horth hx]
    unfold rotatedSource
    rw [setAtom_zero]
    refine Finset.sum_congr rfl fun a ha => Finset.sum_congr rfl fun b hb =>
      Finset.sum_congr rfl fun c hc => ?_
    rw [Finset.mem_range] at ha hb hc
    have := hf d hd ![(d, a), (o.perm (x 1).1, b), (o.perm (x 2).1, c)] (by
      intro s
      fin_cases s
      · exact ⟨by show d < n; rw [← hp, ← h0]; exact hlt _ (hx 0).1, ha⟩
      · exact ⟨hlt _ (hx 1).1, hb⟩
      · exact ⟨hlt _ (hx 2).1, hc⟩) rfl
    rw [setAtom_zero] at this
    rw [h0, hp, ← this]
    rfl
  · intro row i hr h x hx h0
    rw [distributeRow_other _ A, h x hx h0]
    intro y hy hy0 he
    have := fc3Pos_inj (setAtom_slot hx row) hy (Int.ofNat.inj he)
    apply hr
    rw [← hy0, ← this, setAtom_zero]
    rfl

theorem distributeFc3_holds {n : Nat} {s2c : Nat → Nat} {ops : List (SymOp K)}
    {firsts : List Nat} {f : Legs → K} (hops : ∀ o ∈ ops, o.Ok n f) (targets : List Nat) :
    ∀ (P : Nat → Prop) (A A' : Int → K), (∀ d ∈ firsts, P d) →
      (∀ i, P i → HoldsRow n A (s2c i) i f) → (∀ t ∈ targets, t ∉ firsts) →
      (∀ t ∈ targets, ∀ i, P i ∨ i ∈ targets → s2c i = s2c t → i = t) →
      distributeFc3 n s2c ops firsts targets A = some A' →
      (∀ i, P i ∨ i ∈ targets → HoldsRow n A' (s2c i) i f) ∧
      (∀ p : Int, (∀ t ∈ targets, ∀ x, Slot n x → (x 0).1 = s2c t → p ≠ (fc3Pos n x : Nat)) →
        A' p = A p) := by
  induction targets with
  | nil =>
    intro P A A' _ hA _ _ h
    obtain rfl : A = A' := Option.some.inj h
    exact ⟨fun i hi => hA i (hi.resolve_right (by simp)), fun _ _ => rfl⟩
  | cons t rest ih =>
    intro P A A' hP hA hnf hinj h
    unfold distributeFc3 at h
    split at h
    · next A1 hA1 =>
      obtain ⟨g1, g2, g3⟩ := distributeTarget_holds hops (fun d hd => hA d (hP d hd))
        (fun d hd he => hnf t (by simp)
          (by rw [← hinj t (by simp) d (Or.inl (hP d hd)) he.symm]; exact hd)) hA1
      obtain ⟨k1, k2⟩ := ih (fun i => P i ∨ i = t) A1 A' (fun d hd => Or.inl (hP d hd))
        (by
          intro i hi
          by_cases he : s2c i = s2c t
          · rw [hinj t (by simp) i (hi.imp_right fun h => by simp [h]) he]; exact g1
          · rcases hi with hi | rfl
            · exact g2 _ _ he (hA i hi)
            · exact g1)
        (fun t' ht' => hnf t' (by simp [ht']))
        (fun t' ht' i hi he => hinj t' (by simp [ht']) i (by
          rcases hi with (hi | rfl) | hi
          · exact Or.inl hi
          · exact Or.inr (by simp)
          · exact Or.inr (by simp [hi])) he) h
      refine ⟨fun i hi => k1 i ?_, fun p hp => ?_⟩
      · rcases hi with hi | hi
        · exact Or.inl (Or.inl hi)
        · rcases List.mem_cons.mp hi with rfl | hi
          · exact Or.inl (Or.inr rfl)
          · exact Or.inr hi
      · rw [k2 p fun t' ht' => hp t' (by simp [ht']), g3 p (hp t (by simp))]
    · exact absurd h (by simp)

/-! ### Solution for one first atom -/

theorem tensor2RotationElem_eq (tensor : Nat → Nat → K) (r : Nat → Nat → K) (i j : Nat) :
    tensor2RotationElem tensor r i j =
      ∑ k ∈ Finset.range 3, ∑ l ∈ Finset.range 3, r i k * r j l * tensor k l := by
  unfold tensor2RotationElem
  simp only [sumLoop_eq]

/-- Element `[l][m]` of `delta_fc2s` of displacement `d`, rotated by site operation `s`. -/
def rotatedDelta (s : SiteData K) (i j d sym l m : Nat) : K :=
  ∑ k ∈ Finset.range 3, ∑ k' ∈ Finset.range 3, s.siteSymCart sym l k * s.siteSymCart sym m k' *
    s.deltaFc2s (d * s.numAtom * s.numAtom + s.rotMapSyms (sym * s.numAtom + i) * s.numAtom +
      s.rotMapSyms (sym * s.numAtom + j)) k k'

theorem rotateDelta_buffer (s : SiteData K) (mem : Int → K) (i j : Nat) {d sym l m : Nat}
    (hd : d < s.numDisp) (hs : sym < s.numSym) (hl : l < 3) (hm : m < 3) :
    runWrites mem (rotateDeltaStores s i j) ((d * s.numSym + sym) * 9 + l * 3 + m : Nat) =
      rotatedDelta s i j d sym l m := by
  have hmem : ∀ w : Int × K, w ∈ rotateDeltaStores s i j ↔
      ∃ d < s.numDisp, ∃ sym < s.numSym, ∃ l < 3, ∃ m < 3,
        w = ((((d * s.numSym + sym) * 9 + l * 3 + m : Nat) : Int),
          rotatedDelta s i j d sym l m) := by
    intro w
    unfold rotateDeltaStores
    simp only [mem_loop, List.mem_singleton, tensor2RotationElem_eq]
    rfl
  refine runWrites_value mem _ ?_
    ((((d * s.numSym + sym) * 9 + l * 3 + m : Nat) : Int), rotatedDelta s i j d sym l m)
    ((hmem _).mpr ⟨d, hd, sym, hs, l, hl, m, hm, rfl⟩)
  intro u hu w hw he
  obtain ⟨d1, hd1, s1, hs1, l1, hl1, m1, hm1, rfl⟩ := (hmem u).mp hu
  obtain ⟨d2, hd2, s2, hs2, l2, hl2, m2, hm2, rfl⟩ := (hmem w).mp hw
  have he' : (d1 * s.numSym + s1) * 9 + l1 * 3 + m1 = (d2 * s.numSym + s2) * 9 + l2 * 3 + m2 :=
    Int.ofNat.inj he
  have e1 : d1 * s.numSym + s1 = d2 * s.numSym + s2 := by omega
  have e2 : l1 = l2 := by omega
  have e3 : m1 = m2 := by omega
  obtain ⟨e4, e5⟩ := digits2 hs1 hs2 e1
  subst e2 e3 e4 e5
  rfl

/-- Element of the solution for atoms `i`, `j` and directions `k`, `l`, `m`. -/
def solvedElem (s : SiteData K) (i j k l m : Nat) : K :=
  ∑ d ∈ Finset.range s.numDisp, ∑ sym ∈ Finset.range s.numSym,
    s.invU (k * s.numSym * s.numDisp + (d * s.numSym + sym)) * rotatedDelta s i j d sym l m

theorem rotateDeltaStep_fst (s : SiteData K) (st : (Int → K) × (Int → K)) (q : Nat) :
    (rotateDeltaStep s st q).1 = runWrites st.1 (loop 3 fun k => loop 3 fun l => loop 3 fun m =>
      [((q * 27 + k * 9 + l * 3 + m : Nat),
        solvedElem s (q / s.numAtom) (q % s.numAtom) k l m)]) := by
  unfold rotateDeltaStep
  simp only
  congr 1
  unfold loop
  apply List.flatMap_congr
  intro k _
  apply List.flatMap_congr
  intro l hl
  apply List.flatMap_congr
  intro m hm
  rw [List.mem_range] at hl hm
  congr 2
  rw [sumLoop_eq, mul_comm s.numSym, sum_pairs]
  unfold solvedElem
  refine Finset.sum_congr rfl fun d hd => Finset.sum_congr rfl fun sym hs => ?_
  rw [Finset.mem_range] at hd hs
  have h := rotateDelta_buffer s st.2 (q / s.numAtom) (q % s.numAtom) hd hs hl hm
  exact congrArg (HMul.hMul (s.invU (k * s.numSym * s.numDisp + (d * s.numSym + sym)))) h

theorem rotateDelta_fold (s : SiteData K) (A mem : Int → K) (N : Nat) {q k l m : Nat}
    (hq : q < N) (hk : k < 3) (hl : l < 3) (hm : m < 3) :
    ((List.range N).foldl (rotateDeltaStep s) (A, mem)).1 (q * 27 + k * 9 + l * 3 + m : Nat) =
      solvedElem s (q / s.numAtom) (q % s.numAtom) k l m := by
  induction N with
  | zero => omega
  | succ N ih =>
    rw [List.range_succ, List.foldl_append, List.foldl_cons, List.foldl_nil, rotateDeltaStep_fst]
    have hmem : ∀ w : Int × K, w ∈ (loop 3 fun k => loop 3 fun l => loop 3 fun m =>
        [(((N * 27 + k * 9 + l * 3 + m : Nat) : Int),
          solvedElem s (N / s.numAtom) (N % s.numAtom) k l m)]) ↔
        ∃ k < 3, ∃ l < 3, ∃ m < 3, w = (((N * 27 + k * 9 + l * 3 + m : Nat) : Int),
          solvedElem s (N / s.numAtom) (N % s.numAtom) k l m) := by
      intro w
      simp only [mem_loop, List.mem_singleton]
    rcases Nat.lt_succ_iff_lt_or_eq.mp hq with h | rfl
    · rw [runWrites_untouched, ih h]
      intro w hw he
      obtain ⟨k', hk', l', hl', m', hm', rfl⟩ := (hmem w).mp hw
      have he' : N * 27 + k' * 9 + l' * 3 + m' = q * 27 + k * 9 + l * 3 + m := Int.ofNat.inj he
      omega
    · refine runWrites_value _ _ ?_ ((_ : Int), _) ((hmem _).mpr ⟨k, hk, l, hl, m, hm, rfl⟩)
      intro u hu w hw he
      obtain ⟨k1, hk1, l1, hl1, m1, hm1, rfl⟩ := (hmem u).mp hu
      obtain ⟨k2, hk2, l2, hl2, m2, hm2, rfl⟩ := (hmem w).mp hw
      have he' : q * 27 + k1 * 9 + l1 * 3 + m1 = q * 27 + k2 * 9 + l2 * 3 + m2 :=
        Int.ofNat.inj he
      have e1 : k1 = k2 := by omega
      have e2 : l1 = l2 := by omega
      have e3 : m1 = m2 := by omega
      subst e1 e2 e3
      rfl

/-- Displacements of one first atom that determine its row of `f`: the changes of fc2 are those
induced by the displacements `u d`, the site operations leave the atom in place and `f`
invariant, `rot_map_syms` is the inverse of their action on atoms, and `inv_U` is a left inverse
of the matrix with rows `R_sym u_d`. -/
structure SiteData.Fits (s : SiteData K) (f : Legs → K) (first : Nat) (u : Nat → Nat → K)
    (perm : Nat → Nat → Nat) : Prop where
  first_lt : first < s.numAtom
  delta : ∀ d < s.numDisp, ∀ i < s.numAtom, ∀ j < s.numAtom, ∀ l < 3, ∀ m < 3,
    s.deltaFc2s (d * s.numAtom * s.numAtom + i * s.numAtom + j) l m =
      inducedFc2 f first (u d) i j l m
  fixed : ∀ sym < s.numSym, perm sym first = first
  orth : ∀ sym < s.numSym, Orthogonal (s.siteSymCart sym)
  inv : ∀ sym < s.numSym, InvariantUnder s.numAtom (perm sym) (s.siteSymCart sym) f
  map_lt : ∀ sym < s.numSym, ∀ i < s.numAtom, s.rotMapSyms (sym * s.numAtom + i) < s.numAtom
  map_inv : ∀ sym < s.numSym, ∀ i < s.numAtom,
    perm sym (s.rotMapSyms (sym * s.numAtom + i)) = i
  pinv : ∀ k < 3, ∀ k' < 3, ∑ d ∈ Finset.range s.numDisp, ∑ sym ∈ Finset.range s.numSym,
    s.invU (k * s.numSym * s.numDisp + (d * s.numSym + sym)) *
      (∑ a ∈ Finset.range 3, s.siteSymCart sym k' a * u d a) = if k = k' then 1 else 0

theorem rotatedDelta_eq {s : SiteData K} {f : Legs → K} {first : Nat} {u : Nat → Nat → K}
    {perm : Nat → Nat → Nat} (h : s.Fits f first u perm) {i j d sym l m : Nat}
    (hi : i < s.numAtom) (hj : j < s.numAtom) (hd : d < s.numDisp) (hs : sym < s.numSym)
    (hl : l < 3) (hm : m < 3) :
    rotatedDelta s i j d sym l m =
      ∑ k ∈ Finset.range 3, (∑ a ∈ Finset.range 3, s.siteSymCart sym k a * u d a) *
        f ![(first, k), (i, l), (j, m)] := by
  have hinv : ∀ k ∈ Finset.range 3, f ![(first, k), (i, l), (j, m)] =
      ∑ a ∈ Finset.range 3, ∑ b ∈ Finset.range 3, ∑ c ∈ Finset.range 3,
        s.siteSymCart sym k a * s.siteSymCart sym l b * s.siteSymCart sym m c *
          f ![(first, a), (s.rotMapSyms (sym * s.numAtom + i), b),
            (s.rotMapSyms (sym * s.numAtom + j), c)] := by
    intro k hk
    rw [Finset.mem_range] at hk
    have := h.inv sym hs ![(first, k), (s.rotMapSyms (sym * s.numAtom + i), l),
      (s.rotMapSyms (sym * s.numAtom + j), m)] (by
        intro r
        fin_cases r
        · exact ⟨h.first_lt, hk⟩
        · exact ⟨h.map_lt sym hs i hi, hl⟩
        · exact ⟨h.map_lt sym hs j hj, hm⟩)
    rw [moveAtoms_set, h.fixed sym hs, h.map_inv sym hs i hi, h.map_inv sym hs j hj] at this
    exact this
  rw [Finset.sum_congr rfl fun k hk => by rw [hinv k hk]]
  -- collapse the sum over the direction of the displacement
  have key : ∀ F : Nat → K, ∑ k ∈ Finset.range 3,
      (∑ a ∈ Finset.range 3, s.siteSymCart sym k a * u d a) *
        (∑ a' ∈ Finset.range 3, s.siteSymCart sym k a' * F a') =
      ∑ a ∈ Finset.range 3, u d a * F a := by
    intro F
    have e : ∑ k ∈ Finset.range 3, (∑ a ∈ Finset.range 3, s.siteSymCart sym k a * u d a) *
        (∑ a' ∈ Finset.range 3, s.siteSymCart sym k a' * F a') =
        ∑ a ∈ Finset.range 3, u d a * ∑ k ∈ Finset.range 3, s.siteSymCart sym k a *
          ∑ a' ∈ Finset.range 3, s.siteSymCart sym k a' * F a' := by
      simp only [Finset.sum_range_succ, Finset.sum_range_zero]
      ring
    rw [e]
    refine Finset.sum_congr rfl fun a ha => ?_
    rw [orth_collapse (h.orth sym hs) F (Finset.mem_range.mp ha)]
  have e1 : ∀ k ∈ Finset.range 3, ∑ a ∈ Finset.range 3, ∑ b ∈ Finset.range 3,
      ∑ c ∈ Finset.range 3,
        s.siteSymCart sym k a * s.siteSymCart sym l b * s.siteSymCart sym m c *
          f ![(first, a), (s.rotMapSyms (sym * s.numAtom + i), b),
            (s.rotMapSyms (sym * s.numAtom + j), c)] =
      ∑ a ∈ Finset.range 3, s.siteSymCart sym k a * ∑ b ∈ Finset.range 3,
        ∑ c ∈ Finset.range 3, s.siteSymCart sym l b * s.siteSymCart sym m c *
          f ![(first, a), (s.rotMapSyms (sym * s.numAtom + i), b),
            (s.rotMapSyms (sym * s.numAtom + j), c)] := by
    intro k _
    simp only [Finset.mul_sum]
    refine Finset.sum_congr rfl fun a _ => Finset.sum_congr rfl fun b _ =>
      Finset.sum_congr rfl fun c _ => ?_
    ring
  rw [Finset.sum_congr rfl fun k hk => by rw [e1 k hk], key]
  unfold rotatedDelta
  have e2 : ∀ b ∈ Finset.range 3, ∀ c ∈ Finset.range 3,
      s.deltaFc2s (d * s.numAtom * s.numAtom + s.rotMapSyms (sym * s.numAtom + i) * s.numAtom +
        s.rotMapSyms (sym * s.numAtom + j)) b c =
      ∑ a ∈ Finset.range 3, u d a * f ![(first, a), (s.rotMapSyms (sym * s.numAtom + i), b),
        (s.rotMapSyms (sym * s.numAtom + j), c)] := fun b hb c hc =>
    h.delta d hd _ (h.map_lt sym hs i hi) _ (h.map_lt sym hs j hj) b (Finset.mem_range.mp hb) c
      (Finset.mem_range.mp hc)
  rw [Finset.sum_congr rfl fun b hb => Finset.sum_congr rfl fun c hc => by rw [e2 b hb c hc]]
  simp only [Finset.mul_sum]
  rw [Finset.sum_congr rfl fun b _ => Finset.sum_comm, Finset.sum_comm]
  refine Finset.sum_congr rfl fun a _ => Finset.sum_congr rfl fun b _ =>
    Finset.sum_congr rfl fun c _ => ?_
  ring

theorem solvedElem_eq {s : SiteData K} {f : Legs → K} {first : Nat} {u : Nat → Nat → K}
    {perm : Nat → Nat → Nat} (h : s.Fits f first u perm) {i j k l m : Nat}
    (hi : i < s.numAtom) (hj : j < s.numAtom) (hk : k < 3) (hl : l < 3) (hm : m < 3) :
    solvedElem s i j k l m = f ![(first, k), (i, l), (j, m)] := by
  unfold solvedElem
  rw [Finset.sum_congr rfl fun d hd => Finset.sum_congr rfl fun sym hs => by
    rw [rotatedDelta_eq h hi hj (Finset.mem_range.mp hd) (Finset.mem_range.mp hs) hl hm]]
  have e : ∑ d ∈ Finset.range s.numDisp, ∑ sym ∈ Finset.range s.numSym,
      s.invU (k * s.numSym * s.numDisp + (d * s.numSym + sym)) *
        ∑ k' ∈ Finset.range 3, (∑ a ∈ Finset.range 3, s.siteSymCart sym k' a * u d a) *
          f ![(first, k'), (i, l), (j, m)] =
      ∑ k' ∈ Finset.range 3, (∑ d ∈ Finset.range s.numDisp, ∑ sym ∈ Finset.range s.numSym,
        s.invU (k * s.numSym * s.numDisp + (d * s.numSym + sym)) *
          (∑ a ∈ Finset.range 3, s.siteSymCart sym k' a * u d a)) *
            f ![(first, k'), (i, l), (j, m)] := by
    simp only [Finset.mul_sum _ _ (s.invU _), Finset.sum_mul _ _ (f _)]
    rw [Finset.sum_congr rfl fun d _ => Finset.sum_comm, Finset.sum_comm]
    refine Finset.sum_congr rfl fun a _ => Finset.sum_congr rfl fun b _ =>
      Finset.sum_congr rfl fun c _ => ?_
    refine Finset.sum_congr rfl fun x _ => ?_
    ring
  rw [e, Finset.sum_congr rfl fun k' hk' => by rw [h.pinv k hk k' (Finset.mem_range.mp hk')]]
  simp [hk]

/-! ### Rows of the least atoms -/

theorem setRow_value (n row : Nat) (first A : Int → K) {p : Nat} (hp : p < n * n * 27) :
    setRow n row first A (row * n * n * 27 + p : Nat) = first (p : Nat) := by
  unfold setRow
  refine runWrites_value A _ ?_ (((row * n * n * 27 + p : Nat) : Int), first (p : Nat))
    (List.mem_map.mpr ⟨p, List.mem_range.mpr hp, rfl⟩)
  intro u hu w hw he
  obtain ⟨a, _, rfl⟩ := List.mem_map.mp hu
  obtain ⟨b, _, rfl⟩ := List.mem_map.mp hw
  have : row * n * n * 27 + a = row * n * n * 27 + b := Int.ofNat.inj he
  have : a = b := by omega
  subst this
  rfl

theorem fc3Pos_row (n : Nat) (x : Legs) :
    fc3Pos n x = (x 0).1 * n * n * 27 +
      (((((x 1).1 * n + (x 2).1) * 3 + (x 0).2) * 3 + (x 1).2) * 3 + (x 2).2) := by
  unfold fc3Pos; ring

theorem row_rest_lt {n : Nat} {x : Legs} (hx : Slot n x) :
    ((((x 1).1 * n + (x 2).1) * 3 + (x 0).2) * 3 + (x 1).2) * 3 + (x 2).2 < n * n * 27 := by
  have h := digits_lt hx.1 hx.2.1
  have h0 := hx.2.2 0
  have h1 := hx.2.2 1
  have h2 := hx.2.2 2
  generalize n * n = N at *
  generalize (x 1).1 * n + (x 2).1 = q at *
  omega

theorem setRow_other (n row : Nat) (first A : Int → K) {x : Legs} (hx : Slot n x)
    (h : (x 0).1 ≠ row) : setRow n row first A (fc3Pos n x : Nat) = A (fc3Pos n x : Nat) := by
  unfold setRow
  apply runWrites_untouched
  intro w hw he
  obtain ⟨p, hp, rfl⟩ := List.mem_map.mp hw
  have he' : row * n * n * 27 + p = fc3Pos n x := Int.ofNat.inj he
  rw [fc3Pos_row] at he'
  have hp' := List.mem_range.mp hp
  have hr := row_rest_lt hx
  rw [mul_assoc row n n, mul_assoc (x 0).1 n n, mul_assoc row, mul_assoc (x 0).1] at he'
  exact h (digits2 hp' hr he').1.symm

/-- Rows written by a sequence of assignments. -/
theorem leastAtoms_holds {n : Nat} {row : Nat → Nat} {solve : Nat → Int → K} {f : Legs → K}
    (firsts : List Nat) :
    ∀ (P : Nat → Prop) (A : Int → K),
      (∀ i ∈ firsts, ∀ x, Legs.Valid n x → (x 0).1 = i →
        solve i (((((x 1).1 * n + (x 2).1) * 3 + (x 0).2) * 3 + (x 1).2) * 3 + (x 2).2 : Nat) =
          f x) →
      (∀ i, P i → HoldsRow n A (row i) i f) →
      (∀ t ∈ firsts, ∀ i, P i ∨ i ∈ firsts → row i = row t → i = t) →
      ∀ i, P i ∨ i ∈ firsts →
        HoldsRow n (firsts.foldl (fun A i => setRow n (row i) (solve i) A) A) (row i) i f := by
  induction firsts with
  | nil => intro P A _ hA _ i hi; exact hA i (hi.resolve_right (by simp))
  | cons t rest ih =>
    intro P A hs hA hinj i hi
    rw [List.foldl_cons]
    have ht : HoldsRow n (setRow n (row t) (solve t) A) (row t) t f := by
      intro x hx h0
      have e : fc3Pos n (setAtom x 0 (row t)) = row t * n * n * 27 +
          (((((x 1).1 * n + (x 2).1) * 3 + (x 0).2) * 3 + (x 1).2) * 3 + (x 2).2) := by
        rw [setAtom_zero, fc3Pos_row]; rfl
      rw [e, setRow_value _ _ _ _ (row_rest_lt (Legs.Valid.slot hx))]
      exact hs t (by simp) x hx h0
    refine ih (fun i => P i ∨ i = t) _ (fun i hi => hs i (by simp [hi])) ?_ ?_ i ?_
    · intro j hj
      by_cases he : row j = row t
      · rw [hinj t (by simp) j (hj.imp_right fun h => by simp [h]) he]; exact ht
      · rcases hj with hj | rfl
        · intro x hx h0
          rw [setRow_other _ _ _ _ (setAtom_slot hx _) (by rw [setAtom_zero]; exact he)]
          exact hA j hj x hx h0
        · exact ht
    · intro t' ht' j hj he
      refine hinj t' (by simp [ht']) j ?_ he
      rcases hj with (hj | rfl) | hj
      · exact Or.inl hj
      · exact Or.inr (by simp)
      · exact Or.inr (by simp [hj])
    · rcases hi with hi | hi
      · exact Or.inl (Or.inl hi)
      · rcases List.mem_cons.mp hi with rfl | hi
        · exact Or.inl (Or.inr rfl)
        · exact Or.inr hi

/-! ### Cutoff pairs -/

section
variable [LinearOrder K] [IsStrictOrderedRing K]

theorem sum_perm_comp {M : Type _} [AddCommMonoid M] (g : Legs → M) (x : Legs)
    (τ : Equiv.Perm (Fin 3)) :
    ∑ σ : Equiv.Perm (Fin 3), g ((x ∘ τ) ∘ σ) = ∑ σ : Equiv.Perm (Fin 3), g (x ∘ σ) :=
  Fintype.sum_equiv (Equiv.mulLeft τ) _ _ fun σ => rfl

theorem weightedMean_perm (w : Legs → Nat) (f : Legs → K) (x : Legs) (τ : Equiv.Perm (Fin 3)) :
    weightedMean w f (x ∘ τ) = weightedMean w f x := by
  unfold weightedMean
  rw [sum_perm_comp w x τ, sum_perm_comp (fun y => (w y : K) * f y) x τ]

theorem weightedMean_congr {w : Legs → Nat} {f g : Legs → K} {x : Legs}
    (h : ∀ σ : Equiv.Perm (Fin 3), f (x ∘ σ) = g (x ∘ σ)) :
    weightedMean w f x = weightedMean w g x := by
  unfold weightedMean
  have e : ∑ σ : Equiv.Perm (Fin 3), (w (x ∘ σ) : K) * f (x ∘ σ) =
      ∑ σ : Equiv.Perm (Fin 3), (w (x ∘ σ) : K) * g (x ∘ σ) :=
    Finset.sum_congr rfl fun σ _ => by rw [h σ]
  rw [e]

theorem weightedMean_of_const {w : Legs → Nat} {f : Legs → K} {x : Legs} {v : K}
    (h : ∀ σ : Equiv.Perm (Fin 3), 0 < w (x ∘ σ) → f (x ∘ σ) = v)
    (hw : 0 < ∑ σ : Equiv.Perm (Fin 3), w (x ∘ σ)) :
    weightedMean w f x = v := by
  unfold weightedMean
  rw [if_pos hw]
  have e : ∑ σ : Equiv.Perm (Fin 3), (w (x ∘ σ) : K) * f (x ∘ σ) =
      ((∑ σ : Equiv.Perm (Fin 3), w (x ∘ σ) : Nat) : K) * v := by
    rw [Nat.cast_sum, Finset.sum_mul]
    refine Finset.sum_congr rfl fun σ _ => ?_
    rcases Nat.eq_zero_or_pos (w (x ∘ σ)) with h0 | h0
    · rw [h0]; simp
    · rw [h σ h0]
  rw [e, mul_comm]
  exact mul_div_cancel_right₀ v (Nat.cast_ne_zero.mpr hw.ne')

theorem weightedMean_fix {w : Legs → Nat} {f g : Legs → K} {x : Legs}
    (h : ∀ σ : Equiv.Perm (Fin 3), f (x ∘ σ) = weightedMean w g x) :
    weightedMean w f x = weightedMean w g x := by
  by_cases hw : 0 < ∑ σ : Equiv.Perm (Fin 3), w (x ∘ σ)
  · exact weightedMean_of_const (fun σ _ => h σ) hw
  · unfold weightedMean
    rw [if_neg hw, if_neg hw]

/-- Weight of an element from the flags of its atoms. -/
def flagOf (done : Nat → Nat → Nat → Nat) (x : Legs) : Nat := done (x 0).1 (x 1).1 (x 2).1

theorem cutoffElem_eq (n : Nat) (A : Int → K) (done : Nat → Nat → Nat → Nat)
    (a b c i j k : Nat) :
    cutoffElem n A done a b c i j k =
      weightedMean (flagOf done) (fun y => A (fc3Pos n y : Nat)) ![(a, i), (b, j), (c, k)] := by
  unfold weightedMean cutoffElem
  rw [sum_perm3 (flagOf done) ![(a, i), (b, j), (c, k)],
    sum_perm3 (fun y => (flagOf done y : K) * A ((fc3Pos n y : Nat) : Int))
      ![(a, i), (b, j), (c, k)]]
  simp only [fc3Adr_eq]
  have e : flagOf done ![(a, i), (b, j), (c, k)] = done a b c := rfl
  have h1 : flagOf done ![![(a, i), (b, j), (c, k)] 0, ![(a, i), (b, j), (c, k)] 1,
    ![(a, i), (b, j), (c, k)] 2] = done a b c := rfl
  have h2 : flagOf done ![![(a, i), (b, j), (c, k)] 0, ![(a, i), (b, j), (c, k)] 2,
    ![(a, i), (b, j), (c, k)] 1] = done a c b := rfl
  have h3 : flagOf done ![![(a, i), (b, j), (c, k)] 1, ![(a, i), (b, j), (c, k)] 0,
    ![(a, i), (b, j), (c, k)] 2] = done b a c := rfl
  have h4 : flagOf done ![![(a, i), (b, j), (c, k)] 1, ![(a, i), (b, j), (c, k)] 2,
    ![(a, i), (b, j), (c, k)] 0] = done b c a := rfl
  have h5 : flagOf done ![![(a, i), (b, j), (c, k)] 2, ![(a, i), (b, j), (c, k)] 0,
    ![(a, i), (b, j), (c, k)] 1] = done c a b := rfl
  have h6 : flagOf done ![![(a, i), (b, j), (c, k)] 2, ![(a, i), (b, j), (c, k)] 1,
    ![(a, i), (b, j), (c, k)] 0] = done c b a := rfl
  rw [h1, h2, h3, h4, h5, h6]
  have es : done a b c + done c a b + done b c a + done b a c + done c b a + done a c b =
      done a b c + done a c b + done b a c + done b c a + done c a b + done c b a := by ring
  rw [es]
  by_cases hpos : 0 < done a b c + done a c b + done b a c + done b c a + done c a b + done c b a
  · rw [if_pos hpos, if_pos hpos]
    congr 1
    show A (fc3Pos n ![(a, i), (b, j), (c, k)] : Nat) * (done a b c : K) +
      A (fc3Pos n ![(c, k), (a, i), (b, j)] : Nat) * (done c a b : K) +
      A (fc3Pos n ![(b, j), (c, k), (a, i)] : Nat) * (done b c a : K) +
      A (fc3Pos n ![(a, i), (c, k), (b, j)] : Nat) * (done a c b : K) +
      A (fc3Pos n ![(b, j), (a, i), (c, k)] : Nat) * (done b a c : K) +
      A (fc3Pos n ![(c, k), (b, j), (a, i)] : Nat) * (done c b a : K) =
      (done a b c : K) * A (fc3Pos n ![(a, i), (b, j), (c, k)] : Nat) +
      (done a c b : K) * A (fc3Pos n ![(a, i), (c, k), (b, j)] : Nat) +
      (done b a c : K) * A (fc3Pos n ![(b, j), (a, i), (c, k)] : Nat) +
      (done b c a : K) * A (fc3Pos n ![(b, j), (c, k), (a, i)] : Nat) +
      (done c a b : K) * A (fc3Pos n ![(c, k), (a, i), (b, j)] : Nat) +
      (done c b a : K) * A (fc3Pos n ![(c, k), (b, j), (a, i)] : Nat)
    ring
  · rw [if_neg hpos, if_neg hpos]

theorem or_six (p1 p2 p3 p4 p5 p6 : Prop) :
    (p1 ∨ p5 ∨ p4 ∨ p2 ∨ p3 ∨ p6) ↔ (p1 ∨ p2 ∨ p3 ∨ p4 ∨ p5 ∨ p6) := by
  tauto

theorem mem_copyPermElemPy {n : Nat} {elem : Nat → Nat → Nat → K} {a b c : Nat} {w : Int × K} :
    w ∈ copyPermElemPy n elem a b c ↔ ∃ i < 3, ∃ j < 3, ∃ k < 3, ∃ σ : Equiv.Perm (Fin 3),
      w = (((fc3Pos n ((![(a, i), (b, j), (c, k)] : Legs) ∘ σ) : Nat) : Int), elem i j k) := by
  have h6 : ∀ i j k, w ∈ [(fc3Adr n a b c i j k, elem i j k), (fc3Adr n c a b k i j, elem i j k),
      (fc3Adr n b c a j k i, elem i j k), (fc3Adr n a c b i k j, elem i j k),
      (fc3Adr n b a c j i k, elem i j k), (fc3Adr n c b a k j i, elem i j k)] ↔
      ∃ σ : Equiv.Perm (Fin 3),
        w = (((fc3Pos n ((![(a, i), (b, j), (c, k)] : Legs) ∘ σ) : Nat) : Int), elem i j k) := by
    intro i j k
    have e : (∃ σ : Equiv.Perm (Fin 3),
        w = (((fc3Pos n ((![(a, i), (b, j), (c, k)] : Legs) ∘ σ) : Nat) : Int), elem i j k)) ↔
        ∃ y ∈ sixLegs ![(a, i), (b, j), (c, k)], w = (((fc3Pos n y : Nat) : Int), elem i j k) := by
      constructor
      · rintro ⟨σ, h⟩; exact ⟨_, mem_sixLegs.mpr ⟨σ, rfl⟩, h⟩
      · rintro ⟨y, hy, h⟩
        obtain ⟨σ, rfl⟩ := mem_sixLegs.mp hy
        exact ⟨σ, h⟩
    rw [e]
    simp only [fc3Adr_eq, sixLegs, List.mem_cons, List.not_mem_nil, or_false, exists_eq_or_imp,
      exists_eq_left]
    exact or_six _ _ _ _ _ _
  unfold copyPermElemPy
  simp only [mem_loop, h6]

/-- One block: elements with these atoms become weighted averages, the others stay. -/
theorem cutoffStep_spec (n : Nat) (done : Nat → Nat → Nat → Nat) (A : Int → K)
    (t : Nat × Nat × Nat) (ht : t.1 < n ∧ t.2.1 < n ∧ t.2.2 < n) :
    (∀ x ∈ blockLegs t, cutoffStep n done A t (fc3Pos n x : Nat) =
      weightedMean (flagOf done) (fun y => A (fc3Pos n y : Nat)) x) ∧
    (∀ p : Int, (∀ x ∈ blockLegs t, p ≠ (fc3Pos n x : Nat)) → cutoffStep n done A t p = A p) := by
  have hmem : ∀ w : Int × K, w ∈ copyPermElemPy n (cutoffElem n A done t.1 t.2.1 t.2.2) t.1 t.2.1
      t.2.2 ↔ ∃ x ∈ blockLegs t, w = (((fc3Pos n x : Nat) : Int),
        weightedMean (flagOf done) (fun y => A (fc3Pos n y : Nat)) x) := by
    intro w
    rw [mem_copyPermElemPy]
    constructor
    · rintro ⟨i, hi, j, hj, k, hk, σ, rfl⟩
      refine ⟨_, mem_blockLegs.mpr ⟨i, hi, j, hj, k, hk, σ, rfl⟩, ?_⟩
      rw [weightedMean_perm, cutoffElem_eq]
    · rintro ⟨x, hx, rfl⟩
      obtain ⟨i, hi, j, hj, k, hk, σ, rfl⟩ := mem_blockLegs.mp hx
      refine ⟨i, hi, j, hj, k, hk, σ, ?_⟩
      rw [weightedMean_perm, cutoffElem_eq]
  constructor
  · intro x hx
    unfold cutoffStep
    refine runWrites_value A _ ?_ (((fc3Pos n x : Nat) : Int), _) ((hmem _).mpr ⟨x, hx, rfl⟩)
    intro u hu w hw he
    obtain ⟨y, hy, rfl⟩ := (hmem u).mp hu
    obtain ⟨z, hz, rfl⟩ := (hmem w).mp hw
    have := fc3Pos_inj (Legs.Valid.slot (blockLegs_valid ht hy))
      (Legs.Valid.slot (blockLegs_valid ht hz)) (Int.ofNat.inj he)
    subst this
    rfl
  · intro p hp
    unfold cutoffStep
    apply runWrites_untouched
    intro w hw he
    obtain ⟨x, hx, rfl⟩ := (hmem w).mp hw
    exact hp x hx he.symm

theorem cutoff_fold (n : Nat) (done : Nat → Nat → Nat → Nat) (A0 : Int → K)
    (ts : List (Nat × Nat × Nat)) :
    ∀ (A : Int → K) (D : Legs → Prop), (∀ x, D x → ∀ σ : Equiv.Perm (Fin 3), D (x ∘ σ)) →
      (∀ t ∈ ts, t.1 < n ∧ t.2.1 < n ∧ t.2.2 < n) →
      (∀ x, Legs.Valid n x → (D x → A (fc3Pos n x : Nat) =
        weightedMean (flagOf done) (fun y => A0 (fc3Pos n y : Nat)) x) ∧
        (¬ D x → A (fc3Pos n x : Nat) = A0 (fc3Pos n x : Nat))) →
      ∀ x, Legs.Valid n x → (D x ∨ ∃ t ∈ ts, x ∈ blockLegs t) →
        ts.foldl (cutoffStep n done) A (fc3Pos n x : Nat) =
          weightedMean (flagOf done) (fun y => A0 (fc3Pos n y : Nat)) x := by
  induction ts with
  | nil =>
    intro A D _ _ hI x hx h
    exact (hI x hx).1 (h.resolve_right (by simp))
  | cons t ts ih =>
    intro A D hD ht hI x hx h
    rw [List.foldl_cons]
    obtain ⟨s1, s2⟩ := cutoffStep_spec n done A t (ht t (by simp))
    refine ih _ (fun x => D x ∨ x ∈ blockLegs t)
      (fun x hx σ => hx.imp (fun h => hD x h σ) fun h => blockLegs_perm h σ)
      (fun t' ht' => ht t' (by simp [ht'])) ?_ x hx ?_
    · intro y hy
      have hout : y ∉ blockLegs t → cutoffStep n done A t (fc3Pos n y : Nat) =
          A (fc3Pos n y : Nat) := by
        intro hyt
        apply s2
        intro z hz he
        have := fc3Pos_inj (Legs.Valid.slot hy)
          (Legs.Valid.slot (blockLegs_valid (ht t (by simp)) hz)) (Int.ofNat.inj he)
        exact hyt (this ▸ hz)
      refine ⟨fun hdy => ?_, fun hdy => ?_⟩
      · by_cases hyt : y ∈ blockLegs t
        · rw [s1 y hyt]
          by_cases hDy : D y
          · apply weightedMean_fix
            intro σ
            show A (fc3Pos n (y ∘ σ) : Nat) = _
            rw [(hI _ (Legs.Valid.perm hy σ)).1 (hD y hDy σ), weightedMean_perm]
          · apply weightedMean_congr
            intro σ
            refine (hI _ (Legs.Valid.perm hy σ)).2 fun hc => hDy ?_
            have := hD _ hc σ⁻¹
            have e : (y ∘ σ) ∘ (σ⁻¹ : Equiv.Perm (Fin 3)) = y := by funext s; simp
            rwa [e] at this
        · rw [hout hyt]
          exact (hI y hy).1 (hdy.resolve_right hyt)
      · rw [hout fun h => hdy (Or.inr h)]
        exact (hI y hy).2 fun h => hdy (Or.inl h)
    · rcases h with h | ⟨t', ht', h⟩
      · exact Or.inl (Or.inl h)
      · rcases List.mem_cons.mp ht' with rfl | ht'
        · exact Or.inl (Or.inr h)
        · exact Or.inr ⟨t', ht', h⟩

theorem cutoffPairs_value (n : Nat) (done : Nat → Nat → Nat → Nat) (A : Int → K) {x : Legs}
    (hx : Legs.Valid n x) :
    cutoffFc3ForCutoffPairs n done A (fc3Pos n x : Nat) =
      weightedMean (flagOf done) (fun y => A (fc3Pos n y : Nat)) x :=
  cutoff_fold n done A _ A (fun _ => False) (fun _ h => h.elim)
    (fun t ht => by have := mem_sortedTriples.mp ht; omega)
    (fun _ _ => ⟨fun h => h.elim, fun _ => rfl⟩) x hx (Or.inr (covered_sorted hx))

end

/-! ### Flags of computed pairs -/

theorem flag_fold (pairs : List (Nat × Nat)) (done : Nat → Nat → Nat) (a b : Nat) :
    pairs.foldl (fun (done : Nat → Nat → Nat) p => fun a b =>
      if a = p.1 ∧ b = p.2 then 1 else done a b) done a b =
      if (a, b) ∈ pairs then 1 else done a b := by
  induction pairs generalizing done with
  | nil => simp
  | cons p pairs ih =>
    rw [List.foldl_cons, ih]
    by_cases h : (a, b) ∈ pairs
    · rw [if_pos h, if_pos (by simp [h])]
    · rw [if_neg h]
      by_cases hp : a = p.1 ∧ b = p.2
      · rw [if_pos hp, if_pos]
        have : (a, b) = p := Prod.ext hp.1 hp.2
        simp [this]
      · rw [if_neg hp, if_neg]
        intro hc
        rcases List.mem_cons.mp hc with hc | hc
        · exact hp ⟨congrArg Prod.fst hc, congrArg Prod.snd hc⟩
        · exact h hc

theorem last_fold (reduced : List (Nat → Nat)) (l : List Nat) (hne : reduced ≠ []) :
    ∃ g ∈ reduced, reduced.foldl (fun _ g => l.map g) ([] : List Nat) = l.map g := by
  obtain ⟨init, g, rfl⟩ : ∃ init g, reduced = init ++ [g] :=
    ⟨reduced.dropLast, reduced.getLast hne, (List.dropLast_append_getLast hne).symm⟩
  exact ⟨g, by simp, by simp⟩

theorem fc3DoneStep_eq (ops reduced : List (Nat → Nat)) (done : Nat → Nat → Nat)
    (d : Nat × List Nat) (hne : reduced ≠ []) : ∃ g ∈ reduced, ∀ a b,
    fc3DoneStep ops reduced done d a b =
      if ∃ o ∈ ops, ∃ j ∈ d.2, a = o d.1 ∧ b = o (g j) then 1 else done a b := by
  obtain ⟨g, hg, he⟩ := last_fold reduced d.2 hne
  refine ⟨g, hg, fun a b => ?_⟩
  unfold fc3DoneStep
  simp only [he]
  have e : ∀ (ops : List (Nat → Nat)) (done : Nat → Nat → Nat),
      ops.foldl (fun done o => (d.2.map g).foldl (fun (done : Nat → Nat → Nat) j => fun a b =>
        if a = o d.1 ∧ b = o j then 1 else done a b) done) done =
      (ops.flatMap fun o => d.2.map fun j => (o d.1, o (g j))).foldl
        (fun (done : Nat → Nat → Nat) p => fun a b =>
          if a = p.1 ∧ b = p.2 then 1 else done a b) done := by
    intro ops
    induction ops with
    | nil => intro done; rfl
    | cons o ops ih =>
      intro done
      rw [List.foldl_cons, ih, List.flatMap_cons, List.foldl_append, List.foldl_map,
        List.foldl_map]
  rw [e, flag_fold]
  congr 1
  simp only [List.mem_flatMap, List.mem_map, Prod.mk.injEq, eq_iff_iff]
  constructor
  · rintro ⟨o, ho, j, hj, h1, h2⟩; exact ⟨o, ho, j, hj, h1.symm, h2.symm⟩
  · rintro ⟨o, ho, j, hj, h1, h2⟩; exact ⟨o, ho, j, hj, h1.symm, h2.symm⟩

end Phono3py
