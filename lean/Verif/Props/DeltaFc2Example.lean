import Verif.Props.DeltaFc2
import Mathlib.LinearAlgebra.Matrix.ToLinearEquiv
import Mathlib.Data.Rat.Floor
import Mathlib.Tactic.FinCases
import Mathlib.Tactic.NormNum

/-!
# A crystal that meets the hypotheses of C149, and displacements that are too small
-/

namespace Phono3py

open Matrix Spec

section
variable {K : Type} [Field K] [LinearOrder K] [IsStrictOrderedRing K]

/-- Products of the coordinates of the vectors added up. -/
def gram (l : List (Vec K)) : FcBlock K := fun a c => (l.map fun v => v a * v c).sum

theorem gram_mulVec (l : List (Vec K)) (w : Vec K) (a : Fin 3) :
    (gram l *ᵥ w) a = (l.map fun v => v a * (v ⬝ᵥ w)).sum := by
  change ∑ c, (l.map fun v => v a * v c).sum * w c = _
  induction l with
  | nil => simp
  | cons v l ih =>
    simp only [List.map_cons, List.sum_cons, add_mul, Finset.sum_add_distrib]
    rw [ih]
    congr 1
    unfold dotProduct
    rw [Finset.mul_sum]
    exact Finset.sum_congr rfl fun c _ => by ring

theorem gram_det {l : List (Vec K)} (h : Spanning l) : (gram l).det ≠ 0 := by
  intro h0
  obtain ⟨w, hw, h1⟩ := Matrix.exists_mulVec_eq_zero_iff.2 h0
  apply hw
  apply h
  have h2 : (l.map fun v => (v ⬝ᵥ w) ^ 2).sum = 0 := by
    have e : ∑ a, w a * (gram l *ᵥ w) a = (l.map fun v => (v ⬝ᵥ w) ^ 2).sum := by
      simp only [gram_mulVec]
      clear h h0 h1
      induction l with
      | nil => simp
      | cons v l ih =>
        simp only [List.map_cons, List.sum_cons, mul_add, Finset.sum_add_distrib]
        rw [ih]
        congr 1
        rw [sq]
        conv_rhs => rw [dotProduct, Finset.sum_mul]
        exact Finset.sum_congr rfl fun c _ => by unfold dotProduct; ring
    rw [← e, h1]; simp
  have hnn : ∀ x ∈ l.map fun v => (v ⬝ᵥ w) ^ 2, 0 ≤ x := by
    intro x hx
    obtain ⟨p, -, rfl⟩ := List.mem_map.1 hx
    exact sq_nonneg _
  intro v hv
  have := List.single_le_sum hnn _ (List.mem_map_of_mem (f := fun v => (v ⬝ᵥ w) ^ 2) hv)
  rw [h2] at this
  exact pow_eq_zero_iff (two_ne_zero) |>.1 (le_antisymm this (sq_nonneg _))

theorem exists_normal (rows : List (Vec K × Vec K)) (h : Spanning (rows.map fun p => p.1)) :
    ∃ X0, ∀ a b, (rows.map fun p => p.1 a * (p.2 b + (p.1 ᵥ* X0) b)).sum = 0 := by
  have hdet := gram_det h
  set M := gram (rows.map fun p => p.1) with hM
  have hunit : IsUnit M.det := isUnit_iff_ne_zero.2 hdet
  let R : FcBlock K := fun a b => (rows.map fun p => p.1 a * p.2 b).sum
  refine ⟨-(M⁻¹ * R), ?_⟩
  have hn : ∀ a b, (rows.map fun p => p.1 a * (p.2 b + (p.1 ᵥ* (-(M⁻¹ * R))) b)).sum = 0 := by
    intro a b
    have h1 : M * (M⁻¹ * R) = R := by
      rw [← Matrix.mul_assoc, Matrix.mul_nonsing_inv _ hunit, Matrix.one_mul]
    have h2 := gram_mulVec (rows.map fun p => p.1) (fun c => (M⁻¹ * R) c b) a
    have h3 : (gram (rows.map fun p => p.1) *ᵥ fun c => (M⁻¹ * R) c b) a = R a b := by
      rw [← hM, ← h1]; rw [h1]
      exact congrFun (congrFun h1 a) b
    rw [h3, List.map_map] at h2
    have e : ∀ p : Vec K × Vec K, p.1 a * (p.2 b + (p.1 ᵥ* (-(M⁻¹ * R))) b) =
        p.1 a * p.2 b + -(p.1 a * (p.1 ⬝ᵥ fun c => (M⁻¹ * R) c b)) := by
      intro p
      rw [Matrix.vecMul_neg]
      change p.1 a * (p.2 b + -(p.1 ⬝ᵥ fun c => (M⁻¹ * R) c b)) = _
      ring
    simp only [e]
    rw [List.sum_map_add, sum_map_neg']
    change R a b + -(List.map ((fun v => v a * (v ⬝ᵥ fun c => (M⁻¹ * R) c b)) ∘ fun p => p.1)
      rows).sum = 0
    rw [← h2]; ring
  exact hn

theorem exists_fit (rows : List (Vec K × Vec K)) (h : Spanning (rows.map fun p => p.1)) :
    ∃ X, IsFit rows X := by
  obtain ⟨X0, hn⟩ := exists_normal rows h
  refine ⟨X0, fun Y => ?_⟩
  rw [residual_split rows _ Y hn]
  have : 0 ≤ (rows.map fun p => ∑ b, ((p.1 ᵥ* (Y - X0)) b) ^ 2).sum := by
    apply List.sum_nonneg
    intro x hx
    obtain ⟨p, -, rfl⟩ := List.mem_map.1 hx
    exact Finset.sum_nonneg fun b _ => sq_nonneg _
  linarith

theorem fit_unique {rows : List (Vec K × Vec K)} (h : Spanning (rows.map fun p => p.1))
    {X Y : FcBlock K} (hX : IsFit rows X) (hY : IsFit rows Y) : X = Y := by
  obtain ⟨X0, hn⟩ := exists_normal rows h
  rw [fit_eq rows X0 X hX h hn, fit_eq rows X0 Y hY h hn]

theorem exists_pinv (l : List (Vec K)) (h : Spanning l) : ∃ P : Nat → Nat → K, ∀ k k' : Fin 3,
    ∑ p ∈ Finset.range l.length, P k p * l.getD p 0 k' = if k = k' then 1 else 0 := by
  have hunit : IsUnit (gram l).det := isUnit_iff_ne_zero.2 (gram_det h)
  refine ⟨fun k p => ((gram l)⁻¹ *ᵥ l.getD p 0) (Fin.ofNat 3 k), ?_⟩
  intro k k'
  have h1 := congrFun (congrFun (Matrix.nonsing_inv_mul _ hunit) k) k'
  rw [Matrix.mul_apply, Matrix.one_apply] at h1
  rw [← h1, Finset.sum_range]
  simp only [Fin.ofNat_val_eq_self]
  have e : ∀ p : Fin l.length, l.getD (p : Nat) 0 = l[p] := by
    intro p; rw [List.getD_eq_getElem _ _ p.2]; rfl
  simp only [e]
  have e2 : ∀ j, gram l j k' = ∑ p : Fin l.length, l[p] j * l[p] k' := by
    intro j
    unfold gram
    rw [← Fin.sum_univ_fun_getElem]; rfl
  simp only [e2, Finset.mul_sum]
  rw [Finset.sum_comm]
  refine Finset.sum_congr rfl fun p _ => ?_
  simp only [Matrix.mulVec, dotProduct, Finset.sum_mul]
  exact Finset.sum_congr rfl fun j _ => by ring

end

namespace Props

/-- Reflection of the third axis. -/
def mirrorZ : Rot := !![1, 0, 0; 0, 1, 0; 0, 0, -1]

/-- Three atoms on the third axis: the reflection about the first exchanges the others. -/
def swapAtoms (r : Rot) (i : Nat) : Nat :=
  if r = 1 then i else if i = 1 then 2 else if i = 2 then 1 else i

def axes : List (Vec Int) := [![1, 0, 0], ![0, 1, 0], ![0, 0, 1]]

open Classical in
noncomputable def exampleTools : FcTools ℚ where
  lattice := 1
  latticeInv := 1
  positions := [![0, 0, 0], ![0, 0, 1 / 4], ![0, 0, 3 / 4]]
  tol := 1 / 100000
  rint := fun v i => (round (v i) : Int)
  norm := fun v => |v 0| + |v 1| + |v 2|
  siteSym := fun a => if a = 0 then [1, mirrorZ] else [1]
  leastDisps := (axes.map fun d => (0, d)) ++ axes.map fun d => (1, d)
  getDisplacement := fun _ => axes
  isMinus := fun _ _ => true
  solveRow := fun _ disps forces B k =>
    if h : ∃ X, IsFit (turnedRows (fun r => (1 : FcBlock ℚ) * r.map (Int.cast : Int → ℚ) * 1)
      swapAtoms disps forces B k) X then h.choose else 0
  distribute := fun _ fc2 done B =>
    if h : ∀ i : Nat, i < 3 → ∃ r ∈ B, swapAtoms r i ∈ done then
      some fun i j => if hi : i < 3 then
        ((1 : FcBlock ℚ) * (h i hi).choose.map (Int.cast : Int → ℚ) * 1)ᵀ *
          fc2 (swapAtoms (h i hi).choose i) (swapAtoms (h i hi).choose j) *
          ((1 : FcBlock ℚ) * (h i hi).choose.map (Int.cast : Int → ℚ) * 1) else 0
    else none
  sentByInv := fun _ => swapAtoms
  pinv := fun l => if h : ∃ P : Nat → Nat → ℚ, ∀ k k' : Fin 3,
    ∑ p ∈ Finset.range l.length, P k p * l.getD p 0 k' = if k = k' then 1 else 0
    then h.choose else fun _ _ => 0
  pairDistance := fun _ _ => 0

/-- Force constants: one for three displacements along the first axis. -/
def alongFirst (x : Legs) : ℚ := if (x 0).2 = 0 ∧ (x 1).2 = 0 ∧ (x 2).2 = 0 then 1 else 0

def exampleQuadratic (i j : Nat) : FcBlock ℚ := if i = j then 1 else 0

theorem axes_spanning (B : List Rot) (h1 : (1 : Rot) ∈ B) :
    Spanning (axes.flatMap fun d => B.map fun r => turnVec r fun i => (d i : ℚ)) := by
  intro w hw
  have key : ∀ d ∈ axes, (fun i => (d i : ℚ)) ⬝ᵥ w = 0 := by
    intro d hd
    have := hw _ (List.mem_flatMap.2 ⟨d, hd, List.mem_map.2 ⟨1, h1, rfl⟩⟩)
    rwa [turnVec_cast, Matrix.one_mulVec] at this
  have k0 := key ![1, 0, 0] (by simp [axes])
  have k1 := key ![0, 1, 0] (by simp [axes])
  have k2 := key ![0, 0, 1] (by simp [axes])
  simp only [dotProduct, Fin.sum_univ_three] at k0 k1 k2
  funext i
  fin_cases i
  · simpa using k0
  · simpa using k1
  · simpa using k2

theorem swap_swap (r : Rot) (i : Nat) : swapAtoms r (swapAtoms r i) = i := by
  unfold swapAtoms
  split_ifs <;> omega

theorem swap_lt (r : Rot) {i : Nat} (hi : i < 3) : swapAtoms r i < 3 := by
  unfold swapAtoms
  split_ifs <;> omega

theorem exampleTools_sound : ToolsSound exampleTools (fun _ => swapAtoms) where
  lattice := by simp [exampleTools]
  tol_pos := by norm_num [exampleTools]
  tol_le := by norm_num [exampleTools]
  norm_neg := by intro v; simp [exampleTools]
  norm_pos := by
    intro v hv
    by_contra h
    apply hv
    have h' : |v 0| + |v 1| + |v 2| ≤ 0 := not_lt.1 h
    have a0 := abs_nonneg (v 0)
    have a1 := abs_nonneg (v 1)
    have a2 := abs_nonneg (v 2)
    funext i
    fin_cases i
    · exact abs_eq_zero.1 (by linarith : |v 0| = 0)
    · exact abs_eq_zero.1 (by linarith : |v 1| = 0)
    · exact abs_eq_zero.1 (by linarith : |v 2| = 0)
  directions := fun B hB => axes_spanning B hB.one
  minus := by intro B d h; exact absurd h (by simp [exampleTools])
  solve := by
    intro a b disps forces B hlen _ _ hspan k _
    have hex : ∃ X, IsFit (turnedRows exampleTools.cart (exampleTools.sentByInv a) disps forces B
        k) X := by
      apply exists_fit
      have : (turnedRows exampleTools.cart (exampleTools.sentByInv a) disps forces B k).map
          (fun p => p.1) = disps.flatMap fun u => B.map fun r => exampleTools.cart r *ᵥ u := by
        unfold turnedRows
        rw [List.map_flatMap]
        have hl : disps = (disps.zip forces).map fun x => x.1 := by
          rw [List.map_fst_zip (le_of_eq hlen)]
        conv_rhs => rw [hl]
        rw [List.flatMap_map]
        refine List.flatMap_congr fun p _ => ?_
        rw [List.map_map]; rfl
      rw [this]; exact hspan
    have : exampleTools.solveRow b disps forces B k = hex.choose := dif_pos hex
    rw [this]
    exact hex.choose_spec
  distribute := by
    intro a fc2 done B _ h
    have h' : ∀ i : Nat, i < 3 → ∃ r ∈ B, swapAtoms r i ∈ done := h
    refine ⟨_, dif_pos h', ?_⟩
    intro i hi
    refine ⟨(h' i hi).choose, (h' i hi).choose_spec.1, (h' i hi).choose_spec.2, ?_⟩
    intro j _
    exact dif_pos hi
  sent := by
    intro a r _ k hk
    exact ⟨swap_lt r hk, swap_swap r k⟩
  pinv := by
    intro l hl
    have hex := exists_pinv l hl
    have : exampleTools.pinv l = hex.choose := dif_pos hex
    rw [this]
    exact hex.choose_spec

theorem example_group (a : Nat) : RotGroup (exampleTools.siteSym a) := by
  have h1 : RotGroup [1, mirrorZ] :=
    ⟨by decide +kernel, by decide +kernel, by decide +kernel, by decide +kernel⟩
  have h2 : RotGroup [1] := ⟨by decide +kernel, by decide +kernel, by decide +kernel, by
    decide +kernel⟩
  change RotGroup (if a = 0 then [1, mirrorZ] else [1])
  split
  · exact h1
  · exact h2

theorem example_ops {a : Nat} {r : Rot} (hr : r ∈ exampleTools.siteSym a) :
    r = 1 ∨ (a = 0 ∧ r = mirrorZ) := by
  change r ∈ (if a = 0 then [1, mirrorZ] else [1]) at hr
  split at hr
  · next h =>
    rcases List.mem_cons.1 hr with h1 | h1
    · exact Or.inl h1
    · exact Or.inr ⟨h, List.mem_singleton.1 h1⟩
  · exact Or.inl (List.mem_singleton.1 hr)

theorem example_cart_one : exampleTools.cart 1 = 1 := by
  unfold FcTools.cart
  simp [exampleTools]

theorem example_cart_mirror : exampleTools.cart mirrorZ = !![1, 0, 0; 0, 1, 0; 0, 0, -1] := by
  unfold FcTools.cart
  simp only [exampleTools, Matrix.one_mul, Matrix.mul_one]
  ext i j
  fin_cases i <;> fin_cases j <;> simp [mirrorZ]

theorem example_invariant {R : Nat → Nat → ℚ} (σ : Nat → Nat)
    (hR : ∀ l < 3, ∀ a < 3, R l a = if l = a then R l l else 0) (h0 : R 0 0 = 1) (n : Nat) :
    InvariantUnder n σ R alongFirst := by
  intro x hx
  unfold rotateLegs
  have h1 := (hx 0).2
  have h2 := (hx 1).2
  have h3 := (hx 2).2
  change alongFirst (fun s => (σ (x s).1, (x s).2)) = _
  have e : ∀ p q t : Nat × Nat, alongFirst ![p, q, t] =
      if p.2 = 0 ∧ q.2 = 0 ∧ t.2 = 0 then 1 else 0 := fun _ _ _ => rfl
  simp only [e]
  unfold alongFirst
  generalize (x 0).2 = l at h1
  generalize (x 1).2 = m at h2
  generalize (x 2).2 = q at h3
  rw [Finset.sum_eq_single 0 ?_ (by simp), Finset.sum_eq_single 0 ?_ (by simp),
    Finset.sum_eq_single 0 ?_ (by simp)]
  · rw [hR l h1 0 (by omega), hR m h2 0 (by omega), hR q h3 0 (by omega)]
    by_cases hl : l = 0
    · by_cases hm : m = 0
      · by_cases hq : q = 0
        · subst hl hm hq; simp [h0]
        · simp [hq]
      · simp [hm]
    · simp [hl]
  · intro b _ hb; simp [hb]
  · intro b _ hb
    exact Finset.sum_eq_zero fun c _ => by simp [hb]
  · intro b _ hb
    exact Finset.sum_eq_zero fun c _ => Finset.sum_eq_zero fun d _ => by simp [hb]

theorem example_site {f : Legs → ℚ} (hinv : ∀ r, r = 1 ∨ r = mirrorZ →
      InvariantUnder 3 (swapAtoms r) (natMat (exampleTools.cart r)) f) (a : Nat) (ha : a < 2) :
    SiteSymmetry exampleTools exampleQuadratic f swapAtoms a where
  lt := by change a < 3; omega
  group := example_group a
  acts := by
    intro r hr
    rcases example_ops hr with rfl | ⟨rfl, rfl⟩
    · interval_cases a <;> decide +kernel
    · decide +kernel
  map_lt := fun r _ x hx => swap_lt r hx
  map_one := fun x => by simp [swapAtoms]
  map_mul := by
    intro r hr s hs x
    rcases example_ops hr with rfl | ⟨rfl, rfl⟩
    · rw [one_mul]; simp [swapAtoms]
    · rcases example_ops hs with rfl | ⟨-, rfl⟩
      · rw [mul_one]; simp [swapAtoms]
      · rw [swap_swap, show mirrorZ * mirrorZ = 1 by decide +kernel]; simp [swapAtoms]
  fixed := by
    intro r hr
    rcases example_ops hr with rfl | ⟨rfl, rfl⟩
    · simp [swapAtoms]
    · decide +kernel
  orth := by
    intro r hr
    rcases example_ops hr with rfl | ⟨rfl, rfl⟩
    · rw [example_cart_one]; simp
    · rw [example_cart_mirror]; decide +kernel
  inv2 := by
    intro r hr i _ j _
    have hij : (swapAtoms r i = swapAtoms r j) ↔ i = j :=
      ⟨fun h => by rw [← swap_swap r i, h, swap_swap], fun h => by rw [h]⟩
    have ho : exampleTools.cart r * (exampleTools.cart r)ᵀ = 1 := by
      rcases example_ops hr with rfl | ⟨rfl, rfl⟩
      · rw [example_cart_one]; simp
      · rw [example_cart_mirror]; decide +kernel
    unfold exampleQuadratic
    by_cases h : i = j
    · rw [if_pos (hij.2 h), if_pos h, Matrix.mul_one, ho]
    · rw [if_neg (fun hc => h (hij.1 hc)), if_neg h]; simp
  inv3 := by
    intro r hr
    apply hinv
    rcases example_ops hr with h | ⟨-, h⟩
    · exact Or.inl h
    · exact Or.inr h

theorem cubic_invariant (r : Rot) (hr : r = 1 ∨ r = mirrorZ) :
    InvariantUnder 3 (swapAtoms r) (natMat (exampleTools.cart r)) alongFirst := by
  apply example_invariant
  · rcases hr with rfl | rfl
    · rw [example_cart_one]; unfold natMat; decide +kernel
    · rw [example_cart_mirror]; unfold natMat; decide +kernel
  · rcases hr with rfl | rfl
    · rw [example_cart_one]; unfold natMat; decide +kernel
    · rw [example_cart_mirror]; unfold natMat; decide +kernel

theorem example_first {d : Nat × Vec Int} (hd : d ∈ exampleTools.leastDisps) : d.1 < 2 := by
  rcases List.mem_append.1 hd with h | h
  · obtain ⟨x, -, rfl⟩ := List.mem_map.1 h; simp
  · obtain ⟨x, -, rfl⟩ := List.mem_map.1 h; simp

/-- Symmetry operations of the example: the identity and the reflection. -/
def mirrorOps : List (SymOp ℚ) :=
  [⟨true, id, fun l a => if l = a then 1 else 0⟩,
    ⟨false, fun i => if i = 1 then 2 else if i = 2 then 1 else i,
      fun l a => if l = a then (if l = 2 then -1 else 1) else 0⟩]

/-- Hypotheses of `C149_get_fc3` and `C149_delta`: displacements of length 1/100 of the first two of
three atoms on an axis; the reflection about the first exchanges the others. -/
example : ∃ dirs ds, exampleTools.thirdOrderDisplacements = some dirs ∧
    directionToDisplacement (exampleTools.toDisplacement (1 / 100)) exampleTools.natom none dirs =
      some ds ∧ ∃ A, exampleTools.fc3FromForces (fun _ => 7) exampleQuadratic mirrorOps [0, 1, 2]
        (ds.first.map (filled exampleTools.natom
          (crystalForce exampleTools.natom (fun _ _ => 5) exampleQuadratic alongFirst))) = some A ∧
      A (fc3Pos 3 ![(2, 0), (1, 0), (0, 0)] : Nat) = 1 := by
  obtain ⟨dirs, hdirs⟩ := C149_generated exampleTools_sound
    (fun d hd => example_site cubic_invariant d.1 (example_first hd))
  have hds : ∃ ds, directionToDisplacement (exampleTools.toDisplacement (1 / 100))
      exampleTools.natom none dirs = some ds := by
    have h : (exampleTools.thirdOrderDisplacements.bind findDuplicates).isSome := by
      decide +kernel
    rw [hdirs, Option.bind_some] at h
    obtain ⟨l, hl⟩ := Option.isSome_iff_exists.1 h
    unfold directionToDisplacement
    rw [hl]
    exact ⟨_, rfl⟩
  obtain ⟨ds, hds⟩ := hds
  obtain ⟨A, h1, h2⟩ := C149_get_fc3 (f0 := fun _ _ => 5) (dist := 1 / 100) exampleTools_sound
    (fun d hd => example_site cubic_invariant d.1 (example_first hd))
    (by
      intro x _ τ
      unfold alongFirst
      have : ((x ∘ τ) 0).2 = 0 ∧ ((x ∘ τ) 1).2 = 0 ∧ ((x ∘ τ) 2).2 = 0 ↔
          (x 0).2 = 0 ∧ (x 1).2 = 0 ∧ (x 2).2 = 0 := by
        have e1 : (∀ s, ((x ∘ τ) s).2 = 0) ↔ ∀ s, (x s).2 = 0 :=
          ⟨fun h s => by simpa using h (τ.symm s), fun h s => h (τ s)⟩
        simpa [Fin.forall_fin_succ] using e1
      simp only [this])
    (by norm_num) (by decide +kernel)
    (by
      intro d hd
      have : exampleTools.leastDisps.filter (fun e => e.1 == d.1) = axes.map fun e => (d.1, e) := by
        have := example_first hd
        interval_cases d.1 <;> rfl
      rw [this, List.flatMap_map]
      exact axes_spanning _ (example_group d.1).one)
    dirs hdirs ds hds exampleQuadratic (fun _ _ _ _ => rfl) mirrorOps [0, 1, 2]
    (by decide +kernel)
    (by unfold Orthogonal; decide +kernel)
    (by
      intro o ho
      rcases List.mem_cons.1 ho with rfl | ho
      · exact example_invariant _ (by decide +kernel) (by decide +kernel) _
      · rw [List.mem_singleton] at ho
        subst ho
        exact example_invariant _ (by decide +kernel) (by decide +kernel) _)
    (by decide +kernel) (by decide +kernel) (by decide +kernel) (fun _ => 7)
  refine ⟨dirs, ds, hdirs, hds, A, h1, ?_⟩
  rw [show (3 : Nat) = exampleTools.natom from rfl, h2 _ (by
    intro s; fin_cases s <;> decide +kernel)]
  rfl

end Props

end Phono3py
