/-
Cases that meet the hypotheses of C109 and C110, and the case of degenerate bands in which the two
layouts of the collision matrix disagree.
-/
import Verif.Props.LBTELayout

namespace Phono3py.Props
open Phono3py Phono3py.Spec Finset

/-! ### Two points exchanged by a mirror, two bands -/

/-- The mirror exchanges the points of a mesh of two points. -/
local instance : MulAction Mirror (Fin 2) where
  smul u q := if u = 1 then q else Equiv.swap 0 1 q
  one_smul := by decide +kernel
  mul_smul := by decide +kernel

/-- Frequencies of the two bands. -/
def layoutFrequency (_ : Fin 2) (l : Nat) : ℚ := l + 1

/-- Velocities of the two bands. -/
def layoutVelocity (q : Fin 2) (l : Nat) : Fin 3 → ℚ := fun a =>
  ((l : ℚ) + 1) * (if q = 0 then ![1, 2, 0] else ![-1, 2, 0]) a

/-- Collision elements: within a point and to its mirror image. -/
def layoutElements (q : Fin 2) (l : Nat) (q' : Fin 2) (l' : Nat) : ℚ :=
  if l = l' then (if q = q' then 1 else 2) else 0

/-- Linewidths. -/
def layoutWidths (_ : Fin 2) (_ : Nat) : ℚ := 4

/-- The calculation in the irreducible layout. -/
def layoutIr : LBTEInput ℚ where
  numGp := 1
  numBand := 2
  numOps := 2
  rotations j := if j = 0 then ![![1, 0, 0], ![0, 1, 0], ![0, 0, 1]]
    else ![![-1, 0, 0], ![0, 1, 0], ![0, 0, 1]]
  frequencies _ l := layoutFrequency 0 l
  cutoff := 1 / 2
  weights _ := 1
  gv _ l := layoutVelocity 0 l
  gammaAddress _ := false
  t := 1
  kb := 1 / 2
  toEv := 1
  sinh x := x
  factor := 1
  n := 2

/-- The calculation in the reducible layout. -/
def layoutReducible : LBTEInput ℚ :=
  { layoutIr with
    numGp := 2
    gv := fun q l => layoutVelocity (if q = 0 then 0 else 1) l }

/-- The irreducible collision matrix before the diagonal is added. -/
def layoutMatrixIr (_ l a _ l' b : Nat) : ℚ :=
  if l = l' ∧ a = b then (if a = 0 then 1 - 2 else 1 + 2) else 0

/-- The reducible collision matrix: the row of the irreducible point is set. -/
def layoutMatrixReducible (r c : Nat × Nat × Unit) : ℚ :=
  if r.1 = 0 ∧ r.2.1 = c.2.1 then (if c.1 = 0 then 1 else 2) else 0

/-- Eigenvectors of the reducible matrix. -/
def hadamard (i j : Nat) : ℚ :=
  (![![1, 1, 1, 1], ![1, -1, 1, -1], ![1, 1, -1, -1], ![1, -1, -1, 1]] : Fin 4 → Fin 4 → ℚ)
    (Fin.ofNat 4 i) (Fin.ofNat 4 j) / 2

/-- Eigensolvers for the two matrices. -/
def layoutRoutinesIr : ColmatRoutines ℚ where
  eigh _ _ := (fun i => if i % 3 = 0 then 3 else 7, fun i j => if i = j then 1 else 0)
  pinv _ _ _ _ := 0

/-- Eigensolver for the reducible matrix. -/
def layoutRoutinesReducible : ColmatRoutines ℚ where
  eigh _ _ := (fun i => if i < 2 then 7 else 3, hadamard)
  pinv _ _ _ _ := 0

theorem mirror_cover : StarsCover Mirror (![0] : Fin 1 → Fin 2) := by
  refine ⟨?_, ?_⟩
  · unfold DifferentStars
    decide +kernel
  · decide +kernel

theorem mirror_orthogonal (g : Mirror) (a b : Fin 3) :
    mirrorMatrix g⁻¹ a b = mirrorMatrix g b a := by
  have hm : ∀ g : Mirror, g = 1 ∨ g = Multiplicative.ofAdd 1 := by decide +kernel
  have e : ∀ g : Mirror, g⁻¹ = g := by decide +kernel
  rw [e]
  rcases hm g with rfl | rfl <;> fin_cases a <;> fin_cases b <;> rfl

theorem layout_velocity : Equivariant (mirrorMatrix ·) layoutVelocity := by
  have h : ∀ (g : Mirror) (q : Fin 2) (a : Fin 3),
      layoutVelocity (g • q) 0 a = (mirrorMatrix g).mulVec (layoutVelocity q 0) a := by
    decide +kernel
  have e : ∀ (q : Fin 2) (l : Nat) (a : Fin 3),
      layoutVelocity q l a = ((l : ℚ) + 1) * layoutVelocity q 0 a := by
    intro q l a
    simp [layoutVelocity]
  intro g q l
  funext a
  rw [e, h]
  unfold Matrix.mulVec dotProduct
  rw [Finset.mul_sum]
  refine Finset.sum_congr rfl fun b _ => ?_
  rw [e q l b]
  ring

theorem layout_elements : MatrixInvariant Mirror layoutElements := by
  intro g q l q' l'
  unfold layoutElements
  split_ifs with h1 h2 h3 h3 <;> first | rfl | skip
  · exact absurd (smul_left_cancel g h2) h3
  · exact absurd (congrArg (g • ·) h3) h2

theorem layout_eigh_ir : EighOn layoutRoutinesIr (1 * layoutIr.numBand * 3)
    (prepareIr 1 layoutIr.numOps layoutIr.numBand (fun _ => 0) (fun _ j => j)
      (fun j a b => if a = b then (if j = 1 ∧ a = 0 then -1 else 1) else 0) (fun _ _ => 4)
      (fun _ => [[0], [1]]) layoutIr.weights layoutMatrixIr) := by
  refine ⟨⟨?_, ?_⟩, ⟨?_, ?_⟩⟩ <;> decide +kernel

theorem layout_eigh_reducible : EighOn layoutRoutinesReducible (2 * layoutReducible.numBand)
    (prepareReducible true 1 2 layoutReducible.numOps layoutReducible.numBand
      (fun i => if i = 0 then 0 else if i = 1 then 1 else if i = 2 then 1 else 0) (fun _ => 0)
      (fun _ => [[0], [1]]) (fun _ _ => 4) layoutMatrixReducible) := by
  refine ⟨⟨?_, ?_⟩, ⟨?_, ?_⟩⟩ <;> decide +kernel

/-- The hypotheses of C109 are met: a mirror exchanges the two points of the mesh, and the two
points scatter into each other. -/
example : ∃ Yi Yr,
    solveColmat layoutRoutinesIr false 0 1 0 1 6
      (prepareIr 1 2 2 (fun _ => 0) (fun _ j => j)
        (fun j a b => if a = b then (if j = 1 ∧ a = 0 then -1 else 1) else 0) (fun _ _ => 4)
        (fun _ => [[0], [1]]) layoutIr.weights layoutMatrixIr) (lbteX layoutIr) = some Yi ∧
    solveColmat layoutRoutinesReducible true 6 3 0 1 4
      (prepareReducible true 1 2 2 2
        (fun i => if i = 0 then 0 else if i = 1 then 1 else if i = 2 then 1 else 0) (fun _ => 0)
        (fun _ => [[0], [1]]) (fun _ _ => 4) layoutMatrixReducible) (lbteX layoutReducible) =
      some Yr ∧
    ∀ a b, tensorOf (lbteKappa false layoutIr (lbteX layoutIr) Yi fun _ _ _ => 0).2 a b =
      tensorOf (lbteKappa true layoutReducible (lbteX layoutReducible) Yr fun _ _ _ => 0).2 a b := by
  refine C109_layouts_partial (nI := 1) (nq := 2) layoutIr layoutReducible
    ⟨rfl, rfl, rfl, rfl, rfl, rfl, rfl, rfl⟩ (by decide +kernel) mirrorOp mirrorOp mirrorMatrix
    mirror_orthogonal ?_ ?_ ![0] mirror_cover layoutFrequency (fun _ _ _ => rfl) layoutVelocity
    layout_velocity ⟨rfl, ?_, ?_⟩ ⟨rfl, ?_, ?_⟩ (by decide +kernel) (fun _ => rfl) _ _
    ⟨fun _ _ _ _ h => absurd h Bool.false_ne_true, fun _ _ _ _ _ _ _ => rfl⟩
    ⟨fun _ _ _ _ h => absurd h Bool.false_ne_true, fun _ _ _ _ _ _ _ => rfl⟩
    layoutElements layout_elements layoutWidths (fun _ _ _ => rfl) _ _ ?_ ?_ _ ?_ _ ?_ _ ?_ _ ?_ _ ?_
    _ _ ?_ ?_ _ ?_ _ ?_ ?_ layoutRoutinesIr layoutRoutinesReducible 0 1 6 3
    (Or.inr ⟨by decide, Or.inl rfl⟩) (Or.inl ⟨rfl, rfl⟩) 0 1 layout_eigh_ir layout_eigh_reducible
  · intro j a b
    change Fin 2 at j
    revert j a b
    decide +kernel
  · intro j a b
    change Fin 2 at j
    revert j a b
    decide +kernel
  · intro i l
    rfl
  · intro i l
    rw [Subsingleton.elim i 0]
    rfl
  · intro i l
    rfl
  · intro i l
    show layoutVelocity (if (i : Nat) = 0 then 0 else 1) l = _
    have : ∀ i : Fin 2, (if (i : Nat) = 0 then (0 : Fin 2) else 1) = i := by decide
    rw [this]
  · intro _ s hs
    simp only [List.mem_cons, List.not_mem_nil, or_false] at hs
    rcases hs with rfl | rfl <;> exact ⟨_, rfl⟩
  · intro _ s hs
    simp only [List.mem_cons, List.not_mem_nil, or_false] at hs
    rcases hs with rfl | rfl <;> exact ⟨_, rfl⟩
  · decide +kernel
  · intro k j
    change Fin 2 at j
    revert k j
    decide +kernel
  · intro j a b
    change Fin 2 at j
    revert j a b
    decide +kernel
  · intro _ _
    rfl
  · have h : ∀ l < 2, ∀ l' < 2, ∀ (a b : Fin 3), layoutMatrixIr 0 l a 0 l' b =
        ∑ j : Fin 2, layoutElements 0 l (mirrorOp j • (0 : Fin 2)) l' *
          (mirrorMatrix (mirrorOp j) : Fin 3 → Fin 3 → ℚ) a b := by decide +kernel
    intro i i' l l' a b hl hl'
    rw [Subsingleton.elim i 0, Subsingleton.elim i' 0]
    exact h l hl l' hl' a b
  · unfold TableOf
    decide +kernel
  · decide +kernel
  · intro _ _
    rfl
  · have h : ∀ l < 2, ∀ (q' : Fin 2), ∀ l' < 2,
        layoutMatrixReducible (0, l, ()) (q', l', ()) = layoutElements 0 l q' l' := by
      decide +kernel
    intro k l q' l' hl hl'
    rw [Subsingleton.elim k 0]
    exact h l hl q' l' hl'
  · have h : ∀ g : Mirror, g • (0 : Fin 2) ≠ 0 → ∀ l < 2, ∀ (q' : Fin 2), ∀ l' < 2,
        layoutMatrixReducible ((g • (0 : Fin 2) : Fin 2), l, ()) (q', l', ()) = 0 := by
      decide +kernel
    intro k g
    rw [Subsingleton.elim k 0]
    exact h g

/-- The common value along `x` and `y` is not zero and differs from the value without scattering
between the points. -/
example : (solveColmat layoutRoutinesIr false 0 1 0 1 6
      (prepareIr 1 2 2 (fun _ => 0) (fun _ j => j)
        (fun j a b => if a = b then (if j = 1 ∧ a = 0 then -1 else 1) else 0) (fun _ _ => 4)
        (fun _ => [[0], [1]]) layoutIr.weights layoutMatrixIr) (lbteX layoutIr)).map
      (fun Y => (tensorOf (lbteKappa false layoutIr (lbteX layoutIr) Y fun _ _ _ => 0).2 0 0,
        tensorOf (lbteKappa false layoutIr (lbteX layoutIr) Y fun _ _ _ => 0).2 1 1)) =
    some (5 / 12, 5 / 7) := by
  decide +kernel

/-! ### Degenerate bands -/

/-- One point, four bands of the same frequency, two of them moving along `x` and two against. -/
def degenerateInput : LBTEInput ℚ where
  numGp := 1
  numBand := 4
  numOps := 1
  rotations _ := ![![1, 0, 0], ![0, 1, 0], ![0, 0, 1]]
  frequencies _ _ := 1
  cutoff := 1 / 2
  weights _ := 1
  gv _ l := if l < 2 then ![1, 0, 0] else ![-1, 0, 0]
  gammaAddress _ := false
  t := 1
  kb := 1 / 2
  toEv := 1
  sinh x := x
  factor := 1
  n := 1

/-- The collision matrix of the irreducible layout when there is no scattering between modes and all
linewidths are 1. -/
def degenerateIr : Nat → Nat → ℚ :=
  prepareIr 1 1 4 (fun _ => 0) (fun _ _ => 0) (fun _ a b => if a = b then 1 else 0) (fun _ _ => 1)
    (fun _ => [[0, 1, 2, 3]]) (fun _ => 1) fun _ _ _ _ _ _ => 0

/-- The same in the reducible layout. -/
def degenerateReducible : Nat → Nat → ℚ :=
  prepareReducible true 1 1 1 4 (fun _ => 0) (fun _ => 0) (fun _ => [[0, 1, 2, 3]]) (fun _ _ => 1)
    fun _ _ => 0

/-- Eigensolver for the irreducible matrix. -/
def degenerateRoutinesIr : ColmatRoutines ℚ where
  eigh _ _ := (fun i => if i < 3 then 1 else 0,
    fun i j => if i % 3 = j % 3 then hadamard (i / 3) (j / 3) else 0)
  pinv _ _ _ _ := 0

/-- Eigensolver for the reducible matrix. -/
def degenerateRoutinesReducible : ColmatRoutines ℚ where
  eigh _ _ := (fun _ => 1, fun i j => if i = j then 1 else 0)
  pinv _ _ _ _ := 0

/-- **C109 fails with degenerate bands.** The irreducible layout averages over degenerate bands after
the linewidths are added to the diagonal, the reducible layout before. With the same phonons and the
same linewidths the first gives no conductivity, the second the one of the relaxation time
approximation. -/
theorem C109_degenerate_differ :
    EighOn degenerateRoutinesIr 12 degenerateIr ∧
    EighOn degenerateRoutinesReducible 4 degenerateReducible ∧
    (solveColmat degenerateRoutinesIr false 0 1 0 (1 / 2) 12 degenerateIr
      (lbteX degenerateInput)).map (fun Y => tensorOf (lbteKappa false degenerateInput
        (lbteX degenerateInput) Y fun _ _ _ => 0).2 0 0) = some 0 ∧
    (solveColmat degenerateRoutinesReducible true 0 1 0 (1 / 2) 4 degenerateReducible
      (lbteX degenerateInput)).map (fun Y => tensorOf (lbteKappa true degenerateInput
        (lbteX degenerateInput) Y fun _ _ _ => 0).2 0 0) = some 1 := by
  refine ⟨⟨⟨?_, ?_⟩, ⟨?_, ?_⟩⟩, ⟨⟨?_, ?_⟩, ⟨?_, ?_⟩⟩, ?_, ?_⟩ <;> decide +kernel

end Phono3py.Props
