/-
C178: symmetry left by displacements of one and two atoms.
-/
import Verif.Spec.BondSymmetry
import Verif.Model.DeltaFc2
import Mathlib.Algebra.Order.Archimedean.Basic
import Mathlib.Tactic.FinCases
import Mathlib.Tactic.Ring
import Mathlib.Tactic.Linarith
import Mathlib.Tactic.NormNum
import Mathlib.Algebra.Order.Round

set_option linter.unusedSectionVars false

namespace Phono3py.Props
open Phono3py Phono3py.Spec

section
variable {K : Type _} [Field K] [LinearOrder K] [IsStrictOrderedRing K]

theorem turn_one (v : Fin 3 → K) : IntRotation.turn 1 v = v := by
  funext i
  fin_cases i <;> simp [IntRotation.turn, Matrix.one_apply]

theorem turn_mul (R S : IntRotation) (v : Fin 3 → K) :
    IntRotation.turn (R * S) v = IntRotation.turn R (IntRotation.turn S v) := by
  funext i
  simp only [IntRotation.turn, Matrix.mul_apply, Fin.sum_univ_three]
  push_cast
  ring

theorem turn_add (R : IntRotation) (v w : Fin 3 → K) :
    R.turn (fun i => v i + w i) = fun i => R.turn v i + R.turn w i := by
  funext i
  simp only [IntRotation.turn]
  ring

theorem turn_int (R : IntRotation) (d : Fin 3 → Int) (i : Fin 3) :
    R.turn (fun j => (d j : K)) i = ((R.mulVec d i : Int) : K) := by
  simp only [IntRotation.turn, Matrix.mulVec, dotProduct, Fin.sum_univ_three]
  push_cast
  ring

theorem keepsAtom_one (c p : Fin 3 → K) : KeepsAtom 1 c p :=
  ⟨fun _ => 0, fun i => by rw [turn_one]; simp⟩

theorem KeepsAtom.mul {R S : IntRotation} {c p : Fin 3 → K} (hR : KeepsAtom R c p) (hS : KeepsAtom S c p) :
    KeepsAtom (R * S) c p := by
  obtain ⟨z, hz⟩ := hR
  obtain ⟨w, hw⟩ := hS
  refine ⟨fun i => z i + R.mulVec w i, fun i => ?_⟩
  rw [turn_mul, funext hw, turn_add R (fun j => p j - c j) (fun j => (w j : K))]
  simp only
  rw [hz i, turn_int]
  push_cast
  ring

theorem KeepsAtom.inv {R S : IntRotation} {c p : Fin 3 → K} (hR : KeepsAtom R c p) (h : S * R = 1) :
    KeepsAtom S c p := by
  obtain ⟨z, hz⟩ := hR
  refine ⟨fun i => - S.mulVec z i, fun i => ?_⟩
  have h1 : S.turn (R.turn fun j => p j - c j) i = p i - c i := by rw [← turn_mul, h, turn_one]
  rw [funext hz, turn_add S (fun j => p j - c j) (fun j => (z j : K))] at h1
  simp only at h1
  rw [turn_int] at h1
  push_cast
  linarith

theorem keepsDirection_iff_small (R : IntRotation) (d : Fin 3 → Int) (symprec : K) (h0 : 0 < symprec)
    (h1 : symprec ≤ 1) :
    (∀ i, |(d i : K) - R.turn (fun j => (d j : K)) i| < symprec) ↔ KeepsDirection R d := by
  unfold KeepsDirection
  constructor
  · intro h
    funext i
    have hi := h i
    rw [turn_int, ← Int.cast_sub, ← Int.cast_abs] at hi
    have : |d i - R.mulVec d i| < 1 := by exact_mod_cast lt_of_lt_of_le hi h1
    have := Int.abs_lt_one_iff.1 this
    omega
  · intro h i
    rw [turn_int, h]
    simpa using h0

/-- C178. With a tolerance not above one, the symmetry left by displacing an atom along a direction of
integers is exactly the part of the site symmetry that keeps this direction. -/
theorem C178_reduced_symmetry (G : List IntRotation) (d : Fin 3 → Int) (symprec : K) (h0 : 0 < symprec)
    (h1 : symprec ≤ 1) (R : IntRotation) :
    R ∈ reducedSiteSymmetry G (fun i => (d i : K)) symprec ↔ R ∈ G ∧ KeepsDirection R d := by
  unfold reducedSiteSymmetry
  rw [List.mem_filter, decide_eq_true_eq, keepsDirection_iff_small R d symprec h0 h1]

/-- C178. It is a group if the site symmetry is. -/
theorem C178_reduced_group (G : List IntRotation) (hG : RotationGroup G) (d : Fin 3 → Int) (symprec : K)
    (h0 : 0 < symprec) (h1 : symprec ≤ 1) :
    RotationGroup (reducedSiteSymmetry G (fun i => (d i : K)) symprec) := by
  have key := C178_reduced_symmetry G d symprec h0 h1
  refine ⟨(key 1).2 ⟨hG.one, Matrix.one_mulVec d⟩, ?_, ?_⟩
  · intro R hR S hS
    obtain ⟨hR1, hR2⟩ := (key R).1 hR
    obtain ⟨hS1, hS2⟩ := (key S).1 hS
    refine (key _).2 ⟨hG.mul R hR1 S hS1, ?_⟩
    unfold KeepsDirection at *
    rw [← Matrix.mulVec_mulVec, hS2, hR2]
  · intro R hR
    obtain ⟨hR1, hR2⟩ := (key R).1 hR
    obtain ⟨S, hS, e⟩ := hG.inv R hR1
    refine ⟨S, (key S).2 ⟨hS, ?_⟩, e⟩
    unfold KeepsDirection at *
    have : S.mulVec (R.mulVec d) = d := by rw [Matrix.mulVec_mulVec, e, Matrix.one_mulVec]
    rwa [hR2] at this

/-- The tolerance tells apart rotations that keep the atom from those that do not. -/
def Separates (rint : K → Int) (G : List IntRotation) (lattice : Fin 3 → Fin 3 → K) (pos : Nat → Fin 3 → K)
    (c p : Nat) (symprec : K) : Prop :=
  ∀ R ∈ G, ¬ KeepsAtom R (pos c) (pos p) → symprec * symprec ≤ bondDistSq rint lattice (bondDiff pos c p R)

/-- C178. The bond symmetry is exactly the part of the symmetry that keeps the second atom. Partial:
the tolerance has to tell positions apart; see `C178_not_a_group`. -/
theorem C178_bond_symmetry_partial (rint : K → Int) (hrint : ∀ z : Int, rint (z : K) = z) (G : List IntRotation)
    (lattice : Fin 3 → Fin 3 → K) (pos : Nat → Fin 3 → K) (c p : Nat) (symprec : K) (h0 : 0 < symprec)
    (hsep : Separates rint G lattice pos c p symprec) (R : IntRotation) :
    R ∈ bondSymmetry rint G lattice pos c p symprec ↔ R ∈ G ∧ KeepsAtom R (pos c) (pos p) := by
  unfold bondSymmetry
  rw [List.mem_filter, decide_eq_true_eq]
  constructor
  · rintro ⟨hR, h⟩
    refine ⟨hR, ?_⟩
    by_contra hk
    exact absurd h (not_lt.2 (hsep R hR hk))
  · rintro ⟨hR, z, hz⟩
    refine ⟨hR, ?_⟩
    have e : ∀ i, bondDiff pos c p R i = ((-z i : Int) : K) := by
      intro i
      unfold bondDiff
      rw [hz i]
      push_cast
      ring
    have e0 : bondDistSq rint lattice (bondDiff pos c p R) = 0 := by
      unfold bondDistSq
      simp only [e, hrint]
      ring
    rw [e0]
    exact mul_pos h0 h0

/-- C178. The bond symmetry is then a group. -/
theorem C178_bond_group (rint : K → Int) (hrint : ∀ z : Int, rint (z : K) = z) (G : List IntRotation)
    (hG : RotationGroup G) (lattice : Fin 3 → Fin 3 → K) (pos : Nat → Fin 3 → K) (c p : Nat) (symprec : K)
    (h0 : 0 < symprec) (hsep : Separates rint G lattice pos c p symprec) :
    RotationGroup (bondSymmetry rint G lattice pos c p symprec) := by
  have key := C178_bond_symmetry_partial rint hrint G lattice pos c p symprec h0 hsep
  refine ⟨(key 1).2 ⟨hG.one, keepsAtom_one _ _⟩, ?_, ?_⟩
  · intro R hR S hS
    obtain ⟨hR1, hR2⟩ := (key R).1 hR
    obtain ⟨hS1, hS2⟩ := (key S).1 hS
    exact (key _).2 ⟨hG.mul R hR1 S hS1, Props.KeepsAtom.mul hR2 hS2⟩
  · intro R hR
    obtain ⟨hR1, hR2⟩ := (key R).1 hR
    obtain ⟨S, hS, e⟩ := hG.inv R hR1
    exact ⟨S, (key S).2 ⟨hS, Props.KeepsAtom.inv hR2 e⟩, e⟩

/-- C178. The symmetry used to choose displacements of the second atom keeps the direction of the
first displacement and the second atom, and nothing that does so is left out. -/
theorem C178_pair_symmetry (rint : K → Int) (hrint : ∀ z : Int, rint (z : K) = z) (G : List IntRotation)
    (lattice : Fin 3 → Fin 3 → K) (pos : Nat → Fin 3 → K) (a1 a2 : Nat) (d : Fin 3 → Int) (symprec : K)
    (h0 : 0 < symprec) (h1 : symprec ≤ 1) (hsep : Separates rint G lattice pos a1 a2 symprec) (R : IntRotation) :
    R ∈ pairSymmetry rint G lattice pos a1 a2 d symprec ↔
      R ∈ G ∧ KeepsDirection R d ∧ KeepsAtom R (pos a1) (pos a2) := by
  unfold pairSymmetry
  rw [C178_bond_symmetry_partial rint hrint _ lattice pos a1 a2 symprec h0, C178_reduced_symmetry G d symprec h0 h1,
    and_assoc]
  intro S hS
  exact hsep S ((C178_reduced_symmetry G d symprec h0 h1 S).1 hS).1

end

/-! ### The functions as used for fc3 -/

section
variable {K : Type} [Field K] [LinearOrder K] [IsStrictOrderedRing K]

theorem turn_eq_turnVec (R : IntRotation) (v : Fin 3 → K) : R.turn v = turnVec R v := by
  funext i
  simp [IntRotation.turn, turnVec, Matrix.mulVec, dotProduct, Fin.sum_univ_three]

/-- C178. The symmetries of this property are those which the displacements and fc3 of C149 are made
with, where the norm is the Euclidean one and the rounding is by component. -/
theorem C178_same_functions (T : FcTools K) (rint : K → Int) (hr : ∀ v i, T.rint v i = (rint (v i) : K))
    (hn : ∀ v, 0 ≤ T.norm v ∧ T.norm v * T.norm v = v 0 * v 0 + v 1 * v 1 + v 2 * v 2) (h0 : 0 < T.tol)
    (G : List Rot) (c p : Nat) (d : Fin 3 → K) :
    bondSymmetry rint G T.lattice T.pos c p T.tol = T.bondSym G c p ∧
      reducedSiteSymmetry G d T.tol = reducedSiteSym T.tol G d := by
  constructor
  · unfold bondSymmetry FcTools.bondSym FcTools.near
    apply List.filter_congr
    intro R _
    have e : bondDistSq rint T.lattice (bondDiff T.pos c p R) =
        T.norm (T.lattice.mulVec ((T.pos p - T.turnAbout c R (T.pos p)) - T.rint (T.pos p - T.turnAbout c R (T.pos p)))) *
        T.norm (T.lattice.mulVec ((T.pos p - T.turnAbout c R (T.pos p)) -
          T.rint (T.pos p - T.turnAbout c R (T.pos p)))) := by
      have hd : bondDiff T.pos c p R = T.pos p - T.turnAbout c R (T.pos p) := by
        funext i
        unfold bondDiff FcTools.turnAbout
        rw [turn_eq_turnVec]
        rfl
      rw [(hn _).2, hd]
      simp only [bondDistSq, Matrix.mulVec, dotProduct, Fin.sum_univ_three, Pi.sub_apply, hr]
    rw [e]
    exact decide_eq_decide.2 (mul_self_lt_mul_self_iff (hn _).1 h0.le).symm
  · unfold reducedSiteSymmetry reducedSiteSym
    apply List.filter_congr
    intro R _
    rw [turn_eq_turnVec]

end

/-! ### Concrete cases -/

/-- The rotations about a fourfold axis. -/
def exampleFourfold : List IntRotation :=
  [1, !![0, -1, 0; 1, 0, 0; 0, 0, 1], !![-1, 0, 0; 0, -1, 0; 0, 0, 1], !![0, 1, 0; -1, 0, 0; 0, 0, 1]]

theorem exampleFourfold_group : RotationGroup exampleFourfold :=
  ⟨by decide +kernel, by decide +kernel, by decide +kernel⟩

/-- A cubic lattice with the atoms at the origin, on the axis, at an edge, and slightly off the axis. -/
def examplePositions : Nat → Fin 3 → ℚ := fun a =>
  if a = 0 then ![0, 0, 0] else if a = 1 then ![0, 0, 1 / 2] else if a = 2 then ![1 / 2, 0, 0] else ![3 / 500000, 0, 1 / 2]

def exampleBondCubic : Fin 3 → Fin 3 → ℚ := fun i j => if i = j then 1 else 0

/-- C178 fails when the distance from an axis is comparable with the tolerance: the bond symmetry then
has the fourfold rotation without its square. Here the tolerance is 1e-5 and the atom is 6e-6 off the
axis. -/
theorem C178_not_a_group : RotationGroup exampleFourfold ∧
    ¬ RotationGroup (bondSymmetry round exampleFourfold exampleBondCubic examplePositions 0 3 (1 / 100000)) := by
  refine ⟨exampleFourfold_group, fun h => ?_⟩
  have h1 : !![0, -1, 0; 1, 0, 0; 0, 0, 1] ∈
      bondSymmetry round exampleFourfold exampleBondCubic examplePositions 0 3 (1 / 100000) := by decide +kernel
  have h2 := h.mul _ h1 _ h1
  revert h2
  decide +kernel

example : ∀ z : Int, round (z : ℚ) = z := round_intCast
/-- The atom on the axis keeps all rotations, the one at the edge only the twofold one. -/
example : bondSymmetry round exampleFourfold exampleBondCubic examplePositions 0 1 (1 / 100000) = exampleFourfold ∧
    bondSymmetry round exampleFourfold exampleBondCubic examplePositions 0 2 (1 / 100000) =
      [1, !![-1, 0, 0; 0, -1, 0; 0, 0, 1]] := by decide +kernel
/-- The tolerance tells positions apart for the atom at the edge. -/
example : Separates round exampleFourfold exampleBondCubic examplePositions 0 2 (1 / 100000) := by
  intro R hR hk
  have : ∀ R ∈ exampleFourfold, bondDistSq round exampleBondCubic (bondDiff examplePositions 0 2 R) <
      1 / 100000 * (1 / 100000) → ∀ i, ∃ z ∈ [0, -1, 1], IntRotation.turn R (fun j => examplePositions 2 j - examplePositions 0 j) i =
        examplePositions 2 i - examplePositions 0 i + ((z : Int) : ℚ) := by decide +kernel
  by_contra hlt
  have h := this R hR (not_le.1 hlt)
  choose z _ hz using h
  exact hk ⟨z, hz⟩
/-- A displacement along the axis keeps all rotations, one along an edge none. -/
example : reducedSiteSymmetry exampleFourfold (fun i => ((![0, 0, 1] : Fin 3 → Int) i : ℚ)) (1 / 100000) = exampleFourfold ∧
    pairSymmetry round exampleFourfold exampleBondCubic examplePositions 0 2 ![1, 0, 0] (1 / 100000) = [1] := by
  decide +kernel

end Phono3py.Props
