/-
Specification vocabulary for the Brillouin-zone grid.
-/
import Verif.Spec.Grid
import Verif.Model.BZGrid

namespace Phono3py.Spec

/-- BZ indices filed under regular grid point `i`, read off the pointer table of the dense
layout: the half-open interval `[gp_map[i], gp_map[i+1])`; or of the sparse layout: `i`
itself, then the interval delimited by the pointers stored after the doubled-mesh table,
counted from `N`. -/
def block (D : V3) (dense : Bool) (bz : BZGridOut) (i : Int) : List Int :=
  let N := D.x * D.y * D.z
  if dense then
    (List.range (bz.gpMap (i + 1) - bz.gpMap i).toNat).map (fun (k : Nat) => bz.gpMap i + k)
  else
    i :: (List.range (bz.gpMap (8 * N + i + 1) - bz.gpMap (8 * N + i)).toNat).map
      (fun (k : Nat) => N + bz.gpMap (8 * N + i) + k)

section
variable {K : Type _} [Field K]

/-- Reduced coordinates `Q D⁻¹ (a + PS/2)` of the q-point with grid address `a`. -/
def qCoord (b : BZInput K) (a : V3) : Fin 3 → K :=
  let q : Fin 3 → K := fun i => ((a.e i : K) + (b.PS.e i : K) / 2) / (b.D.e i : K)
  fun i => (b.Q.e i 0 : K) * q 0 + (b.Q.e i 1 : K) * q 1 + (b.Q.e i 2 : K) * q 2

/-- Squared length of the q-point with grid address `a`: `| B Q D⁻¹ (a + PS/2) |²`. -/
def qNorm (b : BZInput K) (a : V3) : K :=
  let q := qCoord b a
  let v : Fin 3 → K := fun i => b.reclat i 0 * q 0 + b.reclat i 1 * q 1 + b.reclat i 2 * q 2
  v 0 * v 0 + v 1 * v 1 + v 2 * v 2

/-- `t` is one of the 125 translates searched for the grid point with address `gr`: its
reduced coordinates are those of `gr`, folded by rounding into `[-1/2, 1/2]`, plus an
integer vector with components between -2 and 2. -/
def Searched [LinearOrder K] [IsStrictOrderedRing K] [FloorRing K] (b : BZInput K)
    (gr t : V3) : Prop :=
  ∃ s : V3, ((-2 ≤ s.x ∧ s.x ≤ 2) ∧ (-2 ≤ s.y ∧ s.y ≤ 2) ∧ (-2 ≤ s.z ∧ s.z ≤ 2)) ∧
    ∀ i, qCoord b t i = qCoord b gr i - (nint (qCoord b gr i) : K) + (s.e i : K)

/-- The search step of the BZ grid: the longest grid spacing, squared, over 100. -/
def tolerance [LinearOrder K] (b : BZInput K) : K :=
  let bq : Fin 3 → Fin 3 → K := fun i j =>
    b.reclat i 0 * (b.Q.e 0 j : K) + b.reclat i 1 * (b.Q.e 1 j : K) + b.reclat i 2 * (b.Q.e 2 j : K)
  let len : Fin 3 → K := fun j =>
    (bq 0 j * bq 0 j + bq 1 j * bq 1 j + bq 2 j * bq 2 j) / ((b.D.e j : K) * (b.D.e j : K))
  max (max (len 0) (len 1)) (len 2) / 100

end

/-- Filing facts of a BZ grid that later code relies on, stated on the arrays only. -/
structure ValidBZ (D : V3) (dense : Bool) (bz : BZGridOut) : Prop where
  /-- every BZ index lies in the block of exactly the grid point it is filed under -/
  cover : ∀ k, 0 ≤ k → k < bz.size → ∃ i, 0 ≤ i ∧ i < D.x * D.y * D.z ∧ k ∈ block D dense bz i
  /-- blocks hold BZ indices of translates of their grid point -/
  filed : ∀ i, 0 ≤ i → i < D.x * D.y * D.z → ∀ k ∈ block D dense bz i,
    (0 ≤ k ∧ k < bz.size) ∧ bz.bzg2grg k = i ∧ gridIndex (bz.addresses k) D = i
  nonempty : ∀ i, 0 ≤ i → i < D.x * D.y * D.z → block D dense bz i ≠ []
  distinct : ∀ k l, (0 ≤ k ∧ k < bz.size) → (0 ≤ l ∧ l < bz.size) →
    bz.addresses k = bz.addresses l → k = l

end Phono3py.Spec
