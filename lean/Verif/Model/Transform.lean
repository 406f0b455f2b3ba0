/-
`grg_transform_rotations` of `c/grgrid.c` with the real arithmetic taken exact (over ℚ).
-/
import Verif.Model.Vec
import Mathlib.Data.Rat.Floor
import Mathlib.Data.Fin.VecNotation

namespace Phono3py

/-- `v[i]` (c/lagrid.c:117-138). -/
def V3.e (v : V3) : Fin 3 → Int := ![v.x, v.y, v.z]
/-- `a[i][j]` (c/lagrid.c:117-138). -/
def M3.e (a : M3) : Fin 3 → Fin 3 → Int :=
  ![![a.m00, a.m01, a.m02], ![a.m10, a.m11, a.m12], ![a.m20, a.m21, a.m22]]
/-- The matrix with the given entries (c/lagrid.c:178-200). -/
def M3.ofFn (f : Fin 3 → Fin 3 → Int) : M3 :=
  ⟨f 0 0, f 0 1, f 0 2, f 1 0, f 1 1, f 1 2, f 2 0, f 2 1, f 2 2⟩

/-- `lagmat_Nint`, c/lagrid.c:241-246. The C cast truncates toward zero, which is `⌈⌉` for
the negative argument of the first branch and `⌊⌋` for the second. -/
def nint {K : Type _} [Field K] [LinearOrder K] [IsStrictOrderedRing K] [FloorRing K]
    (a : K) : Int := if a < 0 then ⌈a - 1 / 2⌉ else ⌊a + 1 / 2⌋

/-- `lagmat_Dabs`, c/lagrid.c:248-253. -/
def dabs (a : Rat) : Rat := if a < 0 then -a else a

/-- `lagmat_inverse_matrix_d3`, c/lagrid.c:117-138, called with `precision = 0`, for which
the test on the determinant never fires. (For a zero determinant C would divide by zero;
here division by zero gives 0. Every use has determinant 1 or -1.) -/
def inverseD3 (a : M3) : Fin 3 → Fin 3 → Rat :=
  let det : Rat := a.det
  ![![(a.m11 * a.m22 - a.m12 * a.m21 : Rat) / det, (a.m21 * a.m02 - a.m22 * a.m01 : Rat) / det,
      (a.m01 * a.m12 - a.m02 * a.m11 : Rat) / det],
    ![(a.m12 * a.m20 - a.m10 * a.m22 : Rat) / det, (a.m22 * a.m00 - a.m20 * a.m02 : Rat) / det,
      (a.m02 * a.m10 - a.m00 * a.m12 : Rat) / det],
    ![(a.m10 * a.m21 - a.m11 * a.m20 : Rat) / det, (a.m20 * a.m01 - a.m21 * a.m00 : Rat) / det,
      (a.m00 * a.m11 - a.m01 * a.m10 : Rat) / det]]

/-- `lagmat_multiply_matrix_d3` / `_ld3`, c/lagrid.c:178-200. -/
def mulD3 (a b : Fin 3 → Fin 3 → Rat) : Fin 3 → Fin 3 → Rat :=
  fun i j => a i 0 * b 0 j + a i 1 * b 1 j + a i 2 * b 2 j

/-- `lagmat_get_similar_matrix_ld3(r, R, Q, 0)`, c/lagrid.c:75-86. -/
def similarLd3 (R Q : M3) : Fin 3 → Fin 3 → Rat :=
  mulD3 (inverseD3 Q) (mulD3 (fun i j => (R.e i j : Rat)) (fun i j => (Q.e i j : Rat)))

/-- The scaled matrix of c/grgrid.c:121-127: `r[j][k] *= D_diag[j]; r[j][k] /= D_diag[k]`. -/
def scaledSimilar (R Q : M3) (D : V3) : Fin 3 → Fin 3 → Rat :=
  fun j k => similarLd3 R Q j k * (D.e j : Rat) / (D.e k : Rat)

/-- `IDENTITY_TOL`, c/grgrid.c:45. -/
def identityTol : Rat := 1 / 100000

/-- `lagmat_check_identity_matrix_ld3`, c/lagrid.c:99-115. -/
def checkIdentity (a : M3) (b : Fin 3 → Fin 3 → Rat) (symprec : Rat) : Bool :=
  !([(0, 0), (0, 1), (0, 2), (1, 0), (1, 1), (1, 2), (2, 0), (2, 1), (2, 2)] :
    List (Fin 3 × Fin 3)).any fun p => decide (dabs ((a.e p.1 p.2 : Rat) - b p.1 p.2) > symprec)

/-- One round of the loop of `grg_transform_rotations`, c/grgrid.c:119-133; `none` is the
return value 0. -/
def transformRotation (D : V3) (Q R : M3) : Option M3 :=
  let r := scaledSimilar R Q D
  let t := M3.ofFn (fun i j => nint (K := Rat) (r i j))
  if !checkIdentity t r identityTol then none else some t

/-- `grg_transform_rotations`, c/grgrid.c:108-137. -/
def transformRotations (D : V3) (Q : M3) : List M3 → Option (List M3)
  | [] => some []
  | R :: rots =>
    match transformRotation D Q R with
    | none => none
    | some t =>
      match transformRotations D Q rots with
      | none => none
      | some l => some (t :: l)

end Phono3py
