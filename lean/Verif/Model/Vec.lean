/-
Integer 3-vectors and 3x3 matrices, and the integer part of `c/lagrid.c`.
`int64_t` is modelled by `Int`; overflow is not modelled.
-/
import Mathlib.Tactic.Ring

namespace Phono3py

/-- `int64_t v[3]` (c/grgrid.c:297). -/
@[ext] structure V3 where
  x : Int
  y : Int
  z : Int
deriving DecidableEq, Repr

/-- `int64_t a[3][3]`, entry `mij` is `a[i][j]` (c/lagrid.c:39). -/
@[ext] structure M3 where
  m00 : Int
  m01 : Int
  m02 : Int
  m10 : Int
  m11 : Int
  m12 : Int
  m20 : Int
  m21 : Int
  m22 : Int
deriving DecidableEq, Repr

namespace V3

/-- Componentwise sum; used where the C code adds addresses component by component
(e.g. c/triplet_grid.c:285-289). -/
def add (a b : V3) : V3 := ⟨a.x + b.x, a.y + b.y, a.z + b.z⟩
/-- Componentwise negation (c/grgrid.c:245). -/
def neg (a : V3) : V3 := ⟨-a.x, -a.y, -a.z⟩
/-- Componentwise difference (c/triplet_grid.c:285-289). -/
def sub (a b : V3) : V3 := ⟨a.x - b.x, a.y - b.y, a.z - b.z⟩
/-- Componentwise product, `address[i] * D_diag[i]` (c/bzgrid.c:257). -/
def mul (a b : V3) : V3 := ⟨a.x * b.x, a.y * b.y, a.z * b.z⟩
/-- Scalar multiple (c/lagrid.c:154-164). -/
def smul (k : Int) (a : V3) : V3 := ⟨k * a.x, k * a.y, k * a.z⟩
/-- `zero` (c/grgrid.c:245). -/
def zero : V3 := ⟨0, 0, 0⟩

instance : Add V3 := ⟨add⟩
instance : Neg V3 := ⟨neg⟩
instance : Sub V3 := ⟨sub⟩
instance : Zero V3 := ⟨zero⟩

@[simp] theorem add_x (a b : V3) : (a + b).x = a.x + b.x := rfl
@[simp] theorem add_y (a b : V3) : (a + b).y = a.y + b.y := rfl
@[simp] theorem add_z (a b : V3) : (a + b).z = a.z + b.z := rfl
@[simp] theorem sub_x (a b : V3) : (a - b).x = a.x - b.x := rfl
@[simp] theorem sub_y (a b : V3) : (a - b).y = a.y - b.y := rfl
@[simp] theorem sub_z (a b : V3) : (a - b).z = a.z - b.z := rfl
@[simp] theorem neg_x (a : V3) : (-a).x = -a.x := rfl
@[simp] theorem neg_y (a : V3) : (-a).y = -a.y := rfl
@[simp] theorem neg_z (a : V3) : (-a).z = -a.z := rfl
@[simp] theorem zero_x : (0 : V3).x = 0 := rfl
@[simp] theorem zero_y : (0 : V3).y = 0 := rfl
@[simp] theorem zero_z : (0 : V3).z = 0 := rfl
@[simp] theorem mul_x (a b : V3) : (a.mul b).x = a.x * b.x := rfl
@[simp] theorem mul_y (a b : V3) : (a.mul b).y = a.y * b.y := rfl
@[simp] theorem mul_z (a b : V3) : (a.mul b).z = a.z * b.z := rfl
@[simp] theorem smul_x (k : Int) (a : V3) : (smul k a).x = k * a.x := rfl
@[simp] theorem smul_y (k : Int) (a : V3) : (smul k a).y = k * a.y := rfl
@[simp] theorem smul_z (k : Int) (a : V3) : (smul k a).z = k * a.z := rfl

end V3

namespace M3

/-- The identity matrix (c/snf3x3.c:75-89). -/
def one : M3 := ⟨1, 0, 0, 0, 1, 0, 0, 0, 1⟩
/-- `inversion` in c/grgrid.c:245. -/
def negOne : M3 := ⟨-1, 0, 0, 0, -1, 0, 0, 0, -1⟩
/-- Diagonal matrix (c/grgrid.c:72-98). -/
def diag (d : V3) : M3 := ⟨d.x, 0, 0, 0, d.y, 0, 0, 0, d.z⟩

/-- `lagmat_get_determinant_l3`, c/lagrid.c:39-43 (also `det` in c/snf3x3.c:466-470). -/
def det (a : M3) : Int :=
  a.m00 * (a.m11 * a.m22 - a.m12 * a.m21) +
  a.m01 * (a.m12 * a.m20 - a.m10 * a.m22) +
  a.m02 * (a.m10 * a.m21 - a.m11 * a.m20)

/-- `lagmat_transpose_matrix_l3`, c/lagrid.c:140-152 (also `transpose`, c/snf3x3.c:436-447). -/
def transpose (b : M3) : M3 :=
  ⟨b.m00, b.m10, b.m20, b.m01, b.m11, b.m21, b.m02, b.m12, b.m22⟩

/-- `lagmat_multiply_matrix_vector_l3`, c/lagrid.c:154-164. -/
def mulVec (a : M3) (b : V3) : V3 :=
  ⟨a.m00 * b.x + a.m01 * b.y + a.m02 * b.z,
   a.m10 * b.x + a.m11 * b.y + a.m12 * b.z,
   a.m20 * b.x + a.m21 * b.y + a.m22 * b.z⟩

/-- `lagmat_multiply_matrix_l3`, c/lagrid.c:166-176 (also `matmul`, c/snf3x3.c:449-464). -/
def mul (a b : M3) : M3 :=
  ⟨a.m00 * b.m00 + a.m01 * b.m10 + a.m02 * b.m20,
   a.m00 * b.m01 + a.m01 * b.m11 + a.m02 * b.m21,
   a.m00 * b.m02 + a.m01 * b.m12 + a.m02 * b.m22,
   a.m10 * b.m00 + a.m11 * b.m10 + a.m12 * b.m20,
   a.m10 * b.m01 + a.m11 * b.m11 + a.m12 * b.m21,
   a.m10 * b.m02 + a.m11 * b.m12 + a.m12 * b.m22,
   a.m20 * b.m00 + a.m21 * b.m10 + a.m22 * b.m20,
   a.m20 * b.m01 + a.m21 * b.m11 + a.m22 * b.m21,
   a.m20 * b.m02 + a.m21 * b.m12 + a.m22 * b.m22⟩

/-- `lagmat_check_identity_matrix_l3`, c/lagrid.c:88-97: all nine differences are zero. -/
def same (a b : M3) : Bool :=
  !(a.m00 - b.m00 != 0 || a.m01 - b.m01 != 0 || a.m02 - b.m02 != 0 ||
    a.m10 - b.m10 != 0 || a.m11 - b.m11 != 0 || a.m12 - b.m12 != 0 ||
    a.m20 - b.m20 != 0 || a.m21 - b.m21 != 0 || a.m22 - b.m22 != 0)

/-- Matrix of cofactors divided (C division) by `det`, as written in
`get_inverse_unimodular_matrix_l3`, c/bzgrid.c:337-345. -/
def cofactorsDiv (a : M3) (d : Int) : M3 :=
  ⟨(a.m11 * a.m22 - a.m12 * a.m21).tdiv d,
   (a.m21 * a.m02 - a.m22 * a.m01).tdiv d,
   (a.m01 * a.m12 - a.m02 * a.m11).tdiv d,
   (a.m12 * a.m20 - a.m10 * a.m22).tdiv d,
   (a.m22 * a.m00 - a.m20 * a.m02).tdiv d,
   (a.m02 * a.m10 - a.m00 * a.m12).tdiv d,
   (a.m10 * a.m21 - a.m11 * a.m20).tdiv d,
   (a.m20 * a.m01 - a.m21 * a.m00).tdiv d,
   (a.m00 * a.m11 - a.m01 * a.m10).tdiv d⟩

/-- `get_inverse_unimodular_matrix_l3`, c/bzgrid.c:327-349. `none` is the return value 0,
taken when `labs(det) != 1`. -/
def inverseUnimodular (a : M3) : Option M3 :=
  if a.det.natAbs != 1 then none else some (a.cofactorsDiv a.det)

end M3

/-- `lagmat_modulo_l`, c/lagrid.c:232-239: C remainder, then one correction. -/
def moduloL (a b : Int) : Int :=
  let c := a.tmod b
  if c < 0 then c + b else c

/-- Write `v` at index `i` of an `int64_t` array seen as a function (c/grgrid.c:405-432). -/
def upd {α : Type _} (f : Int → α) (i : Int) (v : α) : Int → α :=
  fun k => if k = i then v else f k

end Phono3py
