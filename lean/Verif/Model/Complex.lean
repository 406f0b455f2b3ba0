/-
`lapack_complex_double` over an ordered field.
-/
import Mathlib.Algebra.Field.Basic
import Mathlib.Tactic.Ring

namespace Phono3py

/-- `lapack_complex_double` (c/lapack_wrapper.h:42-45). -/
@[ext] structure Cplx (K : Type _) where
  re : K
  im : K
deriving DecidableEq

namespace Cplx
section
variable {K : Type _} [CommRing K]

instance : Zero (Cplx K) := ⟨⟨0, 0⟩⟩
instance : One (Cplx K) := ⟨⟨1, 0⟩⟩
/-- `sum_lapack_complex_double`, c/real_to_reciprocal.c:393-399. -/
instance : Add (Cplx K) := ⟨fun a b => ⟨a.re + b.re, a.im + b.im⟩⟩
instance : Neg (Cplx K) := ⟨fun a => ⟨-a.re, -a.im⟩⟩
instance : Sub (Cplx K) := ⟨fun a b => ⟨a.re - b.re, a.im - b.im⟩⟩
/-- `phonoc_complex_prod`, c/lapack_wrapper.c:61-70. -/
instance : Mul (Cplx K) := ⟨fun a b => ⟨a.re * b.re - a.im * b.im, a.im * b.re + a.re * b.im⟩⟩

@[simp] theorem zero_re : (0 : Cplx K).re = 0 := rfl
@[simp] theorem zero_im : (0 : Cplx K).im = 0 := rfl
@[simp] theorem one_re : (1 : Cplx K).re = 1 := rfl
@[simp] theorem one_im : (1 : Cplx K).im = 0 := rfl
@[simp] theorem add_re (a b : Cplx K) : (a + b).re = a.re + b.re := rfl
@[simp] theorem add_im (a b : Cplx K) : (a + b).im = a.im + b.im := rfl
@[simp] theorem neg_re (a : Cplx K) : (-a).re = -a.re := rfl
@[simp] theorem neg_im (a : Cplx K) : (-a).im = -a.im := rfl
@[simp] theorem sub_re (a b : Cplx K) : (a - b).re = a.re - b.re := rfl
@[simp] theorem sub_im (a b : Cplx K) : (a - b).im = a.im - b.im := rfl
@[simp] theorem mul_re (a b : Cplx K) : (a * b).re = a.re * b.re - a.im * b.im := rfl
@[simp] theorem mul_im (a b : Cplx K) : (a * b).im = a.im * b.re + a.re * b.im := rfl

instance : CommRing (Cplx K) where
  add_assoc a b c := by ext <;> simp <;> ring
  zero_add a := by ext <;> simp
  add_zero a := by ext <;> simp
  add_comm a b := by ext <;> simp <;> ring
  neg_add_cancel a := by ext <;> simp
  sub_eq_add_neg a b := by ext <;> simp <;> ring
  mul_assoc a b c := by ext <;> simp <;> ring
  one_mul a := by ext <;> simp
  mul_one a := by ext <;> simp
  zero_mul a := by ext <;> simp
  mul_zero a := by ext <;> simp
  left_distrib a b c := by ext <;> simp <;> ring
  right_distrib a b c := by ext <;> simp <;> ring
  mul_comm a b := by ext <;> simp <;> ring
  nsmul := nsmulRec
  zsmul := zsmulRec

/-- `re * re + im * im`, c/reciprocal_to_normal.c:314. -/
def normSq (a : Cplx K) : K := a.re * a.re + a.im * a.im

/-- Product with a real number, component by component (c/reciprocal_to_normal.c:314). -/
def scale (a : Cplx K) (r : K) : Cplx K := ⟨a.re * r, a.im * r⟩

end
end Cplx
end Phono3py
