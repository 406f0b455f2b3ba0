/-
The Python variants of expanding and symmetrising the collision matrix
(phono3py/conductivity/direct_solution.py:605-634, 696-728, 1199-1233).
-/
import Verif.Model.Collision

namespace Phono3py

section
variable {K : Type} [Field K]

/-- A block of the reducible collision matrix for one sigma and one temperature, by grid point, band, grid point and
band (phono3py/conductivity/direct_solution.py:397-408). -/
abbrev CollisionBlock (K : Type) := Nat → Nat → Nat → Nat → K

/-- `colmat[:, :, gp_r, :, gp_c, :] += colmat_irgp[:, :, :, k, :]`,
phono3py/conductivity/direct_solution.py:628. -/
def pyExpandAdd (gpR gpC : Nat) (copy : Nat → Nat → Nat → K) (k : Nat) (A : CollisionBlock K) : CollisionBlock K :=
  fun r m n p => if r = gpR ∧ n = gpC then A r m n p + copy m k p else A r m n p

/-- The round of one irreducible point, phono3py/conductivity/direct_solution.py:619-628. `rot j k` is
`rot_grid_points[j, k]`. -/
def pyExpandStep (rot : Nat → Nat → Nat) (numGp numRot : Nat) (A : CollisionBlock K) (irGp : Nat) :
    CollisionBlock K :=
  let multi := (List.range numRot).countP fun j => decide (rot j irGp = irGp)
  let copy : Nat → Nat → Nat → K := fun m n p => A irGp m n p / (multi : K)
  let cleared : CollisionBlock K := fun r m n p => if r = irGp then 0 else A r m n p
  (List.range numRot).foldl (fun B j =>
    (List.range numGp).foldl (fun B k => pyExpandAdd (rot j irGp) (rot j k) copy k B) B) cleared

/-- `_expand_reducible_collisions` with `lang="Py"`, phono3py/conductivity/direct_solution.py:616-628. -/
def pyExpand (rot : Nat → Nat → Nat) (numGp numRot : Nat) (ir : List Nat) (A : CollisionBlock K) :
    CollisionBlock K :=
  ir.foldl (pyExpandStep rot numGp numRot) A

/-- `col_mat += col_mat.T; col_mat /= 2`, phono3py/conductivity/direct_solution.py:718-725; numpy copies overlapping
operands first. -/
def npSymmetrize (M : Nat → Nat → K) : Nat → Nat → K := fun k l => (M k l + M l k) / 2

/-- `_py_set_symmetrized_element` and the variant without stars, phono3py/conductivity/direct_solution.py:1210-1216,
1227-1233, on the matrix of a block. -/
def pySymmetrizeElement (M : Nat → Nat → K) (t : Nat × Nat) : Nat → Nat → K :=
  let val := (M t.1 t.2 + M t.2 t.1) / 2
  fun k l => if (k, l) = t ∨ (l, k) = t then val else M k l

/-- `_py_symmetrize_collision_matrix` and the variant without stars, phono3py/conductivity/direct_solution.py:1199-1208,
1218-1225: all pairs of indices in order, so every pair of elements is visited twice. -/
def pySymmetrize (size : Nat) (M : Nat → Nat → K) : Nat → Nat → K :=
  (loop size fun k => (List.range size).map fun l => (k, l)).foldl pySymmetrizeElement M

end
end Phono3py
