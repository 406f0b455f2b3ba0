/-
Construction of fc3 without the C library: phono3py/phonon3/fc3.py.
-/
import Verif.Model.Fc3Solve

namespace Phono3py

section
variable {K : Type _} [Field K]

/-- `_third_rank_tensor_rotation_elem`, phono3py/phonon3/fc3.py:772-778. -/
def pyTensorElem (r : Nat → Nat → K) (tensor : Nat → Nat → Nat → K) (t : Nat × Nat × Nat) : K :=
  cart27.foldl (fun sum c => sum + r t.1 c.1 * r t.2.1 c.2.1 * r t.2.2 c.2.2 * tensor c.1 c.2.1 c.2.2) 0

/-- `fc3[i_target, j, k] = _third_rank_tensor_rotation(rot_cart_inv, fc3[i_done, j_rot, k_rot])`,
phono3py/phonon3/fc3.py:243-249, 374-382: the whole tensor is made before it is stored. -/
def pyDistributeStep (num target source : Nat) (mapping : Nat → Nat) (r : Nat → Nat → K) (fc3 : Int → K)
    (t : Nat × Nat) : Int → K :=
  runWrites fc3 (cart27.map fun c =>
    ((((num * num * target + num * t.1 + t.2) * 27 + cartPos c : Nat) : Int),
      pyTensorElem r (fun a b d =>
        fc3 ((num * num * source + num * mapping t.1 + mapping t.2) * 27 + cartPos (a, b, d) : Nat)) c))

/-- The loops over `j` and `k`, phono3py/phonon3/fc3.py:243-249, on an array with `rows` first
indices; `none` is the `IndexError`. Rows are not looked up in `s2compact`. -/
def pyDistributeRow (rows num target source : Nat) (mapping : Nat → Nat) (r : Nat → Nat → K) (fc3 : Int → K) :
    Option (Int → K) :=
  if target < rows ∧ source < rows then
    some ((loop num fun i => (List.range num).map fun j => (i, j)).foldl
      (pyDistributeStep num target source mapping r) fc3)
  else none

/-- `distribute_fc3` when the C library is missing, phono3py/phonon3/fc3.py:173-249. -/
def pyDistributeFc3 (rows num : Nat) (ops : List (SymOp K)) (firsts : List Nat) :
    List Nat → (Int → K) → Option (Int → K)
  | [], fc3 => some fc3
  | target :: rest, fc3 =>
    match (findSource ops target firsts).bind fun d =>
        pyDistributeRow rows num target d.1 d.2.perm (fun l i => d.2.rotCart i l) fc3 with
    | some fc3 => pyDistributeFc3 rows num ops firsts rest fc3
    | none => none

/-- `similarity_transformation(sym, fc2_rot)` of phonopy, `sym . fc2 . inv(sym)`, as called in
phono3py/phonon3/fc3.py:768; `inv` is the matrix that numpy returns as the inverse. -/
def pySimilarity (r inv tensor : Nat → Nat → K) (i j : Nat) : K :=
  sumLoop 3 fun k => r i k * sumLoop 3 fun l => tensor k l * inv l j

/-- `_get_rotated_fc2s`, phono3py/phonon3/fc3.py:763-769, before it is reshaped. -/
def pyRotatedFc2s (s : SiteData K) (inv : Nat → Nat → Nat → K) (i j : Nat) : List (Nat → Nat → K) :=
  (List.range s.numDisp).flatMap fun d => (List.range s.numSym).map fun y =>
    pySimilarity (s.siteSymCart y) (inv y) (s.deltaFc2s (d * s.numAtom * s.numAtom +
      s.rotMapSyms (y * s.numAtom + i) * s.numAtom + s.rotMapSyms (y * s.numAtom + j)))

/-- `np.dot(inv_U, ...)` at one row and column, phono3py/phonon3/fc3.py:524-526. -/
def pySolveElem (s : SiteData K) (inv : Nat → Nat → Nat → K) (i j k l m : Nat) : K :=
  sumLoop (s.numSym * s.numDisp) fun n =>
    s.invU (k * s.numSym * s.numDisp + n) * (pyRotatedFc2s s inv i j).getD n (fun _ _ => 0) l m

/-- The loop of `_solve_fc3` when the C library is missing, phono3py/phonon3/fc3.py:514-528. -/
def pySolveFc3 (s : SiteData K) (inv : Nat → Nat → Nat → K) (fc3 : Int → K) : Int → K :=
  runWrites fc3 (loop s.numAtom fun i => loop s.numAtom fun j => loop 3 fun k => loop 3 fun l => loop 3 fun m =>
    [(((((i * s.numAtom + j) * 3 + k) * 3 + l) * 3 + m : Nat), pySolveElem s inv i j k l m)])

end

end Phono3py
