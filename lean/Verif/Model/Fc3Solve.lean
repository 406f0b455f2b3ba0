/-
Construction of third-order force constants: c/fc3.c and phono3py/phonon3/fc3.py. Functions of
phonopy (symmetry search, pseudo-inverse, shortest vectors) are parameters.
-/
import Verif.Model.Fc3

namespace Phono3py

section
variable {K : Type _} [Field K]

/-! ### Distribution over equivalent first atoms -/

/-- `tensor3_rotation_elem`, c/fc3.c:222-241; `r l i` is `r[l * 3 + i]`. -/
def tensor3RotationElem (tensor : Nat → K) (r : Nat → Nat → K) (pos : Nat) : K :=
  let l := pos / 9
  let m := pos % 9 / 3
  let n := pos % 3
  cart27.foldl (fun sum c => sum + r l c.1 * r m c.2.1 * r n c.2.2 * tensor (cartPos c)) 0

/-- One assignment of `tensor3_rotation`, c/fc3.c:213-220, called for the atoms `i` and `j` by
`fc3_distribute_fc3`, c/fc3.c:81-89; the array is updated in place. -/
def distributeStep (num target source : Nat) (mapping : Nat → Nat) (r : Nat → Nat → K)
    (fc3 : Int → K) (t : Nat × Nat × Nat) : Int → K :=
  let adrsOut := (num * num * target + num * t.1 + t.2.1) * 27
  let adrsIn := (num * num * source + num * mapping t.1 + mapping t.2.1) * 27
  upd fc3 (adrsOut + t.2.2 : Nat)
    (tensor3RotationElem (fun p => fc3 (adrsIn + p : Nat)) r t.2.2)

/-- `fc3_distribute_fc3`, c/fc3.c:76-90. -/
def distributeRow (num target source : Nat) (mapping : Nat → Nat) (r : Nat → Nat → K)
    (fc3 : Int → K) : Int → K :=
  (loop num fun i => loop num fun j => (List.range 27).map fun l => (i, j, l)).foldl
    (distributeStep num target source mapping r) fc3

/-- A symmetry operation as used by `distribute_fc3`: whether its rotation is the identity, its
row of `permutations`, and `similarity_transformation(lattice, rot)`
(phono3py/phonon3/fc3.py:173-240). -/
structure SymOp (K : Type _) where
  pure : Bool
  perm : Nat → Nat
  rotCart : Nat → Nat → K

/-- `rot_indices` and the choice of `rot_index`, phono3py/phonon3/fc3.py:213-219. -/
def chooseOp (ops : List (SymOp K)) (target done : Nat) : Option (SymOp K) :=
  let found := ops.filter fun o => o.perm target == done
  match found.find? fun o => o.pure with
  | some o => some o
  | none => found.head?

/-- The loop over `first_disp_atoms`, phono3py/phonon3/fc3.py:212-225; `none` is the
`RuntimeError` of lines 227-229. -/
def findSource (ops : List (SymOp K)) (target : Nat) : List Nat → Option (Nat × SymOp K)
  | [] => none
  | done :: rest =>
    match chooseOp ops target done with
    | some o => some (done, o)
    | none => findSource ops target rest

/-- Body of the loop over `target_atoms`, phono3py/phonon3/fc3.py:211-240. -/
def distributeTarget (num : Nat) (s2compact : Nat → Nat) (ops : List (SymOp K))
    (firsts : List Nat) (fc3 : Int → K) (target : Nat) : Option (Int → K) :=
  (findSource ops target firsts).map fun d =>
    distributeRow num (s2compact target) (s2compact d.1) d.2.perm
      (fun l i => d.2.rotCart i l) fc3

/-- `distribute_fc3`, phono3py/phonon3/fc3.py:173-240, with the C routine. -/
def distributeFc3 (num : Nat) (s2compact : Nat → Nat) (ops : List (SymOp K))
    (firsts : List Nat) : List Nat → (Int → K) → Option (Int → K)
  | [], fc3 => some fc3
  | target :: rest, fc3 =>
    match distributeTarget num s2compact ops firsts fc3 target with
    | some fc3 => distributeFc3 num s2compact ops firsts rest fc3
    | none => none

/-- Expansion of fc3 in `get_fc3` for the full array, phono3py/phonon3/fc3.py:107-114, 121-149. -/
def expandFc3Full (num : Nat) (ops : List (SymOp K)) (firsts p2s : List Nat) (fc3 : Int → K) :
    Option (Int → K) :=
  if firsts.all fun i => p2s.contains i then
    let targets := p2s.filter fun i => !firsts.contains i
    match distributeFc3 num id ops firsts targets fc3 with
    | none => none
    | some fc3 =>
      let firsts' := (List.range num).filter fun i => firsts.contains i || p2s.contains i
      let targets' := (List.range num).filter fun i => !firsts'.contains i
      distributeFc3 num id ops firsts' targets' fc3
  else none

/-- Expansion of fc3 in `get_fc3` for the compact array, phono3py/phonon3/fc3.py:107-120, 140-149. -/
def expandFc3Compact (num : Nat) (s2p p2p : Nat → Nat) (ops : List (SymOp K))
    (firsts p2s : List Nat) (fc3 : Int → K) : Option (Int → K) :=
  if firsts.all fun i => p2s.contains i then
    distributeFc3 num (fun i => p2p (s2p i)) ops firsts (p2s.filter fun i => !firsts.contains i) fc3
  else none

/-! ### Solving for one first atom -/

/-- `tensor2_rotation`, c/fc3.c:192-211: element `[i][j]`. -/
def tensor2RotationElem (tensor : Nat → Nat → K) (r : Nat → Nat → K) (i j : Nat) : K :=
  sumLoop 3 fun k => sumLoop 3 fun l => r i k * r j l * tensor k l

/-- Displacements and symmetry of one first atom: arguments of `fc3_rotate_delta_fc2`
(c/fc3.c:92-97). -/
structure SiteData (K : Type _) where
  numAtom : Nat
  numSym : Nat
  numDisp : Nat
  /-- `delta_fc2s[p][k][l]` -/
  deltaFc2s : Nat → Nat → Nat → K
  /-- `inv_U[p]` -/
  invU : Nat → K
  /-- `site_sym_cart[s][i][j]` -/
  siteSymCart : Nat → Nat → Nat → K
  /-- `rot_map_syms[p]` -/
  rotMapSyms : Nat → Nat

/-- Stores of `rotate_delta_fc2s`, c/fc3.c:173-190; `rot_delta_fc2s[n][l][m]` has index
`n * 9 + l * 3 + m`. -/
def rotateDeltaStores (s : SiteData K) (iAtom jAtom : Nat) : List (Int × K) :=
  loop s.numDisp fun i => loop s.numSym fun j => loop 3 fun l => loop 3 fun m =>
    [(((i * s.numSym + j) * 9 + l * 3 + m : Nat),
      tensor2RotationElem (s.deltaFc2s (i * s.numAtom * s.numAtom +
        s.rotMapSyms (j * s.numAtom + iAtom) * s.numAtom +
        s.rotMapSyms (j * s.numAtom + jAtom))) (s.siteSymCart j) l m)]

/-- Body of the loop over `i_atoms` of `fc3_rotate_delta_fc2`, c/fc3.c:102-119; `buf` is the
content of the buffer left by the previous round. The state is `(fc3, buffer)`. -/
def rotateDeltaStep (s : SiteData K) (st : (Int → K) × (Int → K)) (iAtoms : Nat) :
    (Int → K) × (Int → K) :=
  let i := iAtoms / s.numAtom
  let j := iAtoms % s.numAtom
  let buf := runWrites st.2 (rotateDeltaStores s i j)
  (runWrites st.1 (loop 3 fun k => loop 3 fun l => loop 3 fun m =>
    [((iAtoms * 27 + k * 9 + l * 3 + m : Nat),
      sumLoop (s.numSym * s.numDisp) fun n =>
        s.invU (k * s.numSym * s.numDisp + n) * buf (n * 9 + l * 3 + m : Nat))]), buf)

/-- `fc3_rotate_delta_fc2`, c/fc3.c:92-123; `mem` is the buffer as returned by `malloc`. -/
def rotateDeltaFc2 (s : SiteData K) (mem fc3 : Int → K) : Int → K :=
  ((List.range (s.numAtom * s.numAtom)).foldl (rotateDeltaStep s) (fc3, mem)).1

/-- `fc3[row] = fc3_first`, phono3py/phonon3/fc3.py:755-758: a row of an array of shape
`(*, num, num, 3, 3, 3)`. -/
def setRow (num row : Nat) (first fc3 : Int → K) : Int → K :=
  runWrites fc3 ((List.range (num * num * 27)).map fun p =>
    ((row * num * num * 27 + p : Nat), first (p : Nat)))

/-- `_get_fc3_least_atoms`, phono3py/phonon3/fc3.py:678-760, from the solution `solve i` for each
first atom; `row` is `first_atom_num` for full and `p2p_map[s2p_map[first_atom_num]]` for compact
arrays. -/
def fc3LeastAtoms (num : Nat) (row : Nat → Nat) (solve : Nat → Int → K) (firsts : List Nat) :
    Int → K :=
  firsts.foldl (fun fc3 i => setRow num (row i) (solve i) fc3) fun _ => 0

/-! ### Cutoff -/

/-- `_set_permutation_symmetry_fc3_elem_with_cutoff`, phono3py/phonon3/fc3.py:654-675; the flags
are 0 or 1. -/
def cutoffElem (n : Nat) (fc3 : Int → K) (done : Nat → Nat → Nat → Nat) (a b c i j k : Nat) : K :=
  let sumDone := done a b c + done c a b + done b c a + done b a c + done c b a + done a c b
  if sumDone > 0 then
    (fc3 (fc3Adr n a b c i j k) * done a b c + fc3 (fc3Adr n c a b k i j) * done c a b +
      fc3 (fc3Adr n b c a j k i) * done b c a + fc3 (fc3Adr n a c b i k j) * done a c b +
      fc3 (fc3Adr n b a c j i k) * done b a c + fc3 (fc3Adr n c b a k j i) * done c b a) / sumDone
  else 0

/-- Stores of `_copy_permutation_symmetry_fc3_elem`, phono3py/phonon3/fc3.py:293-300. -/
def copyPermElemPy (n : Nat) (elem : Nat → Nat → Nat → K) (a b c : Nat) : List (Int × K) :=
  loop 3 fun i => loop 3 fun j => loop 3 fun k =>
    [(fc3Adr n a b c i j k, elem i j k), (fc3Adr n c a b k i j, elem i j k),
      (fc3Adr n b c a j k i, elem i j k), (fc3Adr n a c b i k j, elem i j k),
      (fc3Adr n b a c j i k, elem i j k), (fc3Adr n c b a k j i, elem i j k)]

/-- Loop body of `_cutoff_fc3_for_cutoff_pairs`, phono3py/phonon3/fc3.py:542-545. -/
def cutoffStep (n : Nat) (done : Nat → Nat → Nat → Nat) (fc3 : Int → K) (t : Nat × Nat × Nat) :
    Int → K :=
  runWrites fc3 (copyPermElemPy n (cutoffElem n fc3 done t.1 t.2.1 t.2.2) t.1 t.2.1 t.2.2)

/-- `_cutoff_fc3_for_cutoff_pairs`, phono3py/phonon3/fc3.py:531-545. -/
def cutoffFc3ForCutoffPairs (n : Nat) (done : Nat → Nat → Nat → Nat) (fc3 : Int → K) : Int → K :=
  (sortedTriples n).foldl (cutoffStep n done) fc3

/-- `set_permutation_symmetry_fc3` without the C library, phono3py/phonon3/fc3.py:260-265. -/
def setPermutationSymmetryFc3Py (n : Nat) (fc3 : Int → K) : Int → K :=
  (sortedTriples n).foldl (fun fc3 t =>
    runWrites fc3 (copyPermElemPy n (fun i j k =>
      let a := t.1
      let b := t.2.1
      let c := t.2.2
      (fc3 (fc3Adr n a b c i j k) + fc3 (fc3Adr n c a b k i j) + fc3 (fc3Adr n b c a j k i) +
        fc3 (fc3Adr n a c b i k j) + fc3 (fc3Adr n b a c j i k) + fc3 (fc3Adr n c b a k j i)) / 6)
      t.1 t.2.1 t.2.2)) fc3

/-- Loop body of `_get_fc3_done` for one first displacement, phono3py/phonon3/fc3.py:825-842:
`second_atom_nums` is assigned in every round of the loop over the reduced site symmetry, so the
last round counts. `ops` are the rows of `atom_mapping`, `reduced` the maps of atoms of
`reduced_site_sym`; `done i j` stands for `fc3_done[i, j, :]`. -/
def fc3DoneStep (ops reduced : List (Nat → Nat)) (done : Nat → Nat → Nat)
    (d : Nat × List Nat) : Nat → Nat → Nat :=
  let seconds := reduced.foldl (fun _ g => d.2.map g) []
  ops.foldl (fun done o => seconds.foldl (fun (done : Nat → Nat → Nat) j => fun a b =>
    if a = o d.1 ∧ b = o j then 1 else done a b) done) done

/-- `_get_fc3_done`, phono3py/phonon3/fc3.py:781-844, from the list of first atoms with their
reduced site symmetry and the second atoms within the cutoff. -/
def fc3Done (ops : List (Nat → Nat)) (firsts : List (List (Nat → Nat) × Nat × List Nat)) :
    Nat → Nat → Nat :=
  firsts.foldl (fun done d => fc3DoneStep ops d.1 done d.2) fun _ _ => 0

variable [LinearOrder K]

/-- `cutoff_fc3_by_zero`, phono3py/phonon3/fc3.py:548-573: `none` is the `RuntimeError` of
line 564. `n0` is the length of the first axis. -/
def cutoffFc3ByZero (n0 n : Nat) (dist : Nat → Nat → K) (cutoff : K) (p2s : Option (List Nat))
    (fc3 : Int → K) : Option (Int → K) :=
  let rows : Option (List Nat) :=
    if n0 = n then some (List.range n)
    else match p2s with
      | none => none
      | some l => if l.length ≠ n0 then none else some l
  rows.map fun rows =>
    rows.zipIdx.foldl (fun fc3 r =>
      (loop n fun j => (List.range n).map fun k => (j, k)).foldl (fun fc3 t =>
        if [(r.1, t.1), (t.1, t.2), (t.2, r.1)].any fun p => decide (dist p.1 p.2 > cutoff) then
          runWrites fc3 (cart27.map fun c => (fc3Adr n r.2 t.1 t.2 c.1 c.2.1 c.2.2, 0))
        else fc3) fc3) fc3

end
end Phono3py
