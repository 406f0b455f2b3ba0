/-
Third-order force constants: c/fc3.c and phono3py/phonon3/fc3.py. `double` is a field `K`;
arrays are functions of the flat index.
-/
import Mathlib.Algebra.Order.Field.Basic
import Mathlib.Data.Fin.VecNotation
import Verif.Model.Writes

namespace Phono3py

section
variable {K : Type _} [Field K]

/-! ### Permutation symmetry of the full array -/

/-- `a * num_atom * num_atom * 27 + b * num_atom * 27 + c * 27 + i * 9 + j * 3 + k`, the index
expressions of c/fc3.c:243-297. -/
def fc3Adr (n a b c i j k : Nat) : Int :=
  (a * n * n * 27 + b * n * 27 + c * 27 + i * 9 + j * 3 + k : Nat)

/-- `set_permutation_symmetry_fc3_elem`, c/fc3.c:270-297: `fc3_elem[i * 9 + j * 3 + k]`. -/
def permElem (n : Nat) (fc3 : Int → K) (a b c i j k : Nat) : K :=
  (fc3 (fc3Adr n a b c i j k) + fc3 (fc3Adr n a c b i k j) + fc3 (fc3Adr n b a c j i k) +
    fc3 (fc3Adr n b c a j k i) + fc3 (fc3Adr n c a b k i j) + fc3 (fc3Adr n c b a k j i)) / 6

/-- Stores of `copy_permutation_symmetry_fc3_elem`, c/fc3.c:243-268. -/
def copyPermElem (n : Nat) (elem : Nat → Nat → Nat → K) (a b c : Nat) : List (Int × K) :=
  loop 3 fun i => loop 3 fun j => loop 3 fun k =>
    [(fc3Adr n a b c i j k, elem i j k), (fc3Adr n a c b i k j, elem i j k),
      (fc3Adr n b a c j i k, elem i j k), (fc3Adr n b c a j k i, elem i j k),
      (fc3Adr n c a b k i j, elem i j k), (fc3Adr n c b a k j i, elem i j k)]

/-- Body of the loops of `fc3_set_permutation_symmetry_fc3`, c/fc3.c:135-138. -/
def permStep (n : Nat) (fc3 : Int → K) (t : Nat × Nat × Nat) : Int → K :=
  runWrites fc3 (copyPermElem n (permElem n fc3 t.1 t.2.1 t.2.2) t.1 t.2.1 t.2.2)

/-- The loops `i`, `j >= i`, `k >= j`, c/fc3.c:132-134. -/
def sortedTriples (n : Nat) : List (Nat × Nat × Nat) :=
  loop n fun i => (List.range' i (n - i)).flatMap fun j => (List.range' j (n - j)).map fun k =>
    (i, j, k)

/-- `fc3_set_permutation_symmetry_fc3`, c/fc3.c:125-142, in program order. -/
def setPermutationSymmetryFc3 (n : Nat) (fc3 : Int → K) : Int → K :=
  (sortedTriples n).foldl (permStep n) fc3

/-! ### Compact array -/

/-- Arguments of the functions on compact arrays (c/fc3.c:61-74). -/
structure CompactMaps where
  p2s : Nat → Nat
  s2pp : Nat → Nat
  nsymList : Nat → Nat
  perms : Nat → Nat
  nSatom : Nat
  nPatom : Nat

/-- `perms[nsym_list[j] * n_satom + i]` (c/fc3.c:299-402). -/
def CompactMaps.trans (m : CompactMaps) (j i : Nat) : Nat :=
  m.perms (m.nsymList j * m.nSatom + i)

/-- `adrs[0]`, ..., `adrs[5]`, c/fc3.c:331-342. -/
def compactAdrs (m : CompactMaps) (ip j k : Nat) : Fin 6 → Nat :=
  let i := m.p2s ip
  let n := m.nSatom
  ![ip * n * n + j * n + k, ip * n * n + k * n + j,
    m.s2pp j * n * n + m.trans j i * n + m.trans j k,
    m.s2pp j * n * n + m.trans j k * n + m.trans j i,
    m.s2pp k * n * n + m.trans k i * n + m.trans k j,
    m.s2pp k * n * n + m.trans k j * n + m.trans k i]

/-- `fc3_elem[l][m][n]`, c/fc3.c:359-376. -/
def compactElem (fc3 : Int → K) (adrs : Fin 6 → Nat) (l m n : Nat) : K :=
  (fc3 (adrs 0 * 27 + l * 9 + m * 3 + n : Nat) + fc3 (adrs 1 * 27 + l * 9 + n * 3 + m : Nat) +
    fc3 (adrs 2 * 27 + m * 9 + l * 3 + n : Nat) + fc3 (adrs 3 * 27 + m * 9 + n * 3 + l : Nat) +
    fc3 (adrs 4 * 27 + n * 9 + l * 3 + m : Nat) + fc3 (adrs 5 * 27 + n * 9 + m * 3 + l : Nat)) / 6

/-- Stores to `fc3`, c/fc3.c:377-395. -/
def compactStores (elem : Nat → Nat → Nat → K) (adrs : Fin 6 → Nat) : List (Int × K) :=
  loop 3 fun l => loop 3 fun m => loop 3 fun n =>
    [((adrs 0 * 27 + l * 9 + m * 3 + n : Nat), elem l m n),
      ((adrs 1 * 27 + l * 9 + n * 3 + m : Nat), elem l m n),
      ((adrs 2 * 27 + m * 9 + l * 3 + n : Nat), elem l m n),
      ((adrs 3 * 27 + m * 9 + n * 3 + l : Nat), elem l m n),
      ((adrs 4 * 27 + n * 9 + l * 3 + m : Nat), elem l m n),
      ((adrs 5 * 27 + n * 9 + m * 3 + l : Nat), elem l m n)]

/-- Body of the loops of `set_permutation_symmetry_compact_fc3`, c/fc3.c:331-395; the state is
`(fc3, done)`. -/
def compactStep (m : CompactMaps) (st : (Int → K) × (Nat → Bool)) (t : Nat × Nat × Nat) :
    (Int → K) × (Nat → Bool) :=
  let adrs := compactAdrs m t.1 t.2.1 t.2.2
  if (List.finRange 6).any fun l => st.2 (adrs l) then st
  else (runWrites st.1 (compactStores (compactElem st.1 adrs) adrs),
    (List.finRange 6).foldl (fun done l => fun a => if a = adrs l then true else done a) st.2)

/-- `set_permutation_symmetry_compact_fc3`, c/fc3.c:299-402. -/
def setPermutationSymmetryCompactFc3 (m : CompactMaps) (fc3 : Int → K) : Int → K :=
  ((loop m.nPatom fun ip => loop m.nSatom fun j => (List.range m.nSatom).map fun k =>
    (ip, j, k)).foldl (compactStep m) (fc3, fun _ => false)).1

/-! ### Transposition of a compact array -/

/-- Copies `fc3[c.1] = fc3[c.2]`, one after another (c/fc3.c:243-268). -/
def runCopies (a : Int → K) (cs : List (Int × Int)) : Int → K :=
  cs.foldl (fun a c => upd a c.1 (a c.2)) a

/-- The index triples `(l, m, n)` of three nested loops over 0..2 (c/fc3.c:243-268). -/
def cart27 : List (Nat × Nat × Nat) :=
  loop 3 fun l => loop 3 fun m => loop 3 fun n => [(l, m, n)]

/-- `l * 9 + m * 3 + n` (c/fc3.c:243-268). -/
def cartPos (c : Nat × Nat × Nat) : Nat := c.1 * 9 + c.2.1 * 3 + c.2.2

/-- Exchange of the blocks of 27 elements at `adrs` and `adrs_t` with the Cartesian indices
permuted by `tr`, c/fc3.c:446-475 (type 0), 479-508 (type 1) and 529-553 (type 2). -/
def swapBlocks (tr : Nat × Nat × Nat → Nat × Nat × Nat) (fc3 : Int → K) (adrs adrsT : Nat) :
    Int → K :=
  let elem := fun c => fc3 (adrs + cartPos c : Nat)
  let fc3' := if adrs ≠ adrsT then
      runCopies fc3 (cart27.map fun c => ((adrs + cartPos c : Nat), (adrsT + cartPos (tr c) : Nat)))
    else fc3
  runWrites fc3' (cart27.map fun c => ((adrsT + cartPos (tr c) : Nat), elem c))

/-- `adrs` and `adrs_t` of `transpose_compact_fc3_type01`, c/fc3.c:440-445 and 473-478. -/
def transAdrs (m : CompactMaps) (tType ip j k : Nat) : Nat × Nat :=
  let n := m.nSatom
  if tType = 0 then
    ((ip * n * n + j * n + k) * 27,
      (m.s2pp j * n * n + m.trans j (m.p2s ip) * n + m.trans j k) * 27)
  else
    ((ip * n * n + k * n + j) * 27,
      (m.s2pp j * n * n + m.trans j k * n + m.trans j (m.p2s ip)) * 27)

/-- `m <-> l` of type 0 and `n <-> l` of type 1 (c/fc3.c:446-475). -/
def trCart (tType : Nat) (c : Nat × Nat × Nat) : Nat × Nat × Nat :=
  if tType = 0 then (c.2.1, c.1, c.2.2) else (c.2.2, c.2.1, c.1)

/-- Body of the loops over `i_p` and `j`, c/fc3.c:424-509; the state is `(fc3, done)`. -/
def transposeStep (m : CompactMaps) (tType : Nat) (st : (Int → K) × (Nat → Bool))
    (t : Nat × Nat) : (Int → K) × (Nat → Bool) :=
  if st.2 (t.1 * m.nSatom + t.2) then st
  else
    let marks := fun a => if a = m.s2pp t.2 * m.nSatom + m.trans t.2 (m.p2s t.1) then true
      else if a = t.1 * m.nSatom + t.2 then true else st.2 a
    ((List.range m.nSatom).foldl (fun fc3 k =>
      swapBlocks (trCart tType) fc3 (transAdrs m tType t.1 t.2 k).1
        (transAdrs m tType t.1 t.2 k).2) st.1, marks)

/-- `transpose_compact_fc3_type01`, c/fc3.c:404-514. -/
def transposeCompactType01 (m : CompactMaps) (tType : Nat) (fc3 : Int → K) : Int → K :=
  ((loop m.nPatom fun ip => (List.range m.nSatom).map fun j => (ip, j)).foldl
    (transposeStep m tType) (fc3, fun _ => false)).1

/-- `transpose_compact_fc3_type2`, c/fc3.c:516-557; `k != j` there is `adrs != adrs_t`. -/
def transposeCompactType2 (m : CompactMaps) (fc3 : Int → K) : Int → K :=
  (loop m.nPatom fun ip => loop m.nSatom fun j =>
    (List.range' j (m.nSatom - j)).map fun k => (ip, j, k)).foldl
    (fun fc3 t => swapBlocks (fun c => (c.1, c.2.2, c.2.1)) fc3
      ((t.1 * m.nSatom * m.nSatom + t.2.1 * m.nSatom + t.2.2) * 27)
      ((t.1 * m.nSatom * m.nSatom + t.2.2 * m.nSatom + t.2.1) * 27)) fc3

/-- `fc3_transpose_compact_fc3`, c/fc3.c:154-172: other values of `t_type` do nothing. -/
def transposeCompactFc3 (m : CompactMaps) (tType : Nat) (fc3 : Int → K) : Int → K :=
  if tType = 0 ∨ tType = 1 then transposeCompactType01 m tType fc3
  else if tType = 2 then transposeCompactType2 m fc3
  else fc3

/-! ### Translational invariance -/

/-- `fc3.shape[d]` of an array of shape `(n0, n, n, 3, 3, 3)` (phono3py/phonon3/fc3.py:356-371). -/
def fc3Shape (n0 n d : Nat) : Nat := if d = 0 then n0 else n

/-- Elements of `fc3[:, i, j, k, ll, m]`, `fc3[j, :, i, k, ll, m]` and `fc3[i, j, :, k, ll, m]`,
phono3py/phonon3/fc3.py:361-371. -/
def linePos (n index : Nat) (c : Nat × Nat × Nat × Nat × Nat) (a : Nat) : Int :=
  if index = 0 then fc3Adr n a c.1 c.2.1 c.2.2.1 c.2.2.2.1 c.2.2.2.2
  else if index = 1 then fc3Adr n c.2.1 a c.1 c.2.2.1 c.2.2.2.1 c.2.2.2.2
  else fc3Adr n c.1 c.2.1 a c.2.2.1 c.2.2.2.1 c.2.2.2.2

/-- `fc3[...] -= np.sum(fc3[...]) / fc3.shape[index]`, phono3py/phonon3/fc3.py:360-371. -/
def subtractMean (n0 n index : Nat) (fc3 : Int → K) (c : Nat × Nat × Nat × Nat × Nat) : Int → K :=
  let len := fc3Shape n0 n index
  let s := sumLoop len fun a => fc3 (linePos n index c a)
  runWrites fc3 (loop len fun a => [(linePos n index c a, fc3 (linePos n index c a) - s / (len : K))])

/-- `_set_translational_invariance_fc3_per_index`, phono3py/phonon3/fc3.py:356-371. -/
def translationalInvariancePerIndex (n0 n index : Nat) (fc3 : Int → K) : Int → K :=
  (loop (fc3Shape n0 n ((1 + index) % 3)) fun i => loop (fc3Shape n0 n ((2 + index) % 3)) fun j =>
    cart27.map fun c => (i, j, c.1, c.2.1, c.2.2)).foldl (subtractMean n0 n index) fc3

/-- `set_translational_invariance_fc3`, phono3py/phonon3/fc3.py:317-320. -/
def setTranslationalInvarianceFc3 (n : Nat) (fc3 : Int → K) : Int → K :=
  (List.range 3).foldl (fun fc3 i => translationalInvariancePerIndex n n i fc3) fc3

/-- `set_translational_invariance_compact_fc3`, phono3py/phonon3/fc3.py:323-347. -/
def setTranslationalInvarianceCompactFc3 (m : CompactMaps) (fc3 : Int → K) : Int → K :=
  let per := fun index (fc3 : Int → K) =>
    translationalInvariancePerIndex m.nPatom m.nSatom index fc3
  let fc3 := transposeCompactFc3 m 0 fc3
  let fc3 := per 1 fc3
  let fc3 := transposeCompactFc3 m 0 fc3
  let fc3 := per 1 fc3
  per 2 fc3

end
end Phono3py
