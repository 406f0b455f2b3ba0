/-
Collision matrix: `c/collision_matrix.c`, `c/phono3py.c`, `c/lapack_wrapper.c`,
`phono3py/phonon3/collision_matrix.py` and `phono3py/conductivity/direct_solution.py`.
-/
import Verif.Model.SelfEnergy

namespace Phono3py

/-! ### Lookup of triplets -/

/-- Loop body of `create_gp2tp_map`, c/collision_matrix.c:332-339; the state is
`(gp2tp_map, num_ir)`. -/
def gp2tpStep (tripletsMap : Int → Int) (st : (Int → Int) × Int) (i : Nat) : (Int → Int) × Int :=
  if tripletsMap i = i then (upd st.1 i st.2, st.2 + 1) else (upd st.1 i (-1), st.2)

/-- `create_gp2tp_map`, c/collision_matrix.c:325-342; `mem` is the malloc'ed memory. -/
def createGp2tpMap (mem : Int → Int) (tripletsMap : Int → Int) (numGp : Nat) : Int → Int :=
  ((List.range numGp).foldl (gp2tpStep tripletsMap) (mem, 0)).1

/-- `(gp2, swapped)` of `get_inv_sinh`, c/collision_matrix.c:302-308. -/
def inverseSinhPoint (triplet : Fin 3 → Int) (tripletsMap mapQ : Int → Int) (gp : Int) :
    Int × Bool :=
  if tripletsMap gp = mapQ gp then (triplet 2, false) else (triplet 1, true)

/-- State of the loop of `_get_gp2tp_map`: the arrays `gp2tp`, `tp2s`, `swapped` and the
number `num_tps` (phono3py/phonon3/collision_matrix.py:250-307). -/
structure Gp2tp where
  gp2tp : Int → Int
  tp2s : Int → Int
  swapped : Int → Bool
  num : Int

/-- Loop body of `CollisionMatrix._get_gp2tp_map`,
phono3py/phonon3/collision_matrix.py:281-296; `none` is a failed assertion. -/
def pyGp2tpStep (triplets : Int → Fin 3 → Int) (mapT mapQ bzg2grg : Int → Int) (st : Gp2tp)
    (gp1 : Nat) : Option Gp2tp :=
  if mapQ gp1 = gp1 then
    if (gp1 : Int) = mapT gp1 then
      if bzg2grg (triplets st.num 1) = gp1 then
        some ⟨upd st.gp2tp gp1 st.num, upd st.tp2s gp1 (triplets st.num 2), st.swapped,
          st.num + 1⟩
      else none
    else
      let gp2tp := upd st.gp2tp gp1 (st.gp2tp (mapT gp1))
      if mapQ (bzg2grg (triplets (gp2tp gp1) 2)) = gp1 then
        some ⟨gp2tp, upd st.tp2s gp1 (triplets (gp2tp gp1) 1), upd st.swapped gp1 true, st.num⟩
      else none
  else
    some ⟨upd st.gp2tp gp1 (st.gp2tp (mapQ gp1)), upd st.tp2s gp1 (st.tp2s (mapQ gp1)),
      upd st.swapped gp1 (st.swapped (mapQ gp1)), st.num⟩

/-- `CollisionMatrix._get_gp2tp_map`, phono3py/phonon3/collision_matrix.py:250-307. -/
def pyGp2tp (numGp : Nat) (triplets : Int → Fin 3 → Int) (mapT mapQ bzg2grg : Int → Int) :
    Option Gp2tp :=
  (List.range numGp).foldlM (pyGp2tpStep triplets mapT mapQ bzg2grg)
    ⟨fun _ => -1, fun _ => -1, fun _ => false, 0⟩

section
variable {K : Type _} [Field K] [LinearOrder K]

/-! ### Elements -/

/-- The inputs of `get_collision_matrix` and `get_reducible_collision_matrix`,
c/collision_matrix.c:127-135 and 217-223. `g` is the part `g + 2 * num_triplets * ...` of the
array (c/collision_matrix.c:104 and 123); `invSinh` is `funcs_inv_sinh_occupation`. -/
structure CollisionInput (K : Type _) where
  numBand0 : Nat
  numBand : Nat
  numGp : Nat
  fc3NormalSquared : Int → K
  frequencies : Int → K
  triplets : Int → Fin 3 → Int
  tripletsMap : Int → Int
  mapQ : Int → Int
  g : Int → K
  invSinh : K → K → K
  temperature : K
  unit : K
  cutoff : K

/-- `inv_sinh` of `get_inv_sinh`, c/collision_matrix.c:310-317. -/
def inverseSinh (c : CollisionInput K) (gp2 : Int) (i : Nat) : K :=
  let f := c.frequencies (gp2 * c.numBand + i)
  if f > c.cutoff then c.invSinh f c.temperature else 0

/-- The sum over `m` of c/collision_matrix.c:180-201, and over `l` of 261-280, for the grid
point `gp`. -/
def collisionSum (c : CollisionInput K) (gp2tp : Int → Int) (gp : Int) (k l : Nat) : K :=
  let ti := gp2tp (c.tripletsMap gp)
  let s := inverseSinhPoint (c.triplets ti) c.tripletsMap c.mapQ gp
  sumLoop c.numBand fun m =>
    if s.2 then
      c.fc3NormalSquared (ti * c.numBand0 * c.numBand * c.numBand + k * c.numBand * c.numBand
          + m * c.numBand + l) *
        c.g (ti * c.numBand0 * c.numBand * c.numBand + k * c.numBand * c.numBand
          + m * c.numBand + l) * inverseSinh c s.1 m * c.unit
    else
      c.fc3NormalSquared (ti * c.numBand0 * c.numBand * c.numBand + k * c.numBand * c.numBand
          + l * c.numBand + m) *
        c.g (ti * c.numBand0 * c.numBand * c.numBand + k * c.numBand * c.numBand
          + l * c.numBand + m) * inverseSinh c s.1 m * c.unit

/-- The updates of `get_collision_matrix_at_gp`, c/collision_matrix.c:156-215. -/
def collisionAdds (c : CollisionInput K) (gp2tp : Int → Int) (rotGridPoints : Int → Int)
    (numIr numRot : Nat) (rotations : Int → K) (i : Nat) : List (Int × K) :=
  loop numRot fun j =>
    let rgp := rotGridPoints ((i * numRot + j : Nat) : Int)
    loop c.numBand0 fun k => loop c.numBand fun l => loop 3 fun m => loop 3 fun n =>
      [(((k * 3 * numIr * c.numBand * 3 + m * numIr * c.numBand * 3 + i * c.numBand * 3 + l * 3
          + n : Nat) : Int),
        collisionSum c gp2tp rgp k l * rotations ((j * 9 + m * 3 + n : Nat) : Int))]

/-- `get_collision_matrix`, c/collision_matrix.c:127-154. The iterations of the OpenMP loop
update disjoint cells; here they run in ascending order. -/
def collisionMatrix (mem : Int → Int) (c : CollisionInput K) (rotGridPoints : Int → Int)
    (numIr numRot : Nat) (rotations : Int → K) (a : Int → K) : Int → K :=
  let gp2tp := createGp2tpMap mem c.tripletsMap c.numGp
  runAdds a (loop numIr fun i => collisionAdds c gp2tp rotGridPoints numIr numRot rotations i)

/-- `get_reducible_collision_matrix`, c/collision_matrix.c:217-241, with
`get_reducible_collision_matrix_at_gp` (243-288). -/
def reducibleCollisionMatrix (mem : Int → Int) (c : CollisionInput K) (a : Int → K) : Int → K :=
  let gp2tp := createGp2tpMap mem c.tripletsMap c.numGp
  runAdds a (loop c.numGp fun i => loop c.numBand0 fun j => loop c.numBand fun k =>
    [(((j * c.numGp * c.numBand + i * c.numBand + k : Nat) : Int),
      collisionSum c gp2tp (i : Nat) j k)])

/-! ### Symmetrisation -/

/-- Loop body of `ph3py_symmetrize_collision_matrix`, c/phono3py.c:495-507. -/
def symmetrizeStep (numColumn numTemp : Nat) (a : Int → K) (t : Nat × Nat × Nat × Nat) :
    Int → K :=
  let shift := t.1 * numColumn * numColumn * numTemp + t.2.1 * numColumn * numColumn
  let p : Int := ((shift + t.2.2.1 * numColumn + t.2.2.2 : Nat) : Int)
  let q : Int := ((shift + t.2.2.2 * numColumn + t.2.2.1 : Nat) : Int)
  let val := (a p + a q) / 2
  upd (upd a p val) q val

/-- The rounds of the loops over `i`, `j`, `k`, `l`, c/phono3py.c:493-502. -/
def symmetrizeRounds (numColumn numTemp numSigma : Nat) : List (Nat × Nat × Nat × Nat) :=
  loop numSigma fun i => loop numTemp fun j => loop numColumn fun k =>
    (List.range' (k + 1) (numColumn - (k + 1))).map fun l => (i, j, k, l)

/-- `ph3py_symmetrize_collision_matrix`, c/phono3py.c:486-512. -/
def symmetrizeCollisionMatrix (numColumn numTemp numSigma : Nat) (a : Int → K) : Int → K :=
  (symmetrizeRounds numColumn numTemp numSigma).foldl (symmetrizeStep numColumn numTemp) a

/-! ### Expansion from irreducible grid points -/

/-- `multi[i]`, c/phono3py.c:535-543. -/
def multiplicity (rot : Int → Int) (numGp numRot : Nat) (irGp : Int) : Nat :=
  (List.range numRot).countP fun (j : Nat) => decide (rot ((j * numGp : Nat) + irGp) = irGp)

/-- One round of the loops over `i`, `j`, `k` of `ph3py_expand_collision_matrix`,
c/phono3py.c:547-582: the row of an irreducible point is copied and cleared and then added
to the rows of the star. Reading and clearing alternate in the code; no cell is cleared
before it is read. -/
def expandStep (rot ir : Int → Int) (numGp numRot numTemp numBand : Nat) (a : Int → K)
    (t : Nat × Nat × Nat) : Int → K :=
  let numColumn := numGp * numBand
  let numBgb := numBand * numGp * numBand
  let shift := t.1 * numColumn * numColumn * numTemp + t.2.1 * numColumn * numColumn
  let irGp := ir t.2.2
  let plus : Int := shift + irGp * numBgb
  let copy : Nat → K := fun l => a (plus + l) / (multiplicity rot numGp numRot irGp : K)
  let cleared := runWrites a (loop numBgb fun (l : Nat) => [(plus + (l : Int), (0 : K))])
  runAdds cleared (loop numRot fun (l : Nat) =>
    let gpR := rot ((l * numGp : Nat) + irGp)
    loop numBand fun (m : Nat) => loop numGp fun (n : Nat) => loop numBand fun (p : Nat) =>
      [((shift : Int) + gpR * numBgb + (m * numGp * numBand : Nat)
          + rot ((l * numGp + n : Nat) : Int) * numBand + (p : Int),
        copy (m * numGp * numBand + n * numBand + p))])

/-- `ph3py_expand_collision_matrix`, c/phono3py.c:514-586. -/
def expandCollisionMatrix (rot ir : Int → Int) (numIr numGp numRot numSigma numTemp numBand : Nat)
    (a : Int → K) : Int → K :=
  (loop numSigma fun i => loop numTemp fun j => (List.range numIr).map fun k => (i, j, k)).foldl
    (expandStep rot ir numGp numRot numTemp numBand) a

/-- One row of a local property in `_expand_local_values`,
phono3py/conductivity/direct_solution.py:636-655: the value at an irreducible point, cleared,
and added, rotated and divided by the multiplicity, along the star. `act l` is what operation
`l` does to the value: nothing for `gamma`, `gamma_iso` and `cv`, `np.dot(gv, r.T)` for `gv`. -/
def expandLocalStep {β : Type _} [AddCommMonoid β] (rot : Int → Int) (numGp numRot : Nat)
    (act : Nat → β → β) (divide : β → Nat → β) (a : Int → β) (irGp : Int) : Int → β :=
  let v := a irGp
  runAdds (upd a irGp 0) ((List.range numRot).map fun (l : Nat) =>
    (rot ((l * numGp : Nat) + irGp), divide (act l v) (multiplicity rot numGp numRot irGp)))

/-- `_expand_local_values` for one property (phono3py/conductivity/direct_solution.py:636-655). -/
def expandLocal {β : Type _} [AddCommMonoid β] (rot : Int → Int) (numGp numRot : Nat)
    (act : Nat → β → β) (divide : β → Nat → β) (ir : List Int) (a : Int → β) : Int → β :=
  ir.foldl (expandLocalStep rot numGp numRot act divide) a

/-! ### Pseudo-inverse -/

/-- The test of c/lapack_wrapper.c:229-234 and of `_get_eigvals_pinv`,
phono3py/conductivity/direct_solution.py:915-921. -/
def keepEigenvalue (method : Int) (cutoff x : K) : Bool :=
  let e := if method = 0 then |x| else x
  decide (e > cutoff)

/-- The indices `l[0..max_l-1]`, c/lapack_wrapper.c:226-238. -/
def keptModes (method : Int) (cutoff : K) (eigvals : Int → K) (size : Nat) : List Nat :=
  (List.range size).filter fun (i : Nat) => keepEigenvalue method cutoff (eigvals i)

/-- `sum` of c/lapack_wrapper.c:248-252. -/
def pinvSum (tmp eigvals : Int → K) (kept : List Nat) (is js : Nat) : K :=
  kept.foldl (fun s (k : Nat) =>
    s + tmp ((is + k : Nat) : Int) * tmp ((js + k : Nat) : Int) / eigvals k) 0

/-- The stores of one row, c/lapack_wrapper.c:245-255, 257-268 and 273-284. -/
def pinvRow (tmp eigvals : Int → K) (kept : List Nat) (size i : Nat) : List (Int × K) :=
  (List.range' i (size - i)).flatMap fun j =>
    let sum := pinvSum tmp eigvals kept (i * size) (j * size)
    [(((i * size + j : Nat) : Int), sum), (((j * size + i : Nat) : Int), sum)]

/-- `pinv_from_eigensolution`, c/lapack_wrapper.c:206-293. The matrix read is the copy of
`data` made first (217-224). -/
def pinvFromEigensolution (eigvals : Int → K) (size : Nat) (cutoff : K) (method : Int)
    (data : Int → K) : Int → K :=
  let kept := keptModes method cutoff eigvals size
  runWrites data
    ((loop (size / 2) fun i =>
        pinvRow data eigvals kept size i ++ pinvRow data eigvals kept size (size - i - 1)) ++
      if size % 2 = 1 then pinvRow data eigvals kept size ((size - 1) / 2) else [])

/-- `_get_eigvals_pinv`, phono3py/conductivity/direct_solution.py:910-922. -/
def eigvalsPinv (method : Int) (cutoff : K) (w : Nat → K) (l : Nat) : K :=
  if keepEigenvalue method cutoff (w l) then 1 / w l else 0

/-- `np.dot(v, e * np.dot(v.T, X))`, phono3py/conductivity/direct_solution.py:856-862, for one
column of `X`. -/
def pinvDot (size : Nat) (v : Nat → Nat → K) (e x : Nat → K) (i : Nat) : K :=
  sumLoop size fun k => v i k * (e k * sumLoop size fun j => v j k * x j)

/-! ### Degenerate bands and the main diagonal -/

/-- Rows of the bands `set` at grid point `i` replaced by their mean,
phono3py/conductivity/direct_solution.py:751-763. An index of the matrix is a grid point, a
band and the rest (a Cartesian direction in the irreducible layout). -/
def averageRows {ρ : Type _} (i : Nat) (set : List Nat)
    (M : Nat × Nat × ρ → Nat × Nat × ρ → K) : Nat × Nat × ρ → Nat × Nat × ρ → K :=
  fun r c => if r.1 = i ∧ r.2.1 ∈ set then
    (set.map fun b => M (i, b, r.2.2) c).sum / (set.length : K) else M r c

/-- The same for columns, phono3py/conductivity/direct_solution.py:773-786. -/
def averageColumns {ρ : Type _} (i : Nat) (set : List Nat)
    (M : Nat × Nat × ρ → Nat × Nat × ρ → K) : Nat × Nat × ρ → Nat × Nat × ρ → K :=
  fun r c => if c.1 = i ∧ c.2.1 ∈ set then
    (set.map fun b => M r (i, b, c.2.2)).sum / (set.length : K) else M r c

/-- `_average_collision_matrix_by_degeneracy`,
phono3py/conductivity/direct_solution.py:729-790. `points` are the data indices of the
irreducible grid points, `sets i` the degenerate sets of point `i` (`degenerate_sets` of
phonopy). -/
def averageMatrixByDegeneracy {ρ : Type _} (points : List Nat) (sets : Nat → List (List Nat))
    (M : Nat × Nat × ρ → Nat × Nat × ρ → K) : Nat × Nat × ρ → Nat × Nat × ρ → K :=
  let M1 := points.foldl (fun M i => (sets i).foldl (fun M s => averageRows i s M) M) M
  points.foldl (fun M i => (sets i).foldl (fun M s => averageColumns i s M) M) M1

/-- `_combine_collisions`, phono3py/conductivity/direct_solution.py:579-592, on the element
`[i, ll, a, i', ll', b]`: `diag` is the main diagonal, `rotGp i j` the rotated grid point,
`rotation j a b` the Cartesian rotation. -/
def combineCollisions (numRot : Nat) (irGp : Nat → Int) (rotGp : Nat → Nat → Int)
    (rotation : Nat → Nat → Nat → K) (diag : Nat → Nat → K)
    (M : Nat → Nat → Nat → Nat → Nat → Nat → K) : Nat → Nat → Nat → Nat → Nat → Nat → K :=
  fun i l a i' l' b =>
    if i = i' ∧ l = l' then
      (List.range numRot).foldl (fun s j =>
        if irGp i ≠ rotGp i j then s else s + diag i l * rotation j a b) (M i l a i' l' b)
    else M i l a i' l' b

end

end Phono3py
