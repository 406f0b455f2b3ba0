/-
Thermal conductivity by direct solution of the linearised Boltzmann equation:
phono3py/conductivity/direct_solution.py, after the collision matrix has been filled. One sigma
and one temperature at a time. `double` is an ordered field `K`; the eigensolvers are parameters.
-/
import Verif.Model.Collision
import Verif.Model.Conductivity

namespace Phono3py

section
variable {K : Type _} [Field K] [LinearOrder K] [IsStrictOrderedRing K]

/-! ### Choice of the solver and diagonalisation -/

/-- `select_colmat_solver`, phono3py/conductivity/utils.py:679-714, with the C extension present.
`lapacke` is `include_lapacke()`, `scipy` says whether scipy can be imported, `dflt` is
`default_colmat_solver()`. `none` is the `RuntimeError`. -/
def selectColmatSolver (lapacke scipy : Bool) (dflt pinvSolver : Nat) : Option Nat :=
  if !lapacke && (pinvSolver = 1 || pinvSolver = 2 || pinvSolver = 6) then none
  else
    let solver := if pinvSolver = 6 then 3 else pinvSolver
    if solver = 0 then
      if dflt = 3 ∨ dflt = 4 ∨ dflt = 5 then
        if scipy then some dflt else some 1
      else some dflt
    else if solver = 1 ∨ solver = 2 ∨ solver = 3 ∨ solver = 4 ∨ solver = 5 ∨ solver = 6 ∨
        solver = 7 then some solver
    else some dflt

/-- Solvers that leave the eigenvectors in rows, phono3py/conductivity/direct_solution.py:834-835:
LAPACK sees the C-ordered matrix as its transpose. -/
def rowSolver (solver : Nat) : Bool := solver = 1 || solver = 2 || solver = 4 || solver = 5

/-- External routines: `eigh size A` returns eigenvalues and eigenvectors (in columns) of a
symmetric matrix, `pinv` is `np.linalg.pinv`
(phono3py/conductivity/direct_solution.py:1900-1950). -/
structure ColmatRoutines (K : Type _) where
  eigh : Nat → (Nat → Nat → K) → (Nat → K) × (Nat → Nat → K)
  pinv : Nat → (Nat → Nat → K) → Nat → Nat → K

/-- `diagonalize_collision_matrix`, phono3py/conductivity/direct_solution.py:1841-1957: the
eigenvalues returned and the matrix that replaces the collision matrix. The outer `none` is the
unbound `w` of an unknown solver. -/
def diagonalizeColmat (r : ColmatRoutines K) (solver size : Nat) (M : Nat → Nat → K) :
    Option (Option (Nat → K) × (Nat → Nat → K)) :=
  if rowSolver solver then
    let s := r.eigh size fun i j => M j i
    some (some s.1, fun i j => s.2 j i)
  else if solver = 3 then
    let s := r.eigh size M
    some (some s.1, s.2)
  else if solver = 7 then some (none, r.pinv size M)
  else none

/-! ### Preparation of the collision matrix -/

/-- `_get_weights`, phono3py/conductivity/direct_solution.py:657-694; the warning about a broken
symmetry is left out. `rotGp i j` is the image of the `i`-th point under operation `j`. -/
def lbteWeights (sqrt : K → K) (numOps : Nat) (rotGp : Nat → Nat → Int) (i : Nat) : K :=
  sqrt (((List.range numOps).map (rotGp i)).dedup.length : K) / sqrt (numOps : K)

/-- `_symmetrize_collision_matrix` without the C extension,
phono3py/conductivity/direct_solution.py:715-725. -/
def lbteSymmetrize (M : Nat → Nat → K) : Nat → Nat → K := fun i j => (M i j + M j i) / 2

/-- Row `[i, l, a]` of the irreducible collision matrix as a flat index,
phono3py/conductivity/direct_solution.py:829-833. -/
def unravel3 (nb r : Nat) : Nat × Nat × Fin 3 :=
  (r / 3 / nb, r / 3 % nb, ⟨r % 3, Nat.mod_lt _ (by decide)⟩)

/-- Row `[q, l]` of the reducible collision matrix as a flat index,
phono3py/conductivity/direct_solution.py:825-828. -/
def unravel2 (nb p : Nat) : Nat × Nat := (p / nb, p % nb)

/-- `_multiply_weights_to_collisions`, phono3py/conductivity/direct_solution.py:572-577. -/
def multiplyWeights {ρ : Type _} (w : Nat → K) (M : Nat × Nat × ρ → Nat × Nat × ρ → K) :
    Nat × Nat × ρ → Nat × Nat × ρ → K := fun r c => M r c * (w r.1 * w c.1)

/-- `_prepare_collision_matrix` of the irreducible layout,
phono3py/conductivity/direct_solution.py:564-568. -/
def prepareIr (numIr numOps nb : Nat) (irGp : Nat → Int) (rotGp : Nat → Nat → Int)
    (rotation : Nat → Nat → Nat → K) (diag : Nat → Nat → K) (sets : Nat → List (List Nat))
    (w : Nat → K) (M : Nat → Nat → Nat → Nat → Nat → Nat → K) : Nat → Nat → K :=
  let M1 : Nat × Nat × Fin 3 → Nat × Nat × Fin 3 → K := fun r c =>
    combineCollisions numOps irGp rotGp rotation diag M r.1 r.2.1 r.2.2 c.1 c.2.1 c.2.2
  let M2 := averageMatrixByDegeneracy (List.range numIr) sets (multiplyWeights w M1)
  lbteSymmetrize fun r c => M2 (unravel3 nb r) (unravel3 nb c)

/-- `_combine_reducible_collisions`, phono3py/conductivity/direct_solution.py:594-603. -/
def combineReducible (diag : Nat → Nat → K) (M : Nat × Nat × Unit → Nat × Nat × Unit → K) :
    Nat × Nat × Unit → Nat × Nat × Unit → K :=
  fun r c => if r.1 = c.1 ∧ r.2.1 = c.2.1 then M r c + diag r.1 r.2.1 else M r c

/-- A matrix of the given size as a flat array in C order
(phono3py/conductivity/direct_solution.py:829-833). -/
def ravelMatrix (size : Nat) (M : Nat → Nat → K) (p : Int) : K :=
  M (p.toNat / size) (p.toNat % size)

/-- `_prepare_collision_matrix` of the reducible layout,
phono3py/conductivity/direct_solution.py:543-563, for one block; `irArr` are the irreducible
points in the regular grid, `rot` is `rot_grid_points` in C order, `diag` the main diagonal after
`_expand_local_values`. -/
def prepareReducible (isKappaStar : Bool) (numIr numGp numOps nb : Nat) (rot irArr : Int → Int)
    (sets : Nat → List (List Nat)) (diag : Nat → Nat → K)
    (M : Nat × Nat × Unit → Nat × Nat × Unit → K) : Nat → Nat → K :=
  let size := numGp * nb
  let flat : (Nat × Nat × Unit → Nat × Nat × Unit → K) → Nat → Nat → K := fun M r c =>
    M ((unravel2 nb r).1, (unravel2 nb r).2, ()) ((unravel2 nb c).1, (unravel2 nb c).2, ())
  let M1 : Nat × Nat × Unit → Nat × Nat × Unit → K :=
    if isKappaStar then
      let avg := averageMatrixByDegeneracy ((List.range numIr).map fun k => (irArr k).toNat) sets M
      let arr := expandCollisionMatrix rot irArr numIr numGp numOps 1 1 nb
        (ravelMatrix size (flat avg))
      fun r c => arr (((r.1 * nb + r.2.1) * size + (c.1 * nb + c.2.1) : Nat) : Int)
    else M
  lbteSymmetrize (flat (combineReducible diag M1))

/-! ### Conductivity -/

/-- What the direct solution reads at one sigma and one temperature. Points are the irreducible
points, or all points of the mesh for the reducible layout. `gammaAddress i` is
`(addresses[i] == 0).all()` (phono3py/conductivity/direct_solution.py:791-817, 1052-1092). -/
structure LBTEInput (K : Type _) where
  numGp : Nat
  numBand : Nat
  numOps : Nat
  rotations : Nat → Fin 3 → Fin 3 → K
  frequencies : Nat → Nat → K
  cutoff : K
  weights : Nat → K
  gv : Nat → Nat → Fin 3 → K
  gammaAddress : Nat → Bool
  t : K
  kb : K
  toEv : K
  sinh : K → K
  factor : K
  n : K

/-- `freqs_sinh`, phono3py/conductivity/direct_solution.py:801-808. -/
def freqsSinh (k : LBTEInput K) (f : K) : K :=
  let sinh := if f > k.cutoff then k.sinh (f * k.toEv / (2 * k.kb * k.t)) else -1
  let invSinh := if sinh > 0 then 1 / sinh else 0
  f * k.toEv * invSinh / (4 * k.kb * k.t ^ 2)

/-- `_get_X`, phono3py/conductivity/direct_solution.py:791-817, as an array of shape
`(numGp * numBand, 3)`. -/
def lbteX (k : LBTEInput K) (p : Nat) (a : Fin 3) : K :=
  if k.t > 0 then
    k.gv (p / k.numBand) (p % k.numBand) a * k.weights (p / k.numBand) *
      freqsSinh k (k.frequencies (p / k.numBand) (p % k.numBand))
  else 0

/-- `np.dot(v, x)`, phono3py/conductivity/direct_solution.py:887. -/
def dotVector (size : Nat) (v : Nat → Nat → K) (x : Nat → K) (i : Nat) : K :=
  sumLoop size fun j => v i j * x j

/-- `_get_Y`, phono3py/conductivity/direct_solution.py:819-896, without the f-vectors. `colmat` is
the array left by `diagonalizeColmat`, `w` the stored eigenvalues, `solver` the selected one;
`none` is the `ValueError`. -/
def lbteY (reducible : Bool) (pinvSolver solver : Nat) (method : Int) (pinvCutoff : K)
    (size : Nat) (w : Nat → K) (colmat : Nat → Nat → K) (X : Nat → Fin 3 → K) :
    Option (Nat → Fin 3 → K) :=
  let solver := if pinvSolver = 6 then 6 else solver
  let v : Nat → Nat → K := if rowSolver solver then fun i j => colmat j i else colmat
  let ravelX : Nat → K := fun r => X (r / 3) ⟨r % 3, Nat.mod_lt _ (by decide)⟩
  if solver ≤ 5 then
    let e := eigvalsPinv method pinvCutoff w
    if reducible then some fun p a => pinvDot size v e (fun r => X r a) p
    else some fun p a => pinvDot size v e ravelX (p * 3 + a)
  else if solver = 6 then
    let inv := pinvFromEigensolution (fun i => w i.toNat) size pinvCutoff method
      (ravelMatrix size colmat)
    let v' : Nat → Nat → K := fun i j => inv ((i * size + j : Nat) : Int)
    if reducible then some fun p a => dotVector size v' (fun r => X r a) p
    else some fun p a => dotVector size v' ravelX (p * 3 + a)
  else if solver = 7 then
    if reducible then some fun p a => dotVector size v (fun r => X r a) p
    else some fun p a => dotVector size v ravelX (p * 3 + a)
  else none

/-- `_set_f_vectors`, phono3py/conductivity/direct_solution.py:898-908. -/
def fVectors (k : LBTEInput K) (Y : Nat → Fin 3 → K) (i l : Nat) (a : Fin 3) : K :=
  Y (i * k.numBand + l) a / 2 / k.weights i

/-- `_set_mean_free_path`, phono3py/conductivity/direct_solution.py:1154-1164; `tiny` is `1e-10`,
`old` the entry before. -/
def meanFreePath (sqrt : K → K) (pi tiny : K) (k : LBTEInput K) (cv : Nat → Nat → K)
    (f old : Nat → Nat → Fin 3 → K) (i l : Nat) (a : Fin 3) : K :=
  if cv i l < tiny then old i l a
  else -2 * k.t * sqrt (k.kb / cv i l) * f i l a / (2 * pi)

/-- `sum_k` of `_set_mode_kappa` before the transpose is added,
phono3py/conductivity/direct_solution.py:1079-1083. -/
def starOuter (k : LBTEInput K) (v f : Fin 3 → K) (a b : Fin 3) : K :=
  sumLoop k.numOps fun j => rotateVector (k.rotations j) v a * rotateVector (k.rotations j) f b

/-- `_set_mode_kappa`, phono3py/conductivity/direct_solution.py:1052-1092; `old` is the array
before. -/
def lbteModeKappa (k : LBTEInput K) (X Y : Nat → Fin 3 → K) (old : Nat → Nat → Fin 6 → K)
    (i l : Nat) (c : Fin 6) : K :=
  let p := i * k.numBand + l
  (if k.gammaAddress i = true ∧ l < 3 then old i l c
    else starOuter k (X p) (Y p) (voigt c).1 (voigt c).2 +
      starOuter k (X p) (Y p) (voigt c).2 (voigt c).1) * (k.factor * k.kb * k.t ^ 2)

/-- `_set_mode_kappa_from_mfp`, phono3py/conductivity/direct_solution.py:1139-1152 (its call is
commented out). -/
def modeKappaFromMfp (pi : K) (k : LBTEInput K) (cv : Nat → Nat → K)
    (mfp : Nat → Nat → Fin 3 → K) (i l : Nat) (c : Fin 6) : K :=
  (starOuter k (k.gv i l) (mfp i l) (voigt c).1 (voigt c).2 +
      starOuter k (k.gv i l) (mfp i l) (voigt c).2 (voigt c).1) / 2 * cv i l *
    k.weights i ^ 2 * 2 * pi * -k.factor

/-- `mode_kappa.sum(axis=0).sum(axis=0) / N`,
phono3py/conductivity/direct_solution.py:273. -/
def lbteSum (k : LBTEInput K) (m : Nat → Nat → Fin 6 → K) (c : Fin 6) : K :=
  (sumLoop k.numBand fun l => sumLoop k.numGp fun i => m i l c) / k.n

/-- `mode_kappa` and `kappa` of `_set_kappa_ir_colmat`,
phono3py/conductivity/direct_solution.py:245-273 (without `solve_collective_phonon`), and of
`_set_kappa_reducible_colmat`, 275-298. -/
def lbteKappa (reducible : Bool) (k : LBTEInput K) (X Y : Nat → Fin 3 → K)
    (old : Nat → Nat → Fin 6 → K) : (Nat → Nat → Fin 6 → K) × (Fin 6 → K) :=
  let m := lbteModeKappa k X Y old
  let m' : Nat → Nat → Fin 6 → K :=
    if reducible then fun i l c => m i l c / (k.numOps : K) else m
  (m', lbteSum k m')

/-- `Y` of `_set_kappa_RTA_ir_colmat`, phono3py/conductivity/direct_solution.py:968-991: a
vanishing linewidth raises `FloatingPointError` and the entry stays zero; over- and underflow are
not modelled. `g i l` is the main diagonal. -/
def lbteRTAIr (k : LBTEInput K) (g : Nat → Nat → K) (p : Nat) (a : Fin 3) : K :=
  if k.frequencies (p / k.numBand) (p % k.numBand) > k.cutoff then
    if g (p / k.numBand) (p % k.numBand) = 0 then 0
    else lbteX k p a / g (p / k.numBand) (p % k.numBand)
  else 0

/-- `Y` of `_set_kappa_RTA_reducible_colmat`,
phono3py/conductivity/direct_solution.py:1007-1034. `bzFrequencies` is the array over the points
of the Brillouin zone grid, read with the number of the point in the regular grid. Division by
zero is not modelled. -/
def lbteRTAReducible (k : LBTEInput K) (bzFrequencies : Nat → Nat → K) (colmat : Nat → Nat → K)
    (p : Nat) (a : Fin 3) : K :=
  if bzFrequencies (p / k.numBand) (p % k.numBand) > k.cutoff then lbteX k p a / colmat p p else 0

/-! ### One evaluation -/

/-- Arrays of the object that an evaluation reads and changes, for one sigma and one temperature
(phono3py/conductivity/direct_solution.py:1350-1393). -/
structure LBTEState (K : Type _) where
  colmat : Nat → Nat → K
  eigenvalues : Nat → K
  modeKappa : Nat → Nat → Fin 6 → K
  kappa : Fin 6 → K
  modeKappaRTA : Nat → Nat → Fin 6 → K
  kappaRTA : Fin 6 → K

/-- Settings of an evaluation. `prepare` is `_prepare_collision_matrix` on the flat matrix and
`yRTA` the vector of the relaxation time approximation
(phono3py/conductivity/direct_solution.py:1350-1393). -/
structure LBTESettings (K : Type _) where
  reducible : Bool
  pinvSolver : Nat
  solver : Nat
  method : Int
  pinvCutoff : K
  routines : ColmatRoutines K
  prepare : (Nat → Nat → K) → Nat → Nat → K
  yRTA : (Nat → Nat → K) → Nat → Fin 3 → K

/-- Size of the collision matrix, phono3py/conductivity/direct_solution.py:825-832. -/
def lbteSize (reducible : Bool) (k : LBTEInput K) : Nat :=
  if reducible then k.numGp * k.numBand else k.numGp * k.numBand * 3

/-- `_set_kappa_at_sigmas` of `ConductivityLBTE` for one sigma and one temperature,
phono3py/conductivity/direct_solution.py:1362-1376, on the prepared matrix. -/
def lbteAtTemperature (s : LBTESettings K) (k : LBTEInput K) (st : LBTEState K) :
    Option (LBTEState K) :=
  if k.t > 0 then
    let size := lbteSize s.reducible k
    let rta := lbteKappa s.reducible k (lbteX k) (s.yRTA st.colmat) st.modeKappaRTA
    (diagonalizeColmat s.routines s.solver size st.colmat).bind fun d =>
      let w := d.1.getD st.eigenvalues
      (lbteY s.reducible s.pinvSolver s.solver s.method s.pinvCutoff size w d.2 (lbteX k)).map
        fun Y =>
          let m := lbteKappa s.reducible k (lbteX k) Y st.modeKappa
          { colmat := d.2, eigenvalues := w, modeKappa := m.1, kappa := m.2
            modeKappaRTA := rta.1, kappaRTA := rta.2 }
  else some st

/-- `set_kappa_at_sigmas`, phono3py/conductivity/direct_solution.py:222-235, for one sigma and one
temperature, when all irreducible points have been calculated. -/
def lbteEvaluate (s : LBTESettings K) (k : LBTEInput K) (st : LBTEState K) :
    Option (LBTEState K) :=
  lbteAtTemperature s k { st with colmat := s.prepare st.colmat }

/-! ### Collective phonons -/

/-- `r_sum` of `_get_I`, phono3py/conductivity/direct_solution.py:924-936. -/
def rotationSum (k : LBTEInput K) (a b i j : Fin 3) : K :=
  (sumLoop k.numOps fun r => k.rotations r a i * k.rotations r b j) +
    sumLoop k.numOps fun r => k.rotations r a j * k.rotations r b i

/-- `_get_I`, phono3py/conductivity/direct_solution.py:924-948; `none` when all elements of
`r_sum` are below `tiny` (`1e-10`). -/
def chaputI (tiny : K) (k : LBTEInput K) (a b : Fin 3) : Option (Nat → Nat → K) :=
  if ∀ i j : Fin 3, |rotationSum k a b i j| < tiny then none
  else some fun r c => if r / 3 = c / 3 then
    rotationSum k a b ⟨r % 3, Nat.mod_lt _ (by decide)⟩ ⟨c % 3, Nat.mod_lt _ (by decide)⟩ else 0

/-- One entry of `mode_kappa` of `_set_mode_kappa_Chaput`,
phono3py/conductivity/direct_solution.py:1094-1137. `v`, `w` are eigenvectors (in columns) and
eigenvalues of the collision matrix, `eigh` diagonalises `I Ω⁻¹`. -/
def chaputModeKappa (eigh : (Nat → Nat → K) → (Nat → K) × (Nat → Nat → K)) (tiny : K)
    (method : Int) (pinvCutoff : K) (k : LBTEInput K) (w : Nat → K) (v : Nat → Nat → K)
    (i l : Nat) (c : Fin 6) : K :=
  let size := k.numGp * k.numBand * 3
  let X : Nat → K := fun r => lbteX k (r / 3) ⟨r % 3, Nat.mod_lt _ (by decide)⟩
  let e := eigvalsPinv method pinvCutoff w
  let omegaInv : Nat → Nat → K := fun p q => sumLoop size fun s => v p s * (e s * v q s)
  (match chaputI tiny k (voigt c).1 (voigt c).2 with
    | none => 0
    | some I =>
      let d := eigh fun p q => sumLoop size fun s => I p s * omegaInv s q
      sumLoop size fun s =>
        ((sumLoop size fun p => d.2 p s * X p) ^ 2 * d.1 s) *
          (d.2 ((i * k.numBand + l) * 3) s ^ 2 + d.2 ((i * k.numBand + l) * 3 + 1) s ^ 2 +
            d.2 ((i * k.numBand + l) * 3 + 2) s ^ 2)) * (k.factor * k.kb * k.t ^ 2)

end

end Phono3py
