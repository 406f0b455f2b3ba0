/-
Niggli reduction `c/niggli.c` and the entry points that reduce the reciprocal basis before
the Brillouin-zone grid is generated: `c/gridsys.c` and `phono3py/phonon/grid.py`.
`malloc` never fails here. The layer options (`aperiodic_axis` other than -1) are not used
by phono3py and left out.
-/
import Verif.Model.BZGrid

namespace Phono3py

section
variable {K : Type _} [Field K] [LinearOrder K] [IsStrictOrderedRing K]

/-- `double M[9]`, entry `i * 3 + j` (c/niggli.c:532-553). -/
abbrev RM (K : Type _) := Fin 3 → Fin 3 → K

/-- The matrix with nine entries in row order, as assigned to `p->tmat[0..8]`
(c/niggli.c:311-313). -/
def rows9 (t0 t1 t2 t3 t4 t5 t6 t7 t8 : K) : RM K :=
  ![![t0, t1, t2], ![t3, t4, t5], ![t6, t7, t8]]

/-- `multiply_matrices`, c/niggli.c:532-553 (also `lagmat_multiply_matrix_d3`,
c/lagrid.c:190-200). -/
def mulRM (l r : RM K) : RM K :=
  fun i j => l i 0 * r 0 j + l i 1 * r 1 j + l i 2 * r 2 j

/-- `get_transpose`, c/niggli.c:493-511. -/
def transposeRM (m : RM K) : RM K := fun i j => m j i

/-- `get_metric`, c/niggli.c:513-530. -/
def metricRM (m : RM K) : RM K := mulRM (transposeRM m) m

/-- `NiggliParams`, c/niggli.c:44-57. -/
structure NiggliParams (K : Type _) where
  A : K
  B : K
  C : K
  eta : K
  xi : K
  zeta : K
  eps : K
  l : Int
  m : Int
  n : Int
  tmat : RM K
  lattice : RM K

/-- One of the three angle types of `set_angle_types`, c/niggli.c:284-306. -/
def angleType (v eps : K) : Int :=
  let t : Int := 0
  let t := if v < -eps then -1 else t
  if eps < v then 1 else t

/-- `set_parameters` and `set_angle_types`, c/niggli.c:260-306. -/
def setParameters (p : NiggliParams K) : NiggliParams K :=
  let G := metricRM p.lattice
  let xi := G 1 2 * 2
  let eta := G 0 2 * 2
  let zeta := G 0 1 * 2
  { p with
    A := G 0 0, B := G 1 1, C := G 2 2, xi := xi, eta := eta, zeta := zeta
    l := angleType xi p.eps, m := angleType eta p.eps, n := angleType zeta p.eps }

/-- `initialize`, c/niggli.c:175-216. -/
def niggliInit (lattice : RM K) (eps : K) : NiggliParams K :=
  ⟨0, 0, 0, 0, 0, 0, eps, 0, 0, 0, fun _ _ => 0, lattice⟩

/-- `reset`, c/niggli.c:245-258. -/
def niggliReset (p : NiggliParams K) : NiggliParams K :=
  setParameters { p with lattice := mulRM p.lattice p.tmat }

/-- `step1`, c/niggli.c:308-318; `none` is the return value 0. -/
def niggliStep1 (p : NiggliParams K) : Option (NiggliParams K) :=
  if p.B + p.eps < p.A ∨ (¬ p.eps < |p.A - p.B| ∧ |p.eta| + p.eps < |p.xi|) then
    some { p with tmat := rows9 0 (-1) 0 (-1) 0 0 0 0 (-1) }
  else none

/-- `step2`, c/niggli.c:320-330. -/
def niggliStep2 (p : NiggliParams K) : Option (NiggliParams K) :=
  if p.C + p.eps < p.B ∨ (¬ p.eps < |p.B - p.C| ∧ |p.zeta| + p.eps < |p.eta|) then
    some { p with tmat := rows9 (-1) 0 0 0 0 (-1) 0 (-1) 0 }
  else none

/-- `step3`, c/niggli.c:344-369. -/
def niggliStep3 (p : NiggliParams K) : Option (NiggliParams K) :=
  if p.l * p.m * p.n = 1 then
    let i : Int := if p.l = -1 then -1 else 1
    let j : Int := if p.m = -1 then -1 else 1
    let k : Int := if p.n = -1 then -1 else 1
    some { p with tmat := rows9 (i : K) 0 0 0 (j : K) 0 0 0 (k : K) }
  else none

/-- `step4`, c/niggli.c:371-421. -/
def niggliStep4 (p : NiggliParams K) : Option (NiggliParams K) :=
  if p.l = -1 ∧ p.m = -1 ∧ p.n = -1 then none
  else if p.l * p.m * p.n = 0 ∨ p.l * p.m * p.n = -1 then
    let i : Int := if p.l = 1 then -1 else 1
    let r : Int := if p.l = 0 then 0 else -1
    let j : Int := if p.m = 1 then -1 else 1
    let r := if p.m = 0 then 1 else r
    let k : Int := if p.n = 1 then -1 else 1
    let r := if p.n = 0 then 2 else r
    let flip := i * j * k = -1
    let i' : Int := if flip ∧ r = 0 then -1 else i
    let j' : Int := if flip ∧ r = 1 then -1 else j
    let k' : Int := if flip ∧ r = 2 then -1 else k
    some { p with tmat := rows9 (i' : K) 0 0 0 (j' : K) 0 0 0 (k' : K) }
  else none

/-- The entry added in `step5`-`step7`: -1 for a positive angle parameter, 1 for a negative
one and 0 otherwise (c/niggli.c:430-435, 449-454, 468-473). -/
def shearEntry (v : K) : K :=
  let t : K := 0
  let t := if 0 < v then -1 else t
  if v < 0 then 1 else t

/-- `step5`, c/niggli.c:423-440. -/
def niggliStep5 (p : NiggliParams K) : Option (NiggliParams K) :=
  if p.B + p.eps < |p.xi| ∨ (¬ p.eps < |p.B - p.xi| ∧ 2 * p.eta < p.zeta - p.eps) ∨
      (¬ p.eps < |p.B + p.xi| ∧ p.zeta < -p.eps) then
    some { p with tmat := rows9 1 0 0 0 1 (shearEntry p.xi) 0 0 1 }
  else none

/-- `step6`, c/niggli.c:442-459. -/
def niggliStep6 (p : NiggliParams K) : Option (NiggliParams K) :=
  if p.A + p.eps < |p.eta| ∨ (¬ p.eps < |p.A - p.eta| ∧ 2 * p.xi < p.zeta - p.eps) ∨
      (¬ p.eps < |p.A + p.eta| ∧ p.zeta < -p.eps) then
    some { p with tmat := rows9 1 0 (shearEntry p.eta) 0 1 0 0 0 1 }
  else none

/-- `step7`, c/niggli.c:461-478. -/
def niggliStep7 (p : NiggliParams K) : Option (NiggliParams K) :=
  if p.A + p.eps < |p.zeta| ∨ (¬ p.eps < |p.A - p.zeta| ∧ 2 * p.xi < p.eta - p.eps) ∨
      (¬ p.eps < |p.A + p.zeta| ∧ p.eta < -p.eps) then
    some { p with tmat := rows9 1 (shearEntry p.zeta) 0 0 1 0 0 0 1 }
  else none

/-- `step8`, c/niggli.c:480-491. -/
def niggliStep8 (p : NiggliParams K) : Option (NiggliParams K) :=
  if p.xi + p.eta + p.zeta + p.A + p.B < -p.eps ∨
      (¬ p.eps < |p.xi + p.eta + p.zeta + p.A + p.B| ∧ p.eps < 2 * (p.A + p.eta) + p.zeta) then
    some { p with tmat := rows9 1 0 1 0 1 1 0 0 1 }
  else none

/-- `steps[8]` with the break condition `j == 1 || j == 4 || ... || j == 7`
(c/niggli.c:128-129, 157-159). -/
def niggliSteps : List ((NiggliParams K → Option (NiggliParams K)) × Bool) :=
  [(niggliStep1, false), (niggliStep2, true), (niggliStep3, false), (niggliStep4, false),
    (niggliStep5, true), (niggliStep6, true), (niggliStep7, true), (niggliStep8, true)]

/-- The inner `j` loop, c/niggli.c:151-161; the flag says that it ended with `j == 8`. -/
def niggliPass : List ((NiggliParams K → Option (NiggliParams K)) × Bool) → NiggliParams K →
    NiggliParams K × Bool
  | [], p => (p, true)
  | (step, brk) :: rest, p =>
    match step p with
    | none => niggliPass rest p
    | some p' => if brk then (niggliReset p', false) else niggliPass rest (niggliReset p')

/-- The outer `i` loop with the number of rounds left, c/niggli.c:150-166; the flag is
`succeeded`. -/
def niggliLoop : Nat → NiggliParams K → NiggliParams K × Bool
  | 0, p => (p, false)
  | n + 1, p =>
    let r := niggliPass niggliSteps p
    if r.2 then (r.1, true) else niggliLoop n r.1

/-- `niggli_reduce`, c/niggli.c:119-173: the lattice written back by `finalize` and the return
value. `NIGGLI_MAX_NUM_LOOP` is 100 (c/niggli.c:42). -/
def niggliReduce (lattice : RM K) (eps : K) : RM K × Bool :=
  let r := niggliLoop 100 (setParameters (niggliInit lattice eps))
  (r.1.lattice, r.2)

/-- `lagmat_get_determinant_d3`, c/lagrid.c:45-49. -/
def detRM (a : RM K) : K :=
  a 0 0 * (a 1 1 * a 2 2 - a 1 2 * a 2 1) + a 0 1 * (a 1 2 * a 2 0 - a 1 0 * a 2 2) +
    a 0 2 * (a 1 0 * a 2 1 - a 1 1 * a 2 0)

/-- The matrix `c` of `lagmat_inverse_matrix_d3`, c/lagrid.c:127-135. -/
def cofactorRM (a : RM K) : RM K :=
  let det := detRM a
  rows9
    ((a 1 1 * a 2 2 - a 1 2 * a 2 1) / det) ((a 2 1 * a 0 2 - a 2 2 * a 0 1) / det)
    ((a 0 1 * a 1 2 - a 0 2 * a 1 1) / det)
    ((a 1 2 * a 2 0 - a 1 0 * a 2 2) / det) ((a 2 2 * a 0 0 - a 2 0 * a 0 2) / det)
    ((a 0 2 * a 1 0 - a 0 0 * a 1 2) / det)
    ((a 1 0 * a 2 1 - a 1 1 * a 2 0) / det) ((a 2 0 * a 0 1 - a 2 1 * a 0 0) / det)
    ((a 0 0 * a 1 1 - a 0 1 * a 1 0) / det)

/-- `lagmat_inverse_matrix_d3`, c/lagrid.c:117-138; `none` is the return value 0. -/
def inverseRM (a : RM K) (precision : K) : Option (RM K) :=
  if |detRM a| < precision then none else some (cofactorRM a)

/-- `GRIDSYS_NIGGLI_TOLERANCE`, c/gridsys.c:50. -/
def gridsysTolerance : K := 1 / 100000

variable [FloorRing K]

/-- `lagmat_cast_matrix_3d_to_3l`, c/lagrid.c:63-73. -/
def castRM (a : RM K) : M3 := M3.ofFn fun i j => nint (a i j)

/-- `gridsys_get_bz_grid_addresses`, c/gridsys.c:118-175. `none` is the return value 0.
(Two of these returns leak the small structure; memory is not modelled.) -/
def gridsysBzGridAddresses (D : V3) (Q : M3) (PS : V3) (recLattice : RM K) (dense : Bool)
    (init : BZGridOut) : Option BZGridOut :=
  let r := niggliReduce recLattice gridsysTolerance
  if r.2 then
    match inverseRM r.1 gridsysTolerance with
    | none => none
    | some invLr =>
      let invMpr := castRM (mulRM invLr recLattice)
      bzGrid ⟨D, PS, invMpr.mul Q, r.1⟩ dense init
  else none

/-- `_relocate_BZ_grid_address`, phono3py/phonon/grid.py:1078-1174, with
`recgrid_get_bz_grid_addresses` (c/recgrid.c:125-160). `reduced` is what phonopy's
`get_reduced_bases` returns, as column vectors; `rint` is `np.rint`. `none` is a failed
assertion. When C reports size 0 the returned arrays are empty, which is `some none` here. -/
def relocateBzGridAddress (rint : K → Int) (reduced : RM K) (D : V3) (Q : M3) (PS : V3)
    (reciprocalLattice : RM K) (dense : Bool) (init : BZGridOut) : Option (Option BZGridOut) :=
  let tmatInv := mulRM (cofactorRM reduced) reciprocalLattice
  let tmatInvInt := M3.ofFn fun i j => rint (tmatInv i j)
  if ∀ i j, |tmatInv i j - (tmatInvInt.e i j : K)| < 1 / 100000 then
    some (bzGrid ⟨D, PS, tmatInvInt.mul Q, reduced⟩ dense init)
  else none

end

end Phono3py
