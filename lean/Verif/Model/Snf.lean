/-
`c/snf3x3.c` and `grg_get_snf3x3` of `c/grgrid.c`, statement by statement.

A division by zero (undefined in C) is the result `none`.
The iteration cap of the Euclidean loop is kept in `extGcdCapped`; the decomposition itself
uses the uncapped loop `extGcd`, and `extGcdCapped_eq` (Lemmas/Snf.lean) shows that the two
agree for every second argument of absolute value below 2^499, hence for every `int64_t`.
-/
import Verif.Model.Vec
import Mathlib.Algebra.Order.Ring.Int
import Mathlib.Data.Int.Lemmas
import Mathlib.Tactic.Linarith

namespace Phono3py

/-- `int64_t vals[6]` of `extended_gcd`, c/snf3x3.c:373-380. -/
structure GcdVals where
  r0 : Int
  r1 : Int
  s0 : Int
  s1 : Int
  t0 : Int
  t1 : Int
deriving DecidableEq, Repr

/-- `extended_gcd_step`, c/snf3x3.c:396-419. -/
def extGcdStep (v : GcdVals) : GcdVals :=
  let q := v.r0.tdiv v.r1
  let r2 := v.r0.tmod v.r1
  let (q, r2) :=
    if r2 < 0 then
      if v.r1 > 0 then (q - 1, r2 + v.r1)
      else if v.r1 < 0 then (q + 1, r2 - v.r1) else (q, r2)
    else (q, r2)
  ⟨v.r1, r2, v.s1, v.s0 - q * v.s1, v.t1, v.t0 - q * v.t1⟩

/-- The quotient and the remainder computed by one step are those of Euclidean division. -/
theorem extGcdStep_eq (v : GcdVals) (h : v.r1 ≠ 0) :
    extGcdStep v = ⟨v.r1, v.r0 % v.r1, v.s1, v.s0 - v.r0 / v.r1 * v.s1,
      v.t1, v.t0 - v.r0 / v.r1 * v.t1⟩ := by
  have key : ∀ q r : Int, 0 ≤ r → r < |v.r1| → v.r0 = v.r1 * q + r →
      v.r0 / v.r1 = q ∧ v.r0 % v.r1 = r := by
    intro q r h0 h1 e
    have := (Int.ediv_emod_unique'' h (a := v.r0) (r := r) (q := q)).2 ⟨by linarith, h0, h1⟩
    exact this
  have ht := Int.tmod_add_mul_tdiv v.r0 v.r1
  have hl := Int.tmod_lt_of_pos v.r0 (abs_pos.2 h)
  have hab : (v.r0.tmod v.r1).natAbs < v.r1.natAbs := by
    rw [Int.natAbs_tmod]
    exact Nat.mod_lt _ (Int.natAbs_pos.2 h)
  unfold extGcdStep
  simp only
  by_cases hr : v.r0.tmod v.r1 < 0
  · rw [if_pos hr]
    rcases lt_or_gt_of_ne h with hn | hp
    · rw [if_neg (by omega), if_pos hn]
      obtain ⟨e1, e2⟩ := key (v.r0.tdiv v.r1 + 1) (v.r0.tmod v.r1 - v.r1) (by omega)
        (by rw [abs_of_neg hn]; omega) (by linarith)
      simp [e1, e2]
    · rw [if_pos hp]
      obtain ⟨e1, e2⟩ := key (v.r0.tdiv v.r1 - 1) (v.r0.tmod v.r1 + v.r1) (by omega)
        (by rw [abs_of_pos hp]; omega) (by linarith)
      simp [e1, e2]
  · rw [if_neg hr]
    obtain ⟨e1, e2⟩ := key (v.r0.tdiv v.r1) (v.r0.tmod v.r1) (by omega)
        (by rw [Int.abs_eq_natAbs]; omega) (by linarith)
    simp [e1, e2]

/-- The loop of `extended_gcd`, c/snf3x3.c:382-387, with the given number of rounds. -/
def extGcdFuel : Nat → GcdVals → GcdVals
  | 0, v => v
  | n + 1, v => if v.r1 = 0 then v else extGcdFuel n (extGcdStep v)

theorem extGcdStep_natAbs (v : GcdVals) (h : v.r1 ≠ 0) :
    (extGcdStep v).r1.natAbs < v.r1.natAbs := by
  rw [extGcdStep_eq v h]
  have h1 := Int.emod_nonneg v.r0 h
  have h2 := Int.emod_lt_abs v.r0 h
  rw [Int.abs_eq_natAbs] at h2
  simp only
  omega

theorem extGcdFuel_enough : ∀ (n m : Nat) (v : GcdVals), v.r1.natAbs ≤ n → v.r1.natAbs ≤ m →
    extGcdFuel n v = extGcdFuel m v := by
  intro n
  induction n with
  | zero =>
    intro m v hn _
    have h0 : v.r1 = 0 := by omega
    cases m <;> simp [extGcdFuel, h0]
  | succ n ih =>
    intro m v hn hm
    by_cases h0 : v.r1 = 0
    · cases m <;> simp [extGcdFuel, h0]
    · cases m with
      | zero => omega
      | succ m =>
        have := extGcdStep_natAbs v h0
        simp only [extGcdFuel, if_neg h0]
        exact ih m _ (by omega) (by omega)

/-- The loop without the cap of 1000 iterations: `|r1|` rounds always suffice
(`extGcdLoop_unfold`) (c/snf3x3.c:371-394). -/
def extGcdLoop (v : GcdVals) : GcdVals := extGcdFuel v.r1.natAbs v

theorem extGcdLoop_unfold (v : GcdVals) :
    extGcdLoop v = if v.r1 = 0 then v else extGcdLoop (extGcdStep v) := by
  unfold extGcdLoop
  by_cases h0 : v.r1 = 0
  · simp [extGcdFuel, h0]
  · rw [if_neg h0]
    have h1 := extGcdStep_natAbs v h0
    obtain ⟨k, hk⟩ : ∃ k, v.r1.natAbs = k + 1 := ⟨v.r1.natAbs - 1, by omega⟩
    rw [hk]
    simp only [extGcdFuel, if_neg h0]
    exact extGcdFuel_enough _ _ _ (by omega) (by omega)

/-- `extended_gcd`, c/snf3x3.c:371-394, called with `b ≠ 0` everywhere: `(r, s, t)`.
`none` is the division by zero of the first step when `b = 0`. The `assert` of line 393 is
the theorem `extGcd_bezout`. -/
def extGcd (a b : Int) : Option (Int × Int × Int) :=
  if b = 0 then none
  else
    let v := extGcdLoop ⟨a, b, 1, 0, 0, 1⟩
    some (v.r0, v.s0, v.t0)

/-- The same loop with its cap: at most `n` further iterations (c/snf3x3.c:371-394). -/
def extGcdLoopCapped : Nat → GcdVals → GcdVals
  | 0, v => v
  | n + 1, v =>
    let w := extGcdStep v
    if w.r1 = 0 then w else extGcdLoopCapped n w

/-- `extended_gcd` with the cap of 1000 iterations, c/snf3x3.c:371-394. -/
def extGcdCapped (a b : Int) : Option (Int × Int × Int) :=
  if b = 0 then none
  else
    let v := extGcdLoopCapped 1000 ⟨a, b, 1, 0, 0, 1⟩
    some (v.r0, v.s0, v.t0)

/-- C division, undefined for a zero divisor (c/snf3x3.c:396-419). -/
def cdiv (a b : Int) : Option Int := if b = 0 then none else some (a.tdiv b)
/-- C remainder, undefined for a zero divisor (c/snf3x3.c:396-419). -/
def cmod (a b : Int) : Option Int := if b = 0 then none else some (a.tmod b)

/-- `swap_rows(L, 0, 1)`, c/snf3x3.c:333-347. -/
def swap01 : M3 := ⟨0, 1, 0, 1, 0, 0, 0, 0, 1⟩
/-- `swap_rows(L, 0, 2)` (c/snf3x3.c:333-347). -/
def swap02 : M3 := ⟨0, 0, 1, 0, 1, 0, 1, 0, 0⟩
/-- `swap_rows(L, 1, 2)` (c/snf3x3.c:333-347). -/
def swap12 : M3 := ⟨1, 0, 0, 0, 0, 1, 0, 1, 0⟩

/-- `set_zero(L, 0, 1, a, b, r, s, t)`, c/snf3x3.c:349-365. -/
def setZero01 (a b r s t : Int) : Option M3 := do
  let u ← cdiv (-b) r
  let v ← cdiv a r
  some ⟨s, t, 0, u, v, 0, 0, 0, 1⟩
/-- `set_zero(L, 0, 2, a, b, r, s, t)` (c/snf3x3.c:349-365). -/
def setZero02 (a b r s t : Int) : Option M3 := do
  let u ← cdiv (-b) r
  let v ← cdiv a r
  some ⟨s, 0, t, 0, 1, 0, u, 0, v⟩
/-- `set_zero(L, 1, 2, a, b, r, s, t)` (c/snf3x3.c:349-365). -/
def setZero12 (a b r s t : Int) : Option M3 := do
  let u ← cdiv (-b) r
  let v ← cdiv a r
  some ⟨1, 0, 0, 0, s, t, 0, u, v⟩

/-- The matrix that is being reduced together with the matrix collecting the row
operations: the arguments `(A, P)` (or `(A, Q)`) of the column routines (c/snf3x3.c:120-146). -/
structure AP where
  A : M3
  P : M3
deriving DecidableEq, Repr

/-- `matmul(A, L, A); matmul(P, L, P);` (c/snf3x3.c:138-142). -/
def AP.left (s : AP) (L : M3) : AP := ⟨L.mul s.A, L.mul s.P⟩

/-- `search_first_pivot`, c/snf3x3.c:156-165; `none` is -1. -/
def searchFirstPivot (A : M3) : Option Nat :=
  if A.m00 ≠ 0 then some 0 else if A.m10 ≠ 0 then some 1 else if A.m20 ≠ 0 then some 2 else none

/-- `zero_first_column(L, 1, A)` and the two products, c/snf3x3.c:133-137, 148-154. -/
def zeroFirst1 (s : AP) : Option AP := do
  if s.A.m10 ≠ 0 then
    let (r, x, y) ← extGcd s.A.m00 s.A.m10
    let L ← setZero01 s.A.m00 s.A.m10 r x y
    some (s.left L)
  else some s

/-- `zero_first_column(L, 2, A)` and the two products, c/snf3x3.c:138-142, 148-154. -/
def zeroFirst2 (s : AP) : Option AP := do
  if s.A.m20 ≠ 0 then
    let (r, x, y) ← extGcd s.A.m00 s.A.m20
    let L ← setZero02 s.A.m00 s.A.m20 r x y
    some (s.left L)
  else some s

/-- `first_column`, c/snf3x3.c:120-146. -/
def firstColumn (s : AP) : Option AP :=
  match searchFirstPivot s.A with
  | none => some s
  | some i => do
    let s := if i = 1 then s.left swap01 else if i = 2 then s.left swap02 else s
    let s ← zeroFirst1 s
    zeroFirst2 s

/-- The three matrices of `snf3x3` (c/snf3x3.c:56-73). -/
structure Snf where
  A : M3
  P : M3
  Q : M3
deriving DecidableEq, Repr

/-- Column routine applied to `(A, P)` and then, between two transpositions, to `(A, Q)`:
`first_one_loop` and `second_one_loop`, c/snf3x3.c:113-118 and 198-203. -/
def oneLoop (column : AP → Option AP) (s : Snf) : Option Snf := do
  let u ← column ⟨s.A, s.P⟩
  let v ← column ⟨u.A.transpose, s.Q⟩
  some ⟨v.A.transpose, u.P, v.P⟩

/-- `first_finalize`, c/snf3x3.c:167-177. -/
def firstFinalize (A : M3) : Option M3 := do
  let u ← cdiv (-A.m10) A.m00
  let v ← cdiv (-A.m20) A.m00
  some ⟨1, 0, 0, u, 1, 0, v, 0, 1⟩

/-- `first`, c/snf3x3.c:91-111. -/
def first (s : Snf) : Option (Bool × Snf) := do
  let s ← oneLoop firstColumn s
  if s.A.m10 = 0 ∧ s.A.m20 = 0 then some (true, s)
  else
    let x ← cmod s.A.m10 s.A.m00
    let y ← cmod s.A.m20 s.A.m00
    if x = 0 ∧ y = 0 then
      let L ← firstFinalize s.A
      some (true, ⟨L.mul s.A, L.mul s.P, s.Q⟩)
    else some (false, s)

/-- `second_column`, c/snf3x3.c:205-226. -/
def secondColumn (s : AP) : Option AP := do
  let s := if s.A.m11 = 0 ∧ s.A.m21 ≠ 0 then s.left swap12 else s
  if s.A.m21 ≠ 0 then
    let (r, x, y) ← extGcd s.A.m11 s.A.m21
    let L ← setZero12 s.A.m11 s.A.m21 r x y
    some (s.left L)
  else some s

/-- `second_finalize`, c/snf3x3.c:228-238. -/
def secondFinalize (A : M3) : Option M3 := do
  let u ← cdiv (-A.m21) A.m11
  some ⟨1, 0, 0, 0, 1, 0, 0, u, 1⟩

/-- `second`, c/snf3x3.c:179-196. -/
def second (s : Snf) : Option (Bool × Snf) := do
  let s ← oneLoop secondColumn s
  if s.A.m21 = 0 then some (true, s)
  else
    let x ← cmod s.A.m21 s.A.m11
    if x = 0 then
      let L ← secondFinalize s.A
      some (true, ⟨L.mul s.A, L.mul s.P, s.Q⟩)
    else some (false, s)

/-- One round of the loop of `make_diagA_positive`, c/snf3x3.c:307-318, `L` being
`flip_sign_row(L, i)` (421-432) and `d` the diagonal element. -/
def flipRowIf (d : Int) (L : M3) (s : Snf) : Snf :=
  if d < 0 then ⟨L.mul s.A, L.mul s.P, s.Q⟩ else s

/-- `make_diagA_positive`, c/snf3x3.c:307-318. -/
def makeDiagPositive (s : Snf) : Snf :=
  let s := flipRowIf s.A.m00 (M3.diag ⟨-1, 1, 1⟩) s
  let s := flipRowIf s.A.m11 (M3.diag ⟨1, -1, 1⟩) s
  flipRowIf s.A.m22 (M3.diag ⟨1, 1, -1⟩) s

/-- `swap_diag_elems`, c/snf3x3.c:293-305, with `L` the row swap. -/
def swapDiagElems (L : M3) (s : Snf) : Snf :=
  ⟨(L.mul (L.mul s.A).transpose).transpose, L.mul s.P, L.mul s.Q⟩

/-- `finalize_sort`, c/snf3x3.c:252-262. -/
def finalizeSort (s : Snf) : Snf :=
  let s := if s.A.m00 > s.A.m11 then swapDiagElems swap01 s else s
  let s := if s.A.m11 > s.A.m22 then swapDiagElems swap12 s else s
  if s.A.m00 > s.A.m11 then swapDiagElems swap01 s else s

/-- `finalize_disturb`, c/snf3x3.c:264-291; `di`, `dj` are `A[i][i]` and `A[j][j]`, and `L`
is `disturb_rows(L, i, j)`. -/
def finalizeDisturb (di dj : Int) (L : M3) (s : Snf) : Option Snf := do
  let m ← cmod dj di
  if m ≠ 0 then some ⟨(L.mul s.A.transpose).transpose, s.P, L.mul s.Q⟩ else some s

/-- `flip_PQ`, c/snf3x3.c:320-331. -/
def flipPQ (s : Snf) : Snf :=
  if s.P.det < 0 then ⟨s.A, M3.negOne.mul s.P, M3.negOne.mul s.Q⟩ else s

/-- `finalize`, c/snf3x3.c:240-250. The return values of `first` and `second` are dropped
there, as in the C code. -/
def finalize (s : Snf) : Option Snf := do
  let s := makeDiagPositive s
  let s := finalizeSort s
  let s ← finalizeDisturb s.A.m00 s.A.m11 ⟨1, 1, 0, 0, 1, 0, 0, 0, 1⟩ s
  let (_, s) ← first s
  let s := finalizeSort s
  let s ← finalizeDisturb s.A.m11 s.A.m22 ⟨1, 0, 0, 0, 1, 1, 0, 0, 1⟩ s
  let (_, s) ← second s
  some (flipPQ s)

/-- The loop of `snf3x3`, c/snf3x3.c:60-72, with `n` rounds left. Outer `none`: division by
zero. Inner `none`: return value 0. -/
def snfLoop : Nat → Snf → Option (Option Snf)
  | 0, _ => some none
  | n + 1, s => do
    let (b1, s) ← first s
    if b1 then
      let (b2, s) ← second s
      if b2 then
        let s ← finalize s
        some (some ⟨s.A, s.P, s.Q.transpose⟩)
      else snfLoop n s
    else snfLoop n s

/-- `snf3x3`, c/snf3x3.c:56-89. -/
def snf3x3 (A : M3) : Option (Option Snf) := snfLoop 100 ⟨A, M3.one, M3.one⟩

/-- `grg_get_snf3x3`, c/grgrid.c:72-98: `(D_diag, P, Q)`. A zero determinant is refused.
(When the inner routine gives up the C code also fills `D_diag`; the caller raises.) -/
def grgSnf3x3 (A : M3) : Option (Option (V3 × M3 × M3)) := do
  if A.det = 0 then some none
  else
    match ← snf3x3 A with
    | none => some none
    | some s => some (some (⟨s.A.m00, s.A.m11, s.A.m22⟩, s.P, s.Q))

end Phono3py
