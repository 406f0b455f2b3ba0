/-
Linear tetrahedron method: `c/tetrahedron_method.c`. Frequencies (`double`) live in a
linearly ordered field. `eps` is the compile-time constant THM_EPSILON, which CMakeLists.txt
(lines 207-281) sets to 1e-10 in every build.
-/
import Verif.Model.Vec
import Verif.Model.Grid
import Mathlib.Data.Fin.VecNotation

namespace Phono3py

/-- `main_diagonals`, c/tetrahedron_method.c:72-75. -/
def mainDiagonals : List V3 := [⟨1, 1, 1⟩, ⟨-1, 1, 1⟩, ⟨1, -1, 1⟩, ⟨1, 1, -1⟩]

/-- `db_relative_grid_address`, c/tetrahedron_method.c:77-662 (literal copy). -/
def dbRelativeGridAddress : List (List (List V3)) :=
[
  [[⟨0, 0, 0⟩, ⟨1, 0, 0⟩, ⟨1, 1, 0⟩, ⟨1, 1, 1⟩],
   [⟨0, 0, 0⟩, ⟨1, 0, 0⟩, ⟨1, 0, 1⟩, ⟨1, 1, 1⟩],
   [⟨0, 0, 0⟩, ⟨0, 1, 0⟩, ⟨1, 1, 0⟩, ⟨1, 1, 1⟩],
   [⟨0, 0, 0⟩, ⟨0, 1, 0⟩, ⟨0, 1, 1⟩, ⟨1, 1, 1⟩],
   [⟨0, 0, 0⟩, ⟨0, 0, 1⟩, ⟨1, 0, 1⟩, ⟨1, 1, 1⟩],
   [⟨0, 0, 0⟩, ⟨0, 0, 1⟩, ⟨0, 1, 1⟩, ⟨1, 1, 1⟩],
   [⟨0, 0, 0⟩, ⟨0, 1, 0⟩, ⟨0, 1, 1⟩, ⟨-1, 0, 0⟩],
   [⟨0, 0, 0⟩, ⟨0, 0, 1⟩, ⟨0, 1, 1⟩, ⟨-1, 0, 0⟩],
   [⟨0, 0, 0⟩, ⟨1, 0, 0⟩, ⟨1, 0, 1⟩, ⟨0, -1, 0⟩],
   [⟨0, 0, 0⟩, ⟨0, 0, 1⟩, ⟨1, 0, 1⟩, ⟨0, -1, 0⟩],
   [⟨0, 0, 0⟩, ⟨0, 0, 1⟩, ⟨-1, -1, 0⟩, ⟨0, -1, 0⟩],
   [⟨0, 0, 0⟩, ⟨0, 0, 1⟩, ⟨-1, -1, 0⟩, ⟨-1, 0, 0⟩],
   [⟨0, 0, 0⟩, ⟨1, 0, 0⟩, ⟨1, 1, 0⟩, ⟨0, 0, -1⟩],
   [⟨0, 0, 0⟩, ⟨0, 1, 0⟩, ⟨1, 1, 0⟩, ⟨0, 0, -1⟩],
   [⟨0, 0, 0⟩, ⟨0, 1, 0⟩, ⟨-1, 0, -1⟩, ⟨0, 0, -1⟩],
   [⟨0, 0, 0⟩, ⟨0, 1, 0⟩, ⟨-1, 0, -1⟩, ⟨-1, 0, 0⟩],
   [⟨0, 0, 0⟩, ⟨1, 0, 0⟩, ⟨0, -1, -1⟩, ⟨0, 0, -1⟩],
   [⟨0, 0, 0⟩, ⟨1, 0, 0⟩, ⟨0, -1, -1⟩, ⟨0, -1, 0⟩],
   [⟨0, 0, 0⟩, ⟨-1, -1, -1⟩, ⟨0, -1, -1⟩, ⟨0, 0, -1⟩],
   [⟨0, 0, 0⟩, ⟨-1, -1, -1⟩, ⟨0, -1, -1⟩, ⟨0, -1, 0⟩],
   [⟨0, 0, 0⟩, ⟨-1, -1, -1⟩, ⟨-1, 0, -1⟩, ⟨0, 0, -1⟩],
   [⟨0, 0, 0⟩, ⟨-1, -1, -1⟩, ⟨-1, 0, -1⟩, ⟨-1, 0, 0⟩],
   [⟨0, 0, 0⟩, ⟨-1, -1, -1⟩, ⟨-1, -1, 0⟩, ⟨0, -1, 0⟩],
   [⟨0, 0, 0⟩, ⟨-1, -1, -1⟩, ⟨-1, -1, 0⟩, ⟨-1, 0, 0⟩]],
  [[⟨0, 0, 0⟩, ⟨1, 0, 0⟩, ⟨0, 1, 0⟩, ⟨0, 1, 1⟩],
   [⟨0, 0, 0⟩, ⟨1, 0, 0⟩, ⟨0, 0, 1⟩, ⟨0, 1, 1⟩],
   [⟨0, 0, 0⟩, ⟨-1, 1, 0⟩, ⟨-1, 1, 1⟩, ⟨-1, 0, 0⟩],
   [⟨0, 0, 0⟩, ⟨-1, 0, 1⟩, ⟨-1, 1, 1⟩, ⟨-1, 0, 0⟩],
   [⟨0, 0, 0⟩, ⟨-1, 1, 0⟩, ⟨0, 1, 0⟩, ⟨-1, 1, 1⟩],
   [⟨0, 0, 0⟩, ⟨0, 1, 0⟩, ⟨-1, 1, 1⟩, ⟨0, 1, 1⟩],
   [⟨0, 0, 0⟩, ⟨-1, 0, 1⟩, ⟨0, 0, 1⟩, ⟨-1, 1, 1⟩],
   [⟨0, 0, 0⟩, ⟨0, 0, 1⟩, ⟨-1, 1, 1⟩, ⟨0, 1, 1⟩],
   [⟨0, 0, 0⟩, ⟨0, 0, 1⟩, ⟨0, -1, 0⟩, ⟨1, -1, 0⟩],
   [⟨0, 0, 0⟩, ⟨1, 0, 0⟩, ⟨0, 0, 1⟩, ⟨1, -1, 0⟩],
   [⟨0, 0, 0⟩, ⟨-1, 0, 1⟩, ⟨0, -1, 0⟩, ⟨-1, 0, 0⟩],
   [⟨0, 0, 0⟩, ⟨-1, 0, 1⟩, ⟨0, 0, 1⟩, ⟨0, -1, 0⟩],
   [⟨0, 0, 0⟩, ⟨0, 1, 0⟩, ⟨0, 0, -1⟩, ⟨1, 0, -1⟩],
   [⟨0, 0, 0⟩, ⟨1, 0, 0⟩, ⟨0, 1, 0⟩, ⟨1, 0, -1⟩],
   [⟨0, 0, 0⟩, ⟨-1, 1, 0⟩, ⟨0, 0, -1⟩, ⟨-1, 0, 0⟩],
   [⟨0, 0, 0⟩, ⟨-1, 1, 0⟩, ⟨0, 1, 0⟩, ⟨0, 0, -1⟩],
   [⟨0, 0, 0⟩, ⟨0, -1, -1⟩, ⟨1, -1, -1⟩, ⟨0, 0, -1⟩],
   [⟨0, 0, 0⟩, ⟨0, -1, -1⟩, ⟨1, -1, -1⟩, ⟨0, -1, 0⟩],
   [⟨0, 0, 0⟩, ⟨1, -1, -1⟩, ⟨0, 0, -1⟩, ⟨1, 0, -1⟩],
   [⟨0, 0, 0⟩, ⟨1, 0, 0⟩, ⟨1, -1, -1⟩, ⟨1, 0, -1⟩],
   [⟨0, 0, 0⟩, ⟨1, -1, -1⟩, ⟨0, -1, 0⟩, ⟨1, -1, 0⟩],
   [⟨0, 0, 0⟩, ⟨1, 0, 0⟩, ⟨1, -1, -1⟩, ⟨1, -1, 0⟩],
   [⟨0, 0, 0⟩, ⟨0, -1, -1⟩, ⟨0, 0, -1⟩, ⟨-1, 0, 0⟩],
   [⟨0, 0, 0⟩, ⟨0, -1, -1⟩, ⟨0, -1, 0⟩, ⟨-1, 0, 0⟩]],
  [[⟨0, 0, 0⟩, ⟨1, 0, 0⟩, ⟨0, 1, 0⟩, ⟨1, 0, 1⟩],
   [⟨0, 0, 0⟩, ⟨0, 1, 0⟩, ⟨0, 0, 1⟩, ⟨1, 0, 1⟩],
   [⟨0, 0, 0⟩, ⟨-1, 1, 0⟩, ⟨0, 0, 1⟩, ⟨-1, 0, 0⟩],
   [⟨0, 0, 0⟩, ⟨-1, 1, 0⟩, ⟨0, 1, 0⟩, ⟨0, 0, 1⟩],
   [⟨0, 0, 0⟩, ⟨1, -1, 1⟩, ⟨0, -1, 0⟩, ⟨1, -1, 0⟩],
   [⟨0, 0, 0⟩, ⟨0, -1, 1⟩, ⟨1, -1, 1⟩, ⟨0, -1, 0⟩],
   [⟨0, 0, 0⟩, ⟨1, 0, 0⟩, ⟨1, -1, 1⟩, ⟨1, -1, 0⟩],
   [⟨0, 0, 0⟩, ⟨1, 0, 0⟩, ⟨1, -1, 1⟩, ⟨1, 0, 1⟩],
   [⟨0, 0, 0⟩, ⟨0, -1, 1⟩, ⟨1, -1, 1⟩, ⟨0, 0, 1⟩],
   [⟨0, 0, 0⟩, ⟨1, -1, 1⟩, ⟨0, 0, 1⟩, ⟨1, 0, 1⟩],
   [⟨0, 0, 0⟩, ⟨0, -1, 1⟩, ⟨0, -1, 0⟩, ⟨-1, 0, 0⟩],
   [⟨0, 0, 0⟩, ⟨0, -1, 1⟩, ⟨0, 0, 1⟩, ⟨-1, 0, 0⟩],
   [⟨0, 0, 0⟩, ⟨1, 0, 0⟩, ⟨0, 0, -1⟩, ⟨0, 1, -1⟩],
   [⟨0, 0, 0⟩, ⟨1, 0, 0⟩, ⟨0, 1, 0⟩, ⟨0, 1, -1⟩],
   [⟨0, 0, 0⟩, ⟨-1, 0, -1⟩, ⟨0, 0, -1⟩, ⟨-1, 1, -1⟩],
   [⟨0, 0, 0⟩, ⟨-1, 0, -1⟩, ⟨-1, 1, -1⟩, ⟨-1, 0, 0⟩],
   [⟨0, 0, 0⟩, ⟨0, 0, -1⟩, ⟨-1, 1, -1⟩, ⟨0, 1, -1⟩],
   [⟨0, 0, 0⟩, ⟨0, 1, 0⟩, ⟨-1, 1, -1⟩, ⟨0, 1, -1⟩],
   [⟨0, 0, 0⟩, ⟨-1, 1, 0⟩, ⟨-1, 1, -1⟩, ⟨-1, 0, 0⟩],
   [⟨0, 0, 0⟩, ⟨-1, 1, 0⟩, ⟨0, 1, 0⟩, ⟨-1, 1, -1⟩],
   [⟨0, 0, 0⟩, ⟨0, 0, -1⟩, ⟨0, -1, 0⟩, ⟨1, -1, 0⟩],
   [⟨0, 0, 0⟩, ⟨1, 0, 0⟩, ⟨0, 0, -1⟩, ⟨1, -1, 0⟩],
   [⟨0, 0, 0⟩, ⟨-1, 0, -1⟩, ⟨0, 0, -1⟩, ⟨0, -1, 0⟩],
   [⟨0, 0, 0⟩, ⟨-1, 0, -1⟩, ⟨0, -1, 0⟩, ⟨-1, 0, 0⟩]],
  [[⟨0, 0, 0⟩, ⟨1, 0, 0⟩, ⟨1, 1, 0⟩, ⟨0, 0, 1⟩],
   [⟨0, 0, 0⟩, ⟨0, 1, 0⟩, ⟨1, 1, 0⟩, ⟨0, 0, 1⟩],
   [⟨0, 0, 0⟩, ⟨0, 1, 0⟩, ⟨-1, 0, 1⟩, ⟨-1, 0, 0⟩],
   [⟨0, 0, 0⟩, ⟨0, 1, 0⟩, ⟨-1, 0, 1⟩, ⟨0, 0, 1⟩],
   [⟨0, 0, 0⟩, ⟨1, 0, 0⟩, ⟨0, -1, 1⟩, ⟨0, -1, 0⟩],
   [⟨0, 0, 0⟩, ⟨1, 0, 0⟩, ⟨0, -1, 1⟩, ⟨0, 0, 1⟩],
   [⟨0, 0, 0⟩, ⟨-1, -1, 1⟩, ⟨-1, -1, 0⟩, ⟨0, -1, 0⟩],
   [⟨0, 0, 0⟩, ⟨-1, -1, 1⟩, ⟨-1, -1, 0⟩, ⟨-1, 0, 0⟩],
   [⟨0, 0, 0⟩, ⟨-1, -1, 1⟩, ⟨0, -1, 1⟩, ⟨0, -1, 0⟩],
   [⟨0, 0, 0⟩, ⟨-1, -1, 1⟩, ⟨-1, 0, 1⟩, ⟨-1, 0, 0⟩],
   [⟨0, 0, 0⟩, ⟨-1, -1, 1⟩, ⟨0, -1, 1⟩, ⟨0, 0, 1⟩],
   [⟨0, 0, 0⟩, ⟨-1, -1, 1⟩, ⟨-1, 0, 1⟩, ⟨0, 0, 1⟩],
   [⟨0, 0, 0⟩, ⟨0, 0, -1⟩, ⟨1, 0, -1⟩, ⟨1, 1, -1⟩],
   [⟨0, 0, 0⟩, ⟨0, 0, -1⟩, ⟨0, 1, -1⟩, ⟨1, 1, -1⟩],
   [⟨0, 0, 0⟩, ⟨1, 0, 0⟩, ⟨1, 0, -1⟩, ⟨1, 1, -1⟩],
   [⟨0, 0, 0⟩, ⟨0, 1, 0⟩, ⟨0, 1, -1⟩, ⟨1, 1, -1⟩],
   [⟨0, 0, 0⟩, ⟨1, 0, 0⟩, ⟨1, 1, 0⟩, ⟨1, 1, -1⟩],
   [⟨0, 0, 0⟩, ⟨0, 1, 0⟩, ⟨1, 1, 0⟩, ⟨1, 1, -1⟩],
   [⟨0, 0, 0⟩, ⟨0, 0, -1⟩, ⟨0, 1, -1⟩, ⟨-1, 0, 0⟩],
   [⟨0, 0, 0⟩, ⟨0, 1, 0⟩, ⟨0, 1, -1⟩, ⟨-1, 0, 0⟩],
   [⟨0, 0, 0⟩, ⟨0, 0, -1⟩, ⟨1, 0, -1⟩, ⟨0, -1, 0⟩],
   [⟨0, 0, 0⟩, ⟨1, 0, 0⟩, ⟨1, 0, -1⟩, ⟨0, -1, 0⟩],
   [⟨0, 0, 0⟩, ⟨0, 0, -1⟩, ⟨-1, -1, 0⟩, ⟨0, -1, 0⟩],
   [⟨0, 0, 0⟩, ⟨0, 0, -1⟩, ⟨-1, -1, 0⟩, ⟨-1, 0, 0⟩]]]

section
variable {K : Type _} [Field K] [LinearOrder K]

/-- Squared length of `rec_lattice * b`: `multiply_matrix_vector_dl3` and `norm_squared_d3`,
c/tetrahedron_method.c:915-931. -/
def diagonalLength (reclat : Fin 3 → Fin 3 → K) (b : V3) : K :=
  let c : Fin 3 → K := fun i =>
    reclat i 0 * (b.x : K) + reclat i 1 * (b.y : K) + reclat i 2 * (b.z : K)
  c 0 * c 0 + c 1 * c 1 + c 2 * c 2

/-- `main_diagonals[i]` (c/tetrahedron_method.c:72-75). -/
def mainDiagonal (i : Nat) : V3 := mainDiagonals.getD i ⟨0, 0, 0⟩

/-- `get_main_diagonal`, c/tetrahedron_method.c:896-913. -/
def getMainDiagonal (reclat : Fin 3 → Fin 3 → K) : Nat :=
  ([1, 2, 3].foldl
    (fun (st : K × Nat) i =>
      let length := diagonalLength reclat (mainDiagonal i)
      if st.1 > length then (length, i) else st)
    (diagonalLength reclat (mainDiagonal 0), 0)).2

/-- `thm_get_relative_grid_address`, c/tetrahedron_method.c:722-737. -/
def relativeGridAddress (reclat : Fin 3 → Fin 3 → K) : List (List V3) :=
  dbRelativeGridAddress.getD (getMainDiagonal reclat) []

/-! ### Sorting -/

/-- `sort_omegas`, c/tetrahedron_method.c:827-894: the sorted values and the position of
the value that came first. -/
def sortOmegas (v : Fin 4 → K) : (Fin 4 → K) × Nat :=
  let i := 0
  let (w0, w1, i) := if v 0 > v 1 then (v 1, v 0, 1) else (v 0, v 1, i)
  let (w2, w3) := if v 2 > v 3 then (v 3, v 2) else (v 2, v 3)
  let (v0, v1, i) := if w0 > w2 then (w2, w0, if i = 0 then 4 else i) else (w0, w2, i)
  let (v3, v2, i) :=
    if w1 > w3 then (w1, w3, if i = 1 then 3 else i) else (w3, w1, if i = 1 then 5 else i)
  if v1 > v2 then
    let i := if i = 4 then 2 else i
    let i := if i = 5 then 1 else i
    (![v0, v2, v1, v3], i)
  else
    let i := if i = 4 then 1 else i
    let i := if i = 5 then 2 else i
    (![v0, v1, v2, v3], i)

/-! ### Weights -/

/-- `_f`, c/tetrahedron_method.c:933-945, with THM_EPSILON defined. -/
def thmF (eps : K) (n m : Fin 4) (w : K) (v : Fin 4 → K) : K :=
  let delta := v n - v m
  if |delta| < eps then 0 else (w - v m) / delta

variable (eps : K)

/-- `_n_1`, c/tetrahedron_method.c:1097-1101. -/
def n1 (w : K) (v : Fin 4 → K) : K := thmF eps 1 0 w v * thmF eps 2 0 w v * thmF eps 3 0 w v

/-- `_n_2`, c/tetrahedron_method.c:1104-1111. -/
def n2 (w : K) (v : Fin 4 → K) : K :=
  thmF eps 3 1 w v * thmF eps 2 1 w v +
    thmF eps 3 0 w v * thmF eps 1 3 w v * thmF eps 2 1 w v +
    thmF eps 3 0 w v * thmF eps 2 0 w v * thmF eps 1 2 w v

/-- `_n_3`, c/tetrahedron_method.c:1114-1118. -/
def n3 (w : K) (v : Fin 4 → K) : K :=
  1 - thmF eps 0 3 w v * thmF eps 1 3 w v * thmF eps 2 3 w v

/-- `_n`, c/tetrahedron_method.c:1047-1068, with `_n_0` and `_n_4`. -/
def nFunc (i : Nat) (w : K) (v : Fin 4 → K) : K :=
  match i with
  | 0 => 0
  | 1 => n1 eps w v
  | 2 => n2 eps w v
  | 3 => n3 eps w v
  | 4 => 1
  | _ => 0

/-- `_g_1`, c/tetrahedron_method.c:1127-1131. -/
def g1 (w : K) (v : Fin 4 → K) : K := 3 * thmF eps 1 0 w v * thmF eps 2 0 w v / (v 3 - v 0)

/-- `_g_2`, c/tetrahedron_method.c:1134-1139. -/
def g2 (w : K) (v : Fin 4 → K) : K :=
  3 / (v 3 - v 0) *
    (thmF eps 1 2 w v * thmF eps 2 0 w v + thmF eps 2 1 w v * thmF eps 1 3 w v)

/-- `_g_3`, c/tetrahedron_method.c:1142-1146. -/
def g3 (w : K) (v : Fin 4 → K) : K := 3 * thmF eps 1 3 w v * thmF eps 2 3 w v / (v 3 - v 0)

/-- `_g`, c/tetrahedron_method.c:1070-1091, with `_g_0` and `_g_4`. -/
def gFunc (i : Nat) (w : K) (v : Fin 4 → K) : K :=
  match i with
  | 0 => 0
  | 1 => g1 eps w v
  | 2 => g2 eps w v
  | 3 => g3 eps w v
  | 4 => 0
  | _ => 0

/-- `_J_10` ... `_J_13`, c/tetrahedron_method.c:1153-1170. -/
def j1 (ci : Nat) (w : K) (v : Fin 4 → K) : K :=
  match ci with
  | 0 => (1 + thmF eps 0 1 w v + thmF eps 0 2 w v + thmF eps 0 3 w v) / 4
  | 1 => thmF eps 1 0 w v / 4
  | 2 => thmF eps 2 0 w v / 4
  | _ => thmF eps 3 0 w v / 4

/-- `_J_20` ... `_J_23`, c/tetrahedron_method.c:1172-1270. -/
def j2 (ci : Nat) (w : K) (v : Fin 4 → K) : K :=
  let f := fun (a b : Fin 4) => thmF eps a b w v
  let n := n2 eps w v
  if n < eps then 0
  else
    match ci with
    | 0 => (f 3 1 * f 2 1 + f 3 0 * f 1 3 * f 2 1 * (1 + f 0 3)
        + f 3 0 * f 2 0 * f 1 2 * (1 + f 0 3 + f 0 2)) / 4 / n
    | 1 => (f 3 1 * f 2 1 * (1 + f 1 3 + f 1 2) + f 3 0 * f 1 3 * f 2 1 * (f 1 3 + f 1 2)
        + f 3 0 * f 2 0 * f 1 2 * f 1 2) / 4 / n
    | 2 => (f 3 1 * f 2 1 * f 2 1 + f 3 0 * f 1 3 * f 2 1 * f 2 1
        + f 3 0 * f 2 0 * f 1 2 * (f 2 1 + f 2 0)) / 4 / n
    | _ => (f 3 1 * f 2 1 * f 3 1 + f 3 0 * f 1 3 * f 2 1 * (f 3 1 + f 3 0)
        + f 3 0 * f 2 0 * f 1 2 * f 3 0) / 4 / n

/-- `_J_30` ... `_J_33`, c/tetrahedron_method.c:1272-1340. -/
def j3 (ci : Nat) (w : K) (v : Fin 4 → K) : K :=
  let f := fun (a b : Fin 4) => thmF eps a b w v
  let n := n3 eps w v
  if n < eps then 0
  else
    match ci with
    | 0 => (1 - f 0 3 * f 0 3 * f 1 3 * f 2 3) / 4 / n
    | 1 => (1 - f 0 3 * f 1 3 * f 1 3 * f 2 3) / 4 / n
    | 2 => (1 - f 0 3 * f 1 3 * f 2 3 * f 2 3) / 4 / n
    | _ => (1 - f 0 3 * f 1 3 * f 2 3 * (1 + f 3 0 + f 3 1 + f 3 2)) / 4 / n

/-- `_J`, c/tetrahedron_method.c:947-995, with `_J_0` and `_J_4`. `ci` is below 4 (C20), so
the fall-through of the inner switches never happens. -/
def jFunc (i ci : Nat) (w : K) (v : Fin 4 → K) : K :=
  match i with
  | 0 => 0
  | 1 => j1 eps ci w v
  | 2 => j2 eps ci w v
  | 3 => j3 eps ci w v
  | 4 => 1 / 4
  | _ => 0

/-- `_I_10` ... `_I_13`, c/tetrahedron_method.c:1346-1363. -/
def i1 (ci : Nat) (w : K) (v : Fin 4 → K) : K :=
  match ci with
  | 0 => (thmF eps 0 1 w v + thmF eps 0 2 w v + thmF eps 0 3 w v) / 3
  | 1 => thmF eps 1 0 w v / 3
  | 2 => thmF eps 2 0 w v / 3
  | _ => thmF eps 3 0 w v / 3

/-- `_I_20` ... `_I_23`, c/tetrahedron_method.c:1365-1435. -/
def i2 (ci : Nat) (w : K) (v : Fin 4 → K) : K :=
  let f := fun (a b : Fin 4) => thmF eps a b w v
  let f1220 := f 1 2 * f 2 0
  let f1321 := f 1 3 * f 2 1
  let g := f1220 + f1321
  if g < eps then 0
  else
    match ci with
    | 0 => (f 0 3 + f 0 2 * f1220 / g) / 3
    | 1 => (f 1 2 + f 1 3 * f1321 / g) / 3
    | 2 => (f 2 1 + f 2 0 * f1220 / g) / 3
    | _ => (f 3 0 + f 3 1 * f1321 / g) / 3

/-- `_I_30` ... `_I_33`, c/tetrahedron_method.c:1437-1454. -/
def i3 (ci : Nat) (w : K) (v : Fin 4 → K) : K :=
  match ci with
  | 0 => thmF eps 0 3 w v / 3
  | 1 => thmF eps 1 3 w v / 3
  | 2 => thmF eps 2 3 w v / 3
  | _ => (thmF eps 3 0 w v + thmF eps 3 1 w v + thmF eps 3 2 w v) / 3

/-- `_I`, c/tetrahedron_method.c:997-1045, with `_I_0` and `_I_4`. -/
def iFunc (i ci : Nat) (w : K) (v : Fin 4 → K) : K :=
  match i with
  | 0 => 0
  | 1 => i1 eps ci w v
  | 2 => i2 eps ci w v
  | 3 => i3 eps ci w v
  | 4 => 0
  | _ => 0

/-- One round of the loop of `get_integration_weight`, c/tetrahedron_method.c:799-822, after
sorting: the term added to `sum`. -/
def tetraTerm (gn : Nat → K → (Fin 4 → K) → K) (IJ : Nat → Nat → K → (Fin 4 → K) → K)
    (ci : Nat) (w : K) (v : Fin 4 → K) : K :=
  if w < v 0 then IJ 0 ci w v * gn 0 w v
  else if v 0 < w ∧ w < v 1 then IJ 1 ci w v * gn 1 w v
  else if v 1 < w ∧ w < v 2 then IJ 2 ci w v * gn 2 w v
  else if v 2 < w ∧ w < v 3 then IJ 3 ci w v * gn 3 w v
  else if v 3 < w then IJ 4 ci w v * gn 4 w v
  else 0

/-- `get_integration_weight`, c/tetrahedron_method.c:790-825. -/
def integrationWeight (gn : Nat → K → (Fin 4 → K) → K) (IJ : Nat → Nat → K → (Fin 4 → K) → K)
    (w : K) (om : Fin 24 → Fin 4 → K) : K :=
  ((List.finRange 24).foldl
    (fun sum i =>
      let s := sortOmegas (om i)
      sum + tetraTerm gn IJ s.2 w s.1) 0) / 6

/-- `thm_get_integration_weight`, c/tetrahedron_method.c:755-763; `true` is function 'I'. -/
def thmIntegrationWeight (isI : Bool) (w : K) (om : Fin 24 → Fin 4 → K) : K :=
  if isI then integrationWeight (gFunc eps) (iFunc eps) w om
  else integrationWeight (nFunc eps) (jFunc eps) w om

/-- `thm_in_tetrahedra`, c/tetrahedron_method.c:765-788. -/
def thmInTetrahedra (f0 : K) (fv : Fin 24 → Fin 4 → K) : Bool :=
  let st := (List.finRange 24).foldl
    (fun (st : K × K) i => (List.finRange 4).foldl
      (fun (st : K × K) j =>
        let fmin := if st.1 > fv i j then fv i j else st.1
        let fmax := if st.2 < fv i j then fv i j else st.2
        (fmin, fmax)) st)
    (fv 0 0, fv 0 0)
  if st.1 > f0 ∨ st.2 < f0 then false else true

end
end Phono3py
