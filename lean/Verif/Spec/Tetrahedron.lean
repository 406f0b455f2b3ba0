/-
Specification vocabulary for the tetrahedron method.
-/
import Verif.Model.Tetrahedron
import Verif.Model.Transform

namespace Phono3py.Spec

/-- Six times the signed volume of a tetrahedron with its first vertex at the origin. -/
def sixVolume : List V3 → Int
  | [o, a, b, c] =>
    let a := a - o; let b := b - o; let c := c - o
    a.x * (b.y * c.z - b.z * c.y) - a.y * (b.x * c.z - b.z * c.x) + a.z * (b.x * c.y - b.y * c.x)
  | _ => 0

/-- The tetrahedron moved by a lattice vector. -/
def shift (T : List V3) (t : V3) : List V3 := T.map (· + t)

section
variable {K : Type _} [Field K] [LinearOrder K]

/-- `x` is the convex combination of the vertices of `T` with the weights `l`. -/
def IsCombination (T : List V3) (x : Fin 3 → K) (l : V3 → K) : Prop :=
  (T.map l).sum = 1 ∧ ∀ i, x i = (T.map fun v => l v * (v.e i : K)).sum

/-- `x` lies in the closed tetrahedron `T`. -/
def InTetra (T : List V3) (x : Fin 3 → K) : Prop :=
  ∃ l : V3 → K, (∀ v ∈ T, 0 ≤ l v) ∧ IsCombination T x l

/-- `x` lies in the interior of the tetrahedron `T`. -/
def InInterior (T : List V3) (x : Fin 3 → K) : Prop :=
  ∃ l : V3 → K, (∀ v ∈ T, 0 < l v) ∧ IsCombination T x l

/-- Frequencies in ascending order. -/
def Sorted4 (v : Fin 4 → K) : Prop := v 0 ≤ v 1 ∧ v 1 ≤ v 2 ∧ v 2 ≤ v 3

/-- Neighbouring frequencies are equal or at least `eps` apart. -/
def Separated (eps : K) (v : Fin 4 → K) : Prop :=
  (v 0 = v 1 ∨ eps ≤ v 1 - v 0) ∧ (v 1 = v 2 ∨ eps ≤ v 2 - v 1) ∧ (v 2 = v 3 ∨ eps ≤ v 3 - v 2)

/-- `w` lies strictly between the vertex frequencies number `i` and `i + 1` (below the
first for `i = 0`, above the last for `i = 4`). -/
def InInterval (v : Fin 4 → K) (w : K) : Nat → Prop
  | 0 => w < v 0
  | 1 => v 0 < w ∧ w < v 1
  | 2 => v 1 < w ∧ w < v 2
  | 3 => v 2 < w ∧ w < v 3
  | 4 => v 3 < w
  | _ => False

/-- Truncated power `(w - a)^n` for `w > a`, else 0. -/
def tpow (w a : K) (n : Nat) : K := if a < w then (w - a) ^ n else 0

/-- `∏_{j ≠ k} (v j - v k)`. -/
def gaps (v : Fin 4 → K) (k : Fin 4) : K :=
  ((List.finRange 4).map fun j => if j = k then 1 else v j - v k).prod

/-- Sum over the four vertices. -/
def sum4 (f : Fin 4 → K) : K := f 0 + f 1 + f 2 + f 3

/-- Fraction of a tetrahedron in which the linearly interpolated frequency is below `w`,
for distinct vertex frequencies: the Curry-Schoenberg (B-spline) formula
`∑_k (w - v_k)₊³ / ∏_{j≠k} (v_j - v_k)`. -/
def states (w : K) (v : Fin 4 → K) : K := sum4 fun k => tpow w (v k) 3 / gaps v k

/-- Its derivative with respect to `w`. -/
def density (w : K) (v : Fin 4 → K) : K := sum4 fun k => 3 * tpow w (v k) 2 / gaps v k

/-- Share of vertex `k` in the density: minus the derivative of `states` with respect to the
vertex frequency `v k`. -/
def densityShare (k : Fin 4) (w : K) (v : Fin 4 → K) : K :=
  sum4 fun m =>
    if m = k then
      (3 * tpow w (v k) 2
        - tpow w (v k) 3 * sum4 (fun j => if j = k then 0 else 1 / (v j - v k))) / gaps v k
    else tpow w (v m) 3 / (gaps v m * (v k - v m))

/-- Share of vertex `k` in the number of states: the primitive of `densityShare` in `w`. -/
def statesShare (k : Fin 4) (w : K) (v : Fin 4 → K) : K :=
  sum4 fun m =>
    if m = k then
      (tpow w (v k) 3
        - tpow w (v k) 4 / 4 * sum4 (fun j => if j = k then 0 else 1 / (v j - v k))) / gaps v k
    else tpow w (v m) 4 / 4 / (gaps v m * (v k - v m))

end
end Phono3py.Spec
