/-
Integration weights of triplets as the Python layer computes them (phono3py/phonon3/triplets.py:195-225,
373-432) and the grid points on tetrahedron vertices (phono3py/other/tetrahedron_method.py:43-88).
Frequencies are the flat array of the C functions.
-/
import Verif.Model.RotatePoints
import Verif.Model.Kaccum

namespace Phono3py

section
variable {K : Type _} [Field K] [LinearOrder K]

/-- `_get_tetrahedra_vertices`, phono3py/phonon3/triplets.py:416-432, for one triplet. -/
def pyTetrahedraVertices (bz : BZGridOut) (D : V3) (dense : Bool) (rel : Fin 24 → Fin 4 → V3)
    (triplet : Fin 3 → Int) : Fin 2 → Fin 24 → Fin 4 → Int := fun i j k =>
  let shift := if i = 0 then rel j k else -(rel j k)
  grg2bzgTable dense bz (gridIndexPy (bz.addresses (triplet i.succ) + shift) D)

/-- What is stored in the slabs of `g` at one place from the three weights,
phono3py/phonon3/triplets.py:204-213 and 400-413. The array is filled with zeros before (line 183);
`len` is its first dimension. -/
def pySlab (len : Nat) (g0 g1 g2 : K) (s : Nat) : K :=
  if s = 0 then g0 else if s = 1 then g1 - g2 else if s = 2 ∧ len = 3 then g0 + g1 + g2 else 0

/-- `g[s, i, f, j, k]` of `_set_triplets_integration_weights_py`,
phono3py/phonon3/triplets.py:373-413. `engine` is the tetrahedron method of phonopy: the weight at a
frequency point for given values at the vertices. -/
def pyTetrahedronWeights (engine : K → (Fin 24 → Fin 4 → K) → K) (len : Nat) (frequencyPoints : Nat → K)
    (rel : Fin 24 → Fin 4 → V3) (triplets : Nat → Fin 3 → Int) (bz : BZGridOut) (D : V3) (dense : Bool)
    (frequencies : Int → K) (numBand : Nat) (s i f j k : Nat) : K :=
  let vertices := pyTetrahedraVertices bz D dense rel (triplets i)
  let f1 := fun (t : Fin 24) (v : Fin 4) => frequencies (vertices 0 t v * numBand + j)
  let f2 := fun (t : Fin 24) (v : Fin 4) => frequencies (vertices 1 t v * numBand + k)
  pySlab len (engine (frequencyPoints f) (fun t v => f1 t v + f2 t v))
    (engine (frequencyPoints f) (fun t v => -f1 t v + f2 t v))
    (engine (frequencyPoints f) (fun t v => f1 t v - f2 t v)) s

/-- `g[s, i, f, j, k]` with smearing in Python, phono3py/phonon3/triplets.py:200-213. The cutoff is
not used. -/
def pySmearingWeights (gaussian : K → K → K) (sigma : K) (len : Nat) (frequencyPoints : Nat → K)
    (triplets : Nat → Fin 3 → Int) (frequencies : Int → K) (numBand : Nat) (s i f j k : Nat) : K :=
  let f1 := frequencies (triplets i 1 * numBand + j)
  let f2 := frequencies (triplets i 2 * numBand + k)
  pySlab len (gaussian (frequencyPoints f - f1 - f2) sigma) (gaussian (frequencyPoints f + f1 - f2) sigma)
    (gaussian (frequencyPoints f - f1 + f2) sigma) s

/-- The factor passed to C for `sigma_cutoff`, phono3py/phonon3/triplets.py:190-195. -/
def cutoffArgument (sigmaCutoff : Option K) : K :=
  match sigmaCutoff with
  | none => -1
  | some c => c

/-- `get_unique_grid_points`, phono3py/other/tetrahedron_method.py:43-88, with
`ph3py_get_neighboring_gird_points`, c/phono3py.c:607-641. `verts` are the unique vertices of the
tetrahedra multiplied by `P`. -/
def uniqueGridPoints (bz : BZGridOut) (D : V3) (dense : Bool) (gridPoints : List Int) (verts : List V3) : List Nat :=
  npUnique (gridPoints.flatMap fun g => verts.map fun v => (neighborGridPoint bz D dense g v).toNat)

end
end Phono3py
