/-
Running the calculation of mode Grueneisen parameters and writing the results:
phono3py/phonon3/gruneisen.py. Wave vectors are functions `Nat → K` of which components 0, 1, 2
count. What is computed at one wave vector (`_get_gruneisen_tensor`, and the frequencies made from
its eigenvalues) is the parameter `solve q dir`, where `dir` is the direction `nac_q_direction`; see
Model/Gruneisen.lean for that computation. `none` as the outcome of writing is an exception.
-/
import Verif.Model.Gruneisen

namespace Phono3py

/-- `_run_mode` (phono3py/phonon3/gruneisen.py:164-171). -/
inductive GrunMode
  | band | qpoints | mesh
  deriving DecidableEq

/-- `_gruneisen_parameters` and `_frequencies`, made together: an array over wave vectors, or a list
of arrays over paths (phono3py/phonon3/gruneisen.py:173-187). -/
inductive GrunResults (R : Type)
  | flat (r : List R)
  | paths (r : List (List R))

/-- The attributes of a `Gruneisen` object that change, phono3py/phonon3/gruneisen.py:164-171. -/
structure GrunState (K R : Type) where
  mode : Option GrunMode := none
  results : Option (GrunResults R) := none
  qpoints : List (Nat → K) := []
  mesh : List Int := []
  weights : Option (List Nat) := none
  bandPaths : List (List (Nat → K)) := []
  bandDistances : List (List K) := []

/-- A written file: the yaml file of wave vectors with multiplicities, the yaml file of paths with
distances, or the hdf5 file of a mesh (phono3py/phonon3/gruneisen.py:231-303). -/
inductive GrunFile (K R : Type)
  | points (number : Nat) (entries : List ((Nat → K) × Option Nat × R))
  | band (paths : List (Nat × List ((Nat → K) × K × R)))
  | mesh (mesh : List Int) (results : List R) (weights : Option (List Nat)) (q : List (Nat → K))

section
variable {K R : Type} [Field K] [LinearOrder K]

/-- `set_qpoints`, phono3py/phonon3/gruneisen.py:198-201. -/
def GrunState.setQpoints (st : GrunState K R) (qs : List (Nat → K)) : GrunState K R :=
  { st with mode := some .qpoints, qpoints := qs }

/-- `set_sampling_mesh`, phono3py/phonon3/gruneisen.py:203-215; the points and weights are what
phonopy's `get_qpoints` returned. -/
def GrunState.setMesh (st : GrunState K R) (mesh : List Int) (qs : List (Nat → K))
    (ws : List Nat) : GrunState K R :=
  { st with mode := some .mesh, mesh := mesh, qpoints := qs, weights := some ws }

/-- The distances along one path, phono3py/phonon3/gruneisen.py:223-230; `len` is the length of a
vector in reciprocal space. -/
def grunDistances (len : (Nat → K) → K) (path : List (Nat → K)) : List K :=
  (List.range (path.length - 1)).foldl (fun ds i =>
    ds ++ [len (fun d => (path.getD (i + 1) (fun _ => 0)) d - (path.getD i (fun _ => 0)) d) +
      ds.getLastD 0]) [0]

/-- `set_band_structure`, phono3py/phonon3/gruneisen.py:217-230. -/
def GrunState.setBand (len : (Nat → K) → K) (st : GrunState K R)
    (paths : List (List (Nat → K))) : GrunState K R :=
  { st with mode := some .band, bandPaths := paths, bandDistances := paths.map (grunDistances len) }

/-- The direction passed for wave vector `i` of a list, phono3py/phonon3/gruneisen.py:309-328. -/
def grunDirection (nac : Bool) (nacDir : Option (Nat → K)) (mode : GrunMode)
    (qs : List (Nat → K)) (i : Nat) : Option (Nat → K) :=
  let q := fun j => qs.getD j (fun _ => 0)
  if nac then
    if nearGamma (q i) then
      if mode = .band then
        if 0 < i then some fun d => q i d - q (i - 1) d
        else if 1 < qs.length then some fun d => q (i + 1) d - q i d
        else none
      else nacDir
    else some (q i)
  else none

/-- `_calculate_at_qpoints`, phono3py/phonon3/gruneisen.py:305-334. -/
def grunAtQpoints (solve : (Nat → K) → Option (Nat → K) → R) (nac : Bool)
    (nacDir : Option (Nat → K)) (mode : GrunMode) (qs : List (Nat → K)) : List R :=
  (List.range qs.length).foldl (fun rs i =>
    rs ++ [solve (qs.getD i fun _ => 0) (grunDirection nac nacDir mode qs i)]) []

/-- `run` with `_calculate_band_paths`, phono3py/phonon3/gruneisen.py:173-187, 336-345. Without wave
vectors a message is printed. -/
def GrunState.run (solve : (Nat → K) → Option (Nat → K) → R) (nac : Bool)
    (nacDir : Option (Nat → K)) (st : GrunState K R) : GrunState K R :=
  match st.mode with
  | some .band => { st with results := some (.paths (st.bandPaths.foldl (fun rs path =>
      rs ++ [grunAtQpoints solve nac nacDir .band path]) [])) }
  | some mode => { st with results := some (.flat (grunAtQpoints solve nac nacDir mode st.qpoints)) }
  | none => st

/-- The loop of `_write_mesh_yaml`, phono3py/phonon3/gruneisen.py:248-254: `zip` stops at the
shortest list; `self._weights[i]` may be out of range. -/
def grunEntries (weights : Option (List Nat)) :
    Nat → List (Nat → K) → List R → Option (List ((Nat → K) × Option Nat × R))
  | i, q :: qs, r :: rs =>
    match weights with
    | none => (grunEntries none (i + 1) qs rs).map fun es => (q, none, r) :: es
    | some ws =>
      match ws[i]? with
      | none => none
      | some w => (grunEntries (some ws) (i + 1) qs rs).map fun es => (q, some w, r) :: es
  | _, _, _ => some []

/-- `write`, phono3py/phonon3/gruneisen.py:232-303. The outer `none` is an exception, the inner one
means that no file is written. Results of the other shape, kept from an earlier run, make `zip` or
the indexing `g[:, :, 0, 0]` fail; an empty list of them, which would not fail in the yaml writers,
is not distinguished. -/
def GrunState.write (st : GrunState K R) : Option (Option (GrunFile K R)) :=
  match st.results with
  | none => some none
  | some results =>
    match st.mode, results with
    | some .band, .paths rs => some (some (.band
        ((st.bandPaths.zip (st.bandDistances.zip rs)).map fun p =>
          (p.1.length, (p.1.zip (p.2.1.zip p.2.2)).map fun e => (e.1, e.2.1, e.2.2)))))
    | some .qpoints, .flat rs =>
      (grunEntries st.weights 0 st.qpoints rs).map fun es => some (.points st.qpoints.length es)
    | some .mesh, .flat rs => some (some (.mesh st.mesh rs st.weights st.qpoints))
    | none, _ => some none
    | _, _ => none

/-- One call on a `Gruneisen` object (phono3py/phonon3/gruneisen.py:173-239). -/
inductive GrunCall (K : Type)
  | setQpoints (qs : List (Nat → K))
  | setMesh (mesh : List Int) (qs : List (Nat → K)) (ws : List Nat)
  | setBand (paths : List (List (Nat → K)))
  | run

/-- Its effect (phono3py/phonon3/gruneisen.py:173-239). -/
def GrunCall.apply (solve : (Nat → K) → Option (Nat → K) → R) (nac : Bool)
    (nacDir : Option (Nat → K)) (len : (Nat → K) → K) (st : GrunState K R) :
    GrunCall K → GrunState K R
  | .setQpoints qs => st.setQpoints qs
  | .setMesh m qs ws => st.setMesh m qs ws
  | .setBand paths => st.setBand len paths
  | .run => st.run solve nac nacDir

/-- A new object after calls (phono3py/phonon3/gruneisen.py:127-171). -/
def grunAfter (solve : (Nat → K) → Option (Nat → K) → R) (nac : Bool)
    (nacDir : Option (Nat → K)) (len : (Nat → K) → K) (calls : List (GrunCall K)) :
    GrunState K R :=
  calls.foldl (GrunCall.apply solve nac nacDir len) {}

end
end Phono3py
