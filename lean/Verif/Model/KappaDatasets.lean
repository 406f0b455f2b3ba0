/-
What `kappa-*.hdf5` files hold: `write_kappa_to_hdf5` (phono3py/file_IO.py:893-1038) with the
arguments of `ConductivityRTAWriter.write_kappa` (phono3py/conductivity/utils.py:218-345).

Simplifications. A dataset is a value of a type `D`, in runs a function of the list of indices; a file
is the list of its datasets by name in the order of creation. Compression does not change data and is
left out, and so are the text on the screen and the name of the file (C47, C143).
-/
import Verif.Model.Conductivity

namespace Phono3py.KappaDatasets

/-- The calls of `create_dataset` in `write_kappa_to_hdf5`, phono3py/file_IO.py:947-1038, in program
order: name and data, `none` when the call is skipped. `arg` gives the arguments of the function by
their names, `none` is `None`; `grid` is `(grid_matrix, P, Q)` of `bz_grid` when there is a grid
matrix; `next` is `+ 1`. -/
def entries {D : Type} (version : D) (arg : String → Option D) (grid : Option (D × D × D))
    (next : D → D) : List (String × Option D) :=
  [("version", some version),
   ("temperature", arg "temperature"),
   ("mesh", arg "mesh"),
   ("grid_matrix", grid.map fun g => g.1),
   ("P_matrix", grid.map fun g => g.2.1),
   ("Q_matrix", grid.map fun g => g.2.2),
   ("frequency", arg "frequency"),
   ("group_velocity", arg "group_velocity"),
   ("gv_by_gv", arg "gv_by_gv"),
   ("velocity_operator", arg "velocity_operator"),
   ("heat_capacity", arg "heat_capacity"),
   ("kappa", arg "kappa"),
   ("mode_kappa", arg "mode_kappa"),
   ("kappa_RTA", arg "kappa_RTA"),
   ("mode_kappa_RTA", arg "mode_kappa_RTA"),
   ("kappa_P_exact", arg "kappa_P_exact"),
   ("kappa_P_RTA", arg "kappa_P_RTA"),
   ("kappa_C", arg "kappa_C"),
   ("kappa_TOT_exact", arg "kappa_TOT_exact"),
   ("kappa_TOT_RTA", arg "kappa_TOT_RTA"),
   ("mode_kappa_P_exact", arg "mode_kappa_P_exact"),
   ("mode_kappa_P_RTA", arg "mode_kappa_P_RTA"),
   ("mode_kappa_C", arg "mode_kappa_C"),
   ("f_vector", arg "f_vector"),
   ("gamma", arg "gamma"),
   ("gamma_isotope", arg "gamma_isotope"),
   ("gamma_N", arg "gamma_N"),
   ("gamma_U", arg "gamma_U"),
   ("ave_pp", arg "averaged_pp_interaction"),
   ("qpoint", arg "qpoint"),
   ("weight", arg "weight"),
   ("grid_point", arg "grid_point"),
   ("band_index", (arg "band_index").map next),
   ("sigma", arg "sigma"),
   ("sigma_cutoff_width", arg "sigma_cutoff"),
   ("kappa_unit_conversion", arg "kappa_unit_conversion"),
   ("boundary_mfp", arg "boundary_mfp")]

/-- `w.create_dataset(name, data=...)`, phono3py/file_IO.py:947-1038; `none` is the error of h5py when
the name exists. -/
def create {D : Type} (file : List (String × D)) (name : String) (data : D) :
    Option (List (String × D)) :=
  if (file.lookup name).isSome then none else some (file ++ [(name, data)])

/-- The `with` block of `write_kappa_to_hdf5`, phono3py/file_IO.py:947-1038. -/
def writeEntries {D : Type} : List (String × Option D) → List (String × D) →
    Option (List (String × D))
  | [], file => some file
  | (_, none) :: l, file => writeEntries l file
  | (name, some data) :: l, file => (create file name data).bind (writeEntries l)

/-- `write_kappa_to_hdf5`, phono3py/file_IO.py:893-1038, into a new file. -/
def writeKappaFile {D : Type} (version : D) (arg : String → Option D) (grid : Option (D × D × D))
    (next : D → D) : Option (List (String × D)) :=
  writeEntries (entries version arg grid next) []

/-- Arrays of a `ConductivityRTA` object for all bands after its run, indexed by sigma, temperature,
grid point, band and component (phono3py/conductivity/utils.py:229-272). -/
structure RtaArrays (K : Type) where
  /-- Number of grid points. -/
  numGp : Nat
  /-- Number of bands. -/
  numBand : Nat
  /-- `temperatures`. -/
  temperature : Nat → K
  /-- `mesh_numbers`. -/
  mesh : Nat → K
  /-- `frequencies`. -/
  frequency : Nat → Nat → K
  /-- `group_velocities`. -/
  gv : Nat → Nat → Fin 3 → K
  /-- `gv_by_gv`. -/
  gvByGv : Nat → Nat → Fin 6 → K
  /-- `mode_heat_capacities`. -/
  cv : Nat → Nat → Nat → K
  /-- `gamma`. -/
  gamma : Nat → Nat → Nat → Nat → K
  /-- `gamma_isotope`. -/
  iso : Option (Nat → Nat → Nat → K)
  /-- `boundary_mfp`. -/
  boundaryMfp : Option K
  /-- `get_gamma_N_U()`. -/
  gammaNU : Option ((Nat → Nat → Nat → Nat → K) × (Nat → Nat → Nat → Nat → K))
  /-- `averaged_pp_interaction`. -/
  avePp : Option (Nat → Nat → K)
  /-- `qpoints`. -/
  qpoint : Nat → Fin 3 → K
  /-- `grid_points`. -/
  gridPoint : Nat → K
  /-- `grid_weights`. -/
  weight : Nat → K
  /-- `sigmas`, `None` for the tetrahedron method. -/
  sigma : Nat → Option K
  /-- `sigma_cutoff_width`. -/
  sigmaCutoff : Option K
  /-- `unit_to_WmK`. -/
  unit : K
  /-- Volume of the primitive cell. -/
  volume : K
  /-- `cutoff_frequency`. -/
  cutoff : K
  /-- `number_of_sampling_grid_points`. -/
  n : K
  /-- `np.linalg.norm`. -/
  norm : (Fin 3 → K) → K
  /-- `Angstrom * 1e6`. -/
  length : K
  /-- `np.pi`. -/
  pi : K

section
variable {K : Type} [Field K] [LinearOrder K]

/-- Scattering channels of the object (phono3py/conductivity/base.py:886-910). Isotope linewidths are
allocated when isotope scattering is on (phono3py/conductivity/rta.py:627-661). -/
def RtaArrays.channels (r : RtaArrays K) : Channels K where
  isIsotope := r.iso.isSome
  boundaryMfp := r.boundaryMfp
  norm := r.norm
  unit := r.length
  pi := r.pi

/-- `_get_main_diagonal(i, j, k)`, phono3py/conductivity/base.py:886-892, entry of a band. -/
def RtaArrays.gSum (r : RtaArrays K) (j t i l : Nat) : K :=
  ((condMainDiagonal r.channels r.numBand ((List.range r.numBand).map (r.gamma j t i))
    ((List.range r.numBand).map fun l => (r.iso.map fun a => a j i l).getD 0) (r.gv i)).getD []).getD l 0

/-- Inputs of `set_kappa_at_sigmas`, phono3py/conductivity/rta.py:583-592, with the factor of
phono3py/conductivity/base.py:381-382. -/
def RtaArrays.input (r : RtaArrays K) (j t : Nat) : KappaInput K where
  numGp := r.numGp
  numBand := r.numBand
  frequencies := r.frequency
  cutoff := r.cutoff
  gSum := r.gSum j t
  cv := r.cv t
  gvSum2 := r.gvByGv
  factor := r.unit / r.volume
  n := r.n

/-- A component of a tensor by its number (phono3py/conductivity/rta.py:600-607). -/
def component (c : Nat) : Fin 6 := Fin.ofNat 6 c

/-- Arguments of `write_kappa_to_hdf5` for the sigma `j`, phono3py/conductivity/utils.py:273-345, after
`set_kappa_at_sigmas` on new arrays. -/
def RtaArrays.args (r : RtaArrays K) (j : Nat) (name : String) : Option (List Nat → K) :=
  if name = "temperature" then some fun x => r.temperature (x.getD 0 0)
  else if name = "mesh" then some fun x => r.mesh (x.getD 0 0)
  else if name = "boundary_mfp" then r.boundaryMfp.map fun m => fun _ => m
  else if name = "frequency" then some fun x => r.frequency (x.getD 0 0) (x.getD 1 0)
  else if name = "group_velocity" then
    some fun x => r.gv (x.getD 0 0) (x.getD 1 0) (Fin.ofNat 3 (x.getD 2 0))
  else if name = "gv_by_gv" then
    some fun x => r.gvByGv (x.getD 0 0) (x.getD 1 0) (component (x.getD 2 0))
  else if name = "heat_capacity" then some fun x => r.cv (x.getD 0 0) (x.getD 1 0) (x.getD 2 0)
  else if name = "kappa" then
    some fun x => kappaRTA (r.input j (x.getD 0 0)) (component (x.getD 1 0))
  else if name = "mode_kappa" then
    some fun x => modeKappaRTA (r.input j (x.getD 0 0)) (fun _ _ _ => 0) (x.getD 1 0) (x.getD 2 0)
      (component (x.getD 3 0))
  else if name = "gamma" then some fun x => r.gamma j (x.getD 0 0) (x.getD 1 0) (x.getD 2 0)
  else if name = "gamma_isotope" then r.iso.map fun a => fun x => a j (x.getD 0 0) (x.getD 1 0)
  else if name = "gamma_N" then
    r.gammaNU.map fun a => fun x => a.1 j (x.getD 0 0) (x.getD 1 0) (x.getD 2 0)
  else if name = "gamma_U" then
    r.gammaNU.map fun a => fun x => a.2 j (x.getD 0 0) (x.getD 1 0) (x.getD 2 0)
  else if name = "averaged_pp_interaction" then
    r.avePp.map fun a => fun x => a (x.getD 0 0) (x.getD 1 0)
  else if name = "qpoint" then some fun x => r.qpoint (x.getD 0 0) (Fin.ofNat 3 (x.getD 1 0))
  else if name = "grid_point" then some fun x => r.gridPoint (x.getD 0 0)
  else if name = "weight" then some fun x => r.weight (x.getD 0 0)
  else if name = "sigma" then (r.sigma j).map fun s => fun _ => s
  else if name = "sigma_cutoff" then r.sigmaCutoff.map fun s => fun _ => s
  else if name = "kappa_unit_conversion" then some fun _ => r.unit / r.volume
  else none

/-- The file of a run for the sigma `j`, phono3py/conductivity/utils.py:315-345. -/
def RtaArrays.file (r : RtaArrays K) (version : List Nat → K)
    (grid : Option ((List Nat → K) × (List Nat → K) × (List Nat → K))) (j : Nat) :
    Option (List (String × (List Nat → K))) :=
  writeKappaFile version (r.args j) grid fun d x => d x + 1

end

end Phono3py.KappaDatasets
