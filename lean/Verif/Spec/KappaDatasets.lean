/-
What a reader of `kappa-*.hdf5` does.
-/
import Verif.Model.KappaDatasets

namespace Phono3py.KappaDatasets

/-- Names of datasets and the argument each holds (doc/hdf5_howto.md and the arguments of the
function). -/
def documentedNames : List (String × String) :=
  ["temperature", "mesh", "frequency", "group_velocity", "gv_by_gv", "velocity_operator",
    "heat_capacity", "kappa", "mode_kappa", "kappa_RTA", "mode_kappa_RTA", "kappa_P_exact",
    "kappa_P_RTA", "kappa_C", "kappa_TOT_exact", "kappa_TOT_RTA", "mode_kappa_P_exact",
    "mode_kappa_P_RTA", "mode_kappa_C", "f_vector", "gamma", "gamma_isotope", "gamma_N", "gamma_U",
    "qpoint", "weight", "grid_point", "sigma", "kappa_unit_conversion", "boundary_mfp"].map
      (fun s => (s, s)) ++
    [("ave_pp", "averaged_pp_interaction"), ("sigma_cutoff_width", "sigma_cutoff")]

/-- `f[name][...]` at a list of indices; zero if there is no such dataset. -/
def readAt {K : Type} [Zero K] (f : List (String × (List Nat → K))) (name : String) (x : List Nat) : K :=
  match f.lookup name with
  | some d => d x
  | none => 0

/-- The contribution of a mode as in doc/hdf5_howto.md:
`kappa_unit_conversion * heat_capacity[t, i, l] * gv_by_gv[i, l] / (2 * g)`. -/
def recalculated {K : Type} [Field K] (f : List (String × (List Nat → K))) (g : K) (t i l c : Nat) : K :=
  readAt f "kappa_unit_conversion" [] * readAt f "heat_capacity" [t, i, l] *
    readAt f "gv_by_gv" [i, l, c] / (2 * g)

/-- Total linewidth from the datasets: phonons, isotopes and boundaries. -/
def totalWidth {K : Type} [Field K] (norm : (Fin 3 → K) → K) (length pi : K)
    (f : List (String × (List Nat → K))) (t i l : Nat) : K :=
  readAt f "gamma" [t, i, l] + readAt f "gamma_isotope" [i, l] +
    match f.lookup "boundary_mfp" with
    | none => 0
    | some m => norm (fun a => readAt f "group_velocity" [i, l, a]) * length / (4 * pi * m [])

end Phono3py.KappaDatasets
