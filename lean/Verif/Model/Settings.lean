/-!
# Settings from the command line and the configuration file

`phono3py` and `phono3py-load` read command options with `argparse` and setting tags from a
configuration file. Both go through `Phono3pyConfParser`, one after the other. The tables of this file
transcribe the code row by row; the functions give them their meaning.

Only the settings of phono3py's own `Phono3pySettings` are followed. What the base class `ConfParser` of
phonopy does with its own options and tags is the parameter `BaseParser`.
-/

namespace Phono3py

/-- A value of an attribute of the parsed arguments, or of an entry of `_confs`
(phono3py/cui/phono3py_argparse.py:53-930): `None`, a flag, a text, or a list of texts. Numbers that
argparse has converted stand for their texts. -/
inductive ConfVal where
  /-- `None`. -/
  | none
  /-- `True` or `False`. -/
  | bool (b : Bool)
  /-- A text or a number. -/
  | text (s : String)
  /-- A list of texts. -/
  | words (l : List String)
  deriving DecidableEq

/-- What argparse does with an option: `store_true`, `store_false`, one value, or one and more values
(`nargs="+"`) (phono3py/cui/phono3py_argparse.py:53-930). -/
inductive ArgAction where
  /-- `action="store_true"`. -/
  | storeTrue
  /-- `action="store_false"`. -/
  | storeFalse
  /-- One value. -/
  | one
  /-- `nargs="+"`. -/
  | many
  deriving DecidableEq

/-- What an option stores, given the texts that follow it (phono3py/cui/phono3py_argparse.py:53-930). -/
def ArgAction.value (a : ArgAction) (vals : List String) : ConfVal :=
  match a with
  | .storeTrue => .bool true
  | .storeFalse => .bool false
  | .one => .text (vals.headD "")
  | .many => .words vals

/-- One call of `parser.add_argument`: the option strings, `dest`, the action, the default, and whether
only `phono3py-load` (`some true`) or only `phono3py` (`some false`) has it
(phono3py/cui/phono3py_argparse.py:53-930). -/
structure ArgRow where
  /-- Option strings. -/
  flags : List String
  /-- Attribute of the parsed arguments. -/
  dest : String
  /-- Action. -/
  action : ArgAction
  /-- Default. -/
  default : ConfVal
  /-- Which command has it. -/
  cmd : Option Bool

/-- How `_read_options` tests an attribute (phono3py/cui/settings.py:397-668). -/
inductive OptTest where
  /-- `is not None`. -/
  | notNone
  /-- Truth value. -/
  | truthy
  deriving DecidableEq

/-- What `_read_options` stores (phono3py/cui/settings.py:397-668). -/
inductive OptValue where
  /-- A constant text. -/
  | const (s : String)
  /-- The texts joined by blanks. -/
  | join
  /-- The value as it is. -/
  | keep
  deriving DecidableEq

/-- One block of `_read_options`: the attribute, the test, the key and the value
(phono3py/cui/settings.py:397-668). -/
structure OptRow where
  /-- Attribute of the parsed arguments. -/
  dest : String
  /-- Test. -/
  test : OptTest
  /-- Key of `_confs`. -/
  key : String
  /-- Value. -/
  value : OptValue

/-- The options of phono3py's own settings (phono3py/cui/phono3py_argparse.py:68-925). Options of the
base class are left out. -/
def argTable : List ArgRow :=
  [⟨["--ave-pp"], "use_ave_pp", .storeTrue, .bool false, none⟩,
   ⟨["--boundary-mfp", "--bmfp"], "boundary_mfp", .one, .none, none⟩,
   ⟨["--br", "--bterta"], "is_bterta", .storeTrue, .bool false, none⟩,
   ⟨["--cf2", "--create-f2"], "create_forces_fc2", .many, .none, none⟩,
   ⟨["--cf3", "--create-f3"], "create_forces_fc3", .many, .none, none⟩,
   ⟨["--cf3-file", "--create-f3-from-file"], "create_forces_fc3_file", .one, .none, none⟩,
   ⟨["--cfz", "--subtract-forces"], "subtract_forces", .one, .none, none⟩,
   ⟨["--cfz-fc2", "--subtract-forces-fc2"], "subtract_forces_fc2", .one, .none, none⟩,
   ⟨["--cfc", "--compact-fc"], "is_compact_fc", .storeTrue, .bool false, none⟩,
   ⟨["--cph", "--collective-phonon"], "solve_collective_phonon", .storeTrue, .bool false, none⟩,
   ⟨["--const-ave-pp"], "const_ave_pp", .one, .none, none⟩,
   ⟨["--cutoff-fc3", "--cutoff-fc3-distance"], "cutoff_fc3_distance", .one, .none, none⟩,
   ⟨["--cutoff-pair", "--cutoff-pair-distance"], "cutoff_pair_distance", .one, .none, none⟩,
   ⟨["--dim-fc2"], "phonon_supercell_dimension", .many, .none, some false⟩,
   ⟨["--fc2"], "read_fc2", .storeTrue, .bool false, some false⟩,
   ⟨["--fc3"], "read_fc3", .storeTrue, .bool false, some false⟩,
   ⟨["--v2"], "is_fc3_r0_average", .storeFalse, .bool true, none⟩,
   ⟨["--full-pp"], "is_full_pp", .storeTrue, .bool false, none⟩,
   ⟨["--ga", "--grid-addresses"], "grid_addresses", .many, .none, none⟩,
   ⟨["--gm", "--grid-matrix"], "grid_matrix", .many, .none, none⟩,
   ⟨["--gp", "--grid-points"], "grid_points", .many, .none, none⟩,
   ⟨["--grg", "--generalized-regular-grid"], "use_grg", .storeTrue, .bool false, none⟩,
   ⟨["--gruneisen"], "is_gruneisen", .storeTrue, .bool false, none⟩,
   ⟨["--ion-clamped"], "ion_clamped", .storeTrue, .bool false, none⟩,
   ⟨["--ise"], "is_imag_self_energy", .storeTrue, .bool false, none⟩,
   ⟨["--isotope"], "is_isotope", .storeTrue, .bool false, none⟩,
   ⟨["--jdos"], "is_joint_dos", .storeTrue, .bool false, none⟩,
   ⟨["--kubo"], "is_kubo_kappa", .storeTrue, .bool false, none⟩,
   ⟨["--lbte"], "is_lbte", .storeTrue, .bool false, none⟩,
   ⟨["--mv", "--mass-variances"], "mass_variances", .many, .none, none⟩,
   ⟨["--noks", "--no-kappa-stars"], "no_kappa_stars", .storeTrue, .bool false, none⟩,
   ⟨["--nu"], "is_N_U", .storeTrue, .bool false, none⟩,
   ⟨["--num-points-in-batch"], "num_points_in_batch", .one, .none, none⟩,
   ⟨["-o"], "output_yaml_filename", .one, .none, some true⟩,
   ⟨["--pinv-cutoff"], "pinv_cutoff", .one, .none, none⟩,
   ⟨["--pinv-solver"], "pinv_solver", .one, .none, none⟩,
   ⟨["--pinv-method"], "pinv_method", .one, .none, none⟩,
   ⟨["--pm-fc2"], "is_plusminus_displacements_fc2", .storeTrue, .bool false, none⟩,
   ⟨["--pp-unit-conversion"], "pp_unit_conversion", .one, .none, none⟩,
   ⟨["--rd-fc2", "--random-displacements-fc2"], "random_displacements_fc2", .one, .none, none⟩,
   ⟨["--read-collision"], "read_collision", .one, .none, none⟩,
   ⟨["--read-gamma"], "read_gamma", .storeTrue, .bool false, none⟩,
   ⟨["--read-phonon"], "read_phonon", .storeTrue, .bool false, none⟩,
   ⟨["--read-pp"], "read_pp", .storeTrue, .bool false, none⟩,
   ⟨["--reducible-colmat"], "is_reducible_collision_matrix", .storeTrue, .bool false, none⟩,
   ⟨["--rse"], "is_real_self_energy", .storeTrue, .bool false, none⟩,
   ⟨["--scattering-event-class"], "scattering_event_class", .one, .none, none⟩,
   ⟨["--sigma-cutoff"], "sigma_cutoff_width", .one, .none, none⟩,
   ⟨["--symfc-memshow"], "show_symfc_memory_usage", .storeTrue, .none, some true⟩,
   ⟨["--spf"], "is_spectral_function", .storeTrue, .bool false, none⟩,
   ⟨["--sym-fc2"], "is_symmetrize_fc2", .storeTrue, .bool false, some false⟩,
   ⟨["--sym-fc3r"], "is_symmetrize_fc3_r", .storeTrue, .bool false, some false⟩,
   ⟨["--sym-fc3q"], "is_symmetrize_fc3_q", .storeTrue, .bool false, none⟩,
   ⟨["--thm", "--tetrahedron-method"], "is_tetrahedron_method", .storeTrue, .bool false, none⟩,
   ⟨["--ts"], "temperatures", .many, .none, none⟩,
   ⟨["--uplo"], "lapack_zheev_uplo", .one, .none, none⟩,
   ⟨["--wigner"], "is_wigner_kappa", .storeTrue, .bool false, none⟩,
   ⟨["--write-collision"], "write_collision", .storeTrue, .bool false, none⟩,
   ⟨["--write-gamma"], "write_gamma", .storeTrue, .bool false, none⟩,
   ⟨["--write-gamma-detail", "--write_detailed_gamma"], "write_gamma_detail", .storeTrue, .bool false, none⟩,
   ⟨["--write-phonon"], "write_phonon", .storeTrue, .bool false, none⟩,
   ⟨["--write-pp"], "write_pp", .storeTrue, .bool false, none⟩,
   ⟨["--write-lbte-solution"], "write_LBTE_solution", .storeTrue, .bool false, none⟩]

/-- `_read_options` (phono3py/cui/settings.py:397-668). -/
def optTable : List OptRow :=
  [⟨"phonon_supercell_dimension", .notNone, "dim_fc2", .join⟩,
   ⟨"boundary_mfp", .notNone, "boundary_mfp", .keep⟩,
   ⟨"const_ave_pp", .notNone, "const_ave_pp", .keep⟩,
   ⟨"create_forces_fc2", .truthy, "create_forces_fc2", .keep⟩,
   ⟨"create_forces_fc3", .truthy, "create_forces_fc3", .keep⟩,
   ⟨"create_forces_fc3_file", .truthy, "create_forces_fc3_file", .keep⟩,
   ⟨"cutoff_fc3_distance", .notNone, "cutoff_fc3_distance", .keep⟩,
   ⟨"cutoff_pair_distance", .notNone, "cutoff_pair_distance", .keep⟩,
   ⟨"grid_addresses", .notNone, "grid_addresses", .join⟩,
   ⟨"grid_points", .notNone, "grid_points", .join⟩,
   ⟨"grid_matrix", .notNone, "grid_matrix", .join⟩,
   ⟨"ion_clamped", .truthy, "ion_clamped", .const ".true."⟩,
   ⟨"is_bterta", .truthy, "bterta", .const ".true."⟩,
   ⟨"is_compact_fc", .truthy, "compact_fc", .const ".true."⟩,
   ⟨"emulate_v2", .truthy, "emulate_v2", .const ".true."⟩,
   ⟨"is_gruneisen", .truthy, "gruneisen", .const ".true."⟩,
   ⟨"is_fc3_r0_average", .truthy, "fc3_r0_average", .const ".true."⟩,
   ⟨"is_full_pp", .truthy, "full_pp", .const ".true."⟩,
   ⟨"is_imag_self_energy", .truthy, "imag_self_energy", .const ".true."⟩,
   ⟨"is_isotope", .truthy, "isotope", .const ".true."⟩,
   ⟨"is_joint_dos", .truthy, "joint_dos", .const ".true."⟩,
   ⟨"no_kappa_stars", .truthy, "kappa_star", .const ".false."⟩,
   ⟨"is_lbte", .truthy, "lbte", .const ".true."⟩,
   ⟨"is_N_U", .truthy, "N_U", .const ".true."⟩,
   ⟨"is_plusminus_displacements_fc2", .truthy, "pm_fc2", .const ".true."⟩,
   ⟨"is_real_self_energy", .truthy, "real_self_energy", .const ".true."⟩,
   ⟨"is_reducible_collision_matrix", .truthy, "reducible_collision_matrix", .const ".true."⟩,
   ⟨"is_spectral_function", .truthy, "spectral_function", .const ".true."⟩,
   ⟨"is_symmetrize_fc2", .truthy, "symmetrize_fc2", .const ".true."⟩,
   ⟨"is_symmetrize_fc3_q", .truthy, "symmetrize_fc3_q", .const ".true."⟩,
   ⟨"is_symmetrize_fc3_r", .truthy, "symmetrize_fc3_r", .const ".true."⟩,
   ⟨"is_tetrahedron_method", .truthy, "tetrahedron", .const ".true."⟩,
   ⟨"is_wigner_kappa", .truthy, "conductivity_type", .const "wigner"⟩,
   ⟨"is_kubo_kappa", .truthy, "conductivity_type", .const "kubo"⟩,
   ⟨"lapack_zheev_uplo", .notNone, "lapack_zheev_uplo", .keep⟩,
   ⟨"mass_variances", .notNone, "mass_variances", .join⟩,
   ⟨"max_freepath", .notNone, "max_freepath", .keep⟩,
   ⟨"num_points_in_batch", .notNone, "num_points_in_batch", .keep⟩,
   ⟨"output_yaml_filename", .notNone, "output_yaml_filename", .keep⟩,
   ⟨"pinv_cutoff", .notNone, "pinv_cutoff", .keep⟩,
   ⟨"pinv_method", .notNone, "pinv_method", .keep⟩,
   ⟨"pinv_solver", .notNone, "pinv_solver", .keep⟩,
   ⟨"pp_conversion_factor", .notNone, "pp_conversion_factor", .keep⟩,
   ⟨"random_displacements_fc2", .notNone, "random_displacements_fc2", .keep⟩,
   ⟨"read_fc2", .truthy, "read_fc2", .const ".true."⟩,
   ⟨"read_fc3", .truthy, "read_fc3", .const ".true."⟩,
   ⟨"read_gamma", .truthy, "read_gamma", .const ".true."⟩,
   ⟨"read_phonon", .truthy, "read_phonon", .const ".true."⟩,
   ⟨"read_pp", .truthy, "read_pp", .const ".true."⟩,
   ⟨"read_collision", .notNone, "read_collision", .keep⟩,
   ⟨"scattering_event_class", .notNone, "scattering_event_class", .keep⟩,
   ⟨"sigma_cutoff_width", .notNone, "sigma_cutoff_width", .keep⟩,
   ⟨"solve_collective_phonon", .truthy, "collective_phonon", .const ".true."⟩,
   ⟨"show_symfc_memory_usage", .truthy, "show_symfc_memory_usage", .const ".true."⟩,
   ⟨"subtract_forces", .truthy, "subtract_forces", .keep⟩,
   ⟨"subtract_forces_fc2", .truthy, "subtract_forces_fc2", .keep⟩,
   ⟨"temperatures", .notNone, "temperatures", .join⟩,
   ⟨"use_ave_pp", .truthy, "use_ave_pp", .const ".true."⟩,
   ⟨"use_grg", .truthy, "use_grg", .const ".true."⟩,
   ⟨"write_gamma_detail", .truthy, "write_gamma_detail", .const ".true."⟩,
   ⟨"write_gamma", .truthy, "write_gamma", .const ".true."⟩,
   ⟨"write_collision", .truthy, "write_collision", .const ".true."⟩,
   ⟨"write_phonon", .truthy, "write_phonon", .const ".true."⟩,
   ⟨"write_pp", .truthy, "write_pp", .const ".true."⟩,
   ⟨"write_LBTE_solution", .truthy, "write_LBTE_solution", .const ".true."⟩]

/-- The keys that `_parse_conf` reads as `.TRUE.` or `.FALSE.` (phono3py/cui/settings.py:675-717,
833-837). -/
def boolKeys : List String :=
  ["read_fc2", "read_fc3", "read_gamma", "read_phonon", "read_pp", "use_ave_pp", "use_grg",
   "collective_phonon", "write_gamma_detail", "write_gamma", "write_collision", "write_phonon",
   "write_pp", "write_LBTE_solution", "full_pp", "ion_clamped", "bterta", "compact_fc",
   "emulate_v2", "fc3_r0_average", "real_self_energy", "gruneisen", "imag_self_energy",
   "isotope", "joint_dos", "lbte", "N_U", "spectral_function", "reducible_collision_matrix",
   "show_symfc_memory_usage", "symmetrize_fc2", "symmetrize_fc3_q", "symmetrize_fc3_r",
   "kappa_star", "pm_fc2"]

/-- The other keys of `_parse_conf` (phono3py/cui/settings.py:719-831). -/
def otherKeys : List String :=
  ["boundary_mfp", "const_ave_pp", "cutoff_fc3_distance", "cutoff_pair_distance",
   "max_freepath", "pinv_cutoff", "pp_conversion_factor", "sigma_cutoff_width", "pinv_method",
   "pinv_solver", "num_points_in_batch", "scattering_event_class", "conductivity_type",
   "create_forces_fc3_file", "output_yaml_filename", "subtract_forces", "subtract_forces_fc2",
   "create_forces_fc2", "create_forces_fc3", "dim_fc2", "grid_addresses", "grid_points",
   "grid_matrix", "lapack_zheev_uplo", "mass_variances", "read_collision", "temperatures",
   "random_displacements_fc2"]

/-- `_set_settings`: the key of a parameter and the setting it goes to
(phono3py/cui/settings.py:840-1104, 113-372). -/
def setTable : List (String × String) :=
  [("dim_fc2", "phonon_supercell_matrix"),
   ("boundary_mfp", "boundary_mfp"),
   ("bterta", "is_bterta"),
   ("conductivity_type", "conductivity_type"),
   ("collective_phonon", "solve_collective_phonon"),
   ("compact_fc", "is_compact_fc"),
   ("const_ave_pp", "constant_averaged_pp_interaction"),
   ("create_forces_fc2", "create_forces_fc2"),
   ("create_forces_fc3", "create_forces_fc3"),
   ("create_forces_fc3_file", "create_forces_fc3_file"),
   ("cutoff_fc3_distance", "cutoff_fc3_distance"),
   ("cutoff_pair_distance", "cutoff_pair_distance"),
   ("emulate_v2", "emulate_v2"),
   ("grid_addresses", "grid_addresses"),
   ("grid_points", "grid_points"),
   ("grid_matrix", "mesh_numbers"),
   ("ion_clamped", "ion_clamped"),
   ("fc3_r0_average", "is_fc3_r0_average"),
   ("full_pp", "is_full_pp"),
   ("gruneisen", "is_gruneisen"),
   ("imag_self_energy", "is_imag_self_energy"),
   ("isotope", "is_isotope"),
   ("joint_dos", "is_joint_dos"),
   ("kappa_star", "is_kappa_star"),
   ("lapack_zheev_uplo", "lapack_zheev_uplo"),
   ("lbte", "is_lbte"),
   ("num_points_in_batch", "num_points_in_batch"),
   ("N_U", "is_N_U"),
   ("pm_fc2", "is_plusminus_displacement_fc2"),
   ("reducible_collision_matrix", "is_reducible_collision_matrix"),
   ("symmetrize_fc2", "is_symmetrize_fc2"),
   ("symmetrize_fc3_q", "is_symmetrize_fc3_q"),
   ("symmetrize_fc3_r", "is_symmetrize_fc3_r"),
   ("mass_variances", "mass_variances"),
   ("max_freepath", "max_freepath"),
   ("output_yaml_filename", "output_yaml_filename"),
   ("pinv_cutoff", "pinv_cutoff"),
   ("pinv_method", "pinv_method"),
   ("pinv_solver", "pinv_solver"),
   ("pp_conversion_factor", "pp_conversion_factor"),
   ("random_displacements_fc2", "random_displacements_fc2"),
   ("real_self_energy", "is_real_self_energy"),
   ("read_amplitude", "read_amplitude"),
   ("read_collision", "read_collision"),
   ("read_fc2", "read_fc2"),
   ("read_fc3", "read_fc3"),
   ("read_gamma", "read_gamma"),
   ("read_phonon", "read_phonon"),
   ("read_pp", "read_pp"),
   ("scattering_event_class", "scattering_event_class"),
   ("show_symfc_memory_usage", "show_symfc_memory_usage"),
   ("sigma_cutoff_width", "sigma_cutoff_width"),
   ("spectral_function", "is_spectral_function"),
   ("subtract_forces", "subtract_forces"),
   ("subtract_forces_fc2", "subtract_forces_fc2"),
   ("temperatures", "temperatures"),
   ("use_ave_pp", "use_ave_pp"),
   ("use_grg", "use_grg"),
   ("write_gamma_detail", "write_gamma_detail"),
   ("write_gamma", "write_gamma"),
   ("write_collision", "write_collision"),
   ("write_phonon", "write_phonon"),
   ("write_pp", "write_pp"),
   ("write_LBTE_solution", "write_LBTE_solution")]

/-- Attributes of the parsed arguments; `none` for an attribute that does not exist
(phono3py/cui/settings.py:399: `"..." in self._args`). -/
abbrev ArgSpace := String → Option ConfVal

/-- `_confs` of the parser (phono3py/cui/settings.py:382-394). -/
abbrev Confs := String → Option ConfVal

/-- The rows of a command (phono3py/cui/phono3py_argparse.py:246-261, 276-290, 580-600, 772-780, 797-812):
`load` for `phono3py-load`. -/
def argRows (load : Bool) : List ArgRow :=
  argTable.filter (fun (a : ArgRow) => a.cmd = none ∨ a.cmd = some load)

/-- `parser.parse_args`, `phono3py/cui/phono3py_script.py:216-218`: a command line is a list of options
each with the texts that follow it. The defaults come first, and every option overwrites its attribute.
Abbreviated options, errors of argparse and positional arguments are left out. -/
def parseArgs (load : Bool) (cmd : List (String × List String)) : ArgSpace :=
  cmd.foldl (fun (args : ArgSpace) (o : String × List String) =>
      match (argRows load).find? (fun (a : ArgRow) => o.1 ∈ a.flags) with
      | none => args
      | some a => fun d => if d = a.dest then some (a.action.value o.2) else args d)
    (fun d => ((argRows load).find? (fun (a : ArgRow) => a.dest = d)).map (fun (a : ArgRow) => a.default))

/-- The test of a block of `_read_options` (phono3py/cui/settings.py:397-668). -/
def OptTest.holds (t : OptTest) (v : ConfVal) : Bool :=
  match t, v with
  | .notNone, .none => false
  | .notNone, _ => true
  | .truthy, .none => false
  | .truthy, .bool b => b
  | .truthy, .text s => s != ""
  | .truthy, .words l => l != []

/-- The value that a block of `_read_options` stores (phono3py/cui/settings.py:397-668). -/
def OptValue.of (o : OptValue) (v : ConfVal) : ConfVal :=
  match o, v with
  | .const s, _ => .text s
  | .join, .words l => .text (" ".intercalate l)
  | .join, v => v
  | .keep, v => v

/-- What the base class `ConfParser` of phonopy does with its own options and tags
(phono3py/cui/settings.py:398, 671, 841): the entries that `read_options` makes, and `parse_conf` with
`set_settings`, `none` if they stop with an error. -/
structure BaseParser (V : Type) where
  /-- `ConfParser.read_options`. -/
  options : ArgSpace → Confs
  /-- `ConfParser.parse_conf` and `ConfParser.set_settings`. -/
  apply : Confs → (String → V) → Option (String → V)

/-- Conversion of texts to values of settings (phono3py/cui/settings.py:712-837): `True` and `False`, and
the number, list, matrix or name that a text means for a key, `none` if there is an error. -/
structure ConfConv (V : Type) where
  /-- `True` and `False`. -/
  ofBool : Bool → V
  /-- Everything else. -/
  other : String → ConfVal → Option V

variable {V : Type}

/-- `_read_options`, `phono3py/cui/settings.py:397-668`. -/
def readOptions (base : BaseParser V) (args : ArgSpace) : Confs :=
  optTable.foldl (fun (confs : Confs) (o : OptRow) =>
      match args o.dest with
      | none => confs
      | some v => if o.test.holds v then fun k => if k = o.key then some (o.value.of v) else confs k
          else confs)
    (base.options args)

/-- One key of `_parse_conf`, `phono3py/cui/settings.py:674-838`: the outer `none` is an error, the inner
one a parameter that is not set. -/
def parseKey (conv : ConfConv V) (key : String) (v : ConfVal) : Option (Option V) :=
  if key ∈ boolKeys then
    match v with
    | .text s =>
      if s.toLower = ".true." then some (some (conv.ofBool true))
      else if s.toLower = ".false." then some (some (conv.ofBool false))
      else some none
    | _ => none
  else if key ∈ otherKeys then (conv.other key v).map some
  else some none

/-- `_parse_conf`, `phono3py/cui/settings.py:670-838`. -/
def parseConf (conv : ConfConv V) (confs : Confs) : Option (String → Option V) :=
  if (boolKeys ++ otherKeys).all (fun (k : String) =>
      match confs k with
      | none => true
      | some v => (parseKey conv k v).isSome) then
    some (fun k => (confs k).bind (fun v => (parseKey conv k v).join))
  else none

/-- `_set_settings`, `phono3py/cui/settings.py:840-1104`. -/
def setSettings (params : String → Option V) (s : String → V) : String → V :=
  setTable.foldl (fun (s : String → V) (r : String × String) =>
    match params r.1 with
    | none => s
    | some v => fun n => if n = r.2 then v else s n) s

/-- One pass, `phono3py/cui/settings.py:383-388` and `389-393`. -/
def confPass (base : BaseParser V) (conv : ConfConv V) (confs : Confs) (s : String → V) :
    Option (String → V) :=
  (base.apply confs s).bind (fun s => (parseConf conv confs).map (fun p => setSettings p s))

/-- `ConfParser.read_file` of phonopy, called in `phono3py/cui/settings.py:385`: the lines `TAG = text`
of the file, with the tags in lower case. Comments and continued lines are left out. -/
def readConfFile (lines : List (String × String)) : Confs :=
  lines.foldl (fun (c : Confs) (l : String × String) =>
    fun k => if k = l.1.toLower then some (.text l.2) else c k) (fun _ => none)

/-- `Phono3pyConfParser.__init__` with the arguments of `read_phono3py_settings`
(phono3py/cui/settings.py:379-395, phono3py/cui/phono3py_script.py:255-298): the settings, `none` if the
command stops with an error. -/
def commandSettings (base : BaseParser V) (conv : ConfConv V) (load : Bool)
    (file : Option (List (String × String))) (cmd : List (String × List String))
    (default : String → V) : Option (String → V) :=
  (match file with
    | none => some default
    | some lines => confPass base conv (readConfFile lines) default).bind
  (fun s => confPass base conv (readOptions base (parseArgs load cmd)) s)

end Phono3py
