import Verif.Model.Settings

/-!
# Specification: which settings a command has

A setting of a command is what its command option says; if the option is not given, what the setting tag
says in the configuration file, whatever the case of the letters of its name; else the default. If an
option or a tag is given more than once the last one counts (doc/command-options.md:7-50).
-/

namespace Phono3py.Spec

open Phono3py

/-- What an option and its tag are for. -/
inductive DocKind where
  /-- The option switches the setting on; the tag is `.TRUE.` or `.FALSE.`. -/
  | on
  /-- The option switches the setting off; the tag is `.TRUE.` or `.FALSE.`. -/
  | off
  /-- One value. -/
  | value
  /-- Some values, as a text separated by blanks. -/
  | values
  /-- Names of files. -/
  | files
  /-- The name of a file. -/
  | filename
  deriving DecidableEq

/-- An option with its tag and its setting. -/
structure DocRow where
  /-- The names of the option; none if there is only a tag. -/
  flags : List String
  /-- The tag. -/
  tag : String
  /-- The setting. -/
  setting : String
  /-- What it is for. -/
  kind : DocKind
  /-- Only for `phono3py-load` (`some true`) or `phono3py` (`some false`). -/
  cmd : Option Bool
  deriving DecidableEq

/-- The options and tags of phono3py, after doc/command-options.md and `phono3py --help`. Left out are
the options of phonopy's base class, `--thm` and `--gm`, which share settings with it, and `--wigner` and
`--kubo`, which share one setting. -/
def docRows : List DocRow :=
  [⟨["--dim-fc2"], "DIM_FC2", "phonon_supercell_matrix", .values, some false⟩,
   ⟨["--boundary-mfp", "--bmfp"], "BOUNDARY_MFP", "boundary_mfp", .value, none⟩,
   ⟨["--const-ave-pp"], "CONST_AVE_PP", "constant_averaged_pp_interaction", .value, none⟩,
   ⟨["--cf2", "--create-f2"], "CREATE_FORCES_FC2", "create_forces_fc2", .files, none⟩,
   ⟨["--cf3", "--create-f3"], "CREATE_FORCES_FC3", "create_forces_fc3", .files, none⟩,
   ⟨["--cf3-file", "--create-f3-from-file"], "CREATE_FORCES_FC3_FILE",
    "create_forces_fc3_file", .filename, none⟩,
   ⟨["--cutoff-fc3", "--cutoff-fc3-distance"], "CUTOFF_FC3_DISTANCE",
    "cutoff_fc3_distance", .value, none⟩,
   ⟨["--cutoff-pair", "--cutoff-pair-distance"], "CUTOFF_PAIR_DISTANCE",
    "cutoff_pair_distance", .value, none⟩,
   ⟨["--ga", "--grid-addresses"], "GRID_ADDRESSES", "grid_addresses", .values, none⟩,
   ⟨["--gp", "--grid-points"], "GRID_POINTS", "grid_points", .values, none⟩,
   ⟨["--ion-clamped"], "ION_CLAMPED", "ion_clamped", .on, none⟩,
   ⟨["--br", "--bterta"], "BTERTA", "is_bterta", .on, none⟩,
   ⟨["--cfc", "--compact-fc"], "COMPACT_FC", "is_compact_fc", .on, none⟩,
   ⟨[], "EMULATE_V2", "emulate_v2", .on, none⟩,
   ⟨["--gruneisen"], "GRUNEISEN", "is_gruneisen", .on, none⟩,
   ⟨["--v2"], "FC3_R0_AVERAGE", "is_fc3_r0_average", .off, none⟩,
   ⟨["--full-pp"], "FULL_PP", "is_full_pp", .on, none⟩,
   ⟨["--ise"], "IMAG_SELF_ENERGY", "is_imag_self_energy", .on, none⟩,
   ⟨["--isotope"], "ISOTOPE", "is_isotope", .on, none⟩,
   ⟨["--jdos"], "JOINT_DOS", "is_joint_dos", .on, none⟩,
   ⟨["--noks", "--no-kappa-stars"], "KAPPA_STAR", "is_kappa_star", .off, none⟩,
   ⟨["--lbte"], "LBTE", "is_lbte", .on, none⟩,
   ⟨["--nu"], "N_U", "is_N_U", .on, none⟩,
   ⟨["--pm-fc2"], "PM_FC2", "is_plusminus_displacement_fc2", .on, none⟩,
   ⟨["--rse"], "REAL_SELF_ENERGY", "is_real_self_energy", .on, none⟩,
   ⟨["--reducible-colmat"], "REDUCIBLE_COLLISION_MATRIX",
    "is_reducible_collision_matrix", .on, none⟩,
   ⟨["--spf"], "SPECTRAL_FUNCTION", "is_spectral_function", .on, none⟩,
   ⟨["--sym-fc2"], "SYMMETRIZE_FC2", "is_symmetrize_fc2", .on, some false⟩,
   ⟨["--sym-fc3q"], "SYMMETRIZE_FC3_Q", "is_symmetrize_fc3_q", .on, none⟩,
   ⟨["--sym-fc3r"], "SYMMETRIZE_FC3_R", "is_symmetrize_fc3_r", .on, some false⟩,
   ⟨["--uplo"], "LAPACK_ZHEEV_UPLO", "lapack_zheev_uplo", .value, none⟩,
   ⟨["--mv", "--mass-variances"], "MASS_VARIANCES", "mass_variances", .values, none⟩,
   ⟨[], "MAX_FREEPATH", "max_freepath", .value, none⟩,
   ⟨["--num-points-in-batch"], "NUM_POINTS_IN_BATCH", "num_points_in_batch", .value, none⟩,
   ⟨["-o"], "OUTPUT_YAML_FILENAME", "output_yaml_filename", .value, some true⟩,
   ⟨["--pinv-cutoff"], "PINV_CUTOFF", "pinv_cutoff", .value, none⟩,
   ⟨["--pinv-method"], "PINV_METHOD", "pinv_method", .value, none⟩,
   ⟨["--pinv-solver"], "PINV_SOLVER", "pinv_solver", .value, none⟩,
   ⟨["--pp-unit-conversion"], "PP_CONVERSION_FACTOR", "pp_conversion_factor", .value, none⟩,
   ⟨["--rd-fc2", "--random-displacements-fc2"], "RANDOM_DISPLACEMENTS_FC2",
    "random_displacements_fc2", .value, none⟩,
   ⟨["--fc2"], "READ_FC2", "read_fc2", .on, some false⟩,
   ⟨["--fc3"], "READ_FC3", "read_fc3", .on, some false⟩,
   ⟨["--read-gamma"], "READ_GAMMA", "read_gamma", .on, none⟩,
   ⟨["--read-phonon"], "READ_PHONON", "read_phonon", .on, none⟩,
   ⟨["--read-pp"], "READ_PP", "read_pp", .on, none⟩,
   ⟨["--read-collision"], "READ_COLLISION", "read_collision", .value, none⟩,
   ⟨["--scattering-event-class"], "SCATTERING_EVENT_CLASS",
    "scattering_event_class", .value, none⟩,
   ⟨["--sigma-cutoff"], "SIGMA_CUTOFF_WIDTH", "sigma_cutoff_width", .value, none⟩,
   ⟨["--cph", "--collective-phonon"], "COLLECTIVE_PHONON",
    "solve_collective_phonon", .on, none⟩,
   ⟨["--symfc-memshow"], "SHOW_SYMFC_MEMORY_USAGE", "show_symfc_memory_usage", .on, some true⟩,
   ⟨["--cfz", "--subtract-forces"], "SUBTRACT_FORCES", "subtract_forces", .filename, none⟩,
   ⟨["--cfz-fc2", "--subtract-forces-fc2"], "SUBTRACT_FORCES_FC2",
    "subtract_forces_fc2", .filename, none⟩,
   ⟨["--ts"], "TEMPERATURES", "temperatures", .values, none⟩,
   ⟨["--ave-pp"], "USE_AVE_PP", "use_ave_pp", .on, none⟩,
   ⟨["--grg", "--generalized-regular-grid"], "USE_GRG", "use_grg", .on, none⟩,
   ⟨["--write-gamma-detail", "--write_detailed_gamma"], "WRITE_GAMMA_DETAIL",
    "write_gamma_detail", .on, none⟩,
   ⟨["--write-gamma"], "WRITE_GAMMA", "write_gamma", .on, none⟩,
   ⟨["--write-collision"], "WRITE_COLLISION", "write_collision", .on, none⟩,
   ⟨["--write-phonon"], "WRITE_PHONON", "write_phonon", .on, none⟩,
   ⟨["--write-pp"], "WRITE_PP", "write_pp", .on, none⟩,
   ⟨["--write-lbte-solution"], "WRITE_LBTE_SOLUTION", "write_LBTE_solution", .on, none⟩]

/-- The options of a row that a command has. -/
def DocRow.options (row : DocRow) (load : Bool) : List String :=
  if row.cmd = none ∨ row.cmd = some load then row.flags else []

/-- The texts after the last occurrence of an option. -/
def lastOption (flags : List String) (cmd : List (String × List String)) : Option (List String) :=
  (cmd.reverse.find? (fun o => o.1 ∈ flags)).map (fun o => o.2)

/-- The text of the last line with a tag, in any spelling. -/
def lastTag (tag : String) (lines : List (String × String)) : Option String :=
  (lines.reverse.find? (fun l => l.1.toLower = tag.toLower)).map (fun l => l.2)

variable {V : Type}

/-- What an option says. -/
def DocRow.optionSays (conv : ConfConv V) (row : DocRow) (vals : List String) : Option V :=
  match row.kind with
  | .on => some (conv.ofBool true)
  | .off => some (conv.ofBool false)
  | .value => conv.other row.tag.toLower (.text (vals.headD ""))
  | .filename => conv.other row.tag.toLower (.text (vals.headD ""))
  | .values => conv.other row.tag.toLower (.text (" ".intercalate vals))
  | .files => conv.other row.tag.toLower (.words vals)

/-- What a tag says; a text other than `.TRUE.` and `.FALSE.` says nothing about a switch. -/
def DocRow.tagSays (conv : ConfConv V) (row : DocRow) (text : String) (default : V) : Option V :=
  match row.kind with
  | .on | .off =>
    if text.toLower = ".true." then some (conv.ofBool true)
    else if text.toLower = ".false." then some (conv.ofBool false)
    else some default
  | _ => conv.other row.tag.toLower (.text text)

/-- What is given after an option is there: names are not empty. -/
def DocRow.ValidTexts (row : DocRow) (vals : List String) : Prop :=
  match row.kind with
  | .files => vals ≠ []
  | .filename => vals.headD "" ≠ ""
  | _ => True

/-- The setting that a row says. -/
def DocRow.says (conv : ConfConv V) (row : DocRow) (load : Bool) (file : Option (List (String × String)))
    (cmd : List (String × List String)) (default : String → V) : Option V :=
  match lastOption (row.options load) cmd with
  | some vals => row.optionSays conv vals
  | none =>
    match file.bind (lastTag row.tag) with
    | some text => row.tagSays conv text (default row.setting)
    | none => some (default row.setting)

/-- The base class leaves the options, tags and settings of phono3py alone. -/
structure BaseApart (base : BaseParser V) : Prop where
  /-- It makes no entry for a tag of phono3py. -/
  options : ∀ args, ∀ k ∈ boolKeys ++ otherKeys, base.options args k = none
  /-- It changes no setting of phono3py. -/
  apply : ∀ confs s s', base.apply confs s = some s' → ∀ row ∈ docRows,
    s' row.setting = s row.setting

end Phono3py.Spec
