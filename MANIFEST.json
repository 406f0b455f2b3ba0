{
 "claims": [
  {
   "property": "C01",
   "status": "proved",
   "theorems": [
    "Phono3py.Props.C01_index_roundtrip",
    "Phono3py.Props.C01_address_roundtrip",
    "Phono3py.Props.C01_address_table"
   ],
   "note": "All meshes, all indices and addresses."
  },
  {
   "property": "C02",
   "status": "proved",
   "theorems": [
    "Phono3py.Props.C02_index_in_range",
    "Phono3py.Props.C02_same_index_iff",
    "Phono3py.Props.C02_python_agrees"
   ],
   "note": ""
  },
  {
   "property": "C03",
   "status": "proved",
   "theorems": [
    "Phono3py.Props.C03_rotation_spec",
    "Phono3py.Props.C03_rotation_comp",
    "Phono3py.Props.C03_rotation_bijective",
    "Phono3py.Props.C03_shift_check_sound",
    "Phono3py.Props.C03_shift_condition_needed"
   ],
   "note": "MeshCompat/ShiftCompat/unimodular hypotheses; C03_shift_check_sound ties the shift condition to the run-time check; C03_shift_condition_needed shows the hypothesis cannot be dropped."
  },
  {
   "property": "C04",
   "status": "proved",
   "theorems": [
    "Phono3py.Props.C04_ir_map_is_smallest",
    "Phono3py.Props.C04_ir_map_classes",
    "Phono3py.Props.C04_ir_map_idempotent"
   ],
   "note": "Hypothesis: the operations form a group compatible with mesh and shift."
  },
  {
   "property": "C05",
   "status": "proved",
   "theorems": [
    "Phono3py.Props.C05_weights_sum",
    "Phono3py.Props.C05_ir_points_and_weights",
    "Phono3py.Props.C05_num_ir"
   ],
   "note": ""
  },
  {
   "property": "C06",
   "status": "proved",
   "theorems": [
    "Phono3py.Props.C06_members",
    "Phono3py.Props.C06_failure_iff",
    "Phono3py.Props.C06_group"
   ],
   "note": ""
  },
  {
   "property": "C07",
   "status": "proved",
   "theorems": [
    "Phono3py.Props.C07_within_tolerance",
    "Phono3py.Props.C07_exact",
    "Phono3py.Props.C07_failure_iff",
    "Phono3py.Props.C07_mesh_compatible",
    "Phono3py.Props.C07_products",
    "Phono3py.Props.C07_group",
    "Phono3py.Props.C07_grid_object"
   ],
   "note": "Float tolerance modelled in exact rational arithmetic."
  },
  {
   "property": "C08",
   "status": "proved",
   "theorems": [
    "Phono3py.Props.C08_sound",
    "Phono3py.Props.C08_singular",
    "Phono3py.Props.C08_no_division_by_zero",
    "Phono3py.Props.C08_succeeds",
    "Phono3py.Props.C08_extended_gcd",
    "Phono3py.Props.C08_second_divides_third",
    "Phono3py.Props.C08_not_always_smith"
   ],
   "note": "The docstring promise of a Smith normal form is refuted by C08_not_always_smith; the P,D,Q properties used by the grid are proved. C08_succeeds bounds |det| below 2^49 because the gcd loop is capped."
  },
  {
   "property": "C09",
   "status": "proved",
   "theorems": [
    "Phono3py.Props.C09_translate",
    "Phono3py.Props.C09_failure_iff"
   ],
   "note": "Hypothesis: positive mesh and non-zero reciprocal lattice (then the computed tolerance is positive)."
  },
  {
   "property": "C10",
   "status": "proved",
   "theorems": [
    "Phono3py.Props.C10_dense_map"
   ],
   "note": ""
  },
  {
   "property": "C11",
   "status": "proved",
   "theorems": [
    "Phono3py.Props.C11_sparse_map"
   ],
   "note": ""
  },
  {
   "property": "C12",
   "status": "proved",
   "theorems": [
    "Phono3py.Props.C12_layouts_agree",
    "Phono3py.Props.C12_same_failure"
   ],
   "note": ""
  },
  {
   "property": "C13",
   "status": "proved",
   "theorems": [
    "Phono3py.Props.C13_stored_are_near",
    "Phono3py.Props.C13_nearest_are_stored",
    "Phono3py.Props.C13_distinct"
   ],
   "note": "Nearest among the 125 searched translates, as the property says; qNorm/Searched/tolerance are specified independently in Spec/BZGrid.lean."
  },
  {
   "property": "C14",
   "status": "partial",
   "theorems": [
    "Phono3py.Props.C14_rotation_found_partial",
    "Phono3py.Props.C14_dense_equivalent_partial",
    "Phono3py.Props.C14_sparse_fallback_wrong",
    "Phono3py.Props.C14_rotation_exact"
   ],
   "note": "Proved when the rotated address is stored (both layouts) and in all cases for the dense layout. Refuted for the sparse layout when it is not stored: C14_sparse_fallback_wrong (inversion on an orthorhombic lattice). C14_rotation_exact: on a grid without shift that holds the nearest translates and whose surface is not decided by rounding (SurfaceSeparated; separated_of_metric gives such grids), the rotated address is stored for every compatible isometry, so rotation by index is exact in both layouts."
  },
  {
   "property": "C15",
   "status": "partial",
   "theorems": [
    "Phono3py.Props.C15_momentum_partial",
    "Phono3py.Props.C15_sparse_surface_point"
   ],
   "note": "Proved for every grid point in the dense layout and for regular grid points in the sparse layout, for an arbitrary lattice in the search structure. C15_sparse_surface_point is a counterexample for a surface copy in the sparse layout (pointer table read past its end)."
  },
  {
   "property": "C16",
   "status": "proved",
   "theorems": [
    "Phono3py.Props.C16_succeeds",
    "Phono3py.Props.C16_weights",
    "Phono3py.Props.C16_nosym"
   ],
   "note": "All assertions of get_triplets_at_q shown to hold; weights, order, classes; also without mesh symmetry."
  },
  {
   "property": "C17",
   "status": "proved",
   "theorems": [
    "Phono3py.Props.C17_classes",
    "Phono3py.Props.C17_number"
   ],
   "note": "Group includes time reversal as specified by withTimeReversal; both the triplet map and the q1 map."
  },
  {
   "property": "C18",
   "status": "partial",
   "theorems": [
    "Phono3py.Props.C18_no_umklapp_partial",
    "Phono3py.Props.C18_computed_distance_partial",
    "Phono3py.Props.C18_not_shortest"
   ],
   "note": "First half proved; second half only for the quantity the code computes. C18_not_shortest refutes the English claim: get_LQD_inv overwrites instead of accumulating."
  },
  {
   "property": "C19",
   "status": "proved",
   "theorems": [
    "Phono3py.Props.C19_shape",
    "Phono3py.Props.C19_recentre",
    "Phono3py.Props.C19_cover",
    "Phono3py.Props.C19_disjoint",
    "Phono3py.Props.C19_diagonal"
   ],
   "note": ""
  },
  {
   "property": "C20",
   "status": "proved",
   "theorems": [
    "Phono3py.Props.C20_sort"
   ],
   "note": ""
  },
  {
   "property": "C21",
   "status": "partial",
   "theorems": [
    "Phono3py.Props.C21_nonneg",
    "Phono3py.Props.C21_shares_complete",
    "Phono3py.Props.C21_bounds",
    "Phono3py.Props.C21_monotone_partial",
    "Phono3py.Props.C21_not_monotone",
    "Phono3py.Props.C21_threshold_loss",
    "Phono3py.Props.C21_exact",
    "Phono3py.Props.C21_exact_total",
    "Phono3py.Props.C21_full"
   ],
   "note": "C21_monotone_partial: monotone in the frequency away from the vertex frequencies of a tetrahedron and where no vertex gap lies below the threshold of the code. Missing because false: C21_not_monotone, C21_threshold_loss."
  },
  {
   "property": "C22",
   "status": "partial",
   "theorems": [
    "Phono3py.Props.C22_derivative",
    "Phono3py.Props.C22_limit_partial",
    "Phono3py.Props.C22_zero_at_vertices",
    "Phono3py.Props.C22_not_continuous"
   ],
   "note": "C22_limit_partial: the density is the limit of difference quotients inside each interval between vertex frequencies. Missing because false: C22_zero_at_vertices, C22_not_continuous."
  },
  {
   "property": "C23",
   "status": "proved",
   "theorems": [
    "Phono3py.Props.C23_outside",
    "Phono3py.Props.C23_range_test",
    "Phono3py.Props.C23_weights",
    "Phono3py.Props.C23_any_schedule"
   ],
   "note": ""
  },
  {
   "property": "C24",
   "status": "proved",
   "theorems": [
    "Phono3py.Props.C24_flag",
    "Phono3py.Props.C24_no_cutoff",
    "Phono3py.Props.C24_any_schedule"
   ],
   "note": ""
  },
  {
   "property": "C25",
   "status": "proved",
   "theorems": [
    "Phono3py.Props.C25_full_sum",
    "Phono3py.Props.C25_full_sum_at_frequency",
    "Phono3py.Props.C25_tetrahedron",
    "Phono3py.Props.C25_smearing"
   ],
   "note": ""
  },
  {
   "property": "C26",
   "status": "proved",
   "theorems": [
    "Phono3py.Props.C26_partition",
    "Phono3py.Props.C26_total"
   ],
   "note": ""
  },
  {
   "property": "C27",
   "status": "proved",
   "theorems": [
    "Phono3py.Props.C27_entry",
    "Phono3py.Props.C27_total"
   ],
   "note": ""
  },
  {
   "property": "C28",
   "status": "proved",
   "theorems": [
    "Phono3py.Props.C28_value",
    "Phono3py.Props.C28_equal",
    "Phono3py.Props.C28_idempotent",
    "Phono3py.Props.C28_unchanged",
    "Phono3py.Props.C28_sum",
    "Phono3py.Props.C28_linear",
    "Phono3py.Props.C28_nonneg"
   ],
   "note": "The sets returned by phonopys degenerate_sets are a parameter, assumed to cover the selected bands without overlap."
  },
  {
   "property": "C29",
   "status": "proved",
   "theorems": [
    "Phono3py.Props.C29_batches",
    "Phono3py.Props.C29_negative_size",
    "Phono3py.Props.C29_each_point",
    "Phono3py.Props.C29_tetrahedron",
    "Phono3py.Props.C29_smearing"
   ],
   "note": "Batches, and independence of the sampled self-energies from the batch size for both integration methods. A negative batch size yields no batch and is not rejected (C29_negative_size)."
  },
  {
   "property": "C30",
   "status": "proved",
   "theorems": [
    "Phono3py.Props.C30_group_average"
   ],
   "note": "For values listed in the order of the flattened selection."
  },
  {
   "property": "C31",
   "status": "proved",
   "theorems": [
    "Phono3py.Props.C31_value",
    "Phono3py.Props.C31_frame",
    "Phono3py.Props.C31_any_order",
    "Phono3py.Props.C31_disjoint",
    "Phono3py.Props.C31_symmetric",
    "Phono3py.Props.C31_unchanged",
    "Phono3py.Props.C31_idempotent",
    "Phono3py.Props.C31_compact_value",
    "Phono3py.Props.C31_compact_symmetric",
    "Phono3py.Props.C31_compact_unchanged",
    "Phono3py.Props.C31_compact_full",
    "Phono3py.Props.C31_python"
   ],
   "note": "Full and compact arrays: value, frame, symmetry, idempotence, order independence, and agreement of the compact with the full result."
  },
  {
   "property": "C32",
   "status": "partial",
   "theorems": [
    "Phono3py.Props.C32_type2",
    "Phono3py.Props.C32_types01_partial",
    "Phono3py.Props.C32_odd",
    "Phono3py.Props.C32_half_translation_skipped",
    "Phono3py.Props.C32_not_transposed",
    "Phono3py.Props.C32_involution"
   ],
   "note": "Type 2 is proved without condition, types 0 and 1 when no lattice translation of the supercell has order two between the atoms (true for odd supercells). C32_not_transposed shows that the code does not transpose pairs of atoms related by a half translation."
  },
  {
   "property": "C33",
   "status": "partial",
   "theorems": [
    "Phono3py.Props.C33_value",
    "Phono3py.Props.C33_sum_vanishes",
    "Phono3py.Props.C33_unchanged",
    "Phono3py.Props.C33_all_sums_vanish",
    "Phono3py.Props.C33_compact_second_third",
    "Phono3py.Props.C33_compact_partial",
    "Phono3py.Props.C33_compact_drift_left"
   ],
   "note": "Full arrays: all three sums vanish. Compact arrays: second and third index proved; the first index only without half translations (C33_compact_drift_left is a counterexample)."
  },
  {
   "property": "C34",
   "status": "proved",
   "theorems": [
    "Phono3py.Props.C34_value",
    "Phono3py.Props.C34_other_rows",
    "Phono3py.Props.C34_choice",
    "Phono3py.Props.C34_succeeds_iff",
    "Phono3py.Props.C34_restores",
    "Phono3py.Props.C34_full",
    "Phono3py.Props.C34_compact"
   ],
   "note": "In-place C routine, choice of operation and both expansions of get_fc3 (full, compact). The Python fallback (used only when the C library is missing) writes row i_target instead of the compact row and is not modelled."
  },
  {
   "property": "C35",
   "status": "proved",
   "theorems": [
    "Phono3py.Props.C35_value",
    "Phono3py.Props.C35_symmetric",
    "Phono3py.Props.C35_diagonal",
    "Phono3py.Props.C35_outside",
    "Phono3py.Props.C35_fixed",
    "Phono3py.Props.C35_idempotent",
    "Phono3py.Props.C35_schedule"
   ],
   "note": "In-place symmetrisation of all blocks, any schedule."
  },
  {
   "property": "C36",
   "status": "proved",
   "theorems": [
    "Phono3py.Props.C36_value",
    "Phono3py.Props.C36_rotated",
    "Phono3py.Props.C36_invariant",
    "Phono3py.Props.C36_restores",
    "Phono3py.Props.C36_row_sum",
    "Phono3py.Props.C36_untouched",
    "Phono3py.Props.C36_schedule",
    "Phono3py.Props.C36_local",
    "Phono3py.Props.C36_velocity",
    "Phono3py.Props.C36_grid"
   ],
   "note": "Expansion from irreducible grid points for group actions; C36_grid shows that the tables of rotated grid points are such actions."
  },
  {
   "property": "C37",
   "status": "proved",
   "theorems": [
    "Phono3py.Props.C37_value",
    "Phono3py.Props.C37_outside",
    "Phono3py.Props.C37_schedule",
    "Phono3py.Props.C37_penrose",
    "Phono3py.Props.C37_null_space",
    "Phono3py.Props.C37_inverse",
    "Phono3py.Props.C37_modes",
    "Phono3py.Props.C37_python"
   ],
   "note": "Value, Penrose conditions on the kept modes, agreement of the C and the numpy paths."
  },
  {
   "property": "C38",
   "status": "proved",
   "theorems": [
    "Phono3py.Props.C38_lookup",
    "Phono3py.Props.C38_python"
   ],
   "note": "For every triplet search result; C lookup and Python map agree and the Python assertions never fail. In the sparse layout the grid point must be a regular one (C15)."
  },
  {
   "property": "C39",
   "status": "proved",
   "theorems": [
    "Phono3py.Props.C39_value",
    "Phono3py.Props.C39_outside",
    "Phono3py.Props.C39_value_tetrahedron",
    "Phono3py.Props.C39_nonneg",
    "Phono3py.Props.C39_nonneg_tetrahedron",
    "Phono3py.Props.C39_below_cutoff",
    "Phono3py.Props.C39_partners_below_cutoff",
    "Phono3py.Props.C39_no_variance",
    "Phono3py.Props.C39_phase",
    "Phono3py.Props.C39_degenerate",
    "Phono3py.Props.C39_python_value",
    "Phono3py.Props.C39_python_smearing",
    "Phono3py.Props.C39_python_tetrahedron",
    "Phono3py.Props.C39_mass_variance_nonneg",
    "Phono3py.Props.C39_mass_variance_zero",
    "Phono3py.Props.C39_mass_variance_moments",
    "Phono3py.Props.C39_mass_variances",
    "Phono3py.Props.C39_python_band_index",
    "Phono3py.Props.C39_python_cutoff"
   ],
   "note": "Both C routines (smearing, tetrahedron) return Tamura's formula for every schedule; non-negative, zero below the cutoff and without mass variances, independent of phases and of the choice of degenerate eigenvectors of partners; mass variances. Findings about the Python implementation: C39_python_band_index, C39_python_cutoff."
  },
  {
   "property": "C40",
   "status": "proved",
   "theorems": [
    "Phono3py.Props.C40_value",
    "Phono3py.Props.C40_nonneg",
    "Phono3py.Props.C40_symmetrized_nonneg",
    "Phono3py.Props.C40_cutoff"
   ],
   "note": "Strengths equal the textbook formula at every unflagged entry; non-negativity (both variants) and cutoff follow. The BLAS variant is not modelled."
  },
  {
   "property": "C41",
   "status": "proved",
   "theorems": [
    "Phono3py.Props.C41_order",
    "Phono3py.Props.C41_stop",
    "Phono3py.Props.C41_stays_stopped",
    "Phono3py.Props.C41_results"
   ],
   "note": "Iterator model with crash points: order, stop, stays stopped, results per point after any history."
  },
  {
   "property": "C42",
   "status": "proved",
   "theorems": [
    "Phono3py.Props.C42_value",
    "Phono3py.Props.C42_monotone",
    "Phono3py.Props.C42_band_subset",
    "Phono3py.Props.C42_heat_capacity"
   ],
   "note": "Value of the main diagonal for all channel combinations; finding C42_band_subset: boundary_mfp with a subset of bands raises IndexError."
  },
  {
   "property": "C43",
   "status": "partial",
   "theorems": [
    "Phono3py.Props.C43_map",
    "Phono3py.Props.C43_weights",
    "Phono3py.Props.C43_total",
    "Phono3py.Props.C43_last",
    "Phono3py.Props.C43_conductivity",
    "Phono3py.Props.C43_bands",
    "Phono3py.Props.C43_nonneg",
    "Phono3py.Props.C43_start",
    "Phono3py.Props.C43_monotone_partial",
    "Phono3py.Props.C43_not_monotone"
   ],
   "note": "Total above all modes, equality with the RTA conductivity, zero start, sign and index map proved for every BZ grid; monotone only for regular tetrahedra (over the reals), and C43_not_monotone shows a drop at sampling points that are mesh frequencies."
  },
  {
   "property": "C44",
   "status": "proved",
   "theorems": [
    "Phono3py.Props.C44_round_trip",
    "Phono3py.Props.C44_mask",
    "Phono3py.Props.C44_no_mask",
    "Phono3py.Props.C44_masked_not_stored"
   ],
   "note": "Round trip proved for every size, shape and mask: strengths at unset positions, zero elsewhere, and the mask (as zeros and ones; the mask itself when it consists of zeros and ones, as the code produces). HDF5 storage is taken to return what was stored."
  },
  {
   "property": "C45",
   "status": "proved",
   "theorems": [
    "Phono3py.Props.C45_round_trip",
    "Phono3py.Props.C45_truncated",
    "Phono3py.Props.C45_missing_forces",
    "Phono3py.Props.C45_stored"
   ],
   "note": "C45_round_trip (forces given to the writer), C45_stored (forces in the dataset), C45_truncated, C45_missing_forces. shown is the value printed with ten decimals and read back."
  },
  {
   "property": "C46",
   "status": "partial",
   "theorems": [
    "Phono3py.Props.C46_round_trip",
    "Phono3py.Props.C46_short_file_partial",
    "Phono3py.Props.C46_reader_silent"
   ],
   "note": "C46_round_trip; C46_short_file_partial: a short file makes the parser return [] and store nothing. It raises no exception, and C46_reader_silent proves that the reader of the command line takes it as success."
  },
  {
   "property": "C47",
   "status": "partial",
   "theorems": [
    "Phono3py.Props.C47_distinct_partial",
    "Phono3py.Props.C47_mesh_collision",
    "Phono3py.Props.C47_sigma_collision",
    "Phono3py.Props.C47_cutoff_ignored"
   ],
   "note": "Proved: with the same user string and meshes of equal digit counts, equal names imply equal mesh, grid point, bands, and sigma/cutoff/temperature equal to within 1e-6 (C47_distinct_partial). Refuted in general: meshes 1x11x1 and 11x1x1 share a name (C47_mesh_collision), sigmas that round alike share a name (C47_sigma_collision); a cutoff without sigma is not in the name (C47_cutoff_ignored)."
  },
  {
   "property": "C48",
   "status": "proved",
   "theorems": [
    "Phono3py.Props.C48_ids",
    "Phono3py.Props.C48_requested",
    "Phono3py.Props.C48_supercells",
    "Phono3py.Props.C48_files",
    "Phono3py.Props.C48_total"
   ],
   "note": "C48_ids, C48_requested, C48_supercells, C48_files, C48_total."
  },
  {
   "property": "C49",
   "status": "partial",
   "theorems": [
    "Phono3py.Props.C49_rows_partial",
    "Phono3py.Props.C49_no_forces_partial",
    "Phono3py.Props.C49_some_forces",
    "Phono3py.Props.C49_same_atom",
    "Phono3py.Props.C49_getter_partial",
    "Phono3py.Props.C49_getter_drops_first"
   ],
   "note": "C49_rows_partial and C49_no_forces_partial for datasets without pairs on one atom; false in general: C49_same_atom (a pair on one atom shows only the second displacement), C49_some_forces (assertion fails when excluded pairs have no forces), C49_getter_drops_first (the displacements property drops the first displacement of every pair)."
  },
  {
   "property": "C50",
   "status": "partial",
   "theorems": [
    "Phono3py.Props.C50_assign_partial",
    "Phono3py.Props.C50_round_trip",
    "Phono3py.Props.C50_extra_ignored",
    "Phono3py.Props.C50_too_few",
    "Phono3py.Props.C50_phonon_round_trip",
    "Phono3py.Props.C50_phonon_short",
    "Phono3py.Props.C50_type2",
    "Phono3py.Props.C50_type2_unchecked"
   ],
   "note": "C50_round_trip, C50_phonon_round_trip, C50_type2, C50_too_few; wrong numbers are not rejected in C50_extra_ignored, C50_phonon_short, C50_type2_unchecked."
  },
  {
   "property": "C51",
   "status": "partial",
   "theorems": [
    "Phono3py.Props.C51_gamma",
    "Phono3py.Props.C51_history_partial",
    "Phono3py.Props.C51_init",
    "Phono3py.Props.C51_start",
    "Phono3py.Props.C51_vector",
    "Phono3py.Props.C51_silent_direction",
    "Phono3py.Props.C51_wang_direction",
    "Phono3py.Props.C51_refused_plain",
    "Phono3py.Props.C51_refused_restored",
    "Phono3py.Props.C51_no_symmetry",
    "Phono3py.Props.C51_stale_gamma"
   ],
   "note": "C51_gamma: the phonons stored at Gamma after a run are those of the direction in force; C51_history_partial: holds along every history of set-direction / set-grid-point / run operations under the stated conditions. Negations with witnesses: C51_silent_direction (a direction set after the grid point is silently not applied), C51_wang_direction (Wang NAC uses the direction away from Gamma), C51_refused_plain, C51_refused_restored and C51_no_symmetry (valid histories refused), C51_stale_gamma (init_dynamical_matrix called twice keeps old Gamma phonons)."
  },
  {
   "property": "C52",
   "status": "proved",
   "theorems": [
    "Phono3py.Props.C52_request",
    "Phono3py.Props.C52_first_request",
    "Phono3py.Props.C52_collected"
   ],
   "note": "C52_collected: the list of undone grid points is duplicate free and exactly the requested ones not done; C52_first_request, C52_request: values are those of the solver at the first request and never change afterwards."
  },
  {
   "property": "C53",
   "status": "partial",
   "theorems": [
    "Phono3py.Props.C53_refused_partial",
    "Phono3py.Props.C53_same_grid",
    "Phono3py.Props.C53_other_grid_accepted"
   ],
   "note": "The check aggregates with all() of component inequality, so C53_other_grid_accepted exhibits a different grid that is accepted; C53_refused_partial: arrays of another length, or differing in every component, are refused; C53_same_grid: equal addresses are accepted."
  },
  {
   "property": "C54",
   "status": "partial",
   "theorems": [
    "Phono3py.Props.C54_first_only",
    "Phono3py.Props.C54_single_partial",
    "Phono3py.Props.C54_names",
    "Phono3py.Props.C54_second_missing"
   ],
   "note": "Refuted by the code: write_joint_dos returns inside its loop over temperatures, so only the first temperature is written (C54_first_only, C54_second_missing for a whole run). C54_single_partial proves the claim for at most one temperature; C54_names shows that file names of different temperatures differ."
  },
  {
   "property": "C55",
   "status": "partial",
   "theorems": [
    "Phono3py.Props.C55_read",
    "Phono3py.Props.C55_matrix",
    "Phono3py.Props.C55_linewidths_partial",
    "Phono3py.Props.C55_linewidths_first",
    "Phono3py.Props.C55_missing",
    "Phono3py.Props.C55_written",
    "Phono3py.Props.C55_wrong"
   ],
   "note": "The collision matrix is restored for every temperature in all three layouts, and the writer puts in each file what belongs there. Linewidths are restored only from grid-point files or with one temperature: from a whole-sigma file or band files every temperature gets those of the first (C55_wrong, finding). Missing data: False is returned when not even the start is there, an exception is raised otherwise (C55_missing). Reading of a single temperature (indices other than all) is not modelled. At the level of a whole run the numbers read are computed again and overwritten (C158_not_used)."
  },
  {
   "property": "C56",
   "status": "partial",
   "theorems": [
    "Phono3py.Props.C56_read",
    "Phono3py.Props.C56_no_parts",
    "Phono3py.Props.C56_written",
    "Phono3py.Props.C56_round_trip_partial",
    "Phono3py.Props.C56_point_present",
    "Phono3py.Props.C56_band_present",
    "Phono3py.Props.C56_all_points",
    "Phono3py.Props.C56_missing_point",
    "Phono3py.Props.C56_single_point"
   ],
   "note": "Reading restores every linewidth from the summary, per-point or per-band files, and reports failure exactly when data is missing; the writer puts in each file what belongs there. Two limits: sigmas closer than a millionth share a file name, and for a single grid point the summary file is named like a grid-point file and cannot be read back (C56_single_point, finding). Isotope linewidths (whose key differs between writer and reader and which are never assigned on reading) and the averaged interaction strength are not modelled."
  },
  {
   "property": "C57",
   "status": "proved",
   "theorems": [
    "Phono3py.Props.C57_list",
    "Phono3py.Props.C57_scalar",
    "Phono3py.Props.C57_others_dropped"
   ],
   "note": "Proved for every list of floats, ints and None and for scalars; C57_others_dropped records that elements of other types (e.g. numpy integers) are silently dropped."
  },
  {
   "property": "C58",
   "status": "partial",
   "theorems": [
    "Phono3py.Props.C58_failure",
    "Phono3py.Props.C58_cover",
    "Phono3py.Props.C58_one_partial",
    "Phono3py.Props.C58_two_representatives"
   ],
   "note": "Proved for every site-symmetry group given as permutations closed under composition: the labels produced cover every atom and each label is the smallest index of its orbit under the rotations applied successively (C58_cover, C58_one_partial). The shadowed variable in _get_orbits makes the labels of a 6mm site contain two representatives of one orbit: C58_two_representatives is a concrete group where the exactly-one half of the claim fails, so the property is partial by a defect of the code."
  },
  {
   "property": "C59",
   "status": "partial",
   "theorems": [
    "Phono3py.Props.C59_at_most_125_partial",
    "Phono3py.Props.C59_overflow",
    "Phono3py.Props.C59_python_fits",
    "Phono3py.Props.C59_overflow_grg",
    "Phono3py.Props.C59_fits"
   ],
   "note": "The claim is false in general: C59_overflow exhibits a lattice that needs nine rows for one grid point. C59_fits proves the bound of eight rows whenever every non-zero reciprocal lattice vector has squared length at least twice the tolerance; C59_at_most_125_partial holds without condition."
  },
  {
   "property": "C61",
   "status": "partial",
   "theorems": [
    "Phono3py.Props.C61_value",
    "Phono3py.Props.C61_mean_partial",
    "Phono3py.Props.C61_permutation_partial",
    "Phono3py.Props.C61_uninitialised_flag",
    "Phono3py.Props.C61_uninitialised_bands"
   ],
   "note": "Proved for all bands and no flags (the case Interaction.run produces). With integration-weight flags (the low-memory conductivity path) or a selection of bands the code reads malloc'ed memory it never wrote: C61_uninitialised_flag and C61_uninitialised_bands hold for every crystal."
  },
  {
   "property": "C62",
   "status": "proved",
   "theorems": [
    "Phono3py.Props.C62_phase",
    "Phono3py.Props.C62_degenerate"
   ],
   "note": "Phases of all eigenvectors; unitary mixtures of a degenerate set at any one member."
  },
  {
   "property": "C63",
   "status": "proved",
   "theorems": [
    "Phono3py.Props.C63_time_reversal"
   ],
   "note": ""
  },
  {
   "property": "C64",
   "status": "proved",
   "theorems": [
    "Phono3py.Props.C64_compact"
   ],
   "note": ""
  },
  {
   "property": "C65",
   "status": "proved",
   "theorems": [
    "Phono3py.Props.C65_r0_average"
   ],
   "note": ""
  },
  {
   "property": "C66",
   "status": "proved",
   "theorems": [
    "Phono3py.Props.C66_exchange"
   ],
   "note": "Both with and without make_r0_average."
  },
  {
   "property": "C67",
   "status": "proved",
   "theorems": [
    "Phono3py.Props.C67_fourier"
   ],
   "note": "For make_r0_average off."
  },
  {
   "property": "C68",
   "status": "partial",
   "theorems": [
    "Phono3py.Props.C68_total_partial",
    "Phono3py.Props.C68_normal_umklapp_partial",
    "Phono3py.Props.C68_split_partial",
    "Phono3py.Props.C68_tetrahedron_partial",
    "Phono3py.Props.C68_smearing_partial",
    "Phono3py.Props.C68_symmetrized_uninitialised"
   ],
   "note": "Proved for unsymmetrised strengths, both methods, any number of temperatures, with the normal/Umklapp split. With symmetrisation the result depends on uninitialised memory: C68_symmetrized_uninitialised."
  },
  {
   "property": "C69",
   "status": "proved",
   "theorems": [
    "Phono3py.Props.C69_classes_at_bands",
    "Phono3py.Props.C69_classes_at_frequencies"
   ],
   "note": "For weights whose flagged entries vanish."
  },
  {
   "property": "C70",
   "status": "proved",
   "theorems": [
    "Phono3py.Props.C70_python"
   ],
   "note": "Without the common unit conversion factor."
  },
  {
   "property": "C60",
   "status": "partial",
   "theorems": [
    "Phono3py.Props.C60_neighbor",
    "Phono3py.Props.C60_dense_exact",
    "Phono3py.Props.C60_sparse_exact_partial",
    "Phono3py.Props.C60_vertices",
    "Phono3py.Props.C60_momentum",
    "Phono3py.Props.C60_sparse_other_image"
   ],
   "note": "Proved for every lattice and layout that vertices are valid translates and conserve momentum; the exact image is returned always in the dense layout, and in the sparse layout when no reciprocal lattice vector is shorter than the tolerance of the BZ reduction. C60_sparse_other_image shows that the sparse layout can return another image otherwise."
  },
  {
   "property": "C71",
   "status": "proved",
   "theorems": [
    "Phono3py.Props.C71_value",
    "Phono3py.Props.C71_symmetric",
    "Phono3py.Props.C71_zero",
    "Phono3py.Props.C71_exact",
    "Phono3py.Props.C71_idempotent",
    "Phono3py.Props.C71_all_done"
   ],
   "note": "Full array (the code always symmetrises the full array and then takes rows)."
  },
  {
   "property": "C72",
   "status": "proved",
   "theorems": [
    "Phono3py.Props.C72_full",
    "Phono3py.Props.C72_compact",
    "Phono3py.Props.C72_error_iff",
    "Phono3py.Props.C72_symmetric"
   ],
   "note": "Distances are a parameter (computed by phonopy)."
  },
  {
   "property": "C73",
   "status": "proved",
   "theorems": [
    "Phono3py.Props.C73_solve",
    "Phono3py.Props.C73_get_fc3_full",
    "Phono3py.Props.C73_get_fc3_compact"
   ],
   "note": "delta fc2 and the pseudo-inverse are inputs; rank condition is the hypothesis that inv_U is a left inverse. Floating point not modelled."
  },
  {
   "property": "C74",
   "status": "proved",
   "theorems": [
    "Phono3py.Props.C74_pairs"
   ],
   "note": "Atom maps of the operations are inputs. second_atom_nums is overwritten in the loop over the reduced site symmetry; proved harmless for groups."
  },
  {
   "property": "C75",
   "status": "proved",
   "theorems": [
    "Phono3py.Props.C75_reducible",
    "Phono3py.Props.C75_irreducible",
    "Phono3py.Props.C75_nonneg",
    "Phono3py.Props.C75_schedule",
    "Phono3py.Props.C75_schedule_irreducible",
    "Phono3py.Props.C75_memory"
   ],
   "note": "Element formulas of both layouts, their relation, independence of schedule and memory."
  },
  {
   "property": "C76",
   "status": "partial",
   "theorems": [
    "Phono3py.Props.C76_value",
    "Phono3py.Props.C76_constant_partial",
    "Phono3py.Props.C76_block_sum",
    "Phono3py.Props.C76_fixed",
    "Phono3py.Props.C76_untouched",
    "Phono3py.Props.C76_reducible_columns"
   ],
   "note": "Holds for points that are averaged. Missing: in the reducible layout only columns of irreducible points are averaged; C76_reducible_columns is the counterexample."
  },
  {
   "property": "C77",
   "status": "proved",
   "theorems": [
    "Phono3py.Props.C77_equivalent",
    "Phono3py.Props.C77_solution"
   ],
   "note": "Equivalence on equivariant fields, and of the weighted linear systems."
  },
  {
   "property": "C78",
   "status": "partial",
   "theorems": [
    "Phono3py.Props.C78_sampling_partial",
    "Phono3py.Props.C78_sampling_general",
    "Phono3py.Props.C78_counted_twice",
    "Phono3py.Props.C78_multiplicity",
    "Phono3py.Props.C78_total"
   ],
   "note": "C78_total and C78_sampling_partial: histories without failures after the velocities are set; C78_counted_twice (finding): a failure in the collision step followed by a retry counts the point twice, so the full statement is false of the code. C78_multiplicity for the multiplicities."
  },
  {
   "property": "C79",
   "status": "partial",
   "theorems": [
    "Phono3py.Props.C79_repeat_partial",
    "Phono3py.Props.C79_ignored",
    "Phono3py.Props.C79_ignored_twice",
    "Phono3py.Props.C79_stale",
    "Phono3py.Props.C79_wigner_doubles"
   ],
   "note": "C79_repeat_partial: RTA mode contributions and kappa do not change. The full statement is false of the code: C79_ignored_twice (ignored modes are counted again), C79_stale (stale entries), C79_wigner_doubles (kappa of the Wigner class doubles)."
  },
  {
   "property": "C80",
   "status": "proved",
   "theorems": [
    "Phono3py.Props.C80_positive",
    "Phono3py.Props.C80_antitone",
    "Phono3py.Props.C80_zero_linewidth"
   ],
   "note": "Positive semidefinite and antitone; the condition on vanishing linewidths is needed (C80_zero_linewidth)."
  },
  {
   "property": "C81",
   "status": "proved",
   "theorems": [
    "Phono3py.Props.C81_symmetric"
   ],
   "note": "Invariance under the group represented by the Cartesian operations."
  },
  {
   "property": "C82",
   "status": "proved",
   "theorems": [
    "Phono3py.Props.C82_full_mesh"
   ],
   "note": "From the iterator run to kappa equals meshConductivity of Spec/Conductivity on the full mesh."
  },
  {
   "property": "C83",
   "status": "partial",
   "theorems": [
    "Phono3py.Props.C83_populations",
    "Phono3py.Props.C83_coherences",
    "Phono3py.Props.C83_total",
    "Phono3py.Props.C83_pair",
    "Phono3py.Props.C83_order",
    "Phono3py.Props.C83_rta",
    "Phono3py.Props.C83_kubo_diagonal_partial",
    "Phono3py.Props.C83_kubo_lost",
    "Phono3py.Props.C83_kubo_lost_example"
   ],
   "note": "Wigner: every pair once (C83_total), reduction to RTA (C83_rta). Green-Kubo: C83_kubo_diagonal_partial; finding C83_kubo_lost: a lowest band below the cutoff removes all contributions of the grid point."
  },
  {
   "property": "C84",
   "status": "partial",
   "theorems": [
    "Phono3py.Props.C84_sigma_ignored",
    "Phono3py.Props.C84_spectrum_partial"
   ],
   "note": "Spectrum with the default width proved; a width given by the user is ignored (C84_sigma_ignored)."
  },
  {
   "property": "C85",
   "status": "partial",
   "theorems": [
    "Phono3py.Props.C85_pairs",
    "Phono3py.Props.C85_undisplaced_partial",
    "Phono3py.Props.C85_not_undisplaced"
   ],
   "note": "C85_pairs for two displaced supercells; C85_undisplaced_partial when each atom has one first displacement; C85_not_undisplaced: with plus and minus displacements a displaced supercell is reported as duplicate of 0."
  },
  {
   "property": "C86",
   "status": "proved",
   "theorems": [
    "Phono3py.Props.C86_hermitian",
    "Phono3py.Props.C86_hermitian_gonze",
    "Phono3py.Props.C86_formula"
   ],
   "note": "Gonze-Lee needs only that the phase of -x is the conjugate of that of x."
  },
  {
   "property": "C87",
   "status": "proved",
   "theorems": [
    "Phono3py.Props.C87_reversal",
    "Phono3py.Props.C87_reversal_gonze",
    "Phono3py.Props.C87_spectrum",
    "Phono3py.Props.C87_spectrum_gonze"
   ],
   "note": ""
  },
  {
   "property": "C88",
   "status": "partial",
   "theorems": [
    "Phono3py.Props.C88_acoustic",
    "Phono3py.Props.C88_acoustic_wang",
    "Phono3py.Props.C88_acoustic_gonze_partial",
    "Phono3py.Props.C88_gonze_not_acoustic"
   ],
   "note": "Proved without correction, with the correction of Wang, and with that of Gonze and Lee when the row sums of the dipole-dipole interaction are Hermitian. C88_gonze_not_acoustic: they need not be, and then the frequency is not zero."
  },
  {
   "property": "C89",
   "status": "proved",
   "theorems": [
    "Phono3py.Props.C89_blocks",
    "Phono3py.Props.C89_spectrum"
   ],
   "note": "Without long-range correction, as the property says."
  },
  {
   "property": "C90",
   "status": "proved",
   "theorems": [
    "Phono3py.Props.C90_direction",
    "Phono3py.Props.C90_own_direction",
    "Phono3py.Props.C90_direction_gonze"
   ],
   "note": ""
  },
  {
   "property": "C91",
   "status": "proved",
   "theorems": [
    "Phono3py.Props.C91_frequency"
   ],
   "note": ""
  },
  {
   "property": "C92",
   "status": "proved",
   "theorems": [
    "Phono3py.Props.C92_compact"
   ],
   "note": "Dynamical matrix without correction or with that of Wang; the Gonze-Lee matrix adds the same dipole term to the uncorrected one."
  },
  {
   "property": "C93",
   "status": "proved",
   "theorems": [
    "Phono3py.Props.C93_bands",
    "Phono3py.Props.C93_frequency_point",
    "Phono3py.Props.C93_languages_bands",
    "Phono3py.Props.C93_languages_frequency_point",
    "Phono3py.Props.C93_consistent"
   ],
   "note": ""
  },
  {
   "property": "C94",
   "status": "proved",
   "theorems": [
    "Phono3py.Props.C94_smearing",
    "Phono3py.Props.C94_bounded"
   ],
   "note": ""
  },
  {
   "property": "C95",
   "status": "proved",
   "theorems": [
    "Phono3py.Props.C95_exchange",
    "Phono3py.Props.C95_downwards",
    "Phono3py.Props.C95_zero_occupation"
   ],
   "note": ""
  },
  {
   "property": "C96",
   "status": "proved",
   "theorems": [
    "Phono3py.Props.C96_frequency_points",
    "Phono3py.Props.C96_bands"
   ],
   "note": ""
  },
  {
   "property": "C97",
   "status": "partial",
   "theorems": [
    "Phono3py.Props.C97_kramers_kronig_partial",
    "Phono3py.Props.C97_shifts_partial",
    "Phono3py.Props.C97_start",
    "Phono3py.Props.C97_uniform",
    "Phono3py.Props.C97_default_points",
    "Phono3py.Props.C97_sign",
    "Phono3py.Props.C97_zero_inverted",
    "Phono3py.Props.C97_assertion",
    "Phono3py.Props.C97_repeated"
   ],
   "note": "Counterexamples: C97_zero_inverted (a linewidth at zero frequency enters with the wrong sign, so the transform is right only when it vanishes), C97_assertion (first point accepted, then an assertion fails), C97_repeated (absolute tolerance accepts repeated points)."
  },
  {
   "property": "C98",
   "status": "proved",
   "theorems": [
    "Phono3py.Props.C98_propagator",
    "Phono3py.Props.C98_nonneg",
    "Phono3py.Props.C98_bound",
    "Phono3py.Props.C98_peak",
    "Phono3py.Props.C98_no_linewidth",
    "Phono3py.Props.C98_array"
   ],
   "note": ""
  },
  {
   "property": "C99",
   "status": "partial",
   "theorems": [
    "Phono3py.Props.C99_one_group_partial",
    "Phono3py.Props.C99_text_partial",
    "Phono3py.Props.C99_last_group",
    "Phono3py.Props.C99_log_without_text",
    "Phono3py.Props.C99_name_ignored",
    "Phono3py.Props.C99_deltas_names"
   ],
   "note": "Holds for one group of bands or text output only. Counterexamples: C99_last_group (hdf5 file names only the last group), C99_log_without_text (exception with logging and without text files), C99_name_ignored (the user's string does not enter the name of the files with real parts)."
  },
  {
   "property": "C100",
   "status": "partial",
   "theorems": [
    "Phono3py.Props.C100_upper_end",
    "Phono3py.Props.C100_given",
    "Phono3py.Props.C100_number",
    "Phono3py.Props.C100_step_partial",
    "Phono3py.Props.C100_step_short"
   ],
   "note": "Complete for a number of points. With a step the last point may lie below the highest two-phonon frequency: C100_step_short."
  },
  {
   "property": "C101",
   "status": "proved",
   "theorems": [
    "Phono3py.Props.C101_strain",
    "Phono3py.Props.C101_lowest_at_gamma"
   ],
   "note": "Exact in the amplitude because the change of the force constants is linear; dipole-dipole (Gonze) corrections are not included in the Lean statement, the Wang term is. C101_lowest_at_gamma records the convention at the zone centre."
  },
  {
   "property": "C102",
   "status": "proved",
   "theorems": [
    "Phono3py.Props.C102_relaxed",
    "Phono3py.Props.C102_equilibrium",
    "Phono3py.Props.C102_clamped"
   ],
   "note": "C102_relaxed gives the forces left when the total force does not vanish. Eigenvalues and eigenvectors are those of any correct symmetric eigensolver; the first three are taken as acoustic, as in the code."
  },
  {
   "property": "C103",
   "status": "proved",
   "theorems": [
    "Phono3py.Props.C103_shift",
    "Phono3py.Props.C103_phase",
    "Phono3py.Props.C103_reversal",
    "Phono3py.Props.C103_degenerate",
    "Phono3py.Props.C103_not_unique"
   ],
   "note": "C103_not_unique shows by example that single parameters of degenerate modes do depend on the eigenvectors."
  },
  {
   "property": "C104",
   "status": "partial",
   "theorems": [
    "Phono3py.Props.C104_mesh",
    "Phono3py.Props.C104_band",
    "Phono3py.Props.C104_points_partial",
    "Phono3py.Props.C104_stale_multiplicity",
    "Phono3py.Props.C104_stale_results",
    "Phono3py.Props.C104_not_run"
   ],
   "note": "Partial because wave vectors set after a mesh are written with the multiplicities of the mesh or fail (C104_stale_multiplicity), and results of an earlier run are written with wave vectors set later (C104_stale_results)."
  },
  {
   "property": "C105",
   "status": "proved",
   "theorems": [
    "Phono3py.Props.C105_root",
    "Phono3py.Props.C105_root_gamma",
    "Phono3py.Props.C105_root_hermitian",
    "Phono3py.Props.C105_root_unique",
    "Phono3py.Props.C105_hermitian",
    "Phono3py.Props.C105_constant",
    "Phono3py.Props.C105_formula",
    "Phono3py.Props.C105_difference",
    "Phono3py.Props.C105_group_velocity",
    "Phono3py.Props.C105_choice",
    "Phono3py.Props.C105_reversal",
    "Phono3py.Props.C105_products",
    "Phono3py.Props.C105_pair_order",
    "Phono3py.Props.C105_contribution",
    "Phono3py.Props.C105_tensor_symmetry",
    "Phono3py.Props.C105_nonneg"
   ],
   "note": "Exact arithmetic; eigh and the complex square root are parameters constrained by their specification. C105_root/_root_unique: the matrix built is the (unique) root; C105_formula, C105_difference, C105_group_velocity, C105_choice, C105_reversal for the operator; C105_products, C105_pair_order, C105_contribution, C105_tensor_symmetry, C105_nonneg for the products of wigner.py."
  },
  {
   "property": "C106",
   "status": "partial",
   "theorems": [
    "Phono3py.Props.C106_zone_boundary",
    "Phono3py.Props.C106_formula",
    "Phono3py.Props.C106_diagonal",
    "Phono3py.Props.C106_hermitian",
    "Phono3py.Props.C106_symmetrized_hermitian",
    "Phono3py.Props.C106_symmetrized_partial",
    "Phono3py.Props.C106_invariant",
    "Phono3py.Props.C106_interband_erased",
    "Phono3py.Props.C106_little_group",
    "Phono3py.Props.C106_all_at_gamma",
    "Phono3py.Props.C106_phase",
    "Phono3py.Props.C106_square_nonneg"
   ],
   "note": "Partial: the site-symmetry average rotates elements between different bands as plain vectors, so where inversion leaves q unchanged all interband elements are erased (C106_interband_erased, C106_all_at_gamma), and site symmetries that hold up to a reciprocal lattice vector are not found (C106_zone_boundary). C106_symmetrized_partial: matrices invariant as vectors are kept."
  },
  {
   "property": "C107",
   "status": "partial",
   "theorems": [
    "Phono3py.Props.C107_formula",
    "Phono3py.Props.C107_symmetric_partial",
    "Phono3py.Props.C107_positive",
    "Phono3py.Props.C107_diagonal",
    "Phono3py.Props.C107_asymmetric",
    "Phono3py.Props.C107_limit"
   ],
   "note": "Partial: below the cutoff the element uses the first frequency only, so the matrix is not symmetric there (C107_asymmetric); C107_symmetric_partial holds for pairs farther apart than the cutoff and for equal frequencies. C107_limit is over the reals with Mathlib's exp."
  },
  {
   "property": "C108",
   "status": "proved",
   "theorems": [
    "Phono3py.Props.C108_weights",
    "Phono3py.Props.C108_rta",
    "Phono3py.Props.C108_heat_capacity"
   ],
   "note": "C108_rta: equality with kappaRTA of Model/Conductivity; C108_weights; C108_heat_capacity over the reals."
  },
  {
   "property": "C109",
   "status": "partial",
   "theorems": [
    "Phono3py.Props.C109_matrix_irreducible",
    "Phono3py.Props.C109_matrix_reducible",
    "Phono3py.Props.C109_irreducible",
    "Phono3py.Props.C109_reducible",
    "Phono3py.Props.C109_layouts_partial",
    "Phono3py.Props.C109_degenerate_differ"
   ],
   "note": "C109_layouts_partial: equal conductivities without degenerate bands, for the prepared matrices of both layouts and any solvers with eigenvalues; C109_irreducible and C109_reducible: both are the conductivity of the full mesh. Missing: degenerate bands, where the claim is false (C109_degenerate_differ)."
  },
  {
   "property": "C110",
   "status": "proved",
   "theorems": [
    "Phono3py.Props.C110_symmetric",
    "Phono3py.Props.C110_positive_reducible",
    "Phono3py.Props.C110_positive_irreducible"
   ],
   "note": "C110_symmetric for any Y; C110_positive_* under the condition on kept eigenvalues."
  },
  {
   "property": "C111",
   "status": "proved",
   "theorems": [
    "Phono3py.Props.C111_select",
    "Phono3py.Props.C111_select_default",
    "Phono3py.Props.C111_select_lapacke",
    "Phono3py.Props.C111_eigen",
    "Phono3py.Props.C111_pinv",
    "Phono3py.Props.C111_solves"
   ],
   "note": "C111_eigen for the solvers with eigenvalues, C111_pinv for solver 7, C111_select for the selection."
  },
  {
   "property": "C112",
   "status": "proved",
   "theorems": [
    "Phono3py.Props.C112_mean_free_path",
    "Phono3py.Props.C112_rta"
   ],
   "note": "C112_mean_free_path for modes with heat capacity above the threshold; C112_rta."
  },
  {
   "property": "C113",
   "status": "partial",
   "theorems": [
    "Phono3py.Props.C113_total_partial",
    "Phono3py.Props.C113_asymmetric"
   ],
   "note": "C113_total_partial assumes the products are diagonalised correctly, which needs them symmetric; C113_asymmetric shows failure otherwise."
  },
  {
   "property": "C114",
   "status": "partial",
   "theorems": [
    "Phono3py.Props.C114_evaluate_partial",
    "Phono3py.Props.C114_zero",
    "Phono3py.Props.C114_second"
   ],
   "note": "C114_evaluate_partial and C114_zero: an evaluation depends on the collision matrix alone. Missing: repeated evaluation gives the same result, which is false (C114_second)."
  },
  {
   "property": "C115",
   "status": "proved",
   "theorems": [
    "Phono3py.Props.C115_same_lattice",
    "Phono3py.Props.C115_niggli"
   ],
   "note": "Exact arithmetic in any ordered field. Convergence within 100 rounds is not claimed. The layer option (aperiodic axis), not used by phono3py, is left out."
  },
  {
   "property": "C116",
   "status": "proved",
   "theorems": [
    "Phono3py.Props.C116_reduced_basis",
    "Phono3py.Props.C116_gridsys",
    "Phono3py.Props.C116_gridsys_failure",
    "Phono3py.Props.C116_gridsys_small_cell",
    "Phono3py.Props.C116_unreduced_misses"
   ],
   "note": "C116_reduced_basis is for any basis Minkowski reduced within eps, 100 eps at most the shortest squared length; C116_gridsys asks that no reciprocal lattice vector be shorter than sqrt(1/1000). C116_gridsys_small_cell and C116_unreduced_misses are the negative cases."
  },
  {
   "property": "C117",
   "status": "proved",
   "theorems": [
    "Phono3py.Props.C117_python"
   ],
   "note": "get_reduced_bases of phonopy is a parameter of which only the stated hypotheses are used; that its output is Minkowski reduced is a hypothesis of the last part."
  },
  {
   "property": "C118",
   "status": "proved",
   "theorems": [
    "Phono3py.Props.C118_mesh_ignored",
    "Phono3py.Props.C118_microzone",
    "Phono3py.Props.C118_qpoints",
    "Phono3py.Props.C118_user_matrix"
   ],
   "note": "Assumes positive mesh numbers (any matrix that is not diagonal gives them: C118_user_matrix). length2mesh, estimate_supercell_matrix, is_primitive_cell and get_reduced_bases are parameters. C118_mesh_ignored: mesh arguments that are silently replaced by 1x1x1."
  },
  {
   "property": "C119",
   "status": "proved",
   "theorems": [
    "Phono3py.Props.C119_failure_iff",
    "Phono3py.Props.C119_closed",
    "Phono3py.Props.C119_rotations"
   ],
   "note": "Mesh numbers below 100000, where the rounding test is exact, and at most 48 (24) different rotations, as any point group has; above that C refuses and the list of operations is empty."
  },
  {
   "property": "C120",
   "status": "proved",
   "theorems": [
    "Phono3py.Props.C120_lookup",
    "Phono3py.Props.C120_gamma"
   ],
   "note": "For the unshifted grid the zone centre is exact, not only up to a reciprocal lattice vector."
  },
  {
   "property": "C121",
   "status": "proved",
   "theorems": [
    "Phono3py.Props.C121_length",
    "Phono3py.Props.C121_length_close",
    "Phono3py.Props.C121_standard_lattice",
    "Phono3py.Props.C121_given_matrix",
    "Phono3py.Props.C121_inverse_not_tested"
   ],
   "note": "length2mesh and estimate_supercell_matrix are parameters. C121_standard_lattice: a consistent standardised lattice is accepted. C121_given_matrix: a given grid matrix is accepted iff its determinant is positive and is stored as it is. C121_inverse_not_tested: the integrality test of the mock dataset does not test."
  },
  {
   "property": "C122",
   "status": "partial",
   "theorems": [
    "Phono3py.Props.C122_supercells_partial",
    "Phono3py.Props.C122_reading",
    "Phono3py.Props.C122_failed_assignment",
    "Phono3py.Props.C122_old_masses",
    "Phono3py.Props.C122_phonon_refused"
   ],
   "note": "Proved for all histories in which assigned displacements have the shape of the supercell: positions of the cells, also for fc2, and when reading raises. Missing because false: assignments of another shape, masses of cached cells, refused dataset for fc2 (general negations)."
  },
  {
   "property": "C123",
   "status": "partial",
   "theorems": [
    "Phono3py.Props.C123_forces_partial",
    "Phono3py.Props.C123_mlp",
    "Phono3py.Props.C123_kept_forces",
    "Phono3py.Props.C123_type1",
    "Phono3py.Props.C123_mixed"
   ],
   "note": "Proved for all histories in which forces are not kept by the displacements setter (KeepsPairing) and arrays have the shape of the supercell: forces held with displacements were given for exactly those. C123_type1: in a type-1 dataset forces are assigned in order to the displaced supercells, and the setter raises iff there are too few. Missing because false: C123_kept_forces, C123_mixed."
  },
  {
   "property": "C124",
   "status": "partial",
   "theorems": [
    "Phono3py.Props.C124_grid",
    "Phono3py.Props.C124_current_partial",
    "Phono3py.Props.C124_old_fc3",
    "Phono3py.Props.C124_old_fc2",
    "Phono3py.Props.C124_old_bands",
    "Phono3py.Props.C124_mixed_masses"
   ],
   "note": "Grid and smearing widths: all histories. Everything else: all histories after the last initialisation that leave force constants, masses and band indices alone. Missing because false: the setters of these (general negations)."
  },
  {
   "property": "C125",
   "status": "partial",
   "theorems": [
    "Phono3py.Props.C125_fc3_partial",
    "Phono3py.Props.C125_old_fc2",
    "Phono3py.Props.C125_fc2",
    "Phono3py.Props.C125_wrong_cell",
    "Phono3py.Props.C125_blocked"
   ],
   "note": "fc3 and, without an earlier fc2, fc2 come from the current dataset. Missing because false: an earlier fc2 stays, wrong cell, blocked after a refusal."
  },
  {
   "property": "C126",
   "status": "proved",
   "theorems": [
    "Phono3py.Props.C126_matrix",
    "Phono3py.Props.C126_eigenvector"
   ],
   "note": "Dynamical matrix of the Wang variant or without correction, wave vector given without a direction at Gamma; the Gonze-Lee variant is not covered."
  },
  {
   "property": "C127",
   "status": "proved",
   "theorems": [
    "Phono3py.Props.C127_rotated"
   ],
   "note": "Grid without shift, matrices as in C126, no direction at Gamma; the irreducible points, permutations and translations of the crystal are arguments, with the hypothesis that every permutation belongs to its operation. SurfaceSeparated excludes grids on which the tolerance of the search decides which translates are stored."
  },
  {
   "property": "C128",
   "status": "proved",
   "theorems": [
    "Phono3py.Props.C128_choice",
    "Phono3py.Props.C128_rotated",
    "Phono3py.Props.C128_reversed",
    "Phono3py.Props.C128_exchanged"
   ],
   "note": "No hypothesis on eigenvectors beyond being a complete orthonormal set for the dynamical matrix. Symmetry of the force constants is a hypothesis (IsFc3Symmetry), as is that shortest vectors join lattice positions; with the non-analytical term the images must not need reciprocal lattice vectors (the Wang matrix is not periodic, C87)."
  },
  {
   "property": "C129",
   "status": "proved",
   "theorems": [
    "Phono3py.Props.C129_equivalent",
    "Phono3py.Props.C129_sum",
    "Phono3py.Props.C129_smearing",
    "Phono3py.Props.C129_linewidth"
   ],
   "note": "Smearing variant, all bands of the grid point, no non-analytical term. C129_sum holds for any weight that is a function of the three frequencies; tetrahedron weights are not (they depend on neighbouring points), so the tetrahedron variant is outside. Frequencies in ascending order at each grid point."
  },
  {
   "property": "C130",
   "status": "partial",
   "theorems": [
    "Phono3py.Props.C130_languages_partial",
    "Phono3py.Props.C130_compact_raises",
    "Phono3py.Props.C130_stale_flags",
    "Phono3py.Props.C130_constant",
    "Phono3py.Props.C130_phase_dropped",
    "Phono3py.Props.C130_general_grid"
   ],
   "note": "Equality proved for full fc3, Q = 1, no symmetrisation, no r0 average and triplets whose phase is kept (C130_languages_partial). The full claim is false of the code: C130_phase_dropped, C130_general_grid, C130_compact_raises, C130_stale_flags. The witnesses over the rationals use a table of exp(2 pi i x) that is right at half-integers (halfPhase_real); other arguments only occur in terms with zero force constants."
  },
  {
   "property": "C131",
   "status": "proved",
   "theorems": [
    "Phono3py.Props.C131_reducible",
    "Phono3py.Props.C131_irreducible"
   ],
   "note": "Both languages give the same array for the triplets the code makes. Hypotheses: cutoff frequency not negative, 1/sinh computed with the same constants in both languages."
  },
  {
   "property": "C132",
   "status": "partial",
   "theorems": [
    "Phono3py.Props.C132_bands_partial",
    "Phono3py.Props.C132_points_partial",
    "Phono3py.Props.C132_zero_temperature"
   ],
   "note": "Proved for positive temperatures, and at 0 K if strengths of modes not above the cutoff vanish. The full claim is false at 0 K (C132_zero_temperature)."
  },
  {
   "property": "C133",
   "status": "partial",
   "theorems": [
    "Phono3py.Props.C133_weights_partial",
    "Phono3py.Props.C133_cutoff_ignored"
   ],
   "note": "Proved for entries that are not flagged. The full claim is false: C133_cutoff_ignored."
  },
  {
   "property": "C134",
   "status": "proved",
   "theorems": [
    "Phono3py.Props.C134_temperature",
    "Phono3py.Props.C134_none",
    "Phono3py.Props.C134_pairs",
    "Phono3py.Props.C134_smearing",
    "Phono3py.Props.C134_symmetry"
   ],
   "note": "Values for both languages, with and without temperature; independence of mesh symmetry for smearing, without the non-analytical term correction. The tetrahedron method enters through the weights g only (C22, C23)."
  },
  {
   "property": "C135",
   "status": "partial",
   "theorems": [
    "Phono3py.Props.C135_round_trip_partial",
    "Phono3py.Props.C135_again",
    "Phono3py.Props.C135_generated",
    "Phono3py.Props.C135_summary",
    "Phono3py.Props.C135_included_lost",
    "Phono3py.Props.C135_zero_forces_used",
    "Phono3py.Props.C135_unordered",
    "Phono3py.Props.C135_no_pairs"
   ],
   "note": "Partial because the code violates the claim: a file with forces holds no marks of inclusion (C135_included_lost), so that after loading the zero forces of supercells beyond the cutoff, which were never calculated, are used (C135_zero_forces_used). Everything else comes back for datasets whose second atoms are in increasing order (C135_round_trip_partial, C135_again), which generated ones are (C135_generated). Second atoms in another order are reordered or rejected (C135_unordered); a first atom without pairs cannot be loaded (C135_no_pairs). The text of the YAML is not modelled."
  },
  {
   "property": "C136",
   "status": "partial",
   "theorems": [
    "Phono3py.Props.C136_priority_partial",
    "Phono3py.Props.C136_hdf5_first",
    "Phono3py.Props.C136_yaml_first",
    "Phono3py.Props.C136_sequence_raises",
    "Phono3py.Props.C136_fc2",
    "Phono3py.Props.C136_phonon_forces"
   ],
   "note": "Partial because the code deviates: fc3.hdf5 in the directory wins over forces_fc3_filename (C136_hdf5_first), forces in phono3py.yaml win over forces_fc3_filename (C136_yaml_first), and the documented pair of names raises (C136_sequence_raises). Otherwise the order is as documented (C136_priority_partial) and fc2 is as documented (C136_fc2)."
  },
  {
   "property": "C137",
   "status": "partial",
   "theorems": [
    "Phono3py.Props.C137_runs_keep_partial",
    "Phono3py.Props.C137_first_run",
    "Phono3py.Props.C137_cutoffs_accumulate",
    "Phono3py.Props.C137_original_lost",
    "Phono3py.Props.C137_interrupted"
   ],
   "note": "Partial because the code rewrites fc3.hdf5 in every run: without --cutoff-fc3 any number of runs keeps the files (C137_runs_keep_partial, C137_first_run); with it the stored fc3 is truncated for good (C137_cutoffs_accumulate, C137_original_lost), and an interrupted run destroys it (C137_interrupted)."
  },
  {
   "property": "C138",
   "status": "partial",
   "theorems": [
    "Phono3py.Props.C138_skip_raises",
    "Phono3py.Props.C138_read_keeps",
    "Phono3py.Props.C138_read_untouched",
    "Phono3py.Props.C138_makes_partial",
    "Phono3py.Props.C138_no_fc3",
    "Phono3py.Props.C138_fc3",
    "Phono3py.Props.C138_own_supercell"
   ],
   "note": "Partial because without fc3 and without --fc2 the command always fails (C138_skip_raises, a local variable that is not assigned). Otherwise force constants are made (C138_makes_partial, for one supercell and forces of type 2) or read (C138_read_keeps), and files that are read are untouched at any point (C138_read_untouched)."
  },
  {
   "property": "C139",
   "status": "partial",
   "theorems": [
    "Phono3py.Props.C139_cutoff_smaller",
    "Phono3py.Props.C139_pairs_partial",
    "Phono3py.Props.C139_marks_first",
    "Phono3py.Props.C139_marks_witness",
    "Phono3py.Props.C139_marks_survive"
   ],
   "note": "Partial because pairs with inclusion marks ignore the option (C139_marks_first, C139_marks_witness), and the displacements that phono3py makes with a cutoff have such marks (C139_marks_survive). Without marks the claim holds (C139_cutoff_smaller, C139_pairs_partial)."
  },
  {
   "property": "C140",
   "status": "proved",
   "theorems": [
    "Phono3py.Props.C140_symmetric_nonneg",
    "Phono3py.Props.C140_modes",
    "Phono3py.Props.C140_inverse",
    "Phono3py.Props.C140_translations",
    "Phono3py.Props.C140_unique",
    "Phono3py.Props.C140_covariance",
    "Phono3py.Props.C140_density"
   ],
   "note": "eigh is external: its result is any set of eigenvalues and orthonormal eigenvectors."
  },
  {
   "property": "C141",
   "status": "partial",
   "theorems": [
    "Phono3py.Props.C141_harmonic_fc2",
    "Phono3py.Props.C141_harmonic_fc3",
    "Phono3py.Props.C141_harmonic_zero_partial",
    "Phono3py.Props.C141_spurious_fc3",
    "Phono3py.Props.C141_third_index_differs",
    "Phono3py.Props.C141_cubic_fc3",
    "Phono3py.Props.C141_symmetry",
    "Phono3py.Props.C141_third_index_sum",
    "Phono3py.Props.C141_first_index_sum"
   ],
   "note": "Partial because the code violates the claims: harmonic forces give spurious third-order force constants if the sample has a mean displacement (C141_spurious_fc3), and the result is not symmetric in its third index (C141_third_index_differs). pinv is any matrix with the Penrose properties."
  },
  {
   "property": "C142",
   "status": "partial",
   "theorems": [
    "Phono3py.Props.C142_restored_partial",
    "Phono3py.Props.C142_failure",
    "Phono3py.Props.C142_zero_temperature",
    "Phono3py.Props.C142_low_temperature",
    "Phono3py.Props.C142_succeeds",
    "Phono3py.Props.C142_run_zero"
   ],
   "note": "Partial because the code violates the claim: a failing call leaves numpy raising on every floating-point error (C142_failure, C142_zero_temperature)."
  },
  {
   "property": "C143",
   "status": "partial",
   "theorems": [
    "Phono3py.Props.C143_full",
    "Phono3py.Props.C143_pieces_one",
    "Phono3py.Props.C143_one_partial",
    "Phono3py.Props.C143_pieces_raise",
    "Phono3py.Props.C143_flag",
    "Phono3py.Props.C143_all",
    "Phono3py.Props.C143_documented"
   ],
   "note": "Partial because the code violates the claim. Proved for one index: whole files, or pieces made at a single temperature (C143_one_partial). Violations: pieces made at several temperatures (C143_pieces_one, C143_pieces_raise, C143_documented), several indices of whole files get the linewidths of the first (C143_full), read_collision=True (C143_flag). C143_all shows that \"all\" is the case of C55. Negative indices and h5py errors on repeated indices are not modelled beyond raising. At the level of a whole run the numbers read are computed again and overwritten (C158_not_used)."
  },
  {
   "property": "C144",
   "status": "partial",
   "theorems": [
    "Phono3py.Props.C144_says_partial",
    "Phono3py.Props.C144_option_preferred_partial",
    "Phono3py.Props.C144_tag_ignored",
    "Phono3py.Props.C144_unit_conversion_ignored",
    "Phono3py.Props.C144_v2_reversed",
    "Phono3py.Props.C144_conductivity"
   ],
   "note": "Partial because the code violates the claim for four rows: the tags N_U and WRITE_LBTE_SOLUTION (C144_tag_ignored), the option --pp-unit-conversion (C144_unit_conversion_ignored) and --v2 (C144_v2_reversed). For all other rows the full claim is proved (C144_says_partial, C144_option_preferred_partial); --wigner and --kubo, which share a setting, in C144_conductivity. Left out: --thm and --gm, whose settings are shared with phonopy's base class. Assumed: ConfParser.read_file of phonopy stores tags in lower case, as documented (tags are case insensitive), and its other methods leave phono3py's keys and settings alone (BaseApart)."
  },
  {
   "property": "C145",
   "status": "partial",
   "theorems": [
    "Phono3py.Props.C145_forces_fc3",
    "Phono3py.Props.C145_own_forces",
    "Phono3py.Props.C145_wrong_number",
    "Phono3py.Props.C145_accepted",
    "Phono3py.Props.C145_params",
    "Phono3py.Props.C145_params_cutoff",
    "Phono3py.Props.C145_forces_fc2_partial",
    "Phono3py.Props.C145_params_fc2_partial",
    "Phono3py.Props.C145_fc2_too_few",
    "Phono3py.Props.C145_fc2_too_many",
    "Phono3py.Props.C145_fc2_calculator_ignored",
    "Phono3py.Props.C145_old_forces",
    "Phono3py.Props.C145_params_energies",
    "Phono3py.Props.C145_type2_number",
    "Phono3py.Props.C145_fc2_calculator"
   ],
   "note": "Partial: proved for fc3 forces of single and pair displacements, by both routes, and for fc2 with the right number of files and the calculator repeated on the command line. The code breaks the rest: calculator of phono3py_disp.yaml ignored for fc2, number of fc2 files not checked and an incomplete file left behind, old forces rewritten and any number of files accepted for displacements of all atoms, energies required by --sp, phono3py_params.yaml unusable with a pair cutoff."
  },
  {
   "property": "C146",
   "status": "partial",
   "theorems": [
    "Phono3py.Props.C146_full_sum",
    "Phono3py.Props.C146_current_partial",
    "Phono3py.Props.C146_stale_weights",
    "Phono3py.Props.C146_stale_points",
    "Phono3py.Props.C146_stale_flags",
    "Phono3py.Props.C146_partial_strengths",
    "Phono3py.Props.C146_shared",
    "Phono3py.Props.C146_stale_value",
    "Phono3py.Props.C146_needs_weights",
    "Phono3py.Props.C146_skipping"
   ],
   "note": "Full claim fails: C146_stale_weights, C146_stale_points, C146_stale_flags, C146_partial_strengths, C146_shared, C146_stale_value are proved negations. Proved: with weights computed after the last change of the settings, the result belongs to them."
  },
  {
   "property": "C147",
   "status": "proved",
   "theorems": [
    "Phono3py.Props.C147_averages_back",
    "Phono3py.Props.C147_constant_average",
    "Phono3py.Props.C147_constant_as_averages",
    "Phono3py.Props.C147_averages_missing",
    "Phono3py.Props.C147_collision_skipping",
    "Phono3py.Props.C147_gamma",
    "Phono3py.Props.C147_run",
    "Phono3py.Props.C147_file",
    "Phono3py.Props.C147_file_refused",
    "Phono3py.Props.C147_averages",
    "Phono3py.Props.C147_lbte",
    "Phono3py.Props.C147_lbte_file",
    "Phono3py.Props.C147_lbte_file_same",
    "Phono3py.Props.C147_constant"
   ],
   "note": ""
  },
  {
   "property": "C148",
   "status": "partial",
   "theorems": [
    "Phono3py.Props.C148_values",
    "Phono3py.Props.C148_fails",
    "Phono3py.Props.C148_at_bands",
    "Phono3py.Props.C148_single_partial",
    "Phono3py.Props.C148_at_points"
   ],
   "note": "Values are right (C148_values); the claim on contributions of triplets fails (C148_fails, C148_at_bands) except for one smearing width and one temperature (C148_single_partial) and in files for sampled frequencies (C148_at_points)."
  },
  {
   "property": "C149",
   "status": "proved",
   "theorems": [
    "Phono3py.Props.C149_generated",
    "Phono3py.Props.C149_delta",
    "Phono3py.Props.C149_get_fc3",
    "Phono3py.Props.C149_small_displacements",
    "Phono3py.Props.C149_length_matters"
   ],
   "note": "Full array, no pair cutoff. Contracts of numpy and phonopy (solve_force_constants as least-squares fit over turned rows, distribute_force_constants, get_displacement, is_minus_displacement, pinv, get_fc2) are the fields of ToolsSound; that they hold for phonopy is trusted. C149_small_displacements and C149_length_matters show that the condition on the length is needed."
  },
  {
   "property": "C150",
   "status": "partial",
   "theorems": [
    "Phono3py.Props.C150_total_partial",
    "Phono3py.Props.C150_parts_partial",
    "Phono3py.Props.C150_routes_partial",
    "Phono3py.Props.C150_zero_width"
   ],
   "note": "Without symmetrisation in reciprocal space and with a width other than 0.0 both routes agree for totals, parts, all widths and temperatures. With symmetrisation the default route reads uninitialised memory (C68_symmetrized_uninitialised); for the width 0.0 the routes use different methods (C150_zero_width)."
  },
  {
   "property": "C151",
   "status": "proved",
   "theorems": [
    "Phono3py.Props.C151_rows",
    "Phono3py.Props.C151_code",
    "Phono3py.Props.C151_run",
    "Phono3py.Props.C151_last_only",
    "Phono3py.Props.C151_initialize_raises",
    "Phono3py.Props.C151_initialize_old_grid",
    "Phono3py.Props.C151_setter_old_grid",
    "Phono3py.Props.C151_same_mesh",
    "Phono3py.Props.C151_direction_kept"
   ],
   "note": "For one mesh. General counterparts for a changed mesh and for direct use of JointDos are proved as failures. Frequency points as a function of the phonons are a parameter (C54 treats their values); the weights and sums are those of C23, C24 and C134 for the code (C151_code)."
  },
  {
   "property": "C152",
   "status": "partial",
   "theorems": [
    "Phono3py.Props.C152_units",
    "Phono3py.Props.C152_coherences_difference",
    "Phono3py.Props.C152_coherences",
    "Phono3py.Props.C152_coherences_again",
    "Phono3py.Props.C152_squares",
    "Phono3py.Props.C152_populations_partial",
    "Phono3py.Props.C152_totals",
    "Phono3py.Props.C152_parts",
    "Phono3py.Props.C152_degenerate_differ"
   ],
   "note": "Partial: populations agree for bands that are not degenerate only (C152_degenerate_differ), total attributes stay zero (C152_totals), pairs exactly at the tolerance are lost (C152_coherences_difference)."
  },
  {
   "property": "C153",
   "status": "partial",
   "theorems": [
    "Phono3py.Props.C153_values",
    "Phono3py.Props.C153_temperatures",
    "Phono3py.Props.C153_selected_partial",
    "Phono3py.Props.C153_files_kept",
    "Phono3py.Props.C153_written_then_read",
    "Phono3py.Props.C153_read_and_write",
    "Phono3py.Props.C153_raised_only",
    "Phono3py.Props.C153_message",
    "Phono3py.Props.C153_spectral_raises",
    "Phono3py.Props.C153_conductivity",
    "Phono3py.Props.C153_isotope_status",
    "Phono3py.Props.C153_isotope_values",
    "Phono3py.Props.C153_gruneisen_factor",
    "Phono3py.Props.C153_displacements"
   ],
   "note": "Proved for every single choice of calculation. Partial because the code departs from it: isotope scattering takes neither the default cutoff frequency nor the direction, Grueneisen parameters not the conversion factor, reading and writing phonons together destroys them, and the spectral function raises instead of giving a message; each departure is a theorem. Not modelled: runs with machine-learning potentials and the memory estimate; reading structures, non-analytical parameters and force constants is assumed to succeed (C113-C118, C144, C145 treat them)."
  },
  {
   "property": "C154",
   "status": "partial",
   "theorems": [
    "Phono3py.Props.C154_kappa",
    "Phono3py.Props.C154_scalar_partial",
    "Phono3py.Props.C154_dos",
    "Phono3py.Props.C154_temperature",
    "Phono3py.Props.C154_temperature_missing",
    "Phono3py.Props.C154_scalar_raises",
    "Phono3py.Props.C154_gv_mfp_raises",
    "Phono3py.Props.C154_no_mode_kappa",
    "Phono3py.Props.C154_no_gridsym_raises",
    "Phono3py.Props.C154_mfp_longer"
   ],
   "note": "Full claim false of the code: --pqj, --gruneisen and --gv-norm fail for every file (C154_scalar_raises), --gv --mfp with several temperatures (C154_gv_mfp_raises), --no-gridsym on phonon files with surface points (C154_no_gridsym_raises), files without mode_kappa (C154_no_mode_kappa); mean free paths omit other scattering (C154_mfp_longer). Proved for conductivity against frequency and mean free path, linewidths, lifetimes, heat capacities, density of states, and the selection of a temperature. Not modelled: --smearing, number formatting, reading of the crystal structure."
  },
  {
   "property": "C155",
   "status": "partial",
   "theorems": [
    "Phono3py.Props.C155_choice",
    "Phono3py.Props.C155_symmetry_partial",
    "Phono3py.Props.C155_translate",
    "Phono3py.Props.C155_single_mode",
    "Phono3py.Props.C155_degenerate_modes"
   ],
   "note": "Proved for sums over modes with smearing (choice of eigenvectors, symmetry, translates) and for single non-degenerate modes; the claim for single degenerate modes is refuted by C155_degenerate_modes. The tetrahedron method is not covered: its weights of degenerate partner bands may differ."
  },
  {
   "property": "C156",
   "status": "partial",
   "theorems": [
    "Phono3py.Props.C156_calculators",
    "Phono3py.Props.C156_options",
    "Phono3py.Props.C156_cutoff",
    "Phono3py.Props.C156_no_cutoff",
    "Phono3py.Props.C156_unknown_shifts",
    "Phono3py.Props.C156_unknown_ignored",
    "Phono3py.Props.C156_dict_shared",
    "Phono3py.Props.C156_dict_stale",
    "Phono3py.Props.C156_load_fc3",
    "Phono3py.Props.C156_load_fc2_partial",
    "Phono3py.Props.C156_fc2_from_fc3",
    "Phono3py.Props.C156_fc2_renamed",
    "Phono3py.Props.C156_load_succeeds"
   ],
   "note": "Proved in full: calculators, options and cutoff reach the order they are written for, and fc3 of phono3py-load. Partial for fc2 of phono3py-load: with random displacements and a built-in calculator for one order only the claim is false (C156_fc2_from_fc3, C156_fc2_renamed). A cutoff of zero, and texts with more than one bar, are not covered."
  },
  {
   "property": "C157",
   "status": "partial",
   "theorems": [
    "Phono3py.Props.C157_resume_partial",
    "Phono3py.Props.C157_done",
    "Phono3py.Props.C157_other_temperatures",
    "Phono3py.Props.C157_old_summary",
    "Phono3py.Props.C157_kubo",
    "Phono3py.Props.C157_isotope_bands",
    "Phono3py.Props.C157_part_no_kappa",
    "Phono3py.Props.C157_reread_bands",
    "Phono3py.Props.C157_one_temperature"
   ],
   "note": "C157_resume_partial: the result of a reading run after any history of partial and killed runs is that of a computing run if the files cover the mesh, else False; C157_done: completed runs cover the mesh. Partial because the code violates the rest: C157_other_temperatures, C157_one_temperature, C157_old_summary, C157_kubo, C157_isotope_bands, C157_reread_bands; C157_part_no_kappa: part runs have no conductivity. Trusted: h5py refuses compression of scalar datasets; a kill inside the writing of one file is not modelled."
  },
  {
   "property": "C158",
   "status": "partial",
   "theorems": [
    "Phono3py.Props.C158_resume_partial",
    "Phono3py.Props.C158_last_sigma",
    "Phono3py.Props.C158_not_used",
    "Phono3py.Props.C158_done",
    "Phono3py.Props.C158_part_solution",
    "Phono3py.Props.C158_isotope_first",
    "Phono3py.Props.C158_one_temperature"
   ],
   "note": "Resuming gives the result of one run (C158_resume_partial, C158_done), but not because the stored data are used: C158_not_used shows that any numbers in the files give the same result. C158_part_solution, C158_isotope_first and C158_one_temperature are further violations."
  },
  {
   "property": "C159",
   "status": "partial",
   "theorems": [
    "Phono3py.Props.C159_full_symmetric",
    "Phono3py.Props.C159_full_unchanged",
    "Phono3py.Props.C159_roundtrip_partial",
    "Phono3py.Props.C159_compact_sum",
    "Phono3py.Props.C159_compact_one",
    "Phono3py.Props.C159_any_lead"
   ],
   "note": "Proved for full arrays; refuted for compact arrays (C159_compact_sum, C159_compact_one with a symmetric witness). phonopy's check_force_constants_indices is a parameter."
  },
  {
   "property": "C160",
   "status": "partial",
   "theorems": [
    "Phono3py.Props.C160_full",
    "Phono3py.Props.C160_compact_partial",
    "Phono3py.Props.C160_first_exchanged",
    "Phono3py.Props.C160_first_symmetric",
    "Phono3py.Props.C160_first_invented",
    "Phono3py.Props.C160_first_missed",
    "Phono3py.Props.C160_first_letters"
   ],
   "note": "Proved for full arrays and for the second and third index of compact arrays; the first index is proved up to the order of letters without half translations or for symmetric force constants, and refuted otherwise. Printing to six decimals is not modelled."
  },
  {
   "property": "C161",
   "status": "partial",
   "theorems": [
    "Phono3py.Props.C161_fc3",
    "Phono3py.Props.C161_nothing",
    "Phono3py.Props.C161_fc2_partial",
    "Phono3py.Props.C161_auto",
    "Phono3py.Props.C161_yaml_matrix",
    "Phono3py.Props.C161_no_matrix",
    "Phono3py.Props.C161_default_distance"
   ],
   "note": "Proved for fc3, and for fc2 with --dim-fc2 (or a number for --rd-fc2) except auto; the other cases are refuted. Generators, estimates, writers and cell construction are parameters; the magnitude of maximum distances and NAC parameters are left out."
  },
  {
   "property": "C162",
   "status": "partial",
   "theorems": [
    "Phono3py.Props.C162_fc3",
    "Phono3py.Props.C162_collected",
    "Phono3py.Props.C162_fc2_partial",
    "Phono3py.Props.C162_matrix",
    "Phono3py.Props.C162_readable",
    "Phono3py.Props.C162_short_file",
    "Phono3py.Props.C162_old_forces",
    "Phono3py.Props.C162_fs2f2",
    "Phono3py.Props.C162_fs2f2_all_atoms"
   ],
   "note": "Proved: FORCE_SETS holds what phono3py reads for the single displacements, after --cf3 the forces of their own files; FORCES_FC2 likewise; round trip of --fs2f2; matrix check. Partial because a short file with forces in the yaml file is not an error (C162_old_forces). phonopy reader and writer of FORCE_SETS are modelled by the values read back."
  },
  {
   "property": "C163",
   "status": "partial",
   "theorems": [
    "Phono3py.Props.C163_both_partial",
    "Phono3py.Props.C163_fc2_only",
    "Phono3py.Props.C163_fc3_only_partial",
    "Phono3py.Props.C163_taken_for_fc2",
    "Phono3py.Props.C163_file_ignored",
    "Phono3py.Props.C163_old_key",
    "Phono3py.Props.C163_old_key_lost",
    "Phono3py.Props.C163_fc2_pairs"
   ],
   "note": "Proved for the combinations named; partial because displacements of all atoms for fc3 are read for fc2 as well when there is a matrix but no dataset for fc2 (C163_taken_for_fc2, C163_file_ignored). _get_dataset and _displacements_yaml_lines_2types of phonopy are modelled by what they read and write."
  },
  {
   "property": "C164",
   "status": "partial",
   "theorems": [
    "Phono3py.Props.C164_history_partial",
    "Phono3py.Props.C164_runs",
    "Phono3py.Props.C164_conductivity",
    "Phono3py.Props.C164_new_matrix",
    "Phono3py.Props.C164_new_direction"
   ],
   "note": "Histories of one crystal are proved; the full claim fails after a change of dynamical matrix or direction (C164_new_matrix, C164_new_direction). The harmonic solver and the strength are parameters here (C52, C39, C155)."
  },
  {
   "property": "C165",
   "status": "partial",
   "theorems": [
    "Phono3py.Props.C165_saved_partial",
    "Phono3py.Props.C165_trained",
    "Phono3py.Props.C165_one_potential",
    "Phono3py.Props.C165_force_constants_partial",
    "Phono3py.Props.C165_forces_pairs",
    "Phono3py.Props.C165_forces_all",
    "Phono3py.Props.C165_displacements_only",
    "Phono3py.Props.C165_backup",
    "Phono3py.Props.C165_compressed",
    "Phono3py.Props.C165_no_fc2",
    "Phono3py.Props.C165_left_over",
    "Phono3py.Props.C165_load"
   ],
   "note": "Proved for directories in which the names that begin with polymlp.yaml are accepted ones, without left-over force constants and without a supercell for fc2; the other cases are refuted. phonopy's and pypolymlp's training and evaluation are parameters; a potential that is written is read back."
  },
  {
   "property": "C166",
   "status": "proved",
   "theorems": [
    "Phono3py.Props.C166_total",
    "Phono3py.Props.C166_flags",
    "Phono3py.Props.C166_average",
    "Phono3py.Props.C166_symmetric"
   ],
   "note": "The lists of shortest vectors come from phonopy and are specified, not modelled; the tolerance of the lists and of the comparison is the same number. Exact arithmetic."
  },
  {
   "property": "C167",
   "status": "partial",
   "theorems": [
    "Phono3py.Props.C167_fourier",
    "Phono3py.Props.C167_same",
    "Phono3py.Props.C167_symmetric_partial",
    "Phono3py.Props.C167_depends"
   ],
   "note": "Proved at wave vectors that fit into the supercell. At other wave vectors the strength without the average depends on which phonon is taken for the first: C167_depends has a row of two atoms, all hypotheses met, with strengths 4 and 1 for two orders of the same three phonons."
  },
  {
   "property": "C168",
   "status": "partial",
   "theorems": [
    "Phono3py.Props.C168_last",
    "Phono3py.Props.C168_single_partial",
    "Phono3py.Props.C168_wrong",
    "Phono3py.Props.C168_averages_fail",
    "Phono3py.Props.C168_read_gamma",
    "Phono3py.Props.C168_read_gamma_bands",
    "Phono3py.Props.C168_skipping",
    "Phono3py.Props.C168_sum"
   ],
   "note": "Proved for every run that computes linewidths: all files of a grid point hold the contributions of the LAST smearing width (C168_last); with one width every file is right (C168_single_partial); with several the files of other widths are wrong (C168_wrong). Sums give the linewidths with and without the option (C168_sum) for the routines of the code (C168_skipping). With averaged strengths the run raises AttributeError on a fresh object (C168_averages_fail); with linewidths read from files the files have no contributions (C168_read_gamma) or writing raises for selected bands (C168_read_gamma_bands). Names of files are keys here; C47 says when names differ."
  },
  {
   "property": "C169",
   "status": "partial",
   "theorems": [
    "Phono3py.Props.C169_written",
    "Phono3py.Props.C169_round_partial",
    "Phono3py.Props.C169_missing",
    "Phono3py.Props.C169_bands",
    "Phono3py.Props.C169_erased",
    "Phono3py.Props.C169_averages_written",
    "Phono3py.Props.C169_bands_wrong"
   ],
   "note": "Partial because a file of another selection of bands is accepted: C169_bands, C169_bands_wrong. C169_written gives the contents of the directory after every run, C169_round_partial the linewidths of every later run at the last width, C169_missing that it stops without a file. C169_erased and C169_averages_written: runs that write files without strengths."
  },
  {
   "property": "C170",
   "status": "proved",
   "theorems": [
    "Phono3py.Props.C170_steps",
    "Phono3py.Props.C170_ends",
    "Phono3py.Props.C170_run",
    "Phono3py.Props.C170_not_begun",
    "Phono3py.Props.C170_batches"
   ],
   "note": "Given that the shifts exist (frequency points from zero, equally spaced: C97) and a positive batch size (C29). C170_steps, C170_run and C170_ends cover all histories: begun again from any state the arrays are made anew."
  },
  {
   "property": "C171",
   "status": "partial",
   "theorems": [
    "Phono3py.Props.C171_files_partial",
    "Phono3py.Props.C171_first_dropped",
    "Phono3py.Props.C171_later_fails",
    "Phono3py.Props.C171_at_bands_fails",
    "Phono3py.Props.C171_setter"
   ],
   "note": "C171_files_partial gives the exact list of files and parts of the array for widths that are numbers and sampled frequencies. The full claim fails: a first None beside others is dropped (C171_first_dropped), a later None fails only when text is written (C171_later_fails), text files at band frequencies fail (C171_at_bands_fails), other kinds of numbers are dropped by the setter (C171_setter). The numerical values are those of C93-C96, a parameter here; names of files that agree after rounding are not modelled."
  },
  {
   "property": "C172",
   "status": "partial",
   "theorems": [
    "Phono3py.Props.C172_round_trip_partial",
    "Phono3py.Props.C172_written_iff",
    "Phono3py.Props.C172_empty_unreadable",
    "Phono3py.Props.C172_included_leaks"
   ],
   "note": "C172_round_trip_partial needs second atoms in increasing order and marks on all or none of them; C172_written_iff shows the order is needed, C172_included_leaks that a mark leaks to later atoms, C172_empty_unreadable that empty groups are not read. Ids and duplicates are not read back by the code. disp_fc2.yaml and the cell are not modelled."
  },
  {
   "property": "C173",
   "status": "proved",
   "theorems": [
    "Phono3py.Props.C173_expand",
    "Phono3py.Props.C173_symmetrize",
    "Phono3py.Props.C173_symmetrize_loops"
   ],
   "note": "Exact arithmetic. The order of OpenMP iterations of the C function is treated in C36. The Python loops over all pairs (_py_symmetrize_collision_matrix) are not called by the code."
  },
  {
   "property": "C174",
   "status": "partial",
   "theorems": [
    "Phono3py.Props.C174_without_surface_partial",
    "Phono3py.Props.C174_equivalent_points",
    "Phono3py.Props.C174_one_to_one",
    "Phono3py.Props.C174_python_surface",
    "Phono3py.Props.C174_python_is_c",
    "Phono3py.Props.C174_python_failure_iff",
    "Phono3py.Props.C174_shift_ignored"
   ],
   "note": "Partial: holds on grids without shift. _get_grid_points_by_rotations (and the Python variant with surface) multiplies the rotation by the integer address and forgets PS, so on a grid with a shift that is not a mesh translation inversion never gives an equivalent point (C174_shift_ignored, for every such grid and point). The C variant takes the shift into account."
  },
  {
   "property": "C175",
   "status": "partial",
   "theorems": [
    "Phono3py.Props.C175_tetrahedron_partial",
    "Phono3py.Props.C175_smearing_partial",
    "Phono3py.Props.C175_cutoff_ignored",
    "Phono3py.Props.C175_unique_points",
    "Phono3py.Props.C175_solved_is_enough",
    "Phono3py.Props.C175_imaginary_differs"
   ],
   "note": "Partial: with the tetrahedron method equality needs real frequencies, because C replaces negative ones by zero and Python does not (C175_imaginary_differs); with smearing it needs sigma_cutoff=None, because Python ignores the cutoff (C175_cutoff_ignored). Frequencies at equivalent points are assumed equal, and phonopy's tetrahedron engine is assumed to compute the same weight as the C function. The collected grid points and their sufficiency are proved in full."
  },
  {
   "property": "C176",
   "status": "partial",
   "theorems": [
    "Phono3py.Props.C176_given_points_partial",
    "Phono3py.Props.C176_automatic",
    "Phono3py.Props.C176_given_automatic",
    "Phono3py.Props.C176_all_points",
    "Phono3py.Props.C176_file",
    "Phono3py.Props.C176_given_no_star"
   ],
   "note": "Partial: for given points without k-stars the weights are the sizes of the stars, not one (C176_given_no_star); everything else is proved. Negative point numbers are taken as errors. The q-points and lattices in the yaml file are left out."
  },
  {
   "property": "C177",
   "status": "partial",
   "theorems": [
    "Phono3py.Props.C177_distribute_partial",
    "Phono3py.Props.C177_compact_fails",
    "Phono3py.Props.C177_solve",
    "Phono3py.Props.C177_solve_exact"
   ],
   "note": "Partial: distribution is proved equal for full arrays; for compact arrays the Python branch fails (C177_compact_fails). The solution is equal for orthogonal rotations. Inverses by numpy are taken as exact."
  },
  {
   "property": "C178",
   "status": "partial",
   "theorems": [
    "Phono3py.Props.C178_reduced_symmetry",
    "Phono3py.Props.C178_reduced_group",
    "Phono3py.Props.C178_bond_symmetry_partial",
    "Phono3py.Props.C178_bond_group",
    "Phono3py.Props.C178_pair_symmetry",
    "Phono3py.Props.C178_same_functions",
    "Phono3py.Props.C178_not_a_group"
   ],
   "note": "Partial: exactness and the group property of the bond symmetry need a tolerance that separates positions that are kept from those that are not; C178_not_a_group is a case where it does not. For directions of integers nothing is assumed but a tolerance up to one. The rounding of numpy is any function that keeps integers."
  },
  {
   "property": "C179",
   "status": "proved",
   "theorems": [
    "Phono3py.Props.C179_cells",
    "Phono3py.Props.C179_primitive",
    "Phono3py.Props.C179_checked",
    "Phono3py.Props.C179_own_file",
    "Phono3py.Props.C179_unit_not_checked",
    "Phono3py.Props.C179_names"
   ],
   "note": "Building supercells, comparing cells and atoms of primitive cells are done in phonopy and are parameters; that they do not depend on the unit of length is a hypothesis of C179_own_file and C179_unit_not_checked only. How collect_cell_info chooses the calculator is not modelled."
  },
  {
   "property": "C180",
   "status": "partial",
   "theorems": [
    "Phono3py.Props.C180_datasets",
    "Phono3py.Props.C180_mean_free_path",
    "Phono3py.Props.C180_recalculate",
    "Phono3py.Props.C180_documented_partial",
    "Phono3py.Props.C180_documented_fails",
    "Phono3py.Props.C180_total"
   ],
   "note": "Partial: the formula of the documentation holds without isotope and boundary scattering only; C180_recalculate is the formula with all linewidths, for all runs. The number of points sampled being the sum of weights is a hypothesis of C180_total; it is C78_total. Runs for selected bands write other shapes (C157) and are not in C180_recalculate."
  },
  {
   "property": "C181",
   "status": "partial",
   "theorems": [
    "Phono3py.Props.C181_phonons",
    "Phono3py.Props.C181_collision_partial",
    "Phono3py.Props.C181_selected_bands",
    "Phono3py.Props.C181_reducible",
    "Phono3py.Props.C181_grid"
   ],
   "note": "Partial: for the full collision matrix the figure is right for all bands without --reducible-colmat (C181_collision_partial); C181_selected_bands, C181_reducible and C181_grid say how figures and arrays differ otherwise. Rounding on the screen and the figure for phonon properties are not modelled."
  }
 ]
}