Phono3py.Props.C01_index_roundtrip [propext, Classical.choice, Quot.sound]
Phono3py.Props.C01_address_roundtrip [propext, Classical.choice, Quot.sound]
Phono3py.Props.C01_address_table [propext, Classical.choice, Quot.sound]
Phono3py.Props.C02_index_in_range [propext, Classical.choice, Quot.sound]
Phono3py.Props.C02_same_index_iff [propext, Classical.choice, Quot.sound]
Phono3py.Props.C02_python_agrees [propext, Classical.choice, Quot.sound]
Phono3py.Props.C03_rotation_spec [propext, Classical.choice, Quot.sound]
Phono3py.Props.C03_rotation_comp [propext, Classical.choice, Quot.sound]
Phono3py.Props.C03_rotation_bijective [propext, Classical.choice, Quot.sound]
Phono3py.Props.C03_shift_check_sound [propext, Classical.choice, Quot.sound]
Phono3py.Props.C03_shift_condition_needed [propext]
Phono3py.Props.C04_ir_map_is_smallest [propext, Classical.choice, Quot.sound]
Phono3py.Props.C04_ir_map_classes [propext, Classical.choice, Quot.sound]
Phono3py.Props.C04_ir_map_idempotent [propext, Classical.choice, Quot.sound]
Phono3py.Props.C05_weights_sum [propext, Classical.choice, Quot.sound]
Phono3py.Props.C05_ir_points_and_weights [propext, Classical.choice, Quot.sound]
Phono3py.Props.C05_num_ir [propext, Classical.choice, Quot.sound]
Phono3py.Props.C06_members [propext, Quot.sound]
Phono3py.Props.C06_failure_iff [propext, Classical.choice, Quot.sound]
Phono3py.Props.C06_group [propext, Quot.sound]
Phono3py.Props.C07_within_tolerance [propext, Classical.choice, Quot.sound]
Phono3py.Props.C07_exact [propext, Classical.choice, Quot.sound]
Phono3py.Props.C07_failure_iff [propext, Classical.choice, Quot.sound]
Phono3py.Props.C07_mesh_compatible [propext, Classical.choice, Quot.sound]
Phono3py.Props.C07_products [propext, Classical.choice, Quot.sound]
Phono3py.Props.C07_group [propext, Classical.choice, Quot.sound]
Phono3py.Props.C07_grid_object [propext, Classical.choice, Quot.sound]
Phono3py.Props.C08_sound [propext, Classical.choice, Quot.sound]
Phono3py.Props.C08_singular [propext]
Phono3py.Props.C08_no_division_by_zero [propext, Classical.choice, Quot.sound]
Phono3py.Props.C08_succeeds [propext, Classical.choice, Quot.sound]
Phono3py.Props.C08_extended_gcd [propext, Classical.choice, Quot.sound]
Phono3py.Props.C08_second_divides_third [propext, Classical.choice, Quot.sound]
Phono3py.Props.C08_not_always_smith [propext]
Phono3py.Props.C09_translate [propext, Classical.choice, Quot.sound]
Phono3py.Props.C09_failure_iff [propext, Classical.choice, Quot.sound]
Phono3py.Props.C10_dense_map [propext, Classical.choice, Quot.sound]
Phono3py.Props.C11_sparse_map [propext, Classical.choice, Quot.sound]
Phono3py.Props.C12_layouts_agree [propext, Classical.choice, Quot.sound]
Phono3py.Props.C12_same_failure [propext, Classical.choice, Quot.sound]
Phono3py.Props.C13_stored_are_near [propext, Classical.choice, Quot.sound]
Phono3py.Props.C13_nearest_are_stored [propext, Classical.choice, Quot.sound]
Phono3py.Props.C13_distinct [propext, Classical.choice, Quot.sound]
Phono3py.Props.C14_rotation_found_partial [propext, Classical.choice, Quot.sound]
Phono3py.Props.C14_dense_equivalent_partial [propext, Classical.choice, Quot.sound]
Phono3py.Props.C14_sparse_fallback_wrong [propext, Classical.choice, Quot.sound]
Phono3py.Props.C14_rotation_exact [propext, Classical.choice, Quot.sound]
Phono3py.Props.C15_momentum_partial [propext, Classical.choice, Quot.sound]
Phono3py.Props.C15_sparse_surface_point [propext, Classical.choice, Quot.sound]
Phono3py.Props.C16_succeeds [propext, Classical.choice, Quot.sound]
Phono3py.Props.C16_weights [propext, Classical.choice, Quot.sound]
Phono3py.Props.C16_nosym [propext, Classical.choice, Quot.sound]
Phono3py.Props.C17_classes [propext, Classical.choice, Quot.sound]
Phono3py.Props.C17_number [propext, Classical.choice, Quot.sound]
Phono3py.Props.C18_no_umklapp_partial [propext, Classical.choice, Quot.sound]
Phono3py.Props.C18_computed_distance_partial [propext, Classical.choice, Quot.sound]
Phono3py.Props.C18_not_shortest [propext, Classical.choice, Quot.sound]
Phono3py.Props.C19_shape [propext, Classical.choice, Quot.sound]
Phono3py.Props.C19_recentre [propext, Classical.choice, Quot.sound]
Phono3py.Props.C19_cover [propext, Classical.choice, Quot.sound]
Phono3py.Props.C19_disjoint [propext, Classical.choice, Quot.sound]
Phono3py.Props.C19_diagonal [propext, Classical.choice, Quot.sound]
Phono3py.Props.C20_sort [propext, Classical.choice, Quot.sound]
Phono3py.Props.C21_nonneg [propext, Classical.choice, Quot.sound]
Phono3py.Props.C21_shares_complete [propext, Classical.choice, Quot.sound]
Phono3py.Props.C21_bounds [propext, Classical.choice, Quot.sound]
Phono3py.Props.C21_monotone_partial [propext, Classical.choice, Quot.sound]
Phono3py.Props.C21_not_monotone [propext, Classical.choice, Quot.sound]
Phono3py.Props.C21_threshold_loss [propext, Classical.choice, Quot.sound]
Phono3py.Props.C21_exact [propext, Classical.choice, Quot.sound]
Phono3py.Props.C21_exact_total [propext, Classical.choice, Quot.sound]
Phono3py.Props.C21_full [propext, Classical.choice, Quot.sound]
Phono3py.Props.C22_derivative [propext, Classical.choice, Quot.sound]
Phono3py.Props.C22_limit_partial [propext, Classical.choice, Quot.sound]
Phono3py.Props.C22_zero_at_vertices [propext, Classical.choice, Quot.sound]
Phono3py.Props.C22_not_continuous [propext, Classical.choice, Quot.sound]
Phono3py.Props.C23_outside [propext, Classical.choice, Quot.sound]
Phono3py.Props.C23_range_test [propext, Classical.choice, Quot.sound]
Phono3py.Props.C23_weights [propext, Classical.choice, Quot.sound]
Phono3py.Props.C23_any_schedule [propext, Classical.choice, Quot.sound]
Phono3py.Props.C24_flag [propext, Classical.choice, Quot.sound]
Phono3py.Props.C24_no_cutoff [propext, Classical.choice, Quot.sound]
Phono3py.Props.C24_any_schedule [propext, Classical.choice, Quot.sound]
Phono3py.Props.C25_full_sum [propext, Classical.choice, Quot.sound]
Phono3py.Props.C25_full_sum_at_frequency [propext, Classical.choice, Quot.sound]
Phono3py.Props.C25_tetrahedron [propext, Classical.choice, Quot.sound]
Phono3py.Props.C25_smearing [propext, Classical.choice, Quot.sound]
Phono3py.Props.C26_partition [propext, Classical.choice, Quot.sound]
Phono3py.Props.C26_total [propext, Classical.choice, Quot.sound]
Phono3py.Props.C27_entry [propext, Classical.choice, Quot.sound]
Phono3py.Props.C27_total [propext, Classical.choice, Quot.sound]
Phono3py.Props.C28_value [propext, Classical.choice, Quot.sound]
Phono3py.Props.C28_equal [propext, Classical.choice, Quot.sound]
Phono3py.Props.C28_idempotent [propext, Classical.choice, Quot.sound]
Phono3py.Props.C28_unchanged [propext, Classical.choice, Quot.sound]
Phono3py.Props.C28_sum [propext, Classical.choice, Quot.sound]
Phono3py.Props.C28_linear [propext, Classical.choice, Quot.sound]
Phono3py.Props.C28_nonneg [propext, Classical.choice, Quot.sound]
Phono3py.Props.C29_batches [propext, Classical.choice, Quot.sound]
Phono3py.Props.C29_negative_size [propext, Classical.choice, Quot.sound]
Phono3py.Props.C29_each_point [propext, Classical.choice, Quot.sound]
Phono3py.Props.C29_tetrahedron [propext, Classical.choice, Quot.sound]
Phono3py.Props.C29_smearing [propext, Classical.choice, Quot.sound]
Phono3py.Props.C30_group_average [propext, Quot.sound]
Phono3py.Props.C31_value [propext, Classical.choice, Quot.sound]
Phono3py.Props.C31_frame [propext, Classical.choice, Quot.sound]
Phono3py.Props.C31_any_order [propext, Classical.choice, Quot.sound]
Phono3py.Props.C31_disjoint [propext, Classical.choice, Quot.sound]
Phono3py.Props.C31_symmetric [propext, Classical.choice, Quot.sound]
Phono3py.Props.C31_unchanged [propext, Classical.choice, Quot.sound]
Phono3py.Props.C31_idempotent [propext, Classical.choice, Quot.sound]
Phono3py.Props.C31_compact_value [propext, Classical.choice, Quot.sound]
Phono3py.Props.C31_compact_symmetric [propext, Classical.choice, Quot.sound]
Phono3py.Props.C31_compact_unchanged [propext, Classical.choice, Quot.sound]
Phono3py.Props.C31_compact_full [propext, Classical.choice, Quot.sound]
Phono3py.Props.C31_python [propext, Classical.choice, Quot.sound]
Phono3py.Props.C32_type2 [propext, Classical.choice, Quot.sound]
Phono3py.Props.C32_types01_partial [propext, Classical.choice, Quot.sound]
Phono3py.Props.C32_odd [propext, Classical.choice, Quot.sound]
Phono3py.Props.C32_half_translation_skipped [propext, Classical.choice, Quot.sound]
Phono3py.Props.C32_not_transposed [propext, Classical.choice, Quot.sound]
Phono3py.Props.C32_involution [propext, Classical.choice, Quot.sound]
Phono3py.Props.C33_value [propext, Classical.choice, Quot.sound]
Phono3py.Props.C33_sum_vanishes [propext, Classical.choice, Quot.sound]
Phono3py.Props.C33_unchanged [propext, Classical.choice, Quot.sound]
Phono3py.Props.C33_all_sums_vanish [propext, Classical.choice, Quot.sound]
Phono3py.Props.C33_compact_second_third [propext, Classical.choice, Quot.sound]
Phono3py.Props.C33_compact_partial [propext, Classical.choice, Quot.sound]
Phono3py.Props.C33_compact_drift_left [propext, Classical.choice, Quot.sound]
Phono3py.Props.C34_value [propext, Classical.choice, Quot.sound]
Phono3py.Props.C34_other_rows [propext, Classical.choice, Quot.sound]
Phono3py.Props.C34_choice [propext, Quot.sound]
Phono3py.Props.C34_succeeds_iff [propext, Classical.choice, Quot.sound]
Phono3py.Props.C34_restores [propext, Classical.choice, Quot.sound]
Phono3py.Props.C34_full [propext, Classical.choice, Quot.sound]
Phono3py.Props.C34_compact [propext, Classical.choice, Quot.sound]
Phono3py.Props.C35_value [propext, Classical.choice, Quot.sound]
Phono3py.Props.C35_symmetric [propext, Classical.choice, Quot.sound]
Phono3py.Props.C35_diagonal [propext, Classical.choice, Quot.sound]
Phono3py.Props.C35_outside [propext, Classical.choice, Quot.sound]
Phono3py.Props.C35_fixed [propext, Classical.choice, Quot.sound]
Phono3py.Props.C35_idempotent [propext, Classical.choice, Quot.sound]
Phono3py.Props.C35_schedule [propext, Classical.choice, Quot.sound]
Phono3py.Props.C36_value [propext, Classical.choice, Quot.sound]
Phono3py.Props.C36_rotated [propext, Classical.choice, Quot.sound]
Phono3py.Props.C36_invariant [propext, Classical.choice, Quot.sound]
Phono3py.Props.C36_restores [propext, Classical.choice, Quot.sound]
Phono3py.Props.C36_row_sum [propext, Classical.choice, Quot.sound]
Phono3py.Props.C36_untouched [propext, Classical.choice, Quot.sound]
Phono3py.Props.C36_schedule [propext, Classical.choice, Quot.sound]
Phono3py.Props.C36_local [propext, Classical.choice, Quot.sound]
Phono3py.Props.C36_velocity [propext, Classical.choice, Quot.sound]
Phono3py.Props.C36_grid [propext, Classical.choice, Quot.sound]
Phono3py.Props.C37_value [propext, Classical.choice, Quot.sound]
Phono3py.Props.C37_outside [propext, Classical.choice, Quot.sound]
Phono3py.Props.C37_schedule [propext, Classical.choice, Quot.sound]
Phono3py.Props.C37_penrose [propext, Classical.choice, Quot.sound]
Phono3py.Props.C37_null_space [propext, Classical.choice, Quot.sound]
Phono3py.Props.C37_inverse [propext, Classical.choice, Quot.sound]
Phono3py.Props.C37_modes [propext, Classical.choice, Quot.sound]
Phono3py.Props.C37_python [propext, Classical.choice, Quot.sound]
Phono3py.Props.C38_lookup [propext, Classical.choice, Quot.sound]
Phono3py.Props.C38_python [propext, Classical.choice, Quot.sound]
Phono3py.Props.C39_value [propext, Classical.choice, Quot.sound]
Phono3py.Props.C39_outside [propext, Quot.sound]
Phono3py.Props.C39_value_tetrahedron [propext, Classical.choice, Quot.sound]
Phono3py.Props.C39_nonneg [propext, Classical.choice, Quot.sound]
Phono3py.Props.C39_nonneg_tetrahedron [propext, Classical.choice, Quot.sound]
Phono3py.Props.C39_below_cutoff [propext, Classical.choice, Quot.sound]
Phono3py.Props.C39_partners_below_cutoff [propext, Classical.choice, Quot.sound]
Phono3py.Props.C39_no_variance [propext, Classical.choice, Quot.sound]
Phono3py.Props.C39_phase [propext, Classical.choice, Quot.sound]
Phono3py.Props.C39_degenerate [propext, Classical.choice, Quot.sound]
Phono3py.Props.C39_python_value [propext, Classical.choice, Quot.sound]
Phono3py.Props.C39_python_smearing [propext, Classical.choice, Quot.sound]
Phono3py.Props.C39_python_tetrahedron [propext, Classical.choice, Quot.sound]
Phono3py.Props.C39_mass_variance_nonneg [propext, Classical.choice, Quot.sound]
Phono3py.Props.C39_mass_variance_zero [propext, Classical.choice, Quot.sound]
Phono3py.Props.C39_mass_variance_moments [propext, Classical.choice, Quot.sound]
Phono3py.Props.C39_mass_variances [propext, Quot.sound]
Phono3py.Props.C39_python_band_index [propext, Classical.choice, Quot.sound]
Phono3py.Props.C39_python_cutoff [propext, Classical.choice, Quot.sound]
Phono3py.Props.C40_value [propext, Classical.choice, Quot.sound]
Phono3py.Props.C40_nonneg [propext, Classical.choice, Quot.sound]
Phono3py.Props.C40_symmetrized_nonneg [propext, Classical.choice, Quot.sound]
Phono3py.Props.C40_cutoff [propext, Classical.choice, Quot.sound]
Phono3py.Props.C41_order [propext, Quot.sound]
Phono3py.Props.C41_stop [propext, Quot.sound]
Phono3py.Props.C41_stays_stopped [propext, Quot.sound]
Phono3py.Props.C41_results [propext, Quot.sound]
Phono3py.Props.C42_value [propext, Classical.choice, Quot.sound]
Phono3py.Props.C42_monotone [propext, Classical.choice, Quot.sound]
Phono3py.Props.C42_band_subset [propext, Quot.sound]
Phono3py.Props.C42_heat_capacity [propext, Quot.sound]
Phono3py.Props.C43_map [propext, Classical.choice, Quot.sound]
Phono3py.Props.C43_weights [propext, Quot.sound]
Phono3py.Props.C43_total [propext, Classical.choice, Quot.sound]
Phono3py.Props.C43_last [propext, Classical.choice, Quot.sound]
Phono3py.Props.C43_conductivity [propext, Classical.choice, Quot.sound]
Phono3py.Props.C43_bands [propext, Classical.choice, Quot.sound]
Phono3py.Props.C43_nonneg [propext, Classical.choice, Quot.sound]
Phono3py.Props.C43_start [propext, Classical.choice, Quot.sound]
Phono3py.Props.C43_monotone_partial [propext, Classical.choice, Quot.sound]
Phono3py.Props.C43_not_monotone [propext, Classical.choice, Quot.sound]
Phono3py.Props.C44_round_trip [propext, Classical.choice, Quot.sound]
Phono3py.Props.C44_mask [propext, Classical.choice, Quot.sound]
Phono3py.Props.C44_no_mask [propext, Quot.sound]
Phono3py.Props.C44_masked_not_stored [propext, Classical.choice, Quot.sound]
Phono3py.Props.C45_round_trip [propext, Classical.choice, Quot.sound]
Phono3py.Props.C45_truncated [propext, Classical.choice, Quot.sound]
Phono3py.Props.C45_missing_forces [propext, Quot.sound]
Phono3py.Props.C45_stored [propext, Classical.choice, Quot.sound]
Phono3py.Props.C46_round_trip [propext, Classical.choice, Quot.sound]
Phono3py.Props.C46_short_file_partial [propext, Classical.choice, Quot.sound]
Phono3py.Props.C46_reader_silent [propext, Classical.choice, Quot.sound]
Phono3py.Props.C47_distinct_partial [propext, Classical.choice, Quot.sound]
Phono3py.Props.C47_mesh_collision [propext, Classical.choice, Quot.sound]
Phono3py.Props.C47_sigma_collision [propext, Classical.choice, Quot.sound]
Phono3py.Props.C47_cutoff_ignored [propext, Classical.choice, Quot.sound]
Phono3py.Props.C48_ids [propext, Quot.sound]
Phono3py.Props.C48_requested [propext, Quot.sound]
Phono3py.Props.C48_supercells [propext, Quot.sound]
Phono3py.Props.C48_files [propext, Quot.sound]
Phono3py.Props.C48_total [propext, Classical.choice, Quot.sound]
Phono3py.Props.C49_rows_partial [propext, Quot.sound]
Phono3py.Props.C49_no_forces_partial [propext, Classical.choice, Quot.sound]
Phono3py.Props.C49_some_forces [propext, Classical.choice, Quot.sound]
Phono3py.Props.C49_same_atom [propext, Classical.choice, Quot.sound]
Phono3py.Props.C49_getter_partial [propext, Quot.sound]
Phono3py.Props.C49_getter_drops_first [propext, Classical.choice, Quot.sound]
Phono3py.Props.C50_assign_partial [propext, Classical.choice, Quot.sound]
Phono3py.Props.C50_round_trip [propext, Classical.choice, Quot.sound]
Phono3py.Props.C50_extra_ignored [propext, Classical.choice, Quot.sound]
Phono3py.Props.C50_too_few [propext, Classical.choice, Quot.sound]
Phono3py.Props.C50_phonon_round_trip [propext, Classical.choice, Quot.sound]
Phono3py.Props.C50_phonon_short [propext, Classical.choice, Quot.sound]
Phono3py.Props.C50_type2 [propext, Classical.choice, Quot.sound]
Phono3py.Props.C50_type2_unchecked none
Phono3py.Props.C51_gamma [propext, Classical.choice, Quot.sound]
Phono3py.Props.C51_history_partial [propext, Classical.choice, Quot.sound]
Phono3py.Props.C51_init [propext, Classical.choice, Quot.sound]
Phono3py.Props.C51_start [propext, Classical.choice, Quot.sound]
Phono3py.Props.C51_vector [propext]
Phono3py.Props.C51_silent_direction [propext]
Phono3py.Props.C51_wang_direction [propext]
Phono3py.Props.C51_refused_plain [propext]
Phono3py.Props.C51_refused_restored [propext]
Phono3py.Props.C51_no_symmetry [propext]
Phono3py.Props.C51_stale_gamma [propext]
Phono3py.Props.C52_request [propext, Classical.choice, Quot.sound]
Phono3py.Props.C52_first_request [propext, Classical.choice, Quot.sound]
Phono3py.Props.C52_collected [propext, Quot.sound]
Phono3py.Props.C53_refused_partial [propext, Classical.choice, Quot.sound]
Phono3py.Props.C53_same_grid [propext, Classical.choice, Quot.sound]
Phono3py.Props.C53_other_grid_accepted [propext]
Phono3py.Props.C54_first_only [propext, Classical.choice, Quot.sound]
Phono3py.Props.C54_single_partial [propext, Classical.choice, Quot.sound]
Phono3py.Props.C54_names [propext, Classical.choice, Quot.sound]
Phono3py.Props.C54_second_missing [propext, Classical.choice, Quot.sound]
Phono3py.Props.C55_read [propext, Classical.choice, Quot.sound]
Phono3py.Props.C55_matrix [propext, Classical.choice, Quot.sound]
Phono3py.Props.C55_linewidths_partial [propext, Classical.choice, Quot.sound]
Phono3py.Props.C55_linewidths_first [propext, Classical.choice, Quot.sound]
Phono3py.Props.C55_missing [propext, Classical.choice, Quot.sound]
Phono3py.Props.C55_written [propext, Classical.choice, Quot.sound]
Phono3py.Props.C55_wrong [propext, Classical.choice, Quot.sound]
Phono3py.Props.C56_read [propext, Classical.choice, Quot.sound]
Phono3py.Props.C56_no_parts [propext, Classical.choice, Quot.sound]
Phono3py.Props.C56_written [propext, Classical.choice, Quot.sound]
Phono3py.Props.C56_round_trip_partial [propext, Classical.choice, Quot.sound]
Phono3py.Props.C56_point_present [propext, Classical.choice, Quot.sound]
Phono3py.Props.C56_band_present [propext, Classical.choice, Quot.sound]
Phono3py.Props.C56_all_points [propext, Classical.choice, Quot.sound]
Phono3py.Props.C56_missing_point [propext, Classical.choice, Quot.sound]
Phono3py.Props.C56_single_point [propext, Classical.choice, Quot.sound]
Phono3py.Props.C57_list [propext, Quot.sound]
Phono3py.Props.C57_scalar [propext, Quot.sound]
Phono3py.Props.C57_others_dropped [propext, Quot.sound]
Phono3py.Props.C58_failure [propext, Classical.choice, Quot.sound]
Phono3py.Props.C58_cover [propext, Classical.choice, Quot.sound]
Phono3py.Props.C58_one_partial [propext, Classical.choice, Quot.sound]
Phono3py.Props.C58_two_representatives [propext, Quot.sound]
Phono3py.Props.C59_at_most_125_partial [propext, Classical.choice, Quot.sound]
Phono3py.Props.C59_overflow [propext, Classical.choice, Quot.sound]
Phono3py.Props.C59_python_fits [propext, Classical.choice, Quot.sound]
Phono3py.Props.C59_overflow_grg [propext, Classical.choice, Quot.sound]
Phono3py.Props.C59_fits [propext, Classical.choice, Quot.sound]
Phono3py.Props.C61_value [propext, Classical.choice, Quot.sound]
Phono3py.Props.C61_mean_partial [propext, Classical.choice, Quot.sound]
Phono3py.Props.C61_permutation_partial [propext, Classical.choice, Quot.sound]
Phono3py.Props.C61_uninitialised_flag [propext, Classical.choice, Quot.sound]
Phono3py.Props.C61_uninitialised_bands [propext, Classical.choice, Quot.sound]
Phono3py.Props.C62_phase [propext, Classical.choice, Quot.sound]
Phono3py.Props.C62_degenerate [propext, Classical.choice, Quot.sound]
Phono3py.Props.C63_time_reversal [propext, Classical.choice, Quot.sound]
Phono3py.Props.C64_compact [propext, Classical.choice, Quot.sound]
Phono3py.Props.C65_r0_average [propext, Classical.choice, Quot.sound]
Phono3py.Props.C66_exchange [propext, Classical.choice, Quot.sound]
Phono3py.Props.C67_fourier [propext, Classical.choice, Quot.sound]
Phono3py.Props.C68_total_partial [propext, Classical.choice, Quot.sound]
Phono3py.Props.C68_normal_umklapp_partial [propext, Classical.choice, Quot.sound]
Phono3py.Props.C68_split_partial [propext, Classical.choice, Quot.sound]
Phono3py.Props.C68_tetrahedron_partial [propext, Classical.choice, Quot.sound]
Phono3py.Props.C68_smearing_partial [propext, Classical.choice, Quot.sound]
Phono3py.Props.C68_symmetrized_uninitialised [propext, Classical.choice, Quot.sound]
Phono3py.Props.C69_classes_at_bands [propext, Classical.choice, Quot.sound]
Phono3py.Props.C69_classes_at_frequencies [propext, Classical.choice, Quot.sound]
Phono3py.Props.C70_python [propext, Classical.choice, Quot.sound]
Phono3py.Props.C60_neighbor [propext, Classical.choice, Quot.sound]
Phono3py.Props.C60_dense_exact [propext, Classical.choice, Quot.sound]
Phono3py.Props.C60_sparse_exact_partial [propext, Classical.choice, Quot.sound]
Phono3py.Props.C60_vertices [propext, Classical.choice, Quot.sound]
Phono3py.Props.C60_momentum [propext, Classical.choice, Quot.sound]
Phono3py.Props.C60_sparse_other_image [propext, Classical.choice, Quot.sound]
Phono3py.Props.C71_value [propext, Classical.choice, Quot.sound]
Phono3py.Props.C71_symmetric [propext, Classical.choice, Quot.sound]
Phono3py.Props.C71_zero [propext, Classical.choice, Quot.sound]
Phono3py.Props.C71_exact [propext, Classical.choice, Quot.sound]
Phono3py.Props.C71_idempotent [propext, Classical.choice, Quot.sound]
Phono3py.Props.C71_all_done [propext, Classical.choice, Quot.sound]
Phono3py.Props.C72_full [propext, Classical.choice, Quot.sound]
Phono3py.Props.C72_compact [propext, Classical.choice, Quot.sound]
Phono3py.Props.C72_error_iff [propext, Quot.sound]
Phono3py.Props.C72_symmetric [propext, Classical.choice, Quot.sound]
Phono3py.Props.C73_solve [propext, Classical.choice, Quot.sound]
Phono3py.Props.C73_get_fc3_full [propext, Classical.choice, Quot.sound]
Phono3py.Props.C73_get_fc3_compact [propext, Classical.choice, Quot.sound]
Phono3py.Props.C74_pairs [propext, Quot.sound]
Phono3py.Props.C75_reducible [propext, Classical.choice, Quot.sound]
Phono3py.Props.C75_irreducible [propext, Classical.choice, Quot.sound]
Phono3py.Props.C75_nonneg [propext, Classical.choice, Quot.sound]
Phono3py.Props.C75_schedule [propext, Quot.sound]
Phono3py.Props.C75_schedule_irreducible [propext, Quot.sound]
Phono3py.Props.C75_memory [propext, Quot.sound]
Phono3py.Props.C76_value [propext, Classical.choice, Quot.sound]
Phono3py.Props.C76_constant_partial [propext, Classical.choice, Quot.sound]
Phono3py.Props.C76_block_sum [propext, Classical.choice, Quot.sound]
Phono3py.Props.C76_fixed [propext, Classical.choice, Quot.sound]
Phono3py.Props.C76_untouched [propext, Quot.sound]
Phono3py.Props.C76_reducible_columns [propext, Classical.choice, Quot.sound]
Phono3py.Props.C77_equivalent [propext, Classical.choice, Quot.sound]
Phono3py.Props.C77_solution [propext, Classical.choice, Quot.sound]
Phono3py.Props.C78_sampling_partial [propext, Classical.choice, Quot.sound]
Phono3py.Props.C78_sampling_general [propext, Classical.choice, Quot.sound]
Phono3py.Props.C78_counted_twice [propext, Classical.choice, Quot.sound]
Phono3py.Props.C78_multiplicity [propext, Classical.choice, Quot.sound]
Phono3py.Props.C78_total [propext, Classical.choice, Quot.sound]
Phono3py.Props.C79_repeat_partial [propext, Quot.sound]
Phono3py.Props.C79_ignored [propext, Classical.choice, Quot.sound]
Phono3py.Props.C79_ignored_twice [propext, Classical.choice, Quot.sound]
Phono3py.Props.C79_stale [propext, Quot.sound]
Phono3py.Props.C79_wigner_doubles [propext, Classical.choice, Quot.sound]
Phono3py.Props.C80_positive [propext, Classical.choice, Quot.sound]
Phono3py.Props.C80_antitone [propext, Classical.choice, Quot.sound]
Phono3py.Props.C80_zero_linewidth [propext, Quot.sound]
Phono3py.Props.C81_symmetric [propext, Classical.choice, Quot.sound]
Phono3py.Props.C82_full_mesh [propext, Classical.choice, Quot.sound]
Phono3py.Props.C83_populations [propext, Classical.choice, Quot.sound]
Phono3py.Props.C83_coherences [propext, Classical.choice, Quot.sound]
Phono3py.Props.C83_total [propext, Classical.choice, Quot.sound]
Phono3py.Props.C83_pair [propext, Classical.choice, Quot.sound]
Phono3py.Props.C83_order [propext, Classical.choice, Quot.sound]
Phono3py.Props.C83_rta [propext, Classical.choice, Quot.sound]
Phono3py.Props.C83_kubo_diagonal_partial [propext, Classical.choice, Quot.sound]
Phono3py.Props.C83_kubo_lost [propext, Quot.sound]
Phono3py.Props.C83_kubo_lost_example [propext, Classical.choice, Quot.sound]
Phono3py.Props.C84_sigma_ignored [propext, Quot.sound]
Phono3py.Props.C84_spectrum_partial [propext, Classical.choice, Quot.sound]
Phono3py.Props.C85_pairs [propext, Classical.choice, Quot.sound]
Phono3py.Props.C85_undisplaced_partial [propext, Classical.choice, Quot.sound]
Phono3py.Props.C85_not_undisplaced [propext, Classical.choice, Quot.sound]
Phono3py.Props.C86_hermitian [propext, Classical.choice, Quot.sound]
Phono3py.Props.C86_hermitian_gonze [propext, Classical.choice, Quot.sound]
Phono3py.Props.C86_formula [propext, Classical.choice, Quot.sound]
Phono3py.Props.C87_reversal [propext, Classical.choice, Quot.sound]
Phono3py.Props.C87_reversal_gonze [propext, Classical.choice, Quot.sound]
Phono3py.Props.C87_spectrum [propext, Classical.choice, Quot.sound]
Phono3py.Props.C87_spectrum_gonze [propext, Classical.choice, Quot.sound]
Phono3py.Props.C88_acoustic [propext, Classical.choice, Quot.sound]
Phono3py.Props.C88_acoustic_wang [propext, Classical.choice, Quot.sound]
Phono3py.Props.C88_acoustic_gonze_partial [propext, Classical.choice, Quot.sound]
Phono3py.Props.C88_gonze_not_acoustic [propext, Classical.choice, Quot.sound]
Phono3py.Props.C89_blocks [propext, Classical.choice, Quot.sound]
Phono3py.Props.C89_spectrum [propext, Classical.choice, Quot.sound]
Phono3py.Props.C90_direction [propext, Classical.choice, Quot.sound]
Phono3py.Props.C90_own_direction [propext, Quot.sound]
Phono3py.Props.C90_direction_gonze [propext, Classical.choice, Quot.sound]
Phono3py.Props.C91_frequency [propext, Classical.choice, Quot.sound]
Phono3py.Props.C92_compact [propext, Classical.choice, Quot.sound]
Phono3py.Props.C93_bands [propext, Classical.choice, Quot.sound]
Phono3py.Props.C93_frequency_point [propext, Classical.choice, Quot.sound]
Phono3py.Props.C93_languages_bands [propext, Classical.choice, Quot.sound]
Phono3py.Props.C93_languages_frequency_point [propext, Classical.choice, Quot.sound]
Phono3py.Props.C93_consistent [propext, Classical.choice, Quot.sound]
Phono3py.Props.C94_smearing [propext, Classical.choice, Quot.sound]
Phono3py.Props.C94_bounded [propext, Classical.choice, Quot.sound]
Phono3py.Props.C95_exchange [propext, Classical.choice, Quot.sound]
Phono3py.Props.C95_downwards [propext, Classical.choice, Quot.sound]
Phono3py.Props.C95_zero_occupation [propext, Classical.choice, Quot.sound]
Phono3py.Props.C96_frequency_points [propext, Classical.choice, Quot.sound]
Phono3py.Props.C96_bands [propext, Classical.choice, Quot.sound]
Phono3py.Props.C97_kramers_kronig_partial [propext, Classical.choice, Quot.sound]
Phono3py.Props.C97_shifts_partial [propext, Classical.choice, Quot.sound]
Phono3py.Props.C97_start [propext, Classical.choice, Quot.sound]
Phono3py.Props.C97_uniform [propext, Classical.choice, Quot.sound]
Phono3py.Props.C97_default_points [propext, Classical.choice, Quot.sound]
Phono3py.Props.C97_sign [propext, Classical.choice, Quot.sound]
Phono3py.Props.C97_zero_inverted [propext, Classical.choice, Quot.sound]
Phono3py.Props.C97_assertion [propext, Classical.choice, Quot.sound]
Phono3py.Props.C97_repeated [propext, Classical.choice, Quot.sound]
Phono3py.Props.C98_propagator [propext, Classical.choice, Quot.sound]
Phono3py.Props.C98_nonneg [propext, Classical.choice, Quot.sound]
Phono3py.Props.C98_bound [propext, Classical.choice, Quot.sound]
Phono3py.Props.C98_peak [propext, Classical.choice, Quot.sound]
Phono3py.Props.C98_no_linewidth [propext, Quot.sound]
Phono3py.Props.C98_array [propext, Classical.choice, Quot.sound]
Phono3py.Props.C99_one_group_partial [propext, Quot.sound]
Phono3py.Props.C99_text_partial [propext, Quot.sound]
Phono3py.Props.C99_last_group [propext, Quot.sound]
Phono3py.Props.C99_log_without_text [propext, Quot.sound]
Phono3py.Props.C99_name_ignored [propext, Classical.choice, Quot.sound]
Phono3py.Props.C99_deltas_names [propext, Classical.choice, Quot.sound]
Phono3py.Props.C100_upper_end [propext, Classical.choice, Quot.sound]
Phono3py.Props.C100_given [propext, Quot.sound]
Phono3py.Props.C100_number [propext, Classical.choice, Quot.sound]
Phono3py.Props.C100_step_partial [propext, Classical.choice, Quot.sound]
Phono3py.Props.C100_step_short [propext, Classical.choice, Quot.sound]
Phono3py.Props.C101_strain [propext, Classical.choice, Quot.sound]
Phono3py.Props.C101_lowest_at_gamma [propext, Quot.sound]
Phono3py.Props.C102_relaxed [propext, Classical.choice, Quot.sound]
Phono3py.Props.C102_equilibrium [propext, Classical.choice, Quot.sound]
Phono3py.Props.C102_clamped [propext, Classical.choice, Quot.sound]
Phono3py.Props.C103_shift [propext, Classical.choice, Quot.sound]
Phono3py.Props.C103_phase [propext, Classical.choice, Quot.sound]
Phono3py.Props.C103_reversal [propext, Classical.choice, Quot.sound]
Phono3py.Props.C103_degenerate [propext, Classical.choice, Quot.sound]
Phono3py.Props.C103_not_unique [propext, Classical.choice, Quot.sound]
Phono3py.Props.C104_mesh [propext, Quot.sound]
Phono3py.Props.C104_band [propext, Classical.choice, Quot.sound]
Phono3py.Props.C104_points_partial [propext, Quot.sound]
Phono3py.Props.C104_stale_multiplicity [propext, Quot.sound]
Phono3py.Props.C104_stale_results [propext, Quot.sound]
Phono3py.Props.C104_not_run [propext, Quot.sound]
Phono3py.Props.C105_root [propext, Classical.choice, Quot.sound]
Phono3py.Props.C105_root_gamma [propext, Classical.choice, Quot.sound]
Phono3py.Props.C105_root_hermitian [propext, Classical.choice, Quot.sound]
Phono3py.Props.C105_root_unique [propext, Classical.choice, Quot.sound]
Phono3py.Props.C105_hermitian [propext, Classical.choice, Quot.sound]
Phono3py.Props.C105_constant [propext, Classical.choice, Quot.sound]
Phono3py.Props.C105_formula [propext, Classical.choice, Quot.sound]
Phono3py.Props.C105_difference [propext, Classical.choice, Quot.sound]
Phono3py.Props.C105_group_velocity [propext, Classical.choice, Quot.sound]
Phono3py.Props.C105_choice [propext, Classical.choice, Quot.sound]
Phono3py.Props.C105_reversal [propext, Classical.choice, Quot.sound]
Phono3py.Props.C105_products [propext, Classical.choice, Quot.sound]
Phono3py.Props.C105_pair_order [propext, Classical.choice, Quot.sound]
Phono3py.Props.C105_contribution [propext, Classical.choice, Quot.sound]
Phono3py.Props.C105_tensor_symmetry [propext, Classical.choice, Quot.sound]
Phono3py.Props.C105_nonneg [propext, Classical.choice, Quot.sound]
Phono3py.Props.C106_zone_boundary [propext, Classical.choice, Quot.sound]
Phono3py.Props.C106_formula [propext, Classical.choice, Quot.sound]
Phono3py.Props.C106_diagonal [propext, Classical.choice, Quot.sound]
Phono3py.Props.C106_hermitian [propext, Classical.choice, Quot.sound]
Phono3py.Props.C106_symmetrized_hermitian [propext, Classical.choice, Quot.sound]
Phono3py.Props.C106_symmetrized_partial [propext, Classical.choice, Quot.sound]
Phono3py.Props.C106_invariant [propext, Classical.choice, Quot.sound]
Phono3py.Props.C106_interband_erased [propext, Classical.choice, Quot.sound]
Phono3py.Props.C106_little_group [propext, Classical.choice, Quot.sound]
Phono3py.Props.C106_all_at_gamma [propext, Classical.choice, Quot.sound]
Phono3py.Props.C106_phase [propext, Classical.choice, Quot.sound]
Phono3py.Props.C106_square_nonneg [propext, Classical.choice, Quot.sound]
Phono3py.Props.C107_formula [propext, Classical.choice, Quot.sound]
Phono3py.Props.C107_symmetric_partial [propext, Classical.choice, Quot.sound]
Phono3py.Props.C107_positive [propext, Classical.choice, Quot.sound]
Phono3py.Props.C107_diagonal [propext, Classical.choice, Quot.sound]
Phono3py.Props.C107_asymmetric [propext, Quot.sound]
Phono3py.Props.C107_limit [propext, Classical.choice, Quot.sound]
Phono3py.Props.C108_weights [propext, Classical.choice, Quot.sound]
Phono3py.Props.C108_rta [propext, Classical.choice, Quot.sound]
Phono3py.Props.C108_heat_capacity [propext, Classical.choice, Quot.sound]
Phono3py.Props.C109_matrix_irreducible [propext, Classical.choice, Quot.sound]
Phono3py.Props.C109_matrix_reducible [propext, Classical.choice, Quot.sound]
Phono3py.Props.C109_irreducible [propext, Classical.choice, Quot.sound]
Phono3py.Props.C109_reducible [propext, Classical.choice, Quot.sound]
Phono3py.Props.C109_layouts_partial [propext, Classical.choice, Quot.sound]
Phono3py.Props.C109_degenerate_differ [propext, Classical.choice, Quot.sound]
Phono3py.Props.C110_symmetric [propext, Classical.choice, Quot.sound]
Phono3py.Props.C110_positive_reducible [propext, Classical.choice, Quot.sound]
Phono3py.Props.C110_positive_irreducible [propext, Classical.choice, Quot.sound]
Phono3py.Props.C111_select [propext, Quot.sound]
Phono3py.Props.C111_select_default [propext]
Phono3py.Props.C111_select_lapacke [propext]
Phono3py.Props.C111_eigen [propext, Classical.choice, Quot.sound]
Phono3py.Props.C111_pinv [propext, Classical.choice, Quot.sound]
Phono3py.Props.C111_solves [propext, Classical.choice, Quot.sound]
Phono3py.Props.C112_mean_free_path [propext, Classical.choice, Quot.sound]
Phono3py.Props.C112_rta [propext, Classical.choice, Quot.sound]
Phono3py.Props.C113_total_partial [propext, Classical.choice, Quot.sound]
Phono3py.Props.C113_asymmetric [propext, Classical.choice, Quot.sound]
Phono3py.Props.C114_evaluate_partial [propext, Quot.sound]
Phono3py.Props.C114_zero [propext, Quot.sound]
Phono3py.Props.C114_second [propext, Classical.choice, Quot.sound]
Phono3py.Props.C115_same_lattice [propext, Classical.choice, Quot.sound]
Phono3py.Props.C115_niggli [propext, Classical.choice, Quot.sound]
Phono3py.Props.C116_reduced_basis [propext, Classical.choice, Quot.sound]
Phono3py.Props.C116_gridsys [propext, Classical.choice, Quot.sound]
Phono3py.Props.C116_gridsys_failure [propext, Classical.choice, Quot.sound]
Phono3py.Props.C116_gridsys_small_cell [propext, Classical.choice, Quot.sound]
Phono3py.Props.C116_unreduced_misses [propext, Classical.choice, Quot.sound]
Phono3py.Props.C117_python [propext, Classical.choice, Quot.sound]
Phono3py.Props.C118_mesh_ignored [propext, Quot.sound]
Phono3py.Props.C118_microzone [propext, Classical.choice, Quot.sound]
Phono3py.Props.C118_qpoints [propext, Classical.choice, Quot.sound]
Phono3py.Props.C118_user_matrix [propext, Classical.choice, Quot.sound]
Phono3py.Props.C119_failure_iff [propext, Classical.choice, Quot.sound]
Phono3py.Props.C119_closed [propext, Classical.choice, Quot.sound]
Phono3py.Props.C119_rotations [propext, Classical.choice, Quot.sound]
Phono3py.Props.C120_lookup [propext, Classical.choice, Quot.sound]
Phono3py.Props.C120_gamma [propext, Classical.choice, Quot.sound]
Phono3py.Props.C121_length [propext, Classical.choice, Quot.sound]
Phono3py.Props.C121_length_close [propext, Classical.choice, Quot.sound]
Phono3py.Props.C121_standard_lattice [propext, Classical.choice, Quot.sound]
Phono3py.Props.C121_given_matrix [propext, Classical.choice, Quot.sound]
Phono3py.Props.C121_inverse_not_tested [propext, Classical.choice, Quot.sound]
Phono3py.Props.C122_supercells_partial [propext, Classical.choice, Quot.sound]
Phono3py.Props.C122_reading [propext, Classical.choice, Quot.sound]
Phono3py.Props.C122_failed_assignment [propext, Classical.choice, Quot.sound]
Phono3py.Props.C122_old_masses [propext]
Phono3py.Props.C122_phonon_refused [propext]
Phono3py.Props.C123_forces_partial [propext]
Phono3py.Props.C123_mlp [propext, Classical.choice, Quot.sound]
Phono3py.Props.C123_kept_forces [propext]
Phono3py.Props.C123_type1 [propext, Classical.choice, Quot.sound]
Phono3py.Props.C123_mixed [propext, Classical.choice, Quot.sound]
Phono3py.Props.C124_grid [propext, Quot.sound]
Phono3py.Props.C124_current_partial [propext, Classical.choice, Quot.sound]
Phono3py.Props.C124_old_fc3 [propext, Quot.sound]
Phono3py.Props.C124_old_fc2 [propext, Quot.sound]
Phono3py.Props.C124_old_bands [propext, Quot.sound]
Phono3py.Props.C124_mixed_masses [propext, Quot.sound]
Phono3py.Props.C125_fc3_partial [propext, Quot.sound]
Phono3py.Props.C125_old_fc2 [propext, Quot.sound]
Phono3py.Props.C125_fc2 [propext, Classical.choice, Quot.sound]
Phono3py.Props.C125_wrong_cell [propext, Quot.sound]
Phono3py.Props.C125_blocked [propext]
Phono3py.Props.C126_matrix [propext, Classical.choice, Quot.sound]
Phono3py.Props.C126_eigenvector [propext, Classical.choice, Quot.sound]
Phono3py.Props.C127_rotated [propext, Classical.choice, Quot.sound]
Phono3py.Props.C128_choice [propext, Classical.choice, Quot.sound]
Phono3py.Props.C128_rotated [propext, Classical.choice, Quot.sound]
Phono3py.Props.C128_reversed [propext, Classical.choice, Quot.sound]
Phono3py.Props.C128_exchanged [propext, Classical.choice, Quot.sound]
Phono3py.Props.C129_equivalent [propext, Classical.choice, Quot.sound]
Phono3py.Props.C129_sum [propext, Classical.choice, Quot.sound]
Phono3py.Props.C129_smearing [propext, Classical.choice, Quot.sound]
Phono3py.Props.C129_linewidth [propext, Classical.choice, Quot.sound]
Phono3py.Props.C130_languages_partial [propext, Classical.choice, Quot.sound]
Phono3py.Props.C130_compact_raises [propext, Quot.sound]
Phono3py.Props.C130_stale_flags [propext, Quot.sound]
Phono3py.Props.C130_constant [propext, Classical.choice, Quot.sound]
Phono3py.Props.C130_phase_dropped [propext, Classical.choice, Quot.sound]
Phono3py.Props.C130_general_grid [propext, Classical.choice, Quot.sound]
Phono3py.Props.C131_reducible [propext, Classical.choice, Quot.sound]
Phono3py.Props.C131_irreducible [propext, Classical.choice, Quot.sound]
Phono3py.Props.C132_bands_partial [propext, Classical.choice, Quot.sound]
Phono3py.Props.C132_points_partial [propext, Classical.choice, Quot.sound]
Phono3py.Props.C132_zero_temperature [propext, Classical.choice, Quot.sound]
Phono3py.Props.C133_weights_partial [propext, Classical.choice, Quot.sound]
Phono3py.Props.C133_cutoff_ignored [propext, Classical.choice, Quot.sound]
Phono3py.Props.C134_temperature [propext, Classical.choice, Quot.sound]
Phono3py.Props.C134_none [propext, Classical.choice, Quot.sound]
Phono3py.Props.C134_pairs [propext, Classical.choice, Quot.sound]
Phono3py.Props.C134_smearing [propext, Classical.choice, Quot.sound]
Phono3py.Props.C134_symmetry [propext, Classical.choice, Quot.sound]
Phono3py.Props.C135_round_trip_partial [propext, Classical.choice, Quot.sound]
Phono3py.Props.C135_again [propext, Classical.choice, Quot.sound]
Phono3py.Props.C135_generated [propext, Classical.choice, Quot.sound]
Phono3py.Props.C135_summary [propext, Quot.sound]
Phono3py.Props.C135_included_lost [propext, Classical.choice, Quot.sound]
Phono3py.Props.C135_zero_forces_used [propext, Quot.sound]
Phono3py.Props.C135_unordered [propext, Quot.sound]
Phono3py.Props.C135_no_pairs [propext, Quot.sound]
Phono3py.Props.C136_priority_partial [propext, Quot.sound]
Phono3py.Props.C136_hdf5_first [propext, Quot.sound]
Phono3py.Props.C136_yaml_first [propext, Quot.sound]
Phono3py.Props.C136_sequence_raises [propext, Quot.sound]
Phono3py.Props.C136_fc2 [propext, Quot.sound]
Phono3py.Props.C136_phonon_forces [propext, Quot.sound]
Phono3py.Props.C137_runs_keep_partial [propext, Classical.choice, Quot.sound]
Phono3py.Props.C137_first_run [propext, Classical.choice, Quot.sound]
Phono3py.Props.C137_cutoffs_accumulate [propext, Classical.choice, Quot.sound]
Phono3py.Props.C137_original_lost [propext, Classical.choice, Quot.sound]
Phono3py.Props.C137_interrupted [propext]
Phono3py.Props.C138_skip_raises [propext, Quot.sound]
Phono3py.Props.C138_read_keeps [propext, Quot.sound]
Phono3py.Props.C138_read_untouched [propext, Classical.choice, Quot.sound]
Phono3py.Props.C138_makes_partial [propext, Classical.choice, Quot.sound]
Phono3py.Props.C138_no_fc3 [propext, Quot.sound]
Phono3py.Props.C138_fc3 [propext, Classical.choice, Quot.sound]
Phono3py.Props.C138_own_supercell [propext, Classical.choice, Quot.sound]
Phono3py.Props.C139_cutoff_smaller [propext]
Phono3py.Props.C139_pairs_partial [propext, Quot.sound]
Phono3py.Props.C139_marks_first [propext, Classical.choice, Quot.sound]
Phono3py.Props.C139_marks_witness [propext]
Phono3py.Props.C139_marks_survive [propext, Classical.choice, Quot.sound]
Phono3py.Props.C140_symmetric_nonneg [propext, Classical.choice, Quot.sound]
Phono3py.Props.C140_modes [propext, Classical.choice, Quot.sound]
Phono3py.Props.C140_inverse [propext, Classical.choice, Quot.sound]
Phono3py.Props.C140_translations [propext, Classical.choice, Quot.sound]
Phono3py.Props.C140_unique [propext, Classical.choice, Quot.sound]
Phono3py.Props.C140_covariance [propext, Classical.choice, Quot.sound]
Phono3py.Props.C140_density [propext, Classical.choice, Quot.sound]
Phono3py.Props.C141_harmonic_fc2 [propext, Classical.choice, Quot.sound]
Phono3py.Props.C141_harmonic_fc3 [propext, Classical.choice, Quot.sound]
Phono3py.Props.C141_harmonic_zero_partial [propext, Classical.choice, Quot.sound]
Phono3py.Props.C141_spurious_fc3 [propext, Classical.choice, Quot.sound]
Phono3py.Props.C141_third_index_differs [propext, Classical.choice, Quot.sound]
Phono3py.Props.C141_cubic_fc3 [propext, Classical.choice, Quot.sound]
Phono3py.Props.C141_symmetry [propext, Classical.choice, Quot.sound]
Phono3py.Props.C141_third_index_sum [propext, Classical.choice, Quot.sound]
Phono3py.Props.C141_first_index_sum [propext, Classical.choice, Quot.sound]
Phono3py.Props.C142_restored_partial [propext, Classical.choice, Quot.sound]
Phono3py.Props.C142_failure [propext, Classical.choice, Quot.sound]
Phono3py.Props.C142_zero_temperature [propext, Classical.choice, Quot.sound]
Phono3py.Props.C142_low_temperature [propext, Classical.choice, Quot.sound]
Phono3py.Props.C142_succeeds [propext, Classical.choice, Quot.sound]
Phono3py.Props.C142_run_zero [propext, Classical.choice, Quot.sound]
Phono3py.Props.C143_full [propext, Classical.choice, Quot.sound]
Phono3py.Props.C143_pieces_one [propext, Classical.choice, Quot.sound]
Phono3py.Props.C143_one_partial [propext, Classical.choice, Quot.sound]
Phono3py.Props.C143_pieces_raise [propext, Classical.choice, Quot.sound]
Phono3py.Props.C143_flag [propext, Classical.choice, Quot.sound]
Phono3py.Props.C143_all [propext, Classical.choice, Quot.sound]
Phono3py.Props.C143_documented [propext, Classical.choice, Quot.sound]
Phono3py.Props.C144_says_partial [propext, Classical.choice, Quot.sound]
Phono3py.Props.C144_option_preferred_partial [propext, Classical.choice, Quot.sound]
Phono3py.Props.C144_tag_ignored [propext, Classical.choice, Quot.sound]
Phono3py.Props.C144_unit_conversion_ignored [propext, Classical.choice, Quot.sound]
Phono3py.Props.C144_v2_reversed [propext, Classical.choice, Quot.sound]
Phono3py.Props.C144_conductivity [propext, Classical.choice, Quot.sound]
Phono3py.Props.C145_forces_fc3 [propext, Classical.choice, Quot.sound]
Phono3py.Props.C145_own_forces [propext, Classical.choice, Quot.sound]
Phono3py.Props.C145_wrong_number [propext, Classical.choice, Quot.sound]
Phono3py.Props.C145_accepted [propext, Classical.choice, Quot.sound]
Phono3py.Props.C145_params [propext, Classical.choice, Quot.sound]
Phono3py.Props.C145_params_cutoff [propext, Classical.choice, Quot.sound]
Phono3py.Props.C145_forces_fc2_partial [propext, Classical.choice, Quot.sound]
Phono3py.Props.C145_params_fc2_partial [propext, Quot.sound]
Phono3py.Props.C145_fc2_too_few [propext, Classical.choice, Quot.sound]
Phono3py.Props.C145_fc2_too_many [propext, Quot.sound]
Phono3py.Props.C145_fc2_calculator_ignored [propext]
Phono3py.Props.C145_old_forces [propext, Quot.sound]
Phono3py.Props.C145_params_energies [propext, Quot.sound]
Phono3py.Props.C145_type2_number [propext, Classical.choice, Quot.sound]
Phono3py.Props.C145_fc2_calculator [propext]
Phono3py.Props.C146_full_sum [propext, Classical.choice, Quot.sound]
Phono3py.Props.C146_current_partial [propext, Quot.sound]
Phono3py.Props.C146_stale_weights none
Phono3py.Props.C146_stale_points none
Phono3py.Props.C146_stale_flags none
Phono3py.Props.C146_partial_strengths none
Phono3py.Props.C146_shared none
Phono3py.Props.C146_stale_value [propext]
Phono3py.Props.C146_needs_weights [propext, Quot.sound]
Phono3py.Props.C146_skipping [propext, Classical.choice, Quot.sound]
Phono3py.Props.C147_averages_back [propext, Classical.choice, Quot.sound]
Phono3py.Props.C147_constant_average [propext, Classical.choice, Quot.sound]
Phono3py.Props.C147_constant_as_averages [propext, Quot.sound]
Phono3py.Props.C147_averages_missing [propext, Classical.choice, Quot.sound]
Phono3py.Props.C147_collision_skipping [propext, Classical.choice, Quot.sound]
Phono3py.Props.C147_gamma [propext, Quot.sound]
Phono3py.Props.C147_run [propext, Quot.sound]
Phono3py.Props.C147_file [propext, Quot.sound]
Phono3py.Props.C147_file_refused [propext, Quot.sound]
Phono3py.Props.C147_averages [propext, Quot.sound]
Phono3py.Props.C147_lbte [propext, Quot.sound]
Phono3py.Props.C147_lbte_file [propext, Quot.sound]
Phono3py.Props.C147_lbte_file_same [propext, Quot.sound]
Phono3py.Props.C147_constant [propext, Quot.sound]
Phono3py.Props.C148_values [propext, Quot.sound]
Phono3py.Props.C148_fails [propext, Classical.choice, Quot.sound]
Phono3py.Props.C148_at_bands [propext, Classical.choice, Quot.sound]
Phono3py.Props.C148_single_partial [propext, Classical.choice, Quot.sound]
Phono3py.Props.C148_at_points [propext, Classical.choice, Quot.sound]
Phono3py.Props.C149_generated [propext, Classical.choice, Quot.sound]
Phono3py.Props.C149_delta [propext, Classical.choice, Quot.sound]
Phono3py.Props.C149_get_fc3 [propext, Classical.choice, Quot.sound]
Phono3py.Props.C149_small_displacements [propext, Classical.choice, Quot.sound]
Phono3py.Props.C149_length_matters [propext, Classical.choice, Quot.sound]
Phono3py.Props.C150_total_partial [propext, Classical.choice, Quot.sound]
Phono3py.Props.C150_parts_partial [propext, Classical.choice, Quot.sound]
Phono3py.Props.C150_routes_partial [propext, Classical.choice, Quot.sound]
Phono3py.Props.C150_zero_width [propext, Quot.sound]
Phono3py.Props.C151_rows [propext, Classical.choice, Quot.sound]
Phono3py.Props.C151_code [propext, Classical.choice, Quot.sound]
Phono3py.Props.C151_run [propext, Classical.choice, Quot.sound]
Phono3py.Props.C151_last_only [propext, Classical.choice, Quot.sound]
Phono3py.Props.C151_initialize_raises none
Phono3py.Props.C151_initialize_old_grid [propext]
Phono3py.Props.C151_setter_old_grid [propext]
Phono3py.Props.C151_same_mesh [propext]
Phono3py.Props.C151_direction_kept none
Phono3py.Props.C152_units [propext, Classical.choice, Quot.sound]
Phono3py.Props.C152_coherences_difference [propext, Classical.choice, Quot.sound]
Phono3py.Props.C152_coherences [propext, Classical.choice, Quot.sound]
Phono3py.Props.C152_coherences_again [propext, Quot.sound]
Phono3py.Props.C152_squares [propext, Classical.choice, Quot.sound]
Phono3py.Props.C152_populations_partial [propext, Classical.choice, Quot.sound]
Phono3py.Props.C152_totals [propext, Quot.sound]
Phono3py.Props.C152_parts [propext, Quot.sound]
Phono3py.Props.C152_degenerate_differ [propext, Classical.choice, Quot.sound]
Phono3py.Props.C153_values [propext, Classical.choice, Quot.sound]
Phono3py.Props.C153_temperatures [propext, Classical.choice, Quot.sound]
Phono3py.Props.C153_selected_partial [propext, Classical.choice, Quot.sound]
Phono3py.Props.C153_files_kept [propext, Quot.sound]
Phono3py.Props.C153_written_then_read [propext, Classical.choice, Quot.sound]
Phono3py.Props.C153_read_and_write [propext, Quot.sound]
Phono3py.Props.C153_raised_only [propext, Quot.sound]
Phono3py.Props.C153_message [propext, Quot.sound]
Phono3py.Props.C153_spectral_raises [propext, Quot.sound]
Phono3py.Props.C153_conductivity [propext, Quot.sound]
Phono3py.Props.C153_isotope_status [propext, Quot.sound]
Phono3py.Props.C153_isotope_values [propext, Quot.sound]
Phono3py.Props.C153_gruneisen_factor [propext, Quot.sound]
Phono3py.Props.C153_displacements [propext, Quot.sound]
Phono3py.Props.C154_kappa [propext, Classical.choice, Quot.sound]
Phono3py.Props.C154_scalar_partial [propext, Classical.choice, Quot.sound]
Phono3py.Props.C154_dos [propext, Classical.choice, Quot.sound]
Phono3py.Props.C154_temperature [propext, Classical.choice, Quot.sound]
Phono3py.Props.C154_temperature_missing [propext, Classical.choice, Quot.sound]
Phono3py.Props.C154_scalar_raises [propext, Classical.choice, Quot.sound]
Phono3py.Props.C154_gv_mfp_raises [propext, Quot.sound]
Phono3py.Props.C154_no_mode_kappa [propext, Quot.sound]
Phono3py.Props.C154_no_gridsym_raises [propext, Classical.choice, Quot.sound]
Phono3py.Props.C154_mfp_longer [propext, Classical.choice, Quot.sound]
Phono3py.Props.C155_choice [propext, Classical.choice, Quot.sound]
Phono3py.Props.C155_symmetry_partial [propext, Classical.choice, Quot.sound]
Phono3py.Props.C155_translate [propext, Classical.choice, Quot.sound]
Phono3py.Props.C155_single_mode [propext, Classical.choice, Quot.sound]
Phono3py.Props.C155_degenerate_modes [propext, Classical.choice, Quot.sound]
Phono3py.Props.C156_calculators [propext, Classical.choice, Quot.sound]
Phono3py.Props.C156_options [propext, Classical.choice, Quot.sound]
Phono3py.Props.C156_cutoff [propext, Classical.choice, Quot.sound]
Phono3py.Props.C156_no_cutoff [propext, Classical.choice, Quot.sound]
Phono3py.Props.C156_unknown_shifts [propext, Classical.choice, Quot.sound]
Phono3py.Props.C156_unknown_ignored [propext, Classical.choice, Quot.sound]
Phono3py.Props.C156_dict_shared [propext]
Phono3py.Props.C156_dict_stale [propext]
Phono3py.Props.C156_load_fc3 [propext, Classical.choice, Quot.sound]
Phono3py.Props.C156_load_fc2_partial [propext, Classical.choice, Quot.sound]
Phono3py.Props.C156_fc2_from_fc3 [propext, Classical.choice, Quot.sound]
Phono3py.Props.C156_fc2_renamed [propext, Classical.choice, Quot.sound]
Phono3py.Props.C156_load_succeeds [propext, Classical.choice, Quot.sound]
Phono3py.Props.C157_resume_partial [propext, Classical.choice, Quot.sound]
Phono3py.Props.C157_done [propext, Classical.choice, Quot.sound]
Phono3py.Props.C157_other_temperatures [propext, Classical.choice, Quot.sound]
Phono3py.Props.C157_old_summary [propext, Classical.choice, Quot.sound]
Phono3py.Props.C157_kubo [propext, Classical.choice, Quot.sound]
Phono3py.Props.C157_isotope_bands [propext, Classical.choice, Quot.sound]
Phono3py.Props.C157_part_no_kappa [propext, Classical.choice, Quot.sound]
Phono3py.Props.C157_reread_bands [propext, Classical.choice, Quot.sound]
Phono3py.Props.C157_one_temperature [propext, Classical.choice, Quot.sound]
Phono3py.Props.C158_resume_partial [propext, Classical.choice, Quot.sound]
Phono3py.Props.C158_last_sigma [propext, Classical.choice, Quot.sound]
Phono3py.Props.C158_not_used [propext, Classical.choice, Quot.sound]
Phono3py.Props.C158_done [propext, Classical.choice, Quot.sound]
Phono3py.Props.C158_part_solution [propext, Classical.choice, Quot.sound]
Phono3py.Props.C158_isotope_first [propext, Classical.choice, Quot.sound]
Phono3py.Props.C158_one_temperature [propext, Classical.choice, Quot.sound]
Phono3py.Props.C159_full_symmetric [propext, Classical.choice, Quot.sound]
Phono3py.Props.C159_full_unchanged [propext, Classical.choice, Quot.sound]
Phono3py.Props.C159_roundtrip_partial [propext, Classical.choice, Quot.sound]
Phono3py.Props.C159_compact_sum [propext, Classical.choice, Quot.sound]
Phono3py.Props.C159_compact_one [propext, Classical.choice, Quot.sound]
Phono3py.Props.C159_any_lead [propext, Quot.sound]
Phono3py.Props.C160_full [propext, Classical.choice, Quot.sound]
Phono3py.Props.C160_compact_partial [propext, Classical.choice, Quot.sound]
Phono3py.Props.C160_first_exchanged [propext, Classical.choice, Quot.sound]
Phono3py.Props.C160_first_symmetric [propext, Classical.choice, Quot.sound]
Phono3py.Props.C160_first_invented [propext, Classical.choice, Quot.sound]
Phono3py.Props.C160_first_missed [propext, Classical.choice, Quot.sound]
Phono3py.Props.C160_first_letters [propext, Classical.choice, Quot.sound]
Phono3py.Props.C161_fc3 [propext, Classical.choice, Quot.sound]
Phono3py.Props.C161_nothing [propext, Classical.choice, Quot.sound]
Phono3py.Props.C161_fc2_partial [propext, Classical.choice, Quot.sound]
Phono3py.Props.C161_auto [propext, Classical.choice, Quot.sound]
Phono3py.Props.C161_yaml_matrix [propext, Classical.choice, Quot.sound]
Phono3py.Props.C161_no_matrix [propext, Classical.choice, Quot.sound]
Phono3py.Props.C161_default_distance [propext, Classical.choice, Quot.sound]
Phono3py.Props.C162_fc3 [propext, Classical.choice, Quot.sound]
Phono3py.Props.C162_collected [propext, Classical.choice, Quot.sound]
Phono3py.Props.C162_fc2_partial [propext, Classical.choice, Quot.sound]
Phono3py.Props.C162_matrix [propext, Classical.choice, Quot.sound]
Phono3py.Props.C162_readable [propext, Quot.sound]
Phono3py.Props.C162_short_file [propext, Classical.choice, Quot.sound]
Phono3py.Props.C162_old_forces [propext, Classical.choice, Quot.sound]
Phono3py.Props.C162_fs2f2 [propext, Classical.choice, Quot.sound]
Phono3py.Props.C162_fs2f2_all_atoms [propext]
Phono3py.Props.C163_both_partial [propext]
Phono3py.Props.C163_fc2_only [propext]
Phono3py.Props.C163_fc3_only_partial [propext]
Phono3py.Props.C163_taken_for_fc2 none
Phono3py.Props.C163_file_ignored [propext, Quot.sound]
Phono3py.Props.C163_old_key none
Phono3py.Props.C163_old_key_lost none
Phono3py.Props.C163_fc2_pairs [propext]
Phono3py.Props.C164_history_partial [propext, Quot.sound]
Phono3py.Props.C164_runs [propext, Quot.sound]
Phono3py.Props.C164_conductivity [propext, Quot.sound]
Phono3py.Props.C164_new_matrix [propext, Quot.sound]
Phono3py.Props.C164_new_direction [propext, Quot.sound]
Phono3py.Props.C165_saved_partial [propext, Classical.choice, Quot.sound]
Phono3py.Props.C165_trained [propext, Quot.sound]
Phono3py.Props.C165_one_potential [propext, Classical.choice, Quot.sound]
Phono3py.Props.C165_force_constants_partial [propext, Classical.choice, Quot.sound]
Phono3py.Props.C165_forces_pairs [propext, Classical.choice, Quot.sound]
Phono3py.Props.C165_forces_all [propext, Quot.sound]
Phono3py.Props.C165_displacements_only [propext, Classical.choice, Quot.sound]
Phono3py.Props.C165_backup [propext, Quot.sound]
Phono3py.Props.C165_compressed [propext, Quot.sound]
Phono3py.Props.C165_no_fc2 [propext, Classical.choice, Quot.sound]
Phono3py.Props.C165_left_over [propext, Classical.choice, Quot.sound]
Phono3py.Props.C165_load [propext, Quot.sound]
Phono3py.Props.C166_total [propext, Classical.choice, Quot.sound]
Phono3py.Props.C166_flags [propext, Classical.choice, Quot.sound]
Phono3py.Props.C166_average [propext, Classical.choice, Quot.sound]
Phono3py.Props.C166_symmetric [propext, Classical.choice, Quot.sound]
Phono3py.Props.C167_fourier [propext, Classical.choice, Quot.sound]
Phono3py.Props.C167_same [propext, Classical.choice, Quot.sound]
Phono3py.Props.C167_symmetric_partial [propext, Classical.choice, Quot.sound]
Phono3py.Props.C167_depends [propext, Classical.choice, Quot.sound]
Phono3py.Props.C168_last [propext, Quot.sound]
Phono3py.Props.C168_single_partial [propext, Quot.sound]
Phono3py.Props.C168_wrong [propext, Quot.sound]
Phono3py.Props.C168_averages_fail [propext]
Phono3py.Props.C168_read_gamma [propext, Quot.sound]
Phono3py.Props.C168_read_gamma_bands [propext, Quot.sound]
Phono3py.Props.C168_skipping [propext, Classical.choice, Quot.sound]
Phono3py.Props.C168_sum [propext, Classical.choice, Quot.sound]
Phono3py.Props.C169_written [propext, Quot.sound]
Phono3py.Props.C169_round_partial [propext, Quot.sound]
Phono3py.Props.C169_missing [propext, Quot.sound]
Phono3py.Props.C169_bands [propext, Quot.sound]
Phono3py.Props.C169_erased [propext]
Phono3py.Props.C169_averages_written [propext]
Phono3py.Props.C169_bands_wrong [propext]
Phono3py.Props.C170_steps [propext, Classical.choice, Quot.sound]
Phono3py.Props.C170_ends [propext, Quot.sound]
Phono3py.Props.C170_run [propext, Classical.choice, Quot.sound]
Phono3py.Props.C170_not_begun [propext, Quot.sound]
Phono3py.Props.C170_batches [propext, Quot.sound]
Phono3py.Props.C171_files_partial [propext, Quot.sound]
Phono3py.Props.C171_first_dropped [propext, Quot.sound]
Phono3py.Props.C171_later_fails [propext, Quot.sound]
Phono3py.Props.C171_at_bands_fails [propext, Quot.sound]
Phono3py.Props.C171_setter [propext, Quot.sound]
Phono3py.Props.C172_round_trip_partial [propext, Classical.choice, Quot.sound]
Phono3py.Props.C172_written_iff [propext, Classical.choice, Quot.sound]
Phono3py.Props.C172_empty_unreadable [propext, Quot.sound]
Phono3py.Props.C172_included_leaks [propext, Quot.sound]
Phono3py.Props.C173_expand [propext, Classical.choice, Quot.sound]
Phono3py.Props.C173_symmetrize [propext, Classical.choice, Quot.sound]
Phono3py.Props.C173_symmetrize_loops [propext, Classical.choice, Quot.sound]
Phono3py.Props.C174_without_surface_partial [propext, Classical.choice, Quot.sound]
Phono3py.Props.C174_equivalent_points [propext, Classical.choice, Quot.sound]
Phono3py.Props.C174_one_to_one [propext, Classical.choice, Quot.sound]
Phono3py.Props.C174_python_surface [propext, Classical.choice, Quot.sound]
Phono3py.Props.C174_python_is_c [propext, Classical.choice, Quot.sound]
Phono3py.Props.C174_python_failure_iff [propext, Classical.choice, Quot.sound]
Phono3py.Props.C174_shift_ignored [propext, Classical.choice, Quot.sound]
Phono3py.Props.C175_tetrahedron_partial [propext, Classical.choice, Quot.sound]
Phono3py.Props.C175_smearing_partial [propext, Classical.choice, Quot.sound]
Phono3py.Props.C175_cutoff_ignored [propext, Classical.choice, Quot.sound]
Phono3py.Props.C175_unique_points [propext, Classical.choice, Quot.sound]
Phono3py.Props.C175_solved_is_enough [propext, Classical.choice, Quot.sound]
Phono3py.Props.C175_imaginary_differs [propext, Classical.choice, Quot.sound]
Phono3py.Props.C176_given_points_partial [propext, Classical.choice, Quot.sound]
Phono3py.Props.C176_automatic [propext, Classical.choice, Quot.sound]
Phono3py.Props.C176_given_automatic [propext, Classical.choice, Quot.sound]
Phono3py.Props.C176_all_points [propext, Classical.choice, Quot.sound]
Phono3py.Props.C176_file [propext, Classical.choice, Quot.sound]
Phono3py.Props.C176_given_no_star [propext, Classical.choice, Quot.sound]
Phono3py.Props.C177_distribute_partial [propext, Classical.choice, Quot.sound]
Phono3py.Props.C177_compact_fails [propext, Quot.sound]
Phono3py.Props.C177_solve [propext, Classical.choice, Quot.sound]
Phono3py.Props.C177_solve_exact [propext, Classical.choice, Quot.sound]
Phono3py.Props.C178_reduced_symmetry [propext, Classical.choice, Quot.sound]
Phono3py.Props.C178_reduced_group [propext, Classical.choice, Quot.sound]
Phono3py.Props.C178_bond_symmetry_partial [propext, Classical.choice, Quot.sound]
Phono3py.Props.C178_bond_group [propext, Classical.choice, Quot.sound]
Phono3py.Props.C178_pair_symmetry [propext, Classical.choice, Quot.sound]
Phono3py.Props.C178_same_functions [propext, Classical.choice, Quot.sound]
Phono3py.Props.C178_not_a_group [propext, Classical.choice, Quot.sound]
Phono3py.Props.C179_cells [propext, Quot.sound]
Phono3py.Props.C179_primitive [propext, Classical.choice, Quot.sound]
Phono3py.Props.C179_checked [propext, Quot.sound]
Phono3py.Props.C179_own_file [propext, Quot.sound]
Phono3py.Props.C179_unit_not_checked [propext, Quot.sound]
Phono3py.Props.C179_names [propext]
Phono3py.Props.C180_datasets [propext, Classical.choice, Quot.sound]
Phono3py.Props.C180_mean_free_path [propext, Classical.choice, Quot.sound]
Phono3py.Props.C180_recalculate [propext, Classical.choice, Quot.sound]
Phono3py.Props.C180_documented_partial [propext, Classical.choice, Quot.sound]
Phono3py.Props.C180_documented_fails [propext, Classical.choice, Quot.sound]
Phono3py.Props.C180_total [propext, Classical.choice, Quot.sound]
Phono3py.Props.C181_phonons [propext]
Phono3py.Props.C181_collision_partial [propext]
Phono3py.Props.C181_selected_bands [propext, Classical.choice, Quot.sound]
Phono3py.Props.C181_reducible [propext, Classical.choice, Quot.sound]
Phono3py.Props.C181_grid [propext, Classical.choice, Quot.sound] 