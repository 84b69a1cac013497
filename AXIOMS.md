# Axioms per theorem

Generated by `tools/axioms.py` from the output of `#print axioms` for every theorem of MANIFEST.json.

## none

* `BB.Dispatch.C38_listed`
* `BB.C44_diagonal_filler_rejects`
* `BB.C60_fixed_double_free`
* `BB.C60_fixed_proxy_frees_user_memory`
* `BB.C60_proxy_copy_leaks`
* `BB.C60_moved_from_copy_leaks`
* `BB.C60_load_leaks`
* `BB.C61_self_move_loses_contents`
* `BB.C63_view_without_rows_is_wrong`
* `BB.C65_sparse_assign_throws`
* `BB.FileIO.C66_rejected_window_destroys_target`
* `BB.C106_int_submatrix_overflows`
* `BB.C114_same_elements_differ`
* `BB.C121_bad_constructor_leaks`
* `BB.Occ.C138_two_part_counterexample`

## propext

* `BB.C11_default_constructed_is_ub`
* `BB.C29_accepts_interval`
* `BB.C30_exactly_one`
* `BB.C31_unregistered_is_ub`
* `BB.C33_stale_count_writes_past_end`
* `BB.Cache.C34_norm_is_sticky`
* `BB.Dispatch.C38_exec_dyn`
* `BB.C41_column_major_is_wrong`
* `BB.DimHist.C47_step_iff`
* `BB.DimHist.C47_history_partial`
* `BB.DimHist.C47_plain_history_partial`
* `BB.DimHist.C47_swap_is_wrong`
* `BB.DimHist.C47_resize_is_wrong`
* `BB.DimHist.C47_fromDynamic_is_wrong`
* `BB.DimHist.C47_swap_breaks_conversion`
* `BB.DimHist.C47_agrees_with_models`
* `BB.C47_zero_product_size_counterexample`
* `BB.C48_uninitialised_is_ub`
* `BB.C50_edit_breaks_dimensions`
* `BB.C50_default_constructed_is_ub`
* `BB.Provider.C57_unknown_source_throws`
* `BB.C62_equal_is_wrong`
* `BB.C62_mixed_sum_is_wrong`
* `BB.C62_native_product_is_wrong`
* `BB.FileIO.C62_file_window_is_wrong`
* `BB.C62_load_other_orientation_is_wrong`
* `BB.C62_dense_to_sparse_is_wrong`
* `BB.C62_round_trip_is_wrong`
* `BB.C63_blocked_no_inner_block_is_ub`
* `BB.C63_default_constructed`
* `BB.C64_spare_cells_occupation_is_ub`
* `BB.C64_sum_counts_garbage`
* `BB.C64_conversion_reads_uninitialised`
* `BB.C65_zero_minus_is_wrong`
* `BB.C65_multiple_assign_throws`
* `BB.FileIO.C66_file_target_partial`
* `BB.C66_reset_keeps_mismatch`
* `BB.C66_truncated_load_is_inconsistent`
* `BB.Blocked.C68_block_lists_is_wrong`
* `BB.C68_ragged_is_ub`
* `BB.C70_unknown_source_partial`
* `BB.FileIO.C70_file_overflow_is_accepted`
* `BB.Provider.C70_self_copy_is_ub`
* `BB.Shared.C73_copy_is_shared`
* `BB.Shared.C73_copy_counterexample`
* `BB.Shared.C73_shared_cells_is_wrong`
* `BB.Bench.C84_unknown_is_ub`
* `BB.Wrap.C88_threads`
* `BB.Prog.C91_sum_uninitialised`
* `BB.C96_product`
* `BB.C96_sum`
* `BB.C96_difference`
* `BB.C96_product_type`
* `BB.C96_sum_type`
* `BB.C101_type`
* `BB.C102_zero_is_not_checked`
* `BB.C102_sum_counterexample`
* `BB.C102_assign_counterexample`
* `BB.C102_cursor_product_counterexample`
* `BB.InPlace.C108_copy_is_not_equal`
* `BB.Dyn.C110_null_pointer`
* `BB.Dyn.C110_copy_is_a_reference`
* `BB.Dyn.C110_stored_product_is_late`
* `BB.Dyn.C110_difference_is_wrong`
* `BB.Dyn.C110_in_place_is_wrong`
* `BB.Dyn.C112_size_of_a_zero_product`
* `BB.Cache.C113_sum_inherits`
* `BB.Cache.C113_sum_is_wrong`
* `BB.Cache.C113_query_changes_sums`
* `BB.C116_checkers_reject_nan`
* `BB.C116_infinity_is_significant`
* `BB.SProg.C120_swap_keeps_size`
* `BB.SProg.C120_swap_too_small`
* `BB.C123_tall_row_major_is_wrong`
* `BB.VProg.C124_moved_view_is_wrong`
* `BB.Saved.C126_stopped_save_loses_both`
* `BB.Saved.C126_race_replaces_file`
* `BB.Saved.C126_race_mixes_objects`
* `BB.Cur.C133_names`
* `BB.Cur.C134_counterexample`
* `BB.Interrupted.C136_window_silent_counterexample`
* `BB.Python.C137_first_use_counterexample`
* `BB.Together.C140_mixture_counterexample`
* `BB.Together.C140_stopped_beside_counterexample`
* `BB.FullDisk.C141_silent_counterexample`

## Quot.sound, propext

* `BB.C01_out_of_range_asserts`
* `BB.C02_writes_exact`
* `BB.C03_submatrix_window`
* `BB.C04_striped_reverse`
* `BB.C04_steps_are_elements`
* `BB.C24_dimension_mismatch_asserts`
* `BB.C25_mismatch_asserts`
* `BB.C29_constructor_throws`
* `BB.Cache.C33_swap_dense_partial`
* `BB.Cache.C33_swap_sparse_partial`
* `BB.Cache.C34_fresh_partial`
* `BB.C37_exec_if`
* `BB.Dispatch.C38_exec_dyn_2dim_partial`
* `BB.Dispatch.C38_expressions`
* `BB.Dispatch.C38_sum_type`
* `BB.Dispatch.C38_product_type`
* `BB.C40_max_zero_is_exceeded`
* `BB.C40_constructor`
* `BB.C43_uninitialised_is_ub`
* `BB.Blas.C46_mismatch_asserts`
* `BB.C48_zero`
* `BB.C50_history_partial`
* `BB.EnumParser.C52_parse_is_last_registration`
* `BB.EnumParser.C52_inverse`
* `BB.EnumParser.C52_unknown_rejected`
* `BB.EnumParser.C52_alias`
* `BB.Tracker.C52_tracker_ids`
* `BB.C59_nested_view_is_wrong`
* `BB.C61_moved_from_cannot_resize`
* `BB.C62_reread_iff`
* `BB.C62_square_is_transposed`
* `BB.C63_view_without_rows_exact`
* `BB.C63_sparse_transpose_no_rows_is_ub`
* `BB.C64_transpose_counts_garbage`
* `BB.C65_zero_minus_counterexample`
* `BB.C66_reset_keeps_any_mismatch`
* `BB.C69_checked_builds_partial`
* `BB.C69_multiple_mismatch_is_accepted`
* `BB.EnumParser.C69_enum_parser_is_ub`
* `BB.FileIO.C70_short_file_is_silent`
* `BB.Provider.C70_unknown_type_is_ignored`
* `BB.Shared.C74_product_of_moved`
* `BB.Bench.C83_unknown_action_is_ignored`
* `BB.Wrap.C88_history`
* `BB.C102_product`
* `BB.C102_library_product`
* `BB.Par.C103_readers_partial`
* `BB.Par.C103_norm_races`
* `BB.Par.C103_occupation_races`
* `BB.Par.C103_independent_partial`
* `BB.C105_failure_without_effect_partial`
* `BB.C105_same_worlds`
* `BB.C105_failed_matrix_resize_lies`
* `BB.C105_failed_matrix_assignment_lies`
* `BB.C106_negative_index_rejected`
* `BB.C106_int_product_overflows`
* `BB.C106_sparse_resize_overflows`
* `BB.C107_back_from_reached_end_is_wrong`
* `BB.C107_forward_from_rend_is_wrong`
* `BB.InPlace.C108_sparse_assignment_is_ignored`
* `BB.InPlace.C108_on_stack_matrix_has_no_room`
* `BB.Gen.C109_tags`
* `BB.Gen.C109_declared_but_not_defined`
* `BB.Gen.C109_indentation`
* `BB.Dyn.C110_in_place_is_shared`
* `BB.Cache.C113_norm_partial`
* `BB.Cache.C113_new_results`
* `BB.C114_equivalence`
* `BB.C114_sparse_equal_means_equal_partial`
* `BB.C118_sparse_in_place_throws`
* `BB.MProg.C122_deferred`
* `BB.BProg.C125_swap_keeps_size`
* `BB.Saved.C126_existing_file_is_kept`
* `BB.Files.C127_other_files`
* `BB.Show.C128_other_files`
* `BB.Show.C128_reports`
* `BB.Show.C128_unwritable_is_silent`
* `BB.Limits.C131_zero_single_is_ignored`
* `BB.Interrupted.C136_torn_image`
* `BB.FullDisk.C141_generator_partial`

## Classical.choice, Quot.sound, propext

* `BB.C01_addressing_bijective`
* `BB.C04_striped_iteration`
* `BB.C05_row_cursor`
* `BB.C05_column_cursor`
* `BB.C06_no_memory_error`
* `BB.C06_owner_is_exclusive`
* `BB.C07_copy_equal`
* `BB.C07_assign_equal`
* `BB.C07_owner_isolated`
* `BB.C07_owner_isolated_history`
* `BB.C08_move_transfers`
* `BB.C08_moved_from_reusable`
* `BB.C09_dense_conversion`
* `BB.C10_transpose`
* `BB.C10_transpose_twice`
* `BB.C11_sparse_to_dense`
* `BB.C12_dense_to_sparse`
* `BB.C12_dense_view_to_sparse`
* `BB.C13_sparse_transpose`
* `BB.C14_round_trip`
* `BB.C14_round_trip_identity`
* `BB.C15_round_trip`
* `BB.C16_dense_sum`
* `BB.C16_dense_sum_assign`
* `BB.C16_dimension_mismatch_asserts`
* `BB.C17_sparse_sum`
* `BB.C17_sparse_add_sub`
* `BB.C18_dense_sparse_sum`
* `BB.C18_dense_assign_any_orientation`
* `BB.C18_sparse_plus_dense`
* `BB.C19_zero_identity`
* `BB.C19_zero_identity_multiple`
* `BB.C20_sum`
* `BB.C20_dense_minus_multiple`
* `BB.C20_multiple_minus_single`
* `BB.C20_dense_assign_multiple`
* `BB.C20_to_dense`
* `BB.C21_native_product`
* `BB.C21_native_product_sum`
* `BB.C22_cursor_product`
* `BB.C22_cursor_product_plain`
* `BB.C23_sparse_product`
* `BB.C24_sparse_dense_product`
* `BB.C24_dense_sparse_product`
* `BB.C25_zero_annihilates`
* `BB.C25_zero_product_to_dense`
* `BB.C26_product_of_sums`
* `BB.C27_blocked_product`
* `BB.C28_whole_pipeline_partial`
* `BB.C28_any_limits_partial`
* `BB.C28_whole_pipeline_exact_partial`
* `BB.C28_default_limits_are_ub`
* `BB.C28_pipeline_partial`
* `BB.C28_error_bound_partial`
* `BB.C28_zero_thresholds_partial`
* `BB.C28_all_zero_thresholds_fail`
* `BB.C29_constructor`
* `BB.C30_split_sums_to_thresholded`
* `BB.C31_strict_weak_order`
* `BB.C32_dense_count`
* `BB.C32_dense_occupation`
* `BB.C32_antitone`
* `BB.C32_sparse_count`
* `BB.Cache.C33_fresh_partial`
* `BB.Cache.C33_dense_occupation_partial`
* `BB.Cache.C33_count_is_sticky`
* `BB.Cache.C33_stale_answer`
* `BB.Cache.C33_stale_count_overflows`
* `BB.C33_count_exact`
* `BB.Cache.C34_dense_norm_partial`
* `BB.Cache.C34_stale_answers`
* `BB.C35_dense`
* `BB.C35_norm_partial`
* `BB.C35_laws`
* `BB.C35_two_part_one_is_wrong`
* `BB.C35_blocked_partial`
* `BB.C35_two_sparse_is_ub`
* `BB.C35_sparse_sum_exact`
* `BB.C35_two_sparse_exact`
* `BB.C36_contents_partial`
* `BB.C36_error_bound_partial`
* `BB.C36_plain_source_doubles`
* `BB.C36_plain_source_selected`
* `BB.C36_positive_threshold_loses`
* `BB.C37_first_match`
* `BB.C37_default_choice`
* `BB.Dispatch.C38_index`
* `BB.Dispatch.C38_exec_if`
* `BB.Dispatch.C38_exec_if_2dim`
* `BB.Dispatch.C38_unlisted_type`
* `BB.Dispatch.C38_init_order_is_ub`
* `BB.Dispatch.C38_rows_first`
* `BB.C39_sum_partial`
* `BB.C39_min_one_partial`
* `BB.C39_uniform_partial`
* `BB.C39_small_dimension_is_ub`
* `BB.C39_outcomes`
* `BB.C39_returns_iff`
* `BB.C39_returns_partial`
* `BB.C39_unlucky_border_is_ub`
* `BB.C39_matrix_partial`
* `BB.C39_product_partial`
* `BB.C39_product_outcomes`
* `BB.C40_limits`
* `BB.C41_greedy`
* `BB.C41_steepest_partial`
* `BB.C41_row_major_partial`
* `BB.C41_column_major_is_swapped`
* `BB.C41_detection_exact`
* `BB.FileIO.C42_window`
* `BB.FileIO.C42_rejected`
* `BB.FileIO.C42_importer`
* `BB.C43_round_trip`
* `BB.C43_sequence`
* `BB.C43_truncated_throws`
* `BB.C44_all_filler`
* `BB.C44_continuous_filler`
* `BB.C44_hilbert_filler`
* `BB.C44_diagonal_filler`
* `BB.C44_resized`
* `BB.C44_resized_diagonal`
* `BB.C45_max`
* `BB.C45_rms`
* `BB.C45_size_mismatch_is_ub`
* `BB.C45_smaller_second_is_ub`
* `BB.Blas.C46_gemm`
* `BB.Blas.C46_large_is_wrong`
* `BB.Blas.C46_csrmm`
* `BB.C47_zero_product_size_is_zero`
* `BB.C47_swapped_conversion_exact`
* `BB.C47_swapped_conversion_is_ub`
* `BB.C48_dense`
* `BB.C48_reflexive_symmetric`
* `BB.Blocked.C49_block_lists`
* `BB.C49_initializer_lists`
* `BB.C50_constructor_checks_partial`
* `BB.Tracker.C51_register`
* `BB.Tracker.C51_histories_are_all`
* `BB.Tracker.C51_report`
* `BB.PatternSettings.C53_pattern`
* `BB.PatternSettings.C53_row_width`
* `BB.Provider.C54_band`
* `BB.C55_sparse_conversion`
* `BB.Provider.C56_too_wide_is_wrong`
* `BB.Provider.C56_band_partial`
* `BB.Provider.C56_wide_partial`
* `BB.Provider.C56_wide_is_wrong`
* `BB.Provider.C56_tall_is_wrong`
* `BB.Provider.C57_sets`
* `BB.Blas.C58_interface_independent`
* `BB.C59_view_of_view_partial`
* `BB.C59_elements`
* `BB.C59_iff`
* `BB.C60_no_leak_partial`
* `BB.C60_leaks_exact`
* `BB.C60_no_leak_iff`
* `BB.C60_lost_for_good`
* `BB.C60_copy_of_non_owner_leaks`
* `BB.C60_load_into_owner_leaks`
* `BB.C61_resize_after_assignment_partial`
* `BB.C61_self_move_empties`
* `BB.C62_error_statistics_is_wrong`
* `BB.C62_orientation_independent_partial`
* `BB.C62_sparse_to_dense_partial`
* `BB.C62_native_product_exact`
* `BB.C62_sum_exact`
* `BB.C62_sum_assign_exact`
* `BB.C62_equal_exact`
* `BB.C62_max_deviation_exact`
* `BB.C62_rms_deviation_exact`
* `BB.C62_load_exact`
* `BB.C62_dense_to_sparse_exact`
* `BB.C62_load_other_orientation_transposes`
* `BB.C62_sparse_transpose_is_ub`
* `BB.C62_sparse_sum_is_ub`
* `BB.C62_square_sparse_sum_exact`
* `BB.C62_square_sparse_product_exact`
* `BB.C62_row_major_sparse_product_is_swapped`
* `BB.C62_square_dense_sparse_sum_exact`
* `BB.C62_square_mixed_product_exact`
* `BB.C62_row_major_sparse_sum_is_unusable`
* `BB.C62_row_major_sparse_product_is_unusable`
* `BB.C62_row_major_transpose_exact`
* `BB.C62_error_statistics_exact`
* `BB.Blas.C63_gemm_no_inner_is_wrong`
* `BB.C63_occupation_of_empty_is_nan`
* `BB.C63_rms_of_empty_is_nan`
* `BB.C63_convert_empty_is_not_found`
* `BB.C63_degenerate_partial`
* `BB.C63_view_without_rows_iff`
* `BB.C63_view_without_columns_exact`
* `BB.C63_blocked_no_inner_exact`
* `BB.C63_view_without_columns_is_wrong`
* `BB.C63_sparse_transpose_no_rows`
* `BB.C64_stored_elements_partial`
* `BB.C64_sum_exact`
* `BB.C64_product_exact`
* `BB.C64_convert_iff`
* `BB.C64_convert_of_sum_iff`
* `BB.C64_transpose_of_nothing`
* `BB.C64_product_counts_garbage`
* `BB.C64_count_iff`
* `BB.C65_difference_partial`
* `BB.C65_multiple_minus_multiple_is_wrong`
* `BB.C65_multiple_minus_multiple_counterexample`
* `BB.C65_multiple_assign_doubles`
* `BB.C65_sparse_minus_dense_is_negated`
* `BB.C66_truncated_load_partial`
* `BB.C66_truncated_load_exact`
* `BB.C66_consistent_iff`
* `BB.C67_ignores_dimensions`
* `BB.C67_equal_partial`
* `BB.C67_equal_exact`
* `BB.C67_equal_is_wrong`
* `BB.C67_spare_is_never_equal`
* `BB.Blocked.C68_block_heights_partial`
* `BB.C68_lists_exact`
* `BB.Provider.C69_too_wide_band_is_ub`
* `BB.FileIO.C70_reported_partial`
* `BB.FileIO.C70_window_accepted_iff`
* `BB.FileIO.C70_wrapped_window_accepted_iff`
* `BB.FileIO.C70_window_exact`
* `BB.FileIO.C70_window_complete_iff`
* `BB.Provider.C70_get_unknown_is_ub`
* `BB.Blas.C71_float_double_partial`
* `BB.Blas.C71_double_float_partial`
* `BB.Blas.C71_mixed_is_wrong`
* `BB.Alias.C72_views_partial`
* `BB.Alias.C72_overlap_is_wrong`
* `BB.Alias.C72_copy_partial`
* `BB.Alias.C72_copy_overlap_is_wrong`
* `BB.Alias.C72_self`
* `BB.Shared.C73_history_partial`
* `BB.Shared.C73_shared_two_part_is_wrong`
* `BB.Shared.C74_move_partial`
* `BB.Shared.C74_move_construct_is_wrong`
* `BB.Info.C75_types_dimensions_norms`
* `BB.Info.C75_generated`
* `BB.Info.C75_norms_partial`
* `BB.Info.C75_two_part_norm_is_wrong`
* `BB.Info.C75_two_part_norm_witness`
* `BB.Info.C75_type_counting_is_ub`
* `BB.Info.C76_picture_partial`
* `BB.Info.C76_wide_border_fails`
* `BB.Print.C77_dense`
* `BB.Print.C77_session`
* `BB.Print.C77_aligned`
* `BB.Print.C77_readable`
* `BB.Print.C77_injective`
* `BB.Print.C77_dimensions_partial`
* `BB.Print.C77_dimensions_not_aligned`
* `BB.Print.C78_sparse_partial`
* `BB.Print.C78_large_sparse_is_not_shown`
* `BB.Print.C78_spare_is_ub`
* `BB.Print.C78_state_is_changed`
* `BB.Generator.C79_generate`
* `BB.Generator.C79_default_settings`
* `BB.Generator.C79_default`
* `BB.Generator.C79_reproducible_partial`
* `BB.Generator.C79_occupation_is_ignored`
* `BB.Generator.C79_order_matters`
* `BB.Generator.C79_bad_range_is_ub`
* `BB.Ext.C80_eigen`
* `BB.Ext.C80_eigen_as_native`
* `BB.Ext.C80_blaze_partial`
* `BB.Ext.C80_blaze_throws`
* `BB.Ext.C81_square_is_swapped`
* `BB.Ext.C81_square_is_wrong`
* `BB.Ext.C81_commuting_partial`
* `BB.Ext.C81_tall_is_ub`
* `BB.Bench.C82_native`
* `BB.Bench.C82_actions_partial`
* `BB.Bench.C82_block_partial`
* `BB.Bench.C83_table_partial`
* `BB.Bench.C83_zero_iff_equal`
* `BB.Bench.C83_bad_input_throws`
* `BB.Bench.C83_missing_set_is_ub`
* `BB.Bench.C83_known_actions`
* `BB.Bench.C83_diff_is_overwritten`
* `BB.Bench.C83_failure_keeps_lines`
* `BB.Bench.C83_exact_actions_agree`
* `BB.Bench.C84_sparse_partial`
* `BB.Bench.C84_gemm_partial`
* `BB.Bench.C84_csrmm_partial`
* `BB.Bench.C84_csrmultcsr_is_swapped`
* `BB.Wrap.C85_openblas`
* `BB.Wrap.C85_mkl`
* `BB.Wrap.C86_openblas_signatures`
* `BB.Wrap.C86_mkl_signatures`
* `BB.Wrap.C86_declared`
* `BB.Wrap.C86_prototypes`
* `BB.Wrap.C86_tags`
* `BB.Wrap.C87_complex_dot_partial`
* `BB.Wrap.C87_by_value_zero`
* `BB.Wrap.C87_by_value_wrong`
* `BB.Prog.C89_programs`
* `BB.Prog.C89_no_leak`
* `BB.Prog.C89_misfit`
* `BB.Prog.C89_out_of_range`
* `BB.Prog.C90_deferred`
* `BB.Prog.C90_current`
* `BB.Prog.C90_dangling`
* `BB.Prog.C91_stale_dimensions`
* `BB.Prog.C91_resize_throws`
* `BB.Prog.C91_inplace_ignored`
* `BB.Prog.C91_assignable_partial`
* `BB.C92_product_order`
* `BB.C92_product_kinds`
* `BB.C92_sum_kinds`
* `BB.C92_blocked_order`
* `BB.C93_product_error`
* `BB.C93_sum_error`
* `BB.C93_product_error_any`
* `BB.C93_binary_floating_point`
* `BB.C93_double_product`
* `BB.C94_blocked_error`
* `BB.C95_distance_partial`
* `BB.C95_one_inner_block_partial`
* `BB.C95_blocking_changes_rounding`
* `BB.C96_blocked_types`
* `BB.C97_single_product`
* `BB.C97_double_product`
* `BB.C97_single_sum`
* `BB.C97_double_sum`
* `BB.C97_single_difference`
* `BB.C97_double_difference`
* `BB.C98_mixed_error`
* `BB.C99_contents`
* `BB.C99_first_match`
* `BB.C99_round_trip`
* `BB.C100_pipeline_error`
* `BB.C100_float_double`
* `BB.C101_error`
* `BB.C101_error_in_double`
* `BB.C101_exact`
* `BB.C101_reassociation`
* `BB.C101_float_double`
* `BB.C102_product_iff`
* `BB.C102_sum_partial`
* `BB.C102_two_part_sum_partial`
* `BB.C102_assign_partial`
* `BB.C102_dense_assign_is_not_checked`
* `BB.C102_blocked_partial`
* `BB.C102_blocked_ignores_rows`
* `BB.C102_blocked_counterexample`
* `BB.C102_cursor_product_is_not_checked`
* `BB.Par.C103_tracker_count_bounds`
* `BB.Par.C103_tracker_counts_any_number`
* `BB.Par.C103_finishes`
* `BB.Par.C103_tracker_races`
* `BB.Par.C103_tracker_loses_counts`
* `BB.Par.C103_reordered_stores`
* `BB.Par.C103_products_partial`
* `BB.C104_norm_partial`
* `BB.C104_zero`
* `BB.C104_gamma`
* `BB.C104_blocked_partial`
* `BB.C104_max_deviation`
* `BB.C104_rms_deviation`
* `BB.C104_exact_norms`
* `BB.C104_exact_deviation`
* `BB.C104_double_partial`
* `BB.C104_underflow_is_zero`
* `BB.C105_harmless_iff`
* `BB.C105_no_memory_error_partial`
* `BB.C105_failed_resize_is_fatal`
* `BB.C105_failed_assignment_is_fatal`
* `BB.C105_failed_load`
* `BB.C105_constructors_all_or_nothing`
* `BB.C105_sparse_constructor`
* `BB.C105_sparse_copy`
* `BB.C105_construct_and_move`
* `BB.C106_construct_partial`
* `BB.C106_get`
* `BB.C106_set`
* `BB.C106_resize_partial`
* `BB.C106_history_partial`
* `BB.C106_product_wraps`
* `BB.C106_no_array_at_all`
* `BB.C106_elements_share_a_cell`
* `BB.C106_negative_dimensions_accepted`
* `BB.C106_submatrix_position`
* `BB.C106_sparse_construct`
* `BB.C106_sparse_resize`
* `BB.C107_moves_from_begin_partial`
* `BB.C107_moves_from_rbegin_partial`
* `BB.C107_back_from_end_partial`
* `BB.C107_forward_after_back_from_end_is_wrong`
* `BB.C107_adjacent_columns_from_begin_partial`
* `BB.C107_adjacent_columns_from_end_partial`
* `BB.C107_too_many_columns`
* `BB.InPlace.C108_stack_programs_partial`
* `BB.InPlace.C108_sparse_programs_partial`
* `BB.InPlace.C108_sparse_assignment_is_wrong`
* `BB.InPlace.C108_long_list_writes_beyond`
* `BB.InPlace.C108_equal`
* `BB.Gen.C109_prototypes`
* `BB.Gen.C109_sparse_prototypes`
* `BB.Gen.C109_openblas_declarations`
* `BB.Gen.C109_mkl_declarations`
* `BB.Gen.C109_openblas_definitions_partial`
* `BB.Gen.C109_mkl_definitions_partial`
* `BB.Gen.C109_parameter_names_distinct`
* `BB.Gen.C109_wrapper_passes_parameters_in_order`
* `BB.Gen.C109_complex_dots_are_not_defined`
* `BB.Gen.C109_extra_functions_are_never_generated`
* `BB.Gen.C109_regenerating_mkl_loses_set_dynamic`
* `BB.Dyn.C110_programs_partial`
* `BB.Dyn.C110_pointers_valid`
* `BB.Dyn.C110_results_are_new`
* `BB.Dyn.C110_zero_minus_is_wrong`
* `BB.Print.C111_history_partial`
* `BB.Print.C111_zero`
* `BB.Print.C111_zero_product_has_size_0`
* `BB.Print.C111_large_is_not_shown`
* `BB.Print.C111_spare_is_ub`
* `BB.Print.C111_order_matters`
* `BB.Dyn.C112_queries_partial`
* `BB.Dyn.C112_first_norm_stays`
* `BB.Dyn.C112_others_ask_again`
* `BB.Dyn.C112_norm_is_stale`
* `BB.Dyn.C112_norm_of_a_sparse_sum_is_ub`
* `BB.Dyn.C112_norm_of_two_parts`
* `BB.Dyn.C112_norm_of_any_sparse_sum`
* `BB.Cache.C113_count_partial`
* `BB.Cache.C113_sum_inherits_count`
* `BB.C114_equal_means_equal_partial`
* `BB.C114_owner_equals_only_itself`
* `BB.C114_copy_differs`
* `BB.C114_proxies_equal`
* `BB.C115_text`
* `BB.C115_failure_text`
* `BB.C115_fields_partial`
* `BB.C115_run_fields_partial`
* `BB.C115_action_names`
* `BB.C115_norms_use_the_digits_of_times`
* `BB.C115_columns_merge`
* `BB.C115_tracker_text`
* `BB.C115_tracker_fields_partial`
* `BB.C115_tracker_columns_merge`
* `BB.C115_tracker_numbers`
* `BB.C115_tracker_names`
* `BB.C116_sparse_conversion_loses_nan`
* `BB.C116_sparse_conversion_keeps_infinities`
* `BB.C116_window_conversion_loses_nan`
* `BB.C116_nan_matrix_becomes_zero`
* `BB.C116_equal_iff`
* `BB.C116_not_equal_to_itself`
* `BB.C116_max_deviation`
* `BB.C116_nan_has_no_deviation`
* `BB.C116_rms_deviation`
* `BB.C116_norms`
* `BB.C116_max_norm`
* `BB.C116_sum`
* `BB.C116_product_partial`
* `BB.C116_nan_propagates`
* `BB.C116_zero_hides_nan`
* `BB.C117_product`
* `BB.C117_conversion_stores`
* `BB.C117_product_of_converted`
* `BB.C117_nothing_stored`
* `BB.C117_sum`
* `BB.C117_difference`
* `BB.C117_in_place`
* `BB.C117_depends_on_kind`
* `BB.C117_signed_zero`
* `BB.C118_programs`
* `BB.C118_mathematical`
* `BB.SProg.C119_programs`
* `BB.SProg.C119_no_leak`
* `BB.SProg.C119_misfit`
* `BB.SProg.C119_resized`
* `BB.SProg.C120_conversion_partial`
* `BB.SProg.C120_moved_from`
* `BB.SProg.C120_resize_throws`
* `BB.SProg.C120_assignable_partial`
* `BB.SProg.C120_conversion_exact`
* `BB.SProg.C120_swap_keeps_any_size`
* `BB.C121_no_memory_error`
* `BB.C121_owner_is_exclusive`
* `BB.C121_leaks_exact`
* `BB.C121_no_leak_partial`
* `BB.C121_programs`
* `BB.C121_programs_leave_nothing_partial`
* `BB.C121_assign_moved_from_is_double_free`
* `BB.C121_assign_proxy_frees_user_memory`
* `BB.MProg.C122_programs`
* `BB.MProg.C122_no_leak`
* `BB.MProg.C122_misfit`
* `BB.MProg.C122_dangling`
* `BB.C123_continuous_partial`
* `BB.C123_capacity_is_ub`
* `BB.C123_wide_row_major_is_ub`
* `BB.C123_all_filler_is_ub`
* `BB.VProg.C124_programs_partial`
* `BB.VProg.C124_all_programs`
* `BB.VProg.C124_moved_view_reads_first_column`
* `BB.VProg.C124_swapped_view_reads_first_column`
* `BB.VProg.C124_equal_views`
* `BB.BProg.C125_programs_partial`
* `BB.BProg.C125_moved_is_ub`
* `BB.BProg.C125_product_needs_elision`
* `BB.Saved.C126_histories_partial`
* `BB.Saved.C126_load_after_save`
* `BB.Saved.C126_dense_archive`
* `BB.Files.C127_band_partial`
* `BB.Files.C127_read_back`
* `BB.Files.C127_read_reports`
* `BB.Files.C127_unwritable_is_silent`
* `BB.Files.C127_other_types`
* `BB.Files.C127_tall_fails`
* `BB.Show.C128_elements`
* `BB.Show.C128_type_blocks_partial`
* `BB.Show.C128_min_one_partial`
* `BB.Show.C128_one_block_partial`
* `BB.Show.C128_small_is_ub`
* `BB.Show.C128_wide_border_fails`
* `BB.BenchMain.C129_table_partial`
* `BB.BenchMain.C129_difference_read_back`
* `BB.BenchMain.C129_exact_actions_agree`
* `BB.BenchMain.C129_reports`
* `BB.BenchMain.C129_missing_file_is_reported`
* `BB.BenchMain.C129_no_set_is_ub`
* `BB.BenchMain.C129_sets_are_not_empty`
* `BB.BenchMain.C129_unwritable_is_silent`
* `BB.BenchConsole.C130_text`
* `BB.BenchConsole.C130_screen_partial`
* `BB.BenchConsole.C130_no_run`
* `BB.BenchConsole.C130_unknown_action_leaves_no_trace`
* `BB.BenchConsole.C130_unwritable_leaves_no_trace`
* `BB.BenchConsole.C130_blaze_is_reported`
* `BB.BenchConsole.C130_fields_partial`
* `BB.Limits.C131_exact`
* `BB.Limits.C131_settings_partial`
* `BB.Limits.C131_only_own_blocks`
* `BB.Limits.C131_large_elements_are_lost`
* `BB.ShowConsole.C132_show_text`
* `BB.ShowConsole.C132_no_run`
* `BB.ShowConsole.C132_unwritable_leaves_no_trace`
* `BB.ShowConsole.C132_tables_partial`
* `BB.ShowConsole.C132_tables_readable`
* `BB.ShowConsole.C132_generate_text`
* `BB.ShowConsole.C132_generate_unwritable_leaves_no_trace`
* `BB.Cur.C133_outer`
* `BB.Cur.C133_row`
* `BB.Cur.C133_column`
* `BB.Cur.C133_equal`
* `BB.Cur.C133_both_ways`
* `BB.Cur.C134_contiguous_partial`
* `BB.Cur.C134_subscript_ignores_stride`
* `BB.Xpm.C135_read_back_partial`
* `BB.Xpm.C135_elements_partial`
* `BB.Xpm.C135_colour_unique`
* `BB.Xpm.C135_long_key_counterexample`
* `BB.Xpm.C135_equal_keys_counterexample`
* `BB.Interrupted.C136_matrix_stopped`
* `BB.Interrupted.C136_importer_partial`
* `BB.Interrupted.C136_window_complete_iff`
* `BB.Interrupted.C136_matrix_rerun`
* `BB.Interrupted.C136_old_content_lost`
* `BB.Interrupted.C136_pattern_stopped`
* `BB.Interrupted.C136_pattern_rerun`
* `BB.Interrupted.C136_torn_pattern_partial`
* `BB.Python.C137_matrices_hold_nothing`
* `BB.Python.C137_programs_partial`
* `BB.Occ.C138_dense`
* `BB.Occ.C138_sparse_partial`
* `BB.Occ.C138_zero_partial`
* `BB.Occ.C138_exclusive`
* `BB.Occ.C138_norm`
* `BB.Occ.C138_sparse_zero_counterexample`
* `BB.Occ.C138_empty_counterexample`
* `BB.Interrupted.C139_stopped`
* `BB.Interrupted.C139_complete`
* `BB.Interrupted.C139_rerun`
* `BB.Interrupted.C139_any_action`
* `BB.Interrupted.C139_valid_stopped`
* `BB.Interrupted.C139_reads_its_own_file_counterexample`
* `BB.Together.C140_elements_partial`
* `BB.Together.C140_same_content`
* `BB.Together.C140_ends`
* `BB.Together.C140_generators`
* `BB.Together.C140_order`
* `BB.FullDisk.C141_importer`
* `BB.FullDisk.C141_pattern_partial`
* `BB.FullDisk.C141_benchmark_partial`
