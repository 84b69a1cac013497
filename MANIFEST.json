{
 "claims": [
  {
   "property": "C01",
   "status": "proved",
   "theorems": [
    "BB.C01_addressing_bijective",
    "BB.C01_out_of_range_asserts"
   ],
   "note": ""
  },
  {
   "property": "C02",
   "status": "proved",
   "theorems": [
    "BB.C02_writes_exact"
   ],
   "note": ""
  },
  {
   "property": "C03",
   "status": "proved",
   "theorems": [
    "BB.C03_submatrix_window"
   ],
   "note": "Every parent that is contiguous by column (all plain column-major matrices and full-height views). Views of other views are C59."
  },
  {
   "property": "C04",
   "status": "proved",
   "theorems": [
    "BB.C04_striped_iteration",
    "BB.C04_striped_reverse",
    "BB.C04_steps_are_elements"
   ],
   "note": "Non-empty windows. Windows without rows or columns are C63 (C63_view_without_rows_is_wrong, C63_view_without_columns_is_wrong)."
  },
  {
   "property": "C05",
   "status": "proved",
   "theorems": [
    "BB.C05_row_cursor",
    "BB.C05_column_cursor"
   ],
   "note": ""
  },
  {
   "property": "C06",
   "status": "proved",
   "theorems": [
    "BB.C06_no_memory_error",
    "BB.C06_owner_is_exclusive"
   ],
   "note": "Memory safety (no use after free, no double free, exclusive ownership) for all histories of variable-size storages. Leaks and fixed-size storages are C60."
  },
  {
   "property": "C07",
   "status": "proved",
   "theorems": [
    "BB.C07_copy_equal",
    "BB.C07_assign_equal",
    "BB.C07_owner_isolated",
    "BB.C07_owner_isolated_history"
   ],
   "note": ""
  },
  {
   "property": "C08",
   "status": "proved",
   "theorems": [
    "BB.C08_move_transfers",
    "BB.C08_moved_from_reusable"
   ],
   "note": "Transfer of the contents by move. What can be done with the moved-from object is C61."
  },
  {
   "property": "C09",
   "status": "proved",
   "theorems": [
    "BB.C09_dense_conversion"
   ],
   "note": ""
  },
  {
   "property": "C10",
   "status": "proved",
   "theorems": [
    "BB.C10_transpose",
    "BB.C10_transpose_twice"
   ],
   "note": ""
  },
  {
   "property": "C11",
   "status": "proved",
   "theorems": [
    "BB.C11_sparse_to_dense",
    "BB.C11_default_constructed_is_ub"
   ],
   "note": ""
  },
  {
   "property": "C12",
   "status": "proved",
   "theorems": [
    "BB.C12_dense_to_sparse",
    "BB.C12_dense_view_to_sparse"
   ],
   "note": "Column-major sources (plain and views), both target orientations. Row-major sources are C62 (C62_dense_to_sparse_is_wrong); stale counts are C33."
  },
  {
   "property": "C13",
   "status": "proved",
   "theorems": [
    "BB.C13_sparse_transpose"
   ],
   "note": "Column-major (or square) matrices with a row. The remaining shapes are C62, C63 and C64."
  },
  {
   "property": "C14",
   "status": "proved",
   "theorems": [
    "BB.C14_round_trip",
    "BB.C14_round_trip_identity"
   ],
   "note": "Column-major sources. Row-major sources are C62 (C62_round_trip_is_wrong)."
  },
  {
   "property": "C15",
   "status": "proved",
   "theorems": [
    "BB.C15_round_trip"
   ],
   "note": ""
  },
  {
   "property": "C16",
   "status": "proved",
   "theorems": [
    "BB.C16_dense_sum",
    "BB.C16_dense_sum_assign",
    "BB.C16_dimension_mismatch_asserts"
   ],
   "note": "Operands of equal orientation; different orientations are C62 (C62_mixed_sum_is_wrong)."
  },
  {
   "property": "C17",
   "status": "proved",
   "theorems": [
    "BB.C17_sparse_sum",
    "BB.C17_sparse_add_sub"
   ],
   "note": "Element values and validity for column-major (or square) operands. What nnz() reports is C64; row-major is C62."
  },
  {
   "property": "C18",
   "status": "proved",
   "theorems": [
    "BB.C18_dense_sparse_sum",
    "BB.C18_dense_assign_any_orientation",
    "BB.C18_sparse_plus_dense"
   ],
   "note": "Dense+-Sparse, Dense+=/-=Sparse, Sparse+Dense. Sparse-Dense and Sparse op= are C65."
  },
  {
   "property": "C19",
   "status": "proved",
   "theorems": [
    "BB.C19_zero_identity",
    "BB.C19_zero_identity_multiple"
   ],
   "note": "M+Zero, Zero+M, M-Zero and the in-place forms for all kinds. Zero-M is C65."
  },
  {
   "property": "C20",
   "status": "proved",
   "theorems": [
    "BB.C20_sum",
    "BB.C20_dense_minus_multiple",
    "BB.C20_multiple_minus_single",
    "BB.C20_dense_assign_multiple",
    "BB.C20_to_dense"
   ],
   "note": "Sums of all kinds, Dense-X, X-B (with a dense part or sparse B), Dense+=X, Dense-=X, conversion. X-Y and X+=B are C65."
  },
  {
   "property": "C21",
   "status": "proved",
   "theorems": [
    "BB.C21_native_product",
    "BB.C21_native_product_sum"
   ],
   "note": "Column-major operands, summation order made explicit (dotSeq), and in a semiring the mathematical sum. Row-major operands are C62 (C62_native_product_is_wrong)."
  },
  {
   "property": "C22",
   "status": "proved",
   "theorems": [
    "BB.C22_cursor_product",
    "BB.C22_cursor_product_plain"
   ],
   "note": ""
  },
  {
   "property": "C23",
   "status": "proved",
   "theorems": [
    "BB.C23_sparse_product"
   ],
   "note": "Values and validity (column-major). What nnz() reports is C64."
  },
  {
   "property": "C24",
   "status": "proved",
   "theorems": [
    "BB.C24_sparse_dense_product",
    "BB.C24_dense_sparse_product",
    "BB.C24_dimension_mismatch_asserts"
   ],
   "note": ""
  },
  {
   "property": "C25",
   "status": "proved",
   "theorems": [
    "BB.C25_zero_annihilates",
    "BB.C25_zero_product_to_dense",
    "BB.C25_mismatch_asserts"
   ],
   "note": "Rows, columns and values for all kinds. getSize() of the result is C47."
  },
  {
   "property": "C26",
   "status": "proved",
   "theorems": [
    "BB.C26_product_of_sums"
   ],
   "note": "All combinations of dense, sparse, zero and two-part operands (column-major), exact arithmetic."
  },
  {
   "property": "C27",
   "status": "proved",
   "theorems": [
    "BB.C27_blocked_product"
   ],
   "note": "At least one inner block; without inner blocks see C63_blocked_no_inner_block_is_ub."
  },
  {
   "property": "C28",
   "status": "partial",
   "theorems": [
    "BB.C28_whole_pipeline_partial",
    "BB.C28_any_limits_partial",
    "BB.C28_whole_pipeline_exact_partial",
    "BB.C28_default_limits_are_ub",
    "BB.C28_pipeline_partial",
    "BB.C28_error_bound_partial",
    "BB.C28_zero_thresholds_partial",
    "BB.C28_all_zero_thresholds_fail"
   ],
   "note": "Pipeline proved for every partition with non-empty blocks and composed with the block size generator for min block size <= 1, for every threshold setting of the default policy, with an error bound and an exact case. False in general: all thresholds 0 abort (C28_all_zero_thresholds_fail); default block limits 200/1000 are undefined for all matrices with 2..399 rows (C28_default_limits_are_ub). For every block limit: the pipeline is correct whenever the block size generator returns, and the only other outcome is its stuck state (C28_any_limits_partial)."
  },
  {
   "property": "C29",
   "status": "proved",
   "theorems": [
    "BB.C29_accepts_interval",
    "BB.C29_constructor",
    "BB.C29_constructor_throws"
   ],
   "note": ""
  },
  {
   "property": "C30",
   "status": "proved",
   "theorems": [
    "BB.C30_exactly_one",
    "BB.C30_split_sums_to_thresholded"
   ],
   "note": ""
  },
  {
   "property": "C31",
   "status": "proved",
   "theorems": [
    "BB.C31_strict_weak_order",
    "BB.C31_unregistered_is_ub"
   ],
   "note": "The order of checkers with a registered (double) threshold type is a strict weak order whose equivalence means the same acceptance. C31_unregistered_is_ub records what happens for other threshold types."
  },
  {
   "property": "C32",
   "status": "proved",
   "theorems": [
    "BB.C32_dense_count",
    "BB.C32_dense_occupation",
    "BB.C32_antitone",
    "BB.C32_sparse_count"
   ],
   "note": "Non-empty matrices; an empty matrix has a NaN occupation (C63_occupation_of_empty_is_nan). Sparse counts range over the whole value array."
  },
  {
   "property": "C33",
   "status": "partial",
   "theorems": [
    "BB.Cache.C33_fresh_partial",
    "BB.Cache.C33_dense_occupation_partial",
    "BB.Cache.C33_count_is_sticky",
    "BB.Cache.C33_stale_answer",
    "BB.Cache.C33_stale_count_overflows",
    "BB.Cache.C33_swap_dense_partial",
    "BB.Cache.C33_swap_sparse_partial",
    "BB.C33_stale_count_writes_past_end",
    "BB.C33_count_exact"
   ],
   "note": "Proved for every history (construct, copy, move, assign, move-assign, swap, edit, reset, query) in which the object was not changed after a query without a reset. False otherwise: the first answer sticks (C33_count_is_sticky, C33_stale_answer), and the stale count makes a conversion write out of bounds (C33_stale_count_writes_past_end). For every claimed count: too small writes out of bounds, at least the true one is right (C33_count_exact)."
  },
  {
   "property": "C34",
   "status": "partial",
   "theorems": [
    "BB.Cache.C34_fresh_partial",
    "BB.Cache.C34_dense_norm_partial",
    "BB.Cache.C34_norm_is_sticky",
    "BB.Cache.C34_stale_answers"
   ],
   "note": "Proved for every history in which the object was not changed after its norm was asked for. False otherwise: nothing resets a cached norm (C34_norm_is_sticky, C34_stale_answers)."
  },
  {
   "property": "C35",
   "status": "partial",
   "theorems": [
    "BB.C35_dense",
    "BB.C35_norm_partial",
    "BB.C35_laws",
    "BB.C35_two_part_one_is_wrong",
    "BB.C35_blocked_partial",
    "BB.C35_two_sparse_is_ub",
    "BB.C35_sparse_sum_exact",
    "BB.C35_two_sparse_exact"
   ],
   "note": "Exact real arithmetic. Proved for dense, tight sparse, zero (2-norm), two-part with dense first part (2- and max-norm) and blocked matrices of these, plus the norm laws. False: 1-norm of a two-part matrix is twice that of the first part (C35_two_part_one_is_wrong); two sparse parts is undefined (C35_two_sparse_is_ub). For all pairs of sparse matrices: the norm of the sum is right if every position is stored in one of them and undefined otherwise (C35_sparse_sum_exact, C35_two_sparse_exact)."
  },
  {
   "property": "C36",
   "status": "partial",
   "theorems": [
    "BB.C36_contents_partial",
    "BB.C36_error_bound_partial",
    "BB.C36_plain_source_doubles",
    "BB.C36_plain_source_selected",
    "BB.C36_positive_threshold_loses"
   ],
   "note": "Contents and error bound proved for window sources and plain sources separately; full claim fails: a plain (not window) source loses the small elements of the selected type list (C36_positive_threshold_loses)."
  },
  {
   "property": "C37",
   "status": "proved",
   "theorems": [
    "BB.C37_exec_if",
    "BB.C37_first_match",
    "BB.C37_default_choice"
   ],
   "note": "First-match semantics for non-empty matrices; empty ones are C63 (C63_convert_empty_is_not_found)."
  },
  {
   "property": "C38",
   "status": "partial",
   "theorems": [
    "BB.Dispatch.C38_index",
    "BB.Dispatch.C38_exec_if",
    "BB.Dispatch.C38_exec_if_2dim",
    "BB.Dispatch.C38_exec_dyn",
    "BB.Dispatch.C38_unlisted_type",
    "BB.Dispatch.C38_exec_dyn_2dim_partial",
    "BB.Dispatch.C38_init_order_is_ub",
    "BB.Dispatch.C38_rows_first",
    "BB.Dispatch.C38_expressions",
    "BB.Dispatch.C38_sum_type",
    "BB.Dispatch.C38_product_type",
    "BB.Dispatch.C38_listed"
   ],
   "note": "Indices, search dispatch (exec_if, exec_if_2dim) and one-dimensional tables proved for every type list and listed type; the result types of dynamic sums/products are proved to stay in the list for expressions of any depth. The two-dimensional tables are correct exactly if their rows are initialised before the square that copies them, which C++ leaves open (C38_init_order_is_ub). Unlisted types: C38_unlisted_type."
  },
  {
   "property": "C39",
   "status": "partial",
   "theorems": [
    "BB.C39_sum_partial",
    "BB.C39_min_one_partial",
    "BB.C39_uniform_partial",
    "BB.C39_small_dimension_is_ub",
    "BB.C39_outcomes",
    "BB.C39_returns_iff",
    "BB.C39_returns_partial",
    "BB.C39_unlucky_border_is_ub",
    "BB.C39_matrix_partial",
    "BB.C39_product_partial",
    "BB.C39_product_outcomes"
   ],
   "note": "Whenever it returns, sizes are positive and sum to the dimension; it returns for min<=1 and for uniform matrices. False in general: reads uninitialised variables for every dimension in [2, 2*min) (C39_small_dimension_is_ub) and for unlucky borders (C39_unlucky_border_is_ub). Exact outcome for every input: the greedy search of SpecBlockSize either finishes or is stuck (C39_outcomes); for distinct detection values this is an iff (C39_returns_iff)."
  },
  {
   "property": "C40",
   "status": "proved",
   "theorems": [
    "BB.C40_limits",
    "BB.C40_max_zero_is_exceeded",
    "BB.C40_constructor"
   ],
   "note": "Both limits for every returned result with max >= 1; C40_max_zero_is_exceeded records the accepted limits (0,0)."
  },
  {
   "property": "C41",
   "status": "partial",
   "theorems": [
    "BB.C41_greedy",
    "BB.C41_steepest_partial",
    "BB.C41_row_major_partial",
    "BB.C41_column_major_is_swapped",
    "BB.C41_column_major_is_wrong",
    "BB.C41_detection_exact"
   ],
   "note": "Preference for the largest detection values proved; detection arrays proved for row-major matrices. False for column-major matrices (the default): C41_column_major_is_swapped, C41_column_major_is_wrong. The borders are proved to be the result of the greedy search (steepest open place first, none once every block fits: C41_greedy). For either orientation the arrays are those of the storage read row by row (C41_detection_exact)."
  },
  {
   "property": "C42",
   "status": "proved",
   "theorems": [
    "BB.FileIO.C42_window",
    "BB.FileIO.C42_rejected",
    "BB.FileIO.C42_importer"
   ],
   "note": "Every fitting window, complete file and column-major target; rejection when the sums do not overflow; the importer. Overflow and short files are C70, row-major targets C62."
  },
  {
   "property": "C43",
   "status": "proved",
   "theorems": [
    "BB.C43_round_trip",
    "BB.C43_sequence",
    "BB.C43_uninitialised_is_ub",
    "BB.C43_truncated_throws"
   ],
   "note": "Round trip for any contents, shape, target state and rest of archive, and for sequences of matrices; every truncated archive throws. Targets of the other orientation are C62, state after an exception C66. Boost's own framing is not modelled; submatrix serialisation writes a raw pointer and is not modelled."
  },
  {
   "property": "C44",
   "status": "proved",
   "theorems": [
    "BB.C44_all_filler",
    "BB.C44_continuous_filler",
    "BB.C44_hilbert_filler",
    "BB.C44_diagonal_filler",
    "BB.C44_diagonal_filler_rejects",
    "BB.C44_resized",
    "BB.C44_resized_diagonal"
   ],
   "note": ""
  },
  {
   "property": "C45",
   "status": "proved",
   "theorems": [
    "BB.C45_max",
    "BB.C45_rms",
    "BB.C45_size_mismatch_is_ub",
    "BB.C45_smaller_second_is_ub"
   ],
   "note": "Dense matrices of equal size and orientation over exact reals: max deviation is the attained bound, RMS is exact, zero iff equal, RMS<=max. Different orientations are C62, empty matrices C63. Rounding not modelled. A second matrix with fewer elements is read beyond its end (C45_smaller_second_is_ub)."
  },
  {
   "property": "C46",
   "status": "proved",
   "theorems": [
    "BB.Blas.C46_gemm",
    "BB.Blas.C46_mismatch_asserts",
    "BB.Blas.C46_large_is_wrong",
    "BB.Blas.C46_csrmm"
   ],
   "note": "The routines are external: an arbitrary function that meets the published contract (Gemm.Conforms, Csrmm.Conforms; both shown satisfiable) stands for them. Exact semiring arithmetic, inner dimension >= 1 (else C63_gemm_no_inner_is_wrong) and dimensions < 2^31 (C46_large_is_wrong). mkl_?csrmultcsr (not selected by any policy) is not modelled."
  },
  {
   "property": "C47",
   "status": "partial",
   "theorems": [
    "BB.DimHist.C47_step_iff",
    "BB.DimHist.C47_history_partial",
    "BB.DimHist.C47_plain_history_partial",
    "BB.DimHist.C47_swap_is_wrong",
    "BB.DimHist.C47_resize_is_wrong",
    "BB.DimHist.C47_fromDynamic_is_wrong",
    "BB.DimHist.C47_swap_breaks_conversion",
    "BB.DimHist.C47_agrees_with_models",
    "BB.C47_zero_product_size_is_zero",
    "BB.C47_zero_product_size_counterexample",
    "BB.C47_swapped_conversion_exact",
    "BB.C47_swapped_conversion_is_ub"
   ],
   "note": "Exact characterisation (C47_step_iff) of the operations that keep getSize()=rows*columns; histories of harmless operations proved by induction. False of the code for swap of dense/sparse/blocked matrices, resize of zero/blocked matrices and dense construction from a DynamicMatrix (C47_swap_is_wrong, C47_resize_is_wrong, C47_fromDynamic_is_wrong); C47_swap_breaks_conversion shows an out-of-bounds consequence. size_t overflow of rows*columns not modelled. For all operands: C47_swapped_conversion_is_ub, C47_swapped_conversion_exact."
  },
  {
   "property": "C48",
   "status": "proved",
   "theorems": [
    "BB.C48_dense",
    "BB.C48_reflexive_symmetric",
    "BB.C48_uninitialised_is_ub",
    "BB.C48_zero"
   ],
   "note": "Dense, same orientation, exactly; reflexive and symmetric. Different orientations are C62, sparse matrices C67. operator == compares addresses and is not modelled. NaN not modelled."
  },
  {
   "property": "C49",
   "status": "proved",
   "theorems": [
    "BB.Blocked.C49_block_lists",
    "BB.C49_initializer_lists"
   ],
   "note": "Element lists with rows at least as long as the first, and lists of blocks that fit together. Malformed lists are C68."
  },
  {
   "property": "C50",
   "status": "partial",
   "theorems": [
    "BB.C50_constructor_checks_partial",
    "BB.C50_history_partial",
    "BB.C50_edit_breaks_dimensions",
    "BB.C50_default_constructed_is_ub"
   ],
   "note": "Constructor check and reset histories (debug build) proved. False with edits through getMatrix1(), exceptions on reset, release builds, default construction: negation theorems."
  },
  {
   "property": "C51",
   "status": "proved",
   "theorems": [
    "BB.Tracker.C51_register",
    "BB.Tracker.C51_histories_are_all",
    "BB.Tracker.C51_report"
   ],
   "note": "Histories of nested and sequential scopes, any number. Durations are exact (no clock overflow), one thread."
  },
  {
   "property": "C52",
   "status": "proved",
   "theorems": [
    "BB.EnumParser.C52_parse_is_last_registration",
    "BB.EnumParser.C52_inverse",
    "BB.EnumParser.C52_unknown_rejected",
    "BB.EnumParser.C52_alias",
    "BB.Tracker.C52_tracker_ids"
   ],
   "note": "Round trip and rejection with assertions or exceptions; release builds are C69."
  },
  {
   "property": "C53",
   "status": "proved",
   "theorems": [
    "BB.PatternSettings.C53_pattern",
    "BB.PatternSettings.C53_row_width"
   ],
   "note": "Exact arithmetic for the thresholds; the output stream is assumed to accept everything."
  },
  {
   "property": "C54",
   "status": "proved",
   "theorems": [
    "BB.Provider.C54_band"
   ],
   "note": "Exact for every dimension and band width <= dimension+1; wider bands are C56/C69."
  },
  {
   "property": "C55",
   "status": "proved",
   "theorems": [
    "BB.C55_sparse_conversion"
   ],
   "note": "Matrices that store exactly what they report. Spare cells are C64."
  },
  {
   "property": "C56",
   "status": "partial",
   "theorems": [
    "BB.Provider.C56_too_wide_is_wrong",
    "BB.Provider.C56_band_partial",
    "BB.Provider.C56_wide_partial",
    "BB.Provider.C56_wide_is_wrong",
    "BB.Provider.C56_tall_is_wrong"
   ],
   "note": "Exact for square matrices. False of the code for rectangular ones: with more columns the band stops at the square part (C56_wide_is_wrong), with more rows an assertion fails (C56_tall_is_wrong). C56_wide_partial says what is written."
  },
  {
   "property": "C57",
   "status": "proved",
   "theorems": [
    "BB.Provider.C57_sets",
    "BB.Provider.C57_unknown_source_throws"
   ],
   "note": "Every configuration of understood entries. Unknown types, missing sets and self copies are C70. Parsing of the configuration file is not modelled."
  },
  {
   "property": "C58",
   "status": "proved",
   "theorems": [
    "BB.Blas.C58_interface_independent"
   ],
   "note": "Equal results for native, OpenBLAS and MKL in exact arithmetic for inner dimension >= 1 and dimensions < 2^31. Mixed precision is C71. Eigen and Blaze interfaces are not modelled."
  },
  {
   "property": "C59",
   "status": "partial",
   "theorems": [
    "BB.C59_view_of_view_partial",
    "BB.C59_elements",
    "BB.C59_iff",
    "BB.C59_nested_view_is_wrong"
   ],
   "note": "Proved for outer views of full height (a range of columns), all inner windows, reads and writes. False for other outer views: C59_nested_view_is_wrong. What a nested window of any view reads, exactly: C59_elements, and when it is right: C59_iff."
  },
  {
   "property": "C60",
   "status": "partial",
   "theorems": [
    "BB.C60_fixed_double_free",
    "BB.C60_fixed_proxy_frees_user_memory",
    "BB.C60_no_leak_partial",
    "BB.C60_proxy_copy_leaks",
    "BB.C60_moved_from_copy_leaks",
    "BB.C60_load_leaks",
    "BB.C60_leaks_exact",
    "BB.C60_no_leak_iff",
    "BB.C60_lost_for_good",
    "BB.C60_copy_of_non_owner_leaks",
    "BB.C60_load_into_owner_leaks"
   ],
   "note": "Proved for all histories without proxies, moved-from sources and loads. False otherwise: C60_proxy_copy_leaks, C60_moved_from_copy_leaks, C60_load_leaks; fixed-size storages double free (C60_fixed_double_free, C60_fixed_proxy_frees_user_memory). For every history of variable-size storages the number of leaked blocks is exactly the number of copies of non-owners plus loads into owners (C60_leaks_exact, C60_no_leak_iff), and they are lost for good (C60_lost_for_good)."
  },
  {
   "property": "C61",
   "status": "partial",
   "theorems": [
    "BB.C61_resize_after_assignment_partial",
    "BB.C61_moved_from_cannot_resize",
    "BB.C61_self_move_loses_contents",
    "BB.C61_self_move_empties"
   ],
   "note": "Proved: a moved-from storage that was assigned can be resized to any size. False: resizing it directly (C61_moved_from_cannot_resize); self-move (C61_self_move_loses_contents). C61_self_move_empties: for every storage."
  },
  {
   "property": "C62",
   "status": "partial",
   "theorems": [
    "BB.C62_equal_is_wrong",
    "BB.C62_error_statistics_is_wrong",
    "BB.C62_orientation_independent_partial",
    "BB.C62_sparse_to_dense_partial",
    "BB.C62_mixed_sum_is_wrong",
    "BB.C62_native_product_is_wrong",
    "BB.FileIO.C62_file_window_is_wrong",
    "BB.C62_reread_iff",
    "BB.C62_native_product_exact",
    "BB.C62_sum_exact",
    "BB.C62_sum_assign_exact",
    "BB.C62_equal_exact",
    "BB.C62_max_deviation_exact",
    "BB.C62_rms_deviation_exact",
    "BB.C62_load_exact",
    "BB.C62_square_is_transposed",
    "BB.C62_dense_to_sparse_exact",
    "BB.C62_load_other_orientation_transposes",
    "BB.C62_load_other_orientation_is_wrong",
    "BB.C62_dense_to_sparse_is_wrong",
    "BB.C62_sparse_transpose_is_ub",
    "BB.C62_round_trip_is_wrong",
    "BB.C62_sparse_sum_is_ub",
    "BB.C62_square_sparse_sum_exact",
    "BB.C62_square_sparse_product_exact",
    "BB.C62_row_major_sparse_product_is_swapped",
    "BB.C62_square_dense_sparse_sum_exact",
    "BB.C62_square_mixed_product_exact",
    "BB.C62_row_major_sparse_sum_is_unusable",
    "BB.C62_row_major_sparse_product_is_unusable",
    "BB.C62_row_major_transpose_exact",
    "BB.C62_error_statistics_exact"
   ],
   "note": "Proved for dense conversion, transposition, cursor product, counts, norms, and sparse to dense. False for dense to sparse, sparse transposition and sums, mixed dense sums, the native product, equal(), error statistics, load, file windows (negation theorems). What each mixed operation computes, exactly, for every size: C62_*_exact (the second operand is reread in the order of the first; dense to sparse from a row-major source yields the leading square of the transposed matrix or is undefined; row-major sparse transposition is right iff every stored column index is below the number of rows; square sparse operands are used as if they were column-major, so a row-major product is B*A). Rectangular row-major sparse sums and products can never be computed and read back (C62_row_major_sparse_*_is_unusable)."
  },
  {
   "property": "C63",
   "status": "partial",
   "theorems": [
    "BB.Blas.C63_gemm_no_inner_is_wrong",
    "BB.C63_blocked_no_inner_block_is_ub",
    "BB.C63_occupation_of_empty_is_nan",
    "BB.C63_rms_of_empty_is_nan",
    "BB.C63_convert_empty_is_not_found",
    "BB.C63_default_constructed",
    "BB.C63_degenerate_partial",
    "BB.C63_view_without_rows_exact",
    "BB.C63_view_without_rows_iff",
    "BB.C63_view_without_columns_exact",
    "BB.C63_blocked_no_inner_exact",
    "BB.C63_view_without_rows_is_wrong",
    "BB.C63_view_without_columns_is_wrong",
    "BB.C63_sparse_transpose_no_rows",
    "BB.C63_sparse_transpose_no_rows_is_ub"
   ],
   "note": "Proved for products with empty inner dimension, conversion, transposition, sums, dense to sparse and back. False for empty windows (C63_view_without_rows_exact, C63_view_without_columns_exact: exactly what they visit), sparse transposition without rows (C63_sparse_transpose_no_rows: always undefined), BLAS products without inner dimension, blocked products without inner blocks (C63_blocked_no_inner_exact), occupation, RMS."
  },
  {
   "property": "C64",
   "status": "partial",
   "theorems": [
    "BB.C64_spare_cells_occupation_is_ub",
    "BB.C64_stored_elements_partial",
    "BB.C64_sum_exact",
    "BB.C64_product_exact",
    "BB.C64_convert_iff",
    "BB.C64_convert_of_sum_iff",
    "BB.C64_transpose_of_nothing",
    "BB.C64_transpose_counts_garbage",
    "BB.C64_sum_counts_garbage",
    "BB.C64_product_counts_garbage",
    "BB.C64_conversion_reads_uninitialised",
    "BB.C64_count_iff"
   ],
   "note": "Proved for all histories of dense-to-sparse conversions, conversions and transpositions. False for sums, products and transposes of matrices storing nothing: C64_sum_exact, C64_product_exact and C64_transpose_of_nothing say for all operands which reported cells are uninitialised, C64_convert_iff and C64_convert_of_sum_iff when a later conversion is defined. Counting is defined exactly if every cell was written (C64_count_iff)."
  },
  {
   "property": "C65",
   "status": "partial",
   "theorems": [
    "BB.C65_difference_partial",
    "BB.C65_zero_minus_is_wrong",
    "BB.C65_zero_minus_counterexample",
    "BB.C65_multiple_minus_multiple_is_wrong",
    "BB.C65_multiple_minus_multiple_counterexample",
    "BB.C65_multiple_assign_doubles",
    "BB.C65_multiple_assign_throws",
    "BB.C65_sparse_minus_dense_is_negated",
    "BB.C65_sparse_assign_throws"
   ],
   "note": "Proved for seven of nine pairs of one-part kinds and the in-place operations on dense matrices or with a zero matrix on the right. False otherwise (negation theorems)."
  },
  {
   "property": "C66",
   "status": "partial",
   "theorems": [
    "BB.C66_truncated_load_partial",
    "BB.FileIO.C66_file_target_partial",
    "BB.C66_truncated_load_exact",
    "BB.C66_consistent_iff",
    "BB.FileIO.C66_rejected_window_destroys_target",
    "BB.C66_reset_keeps_mismatch",
    "BB.C66_truncated_load_is_inconsistent",
    "BB.C66_reset_keeps_any_mismatch"
   ],
   "note": "Proved: truncated load before the first or after the fourth number; file reads always leave matching dimensions and array size. False: C66_truncated_load_is_inconsistent, C66_rejected_window_destroys_target, C66_reset_keeps_mismatch. C66_truncated_load_exact and C66_consistent_iff say what a truncated load leaves, for every cut. For all parts: C66_reset_keeps_any_mismatch."
  },
  {
   "property": "C67",
   "status": "partial",
   "theorems": [
    "BB.C67_ignores_dimensions",
    "BB.C67_equal_partial",
    "BB.C67_equal_exact",
    "BB.C67_equal_is_wrong",
    "BB.C67_spare_is_never_equal"
   ],
   "note": "Proved for equal dimensions and orientation and matrices that store exactly what they report. False otherwise: C67_equal_exact says for any dimensions and orientations what equal answers (C67_equal_is_wrong: dimensions are ignored), C67_spare_is_never_equal what it does with spare cells."
  },
  {
   "property": "C68",
   "status": "partial",
   "theorems": [
    "BB.Blocked.C68_block_heights_partial",
    "BB.Blocked.C68_block_lists_is_wrong",
    "BB.C68_ragged_is_ub",
    "BB.C68_lists_exact"
   ],
   "note": "Proved: block lists with blocks of different heights in a row are reported. False: shorter rows, empty lists, block widths (C68_ragged_is_ub, C68_block_lists_is_wrong). C68_lists_exact: for every list of lists, what is built or that it is undefined."
  },
  {
   "property": "C69",
   "status": "partial",
   "theorems": [
    "BB.C69_checked_builds_partial",
    "BB.C69_multiple_mismatch_is_accepted",
    "BB.Provider.C69_too_wide_band_is_ub",
    "BB.EnumParser.C69_enum_parser_is_ub"
   ],
   "note": "Proved for builds with assertions or exceptions. False in release builds: C69_multiple_mismatch_is_accepted, C69_enum_parser_is_ub, C69_too_wide_band_is_ub."
  },
  {
   "property": "C70",
   "status": "partial",
   "theorems": [
    "BB.FileIO.C70_reported_partial",
    "BB.C70_unknown_source_partial",
    "BB.FileIO.C70_window_accepted_iff",
    "BB.FileIO.C70_wrapped_window_accepted_iff",
    "BB.FileIO.C70_window_exact",
    "BB.FileIO.C70_window_complete_iff",
    "BB.FileIO.C70_file_overflow_is_accepted",
    "BB.FileIO.C70_short_file_is_silent",
    "BB.Provider.C70_unknown_type_is_ignored",
    "BB.Provider.C70_self_copy_is_ub",
    "BB.Provider.C70_get_unknown_is_ub"
   ],
   "note": "Proved for non-overflowing windows, missing files, the importer and unknown copy sources. False: C70_window_accepted_iff (which windows are accepted, exactly), C70_window_exact (what a file of any length puts in the target), C70_short_file_is_silent, C70_unknown_type_is_ignored, C70_self_copy_is_ub, C70_get_unknown_is_ub."
  },
  {
   "property": "C71",
   "status": "partial",
   "theorems": [
    "BB.Blas.C71_float_double_partial",
    "BB.Blas.C71_double_float_partial",
    "BB.Blas.C71_mixed_is_wrong"
   ],
   "note": "C71_float_double_partial and C71_double_float_partial say exactly what is computed; C71_mixed_is_wrong: with MKL the double operand is rounded to float."
  },
  {
   "property": "C72",
   "status": "partial",
   "theorems": [
    "BB.Alias.C72_views_partial",
    "BB.Alias.C72_overlap_is_wrong",
    "BB.Alias.C72_copy_partial",
    "BB.Alias.C72_copy_overlap_is_wrong",
    "BB.Alias.C72_self"
   ],
   "note": "C72_views_partial/C72_copy_partial: proved for disjoint windows and for overlaps in the safe direction; C72_self for A op= A. C72_overlap_is_wrong and C72_copy_overlap_is_wrong: false for every other overlap."
  },
  {
   "property": "C73",
   "status": "partial",
   "theorems": [
    "BB.Shared.C73_history_partial",
    "BB.Shared.C73_copy_is_shared",
    "BB.Shared.C73_copy_counterexample",
    "BB.Shared.C73_shared_cells_is_wrong",
    "BB.Shared.C73_shared_two_part_is_wrong"
   ],
   "note": "C73_history_partial: programs that do not copy (or add to themselves) behave as values. False with copies (C73_copy_is_shared, C73_copy_counterexample) and with shared cells (C73_shared_cells_is_wrong)."
  },
  {
   "property": "C74",
   "status": "partial",
   "theorems": [
    "BB.Shared.C74_move_partial",
    "BB.Shared.C74_move_construct_is_wrong",
    "BB.Shared.C74_product_of_moved"
   ],
   "note": "Move assignment preserves the matrix. C74_move_construct_is_wrong: move construction loses the unblocked dimensions and the conversion to dense writes out of bounds."
  },
  {
   "property": "C75",
   "status": "partial",
   "theorems": [
    "BB.Info.C75_types_dimensions_norms",
    "BB.Info.C75_generated",
    "BB.Info.C75_norms_partial",
    "BB.Info.C75_two_part_norm_is_wrong",
    "BB.Info.C75_two_part_norm_witness",
    "BB.Info.C75_type_counting_is_ub"
   ],
   "note": "Types and dimensions proved in full, norms for all blocks that are not two-part. C75_two_part_norm_is_wrong: the norm of a two-part block is 0 or a failure. C75_type_counting_is_ub: get_type_counting reads uninitialised counters for every non-empty matrix."
  },
  {
   "property": "C76",
   "status": "partial",
   "theorems": [
    "BB.Info.C76_picture_partial",
    "BB.Info.C76_wide_border_fails"
   ],
   "note": "Proved for borders that fit all blocks (BorderFits). C76_wide_border_fails: otherwise the program never finishes normally."
  },
  {
   "property": "C77",
   "status": "partial",
   "theorems": [
    "BB.Print.C77_dense",
    "BB.Print.C77_session",
    "BB.Print.C77_aligned",
    "BB.Print.C77_readable",
    "BB.Print.C77_injective",
    "BB.Print.C77_dimensions_partial",
    "BB.Print.C77_dimensions_not_aligned"
   ],
   "note": "Proved for numbers. Dimension matrices can be read back (C77_dimensions_partial) but are not aligned (C77_dimensions_not_aligned)."
  },
  {
   "property": "C78",
   "status": "partial",
   "theorems": [
    "BB.Print.C78_sparse_partial",
    "BB.Print.C78_large_sparse_is_not_shown",
    "BB.Print.C78_spare_is_ub",
    "BB.Print.C78_state_is_changed"
   ],
   "note": "Proved for sparse matrices without spare cells and with at most 100 elements. Larger ones are not shown however few elements they store; spare cells (as left by sums and products) are read uninitialised; printing a dense matrix leaves scientific notation and precision 10 behind."
  },
  {
   "property": "C79",
   "status": "partial",
   "theorems": [
    "BB.Generator.C79_generate",
    "BB.Generator.C79_default_settings",
    "BB.Generator.C79_default",
    "BB.Generator.C79_reproducible_partial",
    "BB.Generator.C79_occupation_is_ignored",
    "BB.Generator.C79_order_matters",
    "BB.Generator.C79_bad_range_is_ub"
   ],
   "note": "Dimensions, initialisation and magnitudes proved for all settings with min \u2264 max; reproducible for one order of evaluation. The occupation setting is ignored, the order of evaluation of the two draws is unspecified, an inverted range is undefined behaviour (negations proved)."
  },
  {
   "property": "C80",
   "status": "partial",
   "theorems": [
    "BB.Ext.C80_eigen",
    "BB.Ext.C80_eigen_as_native",
    "BB.Ext.C80_blaze_partial",
    "BB.Ext.C80_blaze_throws"
   ],
   "note": "Eigen: proved in full. Blaze: proved exactly when the arrays are aligned and both row counts are multiples of the SIMD width; in all other cases the call throws (C80_blaze_throws)."
  },
  {
   "property": "C81",
   "status": "partial",
   "theorems": [
    "BB.Ext.C81_square_is_swapped",
    "BB.Ext.C81_square_is_wrong",
    "BB.Ext.C81_commuting_partial",
    "BB.Ext.C81_tall_is_ub"
   ],
   "note": "False: for square column-major operands the result is B*A (C81_square_is_swapped), tall ones are undefined behaviour. Proved for commuting square operands."
  },
  {
   "property": "C82",
   "status": "partial",
   "theorems": [
    "BB.Bench.C82_native",
    "BB.Bench.C82_actions_partial",
    "BB.Bench.C82_block_partial"
   ],
   "note": "Proved for all actions; Blaze actions only for sizes Blaze accepts (C80), blasbooster_block only for thresholds 0 and minimal block size \u2264 1 (C28)."
  },
  {
   "property": "C83",
   "status": "partial",
   "theorems": [
    "BB.Bench.C83_table_partial",
    "BB.Bench.C83_zero_iff_equal",
    "BB.Bench.C83_bad_input_throws",
    "BB.Bench.C83_missing_set_is_ub",
    "BB.Bench.C83_unknown_action_is_ignored",
    "BB.Bench.C83_known_actions",
    "BB.Bench.C83_diff_is_overwritten",
    "BB.Bench.C83_failure_keeps_lines",
    "BB.Bench.C83_exact_actions_agree"
   ],
   "note": "Table proved for all lists. False: unknown action names are dropped silently, the difference files are overwritten by the next action, a missing matrix set is undefined behaviour (negations proved)."
  },
  {
   "property": "C84",
   "status": "partial",
   "theorems": [
    "BB.Bench.C84_sparse_partial",
    "BB.Bench.C84_gemm_partial",
    "BB.Bench.C84_csrmm_partial",
    "BB.Bench.C84_csrmultcsr_is_swapped",
    "BB.Bench.C84_unknown_is_ub"
   ],
   "note": "Proved for dgemm, sgemm, csrmm (A not zero) and the native sparse actions. csrmultcsr returns B*A; unknown names are undefined behaviour (negations proved)."
  },
  {
   "property": "C85",
   "status": "proved",
   "theorems": [
    "BB.Wrap.C85_openblas",
    "BB.Wrap.C85_mkl"
   ],
   "note": ""
  },
  {
   "property": "C86",
   "status": "proved",
   "theorems": [
    "BB.Wrap.C86_openblas_signatures",
    "BB.Wrap.C86_mkl_signatures",
    "BB.Wrap.C86_declared",
    "BB.Wrap.C86_prototypes",
    "BB.Wrap.C86_tags"
   ],
   "note": ""
  },
  {
   "property": "C87",
   "status": "partial",
   "theorems": [
    "BB.Wrap.C87_complex_dot_partial",
    "BB.Wrap.C87_by_value_zero",
    "BB.Wrap.C87_by_value_wrong"
   ],
   "note": "Proved for libraries that return complex results through a hidden first argument. False for libraries that return them by value (gfortran ABI, the default of OpenBLAS on Linux): the wrappers then return 0 for all vectors (C87_by_value_zero, C87_by_value_wrong)."
  },
  {
   "property": "C88",
   "status": "proved",
   "theorems": [
    "BB.Wrap.C88_threads",
    "BB.Wrap.C88_history"
   ],
   "note": ""
  },
  {
   "property": "C89",
   "status": "proved",
   "theorems": [
    "BB.Prog.C89_programs",
    "BB.Prog.C89_no_leak",
    "BB.Prog.C89_misfit",
    "BB.Prog.C89_out_of_range"
   ],
   "note": ""
  },
  {
   "property": "C90",
   "status": "proved",
   "theorems": [
    "BB.Prog.C90_deferred",
    "BB.Prog.C90_current",
    "BB.Prog.C90_dangling"
   ],
   "note": ""
  },
  {
   "property": "C91",
   "status": "partial",
   "theorems": [
    "BB.Prog.C91_stale_dimensions",
    "BB.Prog.C91_resize_throws",
    "BB.Prog.C91_inplace_ignored",
    "BB.Prog.C91_assignable_partial",
    "BB.Prog.C91_sum_uninitialised"
   ],
   "note": "False: a moved-from matrix still reports its old dimensions while any element access is undefined behaviour (C91_stale_dimensions), resizing it throws (C91_resize_throws), += on it is silently ignored (C91_inplace_ignored) and sums with it contain uninitialised elements (C91_sum_uninitialised). Proved: it can be assigned, exchanged and destroyed after any program (C91_assignable_partial)."
  },
  {
   "property": "C92",
   "status": "proved",
   "theorems": [
    "BB.C92_product_order",
    "BB.C92_product_kinds",
    "BB.C92_sum_kinds",
    "BB.C92_blocked_order"
   ],
   "note": ""
  },
  {
   "property": "C93",
   "status": "proved",
   "theorems": [
    "BB.C93_product_error",
    "BB.C93_sum_error",
    "BB.C93_product_error_any",
    "BB.C93_binary_floating_point",
    "BB.C93_double_product"
   ],
   "note": ""
  },
  {
   "property": "C94",
   "status": "proved",
   "theorems": [
    "BB.C94_blocked_error"
   ],
   "note": ""
  },
  {
   "property": "C95",
   "status": "partial",
   "theorems": [
    "BB.C95_distance_partial",
    "BB.C95_one_inner_block_partial",
    "BB.C95_blocking_changes_rounding"
   ],
   "note": "False: with rounding arithmetic the partition of the inner dimension changes the result (C95_blocking_changes_rounding). Proved: the difference is at most the sum of the two rounding error bounds (C95_distance_partial), and there is none for one inner block (C95_one_inner_block_partial)."
  },
  {
   "property": "C96",
   "status": "proved",
   "theorems": [
    "BB.C96_product",
    "BB.C96_sum",
    "BB.C96_difference",
    "BB.C96_product_type",
    "BB.C96_sum_type",
    "BB.C96_blocked_types"
   ],
   "note": ""
  },
  {
   "property": "C97",
   "status": "proved",
   "theorems": [
    "BB.C97_single_product",
    "BB.C97_double_product",
    "BB.C97_single_sum",
    "BB.C97_double_sum",
    "BB.C97_single_difference",
    "BB.C97_double_difference"
   ],
   "note": ""
  },
  {
   "property": "C98",
   "status": "proved",
   "theorems": [
    "BB.C98_mixed_error"
   ],
   "note": ""
  },
  {
   "property": "C99",
   "status": "proved",
   "theorems": [
    "BB.C99_contents",
    "BB.C99_first_match",
    "BB.C99_round_trip"
   ],
   "note": ""
  },
  {
   "property": "C100",
   "status": "proved",
   "theorems": [
    "BB.C100_pipeline_error",
    "BB.C100_float_double"
   ],
   "note": ""
  },
  {
   "property": "C101",
   "status": "proved",
   "theorems": [
    "BB.C101_type",
    "BB.C101_error",
    "BB.C101_error_in_double",
    "BB.C101_exact",
    "BB.C101_reassociation",
    "BB.C101_float_double"
   ],
   "note": ""
  },
  {
   "property": "C102",
   "status": "partial",
   "theorems": [
    "BB.C102_product",
    "BB.C102_product_iff",
    "BB.C102_sum_partial",
    "BB.C102_two_part_sum_partial",
    "BB.C102_zero_is_not_checked",
    "BB.C102_sum_counterexample",
    "BB.C102_assign_partial",
    "BB.C102_dense_assign_is_not_checked",
    "BB.C102_assign_counterexample",
    "BB.C102_blocked_partial",
    "BB.C102_blocked_ignores_rows",
    "BB.C102_blocked_counterexample",
    "BB.C102_library_product",
    "BB.C102_cursor_product_is_not_checked",
    "BB.C102_cursor_product_counterexample"
   ],
   "note": "False of the code in debug builds already (release builds check nothing): sums with a zero matrix are not checked (C102_zero_is_not_checked, C102_sum_counterexample), dense += dense is not checked (C102_dense_assign_is_not_checked, C102_assign_counterexample: result or out-of-range read), blocked products ignore surplus block rows and read past the end for surplus block columns (C102_blocked_ignores_rows, C102_blocked_counterexample). the cursor-based product has no check (C102_cursor_product_is_not_checked, C102_cursor_product_counterexample). Proved: all products of non-blocked matrices are checked (C102_product, C102_product_iff) and the products computed by OpenBLAS, MKL, Eigen and Blaze (C102_library_product), sums without zero matrices (C102_sum_partial, C102_two_part_sum_partial), += with sparse or zero right operand (C102_assign_partial), blocked products whose inner partitions differ at a common position (C102_blocked_partial)."
  },
  {
   "property": "C103",
   "status": "partial",
   "theorems": [
    "BB.Par.C103_tracker_count_bounds",
    "BB.Par.C103_tracker_counts_any_number",
    "BB.Par.C103_readers_partial",
    "BB.Par.C103_finishes",
    "BB.Par.C103_norm_races",
    "BB.Par.C103_occupation_races",
    "BB.Par.C103_tracker_races",
    "BB.Par.C103_tracker_loses_counts",
    "BB.Par.C103_reordered_stores",
    "BB.Par.C103_independent_partial",
    "BB.Par.C103_products_partial"
   ],
   "note": "False of the code: two const norm queries race unless the norm is cached already (C103_norm_races), two occupation queries always race (C103_occupation_races), with the tracker compiled in any two dense products race (C103_tracker_races) and counts are lost even without reordering (C103_tracker_loses_counts): the counter grows by between one and the number of products, and every such number occurs (C103_tracker_count_bounds, C103_tracker_counts_any_number). Proved: if accesses are sequentially consistent, all readers get the right answers in every interleaving (C103_readers_partial; not so if the two stores are reordered, C103_reordered_stores); threads that change only matrices of their own are free of races and deterministic (C103_independent_partial); concurrent products into separate targets are race free and correct without the tracker (C103_products_partial); no thread blocks another (C103_finishes). Not modelled: memory allocation, resizing of shared matrices, sparse and dynamic matrices in threads."
  },
  {
   "property": "C104",
   "status": "partial",
   "theorems": [
    "BB.C104_norm_partial",
    "BB.C104_zero",
    "BB.C104_gamma",
    "BB.C104_blocked_partial",
    "BB.C104_max_deviation",
    "BB.C104_rms_deviation",
    "BB.C104_exact_norms",
    "BB.C104_exact_deviation",
    "BB.C104_double_partial",
    "BB.C104_underflow_is_zero"
   ],
   "note": "Proved for all matrices whose norm can be computed at all (C35's exceptions: 1-norm of two-part matrices, sparse matrices with spare cells, two sparse parts; 1- and maximum norm of blocked matrices do not compile). Overflow and underflow are excluded by assumption; if the squares of all elements underflow, the 2-norm of a matrix other than 0 is 0 (C104_underflow_is_zero). std::pow(x,2) and std::sqrt are assumed to have a relative error of at most u."
  },
  {
   "property": "C105",
   "status": "partial",
   "theorems": [
    "BB.C105_failure_without_effect_partial",
    "BB.C105_harmless_iff",
    "BB.C105_same_worlds",
    "BB.C105_no_memory_error_partial",
    "BB.C105_failed_resize_is_fatal",
    "BB.C105_failed_assignment_is_fatal",
    "BB.C105_failed_load",
    "BB.C105_constructors_all_or_nothing",
    "BB.C105_sparse_constructor",
    "BB.C105_sparse_copy",
    "BB.C105_failed_matrix_resize_lies",
    "BB.C105_failed_matrix_assignment_lies",
    "BB.C105_construct_and_move"
   ],
   "note": "Proved for constructors (any number of arrays, any failing allocation), moves, swaps, and for resize/assignment of objects that hold no array. False of the code for resize and copy assignment of objects that hold an array (they free it before they allocate; C105_failed_resize_is_fatal, C105_failed_assignment_is_fatal), for load (C105_failed_load) and for the dimensions of dense matrices (C105_failed_matrix_resize_lies, C105_failed_matrix_assignment_lies)."
  },
  {
   "property": "C106",
   "status": "partial",
   "theorems": [
    "BB.C106_construct_partial",
    "BB.C106_get",
    "BB.C106_set",
    "BB.C106_resize_partial",
    "BB.C106_history_partial",
    "BB.C106_negative_index_rejected",
    "BB.C106_product_wraps",
    "BB.C106_no_array_at_all",
    "BB.C106_elements_share_a_cell",
    "BB.C106_int_product_overflows",
    "BB.C106_negative_dimensions_accepted",
    "BB.C106_submatrix_position",
    "BB.C106_int_submatrix_overflows",
    "BB.C106_sparse_construct",
    "BB.C106_sparse_resize_overflows",
    "BB.C106_sparse_resize"
   ],
   "note": "Proved for dimensions whose product is a value of the index type. False of the code beyond: for size_t the product wraps silently (C106_product_wraps, C106_elements_share_a_cell), for int it overflows (C106_int_product_overflows, C106_sparse_resize_overflows), negative int dimensions are accepted (C106_negative_dimensions_accepted)."
  },
  {
   "property": "C107",
   "status": "partial",
   "theorems": [
    "BB.C107_moves_from_begin_partial",
    "BB.C107_moves_from_rbegin_partial",
    "BB.C107_back_from_end_partial",
    "BB.C107_back_from_reached_end_is_wrong",
    "BB.C107_forward_after_back_from_end_is_wrong",
    "BB.C107_adjacent_columns_from_begin_partial",
    "BB.C107_adjacent_columns_from_end_partial",
    "BB.C107_forward_from_rend_is_wrong",
    "BB.C107_too_many_columns"
   ],
   "note": "False of the code for windows whose columns are not adjacent: after reaching the end by ++, -- does not lead to the last element (C107_back_from_reached_end_is_wrong); --end() followed by ++ is not end() (C107_forward_after_back_from_end_is_wrong): end() carries a block counter one larger than the last block's; steps forwards from rend() leave the window after the first column (C107_forward_from_rend_is_wrong); with more than 2^31 columns the block counter, an int, overflows (C107_too_many_columns). Proved: every sequence from begin() or rbegin() that stays on the elements before its last step; all -- sequences from end(); every sequence for adjacent columns. Pointer arithmetic beyond the array is integer arithmetic in the model."
  },
  {
   "property": "C108",
   "status": "partial",
   "theorems": [
    "BB.InPlace.C108_stack_programs_partial",
    "BB.InPlace.C108_sparse_programs_partial",
    "BB.InPlace.C108_sparse_assignment_is_ignored",
    "BB.InPlace.C108_sparse_assignment_is_wrong",
    "BB.InPlace.C108_long_list_writes_beyond",
    "BB.InPlace.C108_copy_is_not_equal",
    "BB.InPlace.C108_equal",
    "BB.InPlace.C108_on_stack_matrix_has_no_room"
   ],
   "note": "False of the code: assignment between fixed-size sparse storages is ignored (C108_sparse_assignment_is_ignored/_is_wrong), lists that are too long are written beyond the array (C108_long_list_writes_beyond), == compares addresses (C108_copy_is_not_equal), a matrix declared OnStack has no room (C108_on_stack_matrix_has_no_room). Proved: programs over stack storages with lists that fit; programs over sparse storages without assignment; equal()."
  },
  {
   "property": "C109",
   "status": "partial",
   "theorems": [
    "BB.Gen.C109_prototypes",
    "BB.Gen.C109_sparse_prototypes",
    "BB.Gen.C109_tags",
    "BB.Gen.C109_openblas_declarations",
    "BB.Gen.C109_mkl_declarations",
    "BB.Gen.C109_openblas_definitions_partial",
    "BB.Gen.C109_mkl_definitions_partial",
    "BB.Gen.C109_parameter_names_distinct",
    "BB.Gen.C109_wrapper_passes_parameters_in_order",
    "BB.Gen.C109_complex_dots_are_not_defined",
    "BB.Gen.C109_declared_but_not_defined",
    "BB.Gen.C109_extra_functions_are_never_generated",
    "BB.Gen.C109_regenerating_mkl_loses_set_dynamic",
    "BB.Gen.C109_indentation"
   ],
   "note": "False of the code: entries of the list of complex dot products are declared but defined only for the four written by hand in the template (C109_complex_dots_are_not_defined, C109_declared_but_not_defined); the list functions_blas_extra is never read (C109_extra_functions_are_never_generated); regenerating the MKL source loses MKL_Set_Dynamic(0) (C109_regenerating_mkl_loses_set_dynamic). Proved for all other lists. The model of the template engine reproduces the six other committed files byte for byte (checked by evaluation outside the proofs). YAML and the file system are not modelled."
  },
  {
   "property": "C110",
   "status": "partial",
   "theorems": [
    "BB.Dyn.C110_programs_partial",
    "BB.Dyn.C110_in_place_is_shared",
    "BB.Dyn.C110_pointers_valid",
    "BB.Dyn.C110_results_are_new",
    "BB.Dyn.C110_null_pointer",
    "BB.Dyn.C110_copy_is_a_reference",
    "BB.Dyn.C110_stored_product_is_late",
    "BB.Dyn.C110_difference_is_wrong",
    "BB.Dyn.C110_in_place_is_wrong",
    "BB.Dyn.C110_zero_minus_is_wrong"
   ],
   "note": "False of the code for some differences and in-place operations (C110_difference_is_wrong, C110_in_place_is_wrong; see C65). Proved for all programs whose differences and in-place operations avoid those kinds, with unrestricted sums, products, copies, resets and stored products (C110_programs_partial); for all programs: pointers never dangle (C110_pointers_valid), in-place operations are seen through exactly the variables that refer to the same matrix (C110_in_place_is_shared), results are matrices of their own (C110_results_are_new). Zero - M is M for every M (C110_zero_minus_is_wrong)."
  },
  {
   "property": "C111",
   "status": "partial",
   "theorems": [
    "BB.Print.C111_history_partial",
    "BB.Print.C111_zero",
    "BB.Print.C111_zero_product_has_size_0",
    "BB.Print.C111_large_is_not_shown",
    "BB.Print.C111_spare_is_ub",
    "BB.Print.C111_order_matters"
   ],
   "note": "False of the code: a zero matrix that is a product is printed with Size = 0 (C111_zero_product_has_size_0), matrices with spare cells, as products and sums leave them, are read out of initialised storage (C111_spare_is_ub), larger matrices are replaced by a message (C111_large_is_not_shown), printing a dense matrix changes the notation of the matrices printed after it (C111_order_matters). Proved for all sequences of the other matrices, with the notation in which each is written (C111_history_partial)."
  },
  {
   "property": "C112",
   "status": "partial",
   "theorems": [
    "BB.Dyn.C112_queries_partial",
    "BB.Dyn.C112_first_norm_stays",
    "BB.Dyn.C112_others_ask_again",
    "BB.Dyn.C112_norm_is_stale",
    "BB.Dyn.C112_size_of_a_zero_product",
    "BB.Dyn.C112_norm_of_a_sparse_sum_is_ub",
    "BB.Dyn.C112_norm_of_two_parts",
    "BB.Dyn.C112_norm_of_any_sparse_sum"
   ],
   "note": "False of the code: the norm is remembered when first asked for, and in-place operations do not reset it (C112_norm_is_stale; for all programs: C112_first_norm_stays); a zero product answers 0 elements (C112_size_of_a_zero_product); the norm of a two-part matrix is 0 or a failure (C112_norm_of_two_parts), that of a sparse sum reads uninitialised cells (C112_norm_of_a_sparse_sum_is_ub). Proved for all programs that avoid these (C112_queries_partial). For all operands of the sum: C112_norm_of_any_sparse_sum."
  },
  {
   "property": "C113",
   "status": "partial",
   "theorems": [
    "BB.Cache.C113_norm_partial",
    "BB.Cache.C113_count_partial",
    "BB.Cache.C113_new_results",
    "BB.Cache.C113_sum_inherits",
    "BB.Cache.C113_sum_inherits_count",
    "BB.Cache.C113_sum_is_wrong",
    "BB.Cache.C113_query_changes_sums"
   ],
   "note": "False of the code: Dense + Sparse (and -, and exchanged operands) begin with C = A, whose defaulted copy assignment copies the remembered norm and counts of the dense operand, and then change C: for all matrices the result answers with the values of the operand (C113_sum_inherits, C113_sum_inherits_count; a wrong answer: C113_sum_is_wrong, which depends on an earlier query: C113_query_changes_sums). Proved for all programs for all objects not in such a state (C113_norm_partial, C113_count_partial) and, whatever happened before, for all other computed matrices (C113_new_results)."
  },
  {
   "property": "C114",
   "status": "partial",
   "theorems": [
    "BB.C114_equivalence",
    "BB.C114_equal_means_equal_partial",
    "BB.C114_sparse_equal_means_equal_partial",
    "BB.C114_owner_equals_only_itself",
    "BB.C114_copy_differs",
    "BB.C114_proxies_equal",
    "BB.C114_same_elements_differ"
   ],
   "note": "False of the code: == compares the addresses of the arrays, so a copy is reported to be different from its original, for every history and every matrix (C114_copy_differs, C114_same_elements_differ), and a matrix that owns memory equals only itself (C114_owner_equals_only_itself). Proved: matrices that compare equal read the same (C114_equal_means_equal_partial, C114_sparse_equal_means_equal_partial); equivalence relation (C114_equivalence); matrices on the same memory of the caller are equal and stay so (C114_proxies_equal)."
  },
  {
   "property": "C115",
   "status": "partial",
   "theorems": [
    "BB.C115_text",
    "BB.C115_failure_text",
    "BB.C115_fields_partial",
    "BB.C115_run_fields_partial",
    "BB.C115_action_names",
    "BB.C115_norms_use_the_digits_of_times",
    "BB.C115_columns_merge",
    "BB.C115_tracker_text",
    "BB.C115_tracker_fields_partial",
    "BB.C115_tracker_columns_merge",
    "BB.C115_tracker_numbers",
    "BB.C115_tracker_names"
   ],
   "note": "The exact text is proved for all inputs (C115_text, C115_failure_text, C115_tracker_text). False of the code: writing a duration restores the flags but not the precision, so the norms are written with the digits of the times (C115_norms_use_the_digits_of_times) and from nine digits on the columns merge (C115_columns_merge); three names fill the column of the tracker table, so that the count becomes part of the name, and with the usual right adjustment count and time are one number (C115_tracker_columns_merge, C115_tracker_names). Proved for all texts shorter than their columns: the fields are recovered (C115_fields_partial, for a whole run C115_run_fields_partial, C115_tracker_fields_partial; the names of the actions are: C115_action_names)."
  },
  {
   "property": "C116",
   "status": "partial",
   "theorems": [
    "BB.C116_checkers_reject_nan",
    "BB.C116_infinity_is_significant",
    "BB.C116_sparse_conversion_loses_nan",
    "BB.C116_sparse_conversion_keeps_infinities",
    "BB.C116_window_conversion_loses_nan",
    "BB.C116_nan_matrix_becomes_zero",
    "BB.C116_equal_iff",
    "BB.C116_not_equal_to_itself",
    "BB.C116_max_deviation",
    "BB.C116_nan_has_no_deviation",
    "BB.C116_rms_deviation",
    "BB.C116_norms",
    "BB.C116_max_norm",
    "BB.C116_sum",
    "BB.C116_product_partial",
    "BB.C116_nan_propagates",
    "BB.C116_zero_hides_nan"
   ],
   "note": "False of the code: no checker accepts NaN, so conversion to sparse and conversion of windows to any type replace NaN by 0 (C116_sparse_conversion_loses_nan, C116_window_conversion_loses_nan) and a matrix of NaN becomes a zero matrix (C116_nan_matrix_becomes_zero); the maximal deviation and the maximum norm ignore NaN (C116_max_deviation, C116_nan_has_no_deviation, C116_max_norm); a matrix with an infinity or NaN is not equal to itself (C116_not_equal_to_itself); products depend on the kind of the operands (C116_zero_hides_nan, C117_depends_on_kind). Proved: sums, the 1- and 2-norm, the root mean square deviation, dense products and conversion of infinities follow the IEEE rules; products of finite operands of any kinds (C116_product_partial). Underflow is not modelled; signed zeros: C117."
  },
  {
   "property": "C117",
   "status": "proved",
   "theorems": [
    "BB.C117_product",
    "BB.C117_conversion_stores",
    "BB.C117_product_of_converted",
    "BB.C117_nothing_stored",
    "BB.C117_sum",
    "BB.C117_difference",
    "BB.C117_in_place",
    "BB.C117_depends_on_kind",
    "BB.C117_signed_zero"
   ],
   "note": ""
  },
  {
   "property": "C118",
   "status": "proved",
   "theorems": [
    "BB.C118_programs",
    "BB.C118_mathematical",
    "BB.C118_sparse_in_place_throws"
   ],
   "note": ""
  },
  {
   "property": "C119",
   "status": "proved",
   "theorems": [
    "BB.SProg.C119_programs",
    "BB.SProg.C119_no_leak",
    "BB.SProg.C119_misfit",
    "BB.SProg.C119_resized"
   ],
   "note": ""
  },
  {
   "property": "C120",
   "status": "partial",
   "theorems": [
    "BB.SProg.C120_conversion_partial",
    "BB.SProg.C120_swap_keeps_size",
    "BB.SProg.C120_swap_too_small",
    "BB.SProg.C120_moved_from",
    "BB.SProg.C120_resize_throws",
    "BB.SProg.C120_assignable_partial",
    "BB.SProg.C120_conversion_exact",
    "BB.SProg.C120_swap_keeps_any_size"
   ],
   "note": "False: swap does not exchange the sizes, after which a conversion to a dense matrix writes out of bounds (C120_swap_keeps_size) or gives a matrix with too few elements (C120_swap_too_small); a moved-from matrix keeps its dimensions while traversal, conversion, sums and products are undefined behaviour (C120_moved_from) and resizing always throws (C120_resize_throws). Proved: programs without swap convert correctly (C120_conversion_partial); for every program, what such a conversion does, exactly (C120_conversion_exact, C120_swap_keeps_any_size); moved-from matrices can be assigned, exchanged and destroyed (C120_assignable_partial)."
  },
  {
   "property": "C121",
   "status": "partial",
   "theorems": [
    "BB.C121_no_memory_error",
    "BB.C121_owner_is_exclusive",
    "BB.C121_leaks_exact",
    "BB.C121_no_leak_partial",
    "BB.C121_programs",
    "BB.C121_programs_leave_nothing_partial",
    "BB.C121_assign_moved_from_is_double_free",
    "BB.C121_assign_proxy_frees_user_memory",
    "BB.C121_bad_constructor_leaks"
   ],
   "note": "Proved for all programs that do not assign to or load into moved-from objects and proxies; what leaks is exactly the memory of constructors that throw (C121_leaks_exact). False otherwise: C121_assign_moved_from_is_double_free, C121_assign_proxy_frees_user_memory, C121_bad_constructor_leaks."
  },
  {
   "property": "C122",
   "status": "proved",
   "theorems": [
    "BB.MProg.C122_programs",
    "BB.MProg.C122_no_leak",
    "BB.MProg.C122_misfit",
    "BB.MProg.C122_deferred",
    "BB.MProg.C122_dangling"
   ],
   "note": ""
  },
  {
   "property": "C123",
   "status": "partial",
   "theorems": [
    "BB.C123_continuous_partial",
    "BB.C123_capacity_is_ub",
    "BB.C123_wide_row_major_is_ub",
    "BB.C123_tall_row_major_is_wrong",
    "BB.C123_all_filler_is_ub"
   ],
   "note": "False of the code in full: a capacity below rows*columns writes past the key array, non-square row-major matrices get the wrong number of runs, AllFiller leaves keys and offsets uninitialised (all proved). Proved in full for ContinuousNumberFiller on column-major or square matrices without a requested capacity or with one of at least rows*columns."
  },
  {
   "property": "C124",
   "status": "partial",
   "theorems": [
    "BB.VProg.C124_programs_partial",
    "BB.VProg.C124_all_programs",
    "BB.VProg.C124_moved_view_reads_first_column",
    "BB.VProg.C124_swapped_view_reads_first_column",
    "BB.VProg.C124_equal_views",
    "BB.VProg.C124_moved_view_is_wrong"
   ],
   "note": "False of the code in full: the move constructor does not take over the leading dimension, so v(i,j) of a move-constructed view (and of one exchanged with std::swap) is element (i,0) of the window (proved for every program and view). Proved in full for programs that construct no view by moving; iteration, filling, dimensions and equality are proved for all programs. Windows without elements are excluded (C63)."
  },
  {
   "property": "C125",
   "status": "partial",
   "theorems": [
    "BB.BProg.C125_programs_partial",
    "BB.BProg.C125_moved_is_ub",
    "BB.BProg.C125_product_needs_elision",
    "BB.BProg.C125_swap_keeps_size"
   ],
   "note": "False of the code in full: the move constructor and swap do not carry over the unblocked dimensions; converting a move-constructed blocked matrix is undefined (proved after every program), also for every product if the compiler does not elide the returned copy; after swap both report their old sizes. Proved in full for programs without move construction and with exchanges of equally sized matrices only."
  },
  {
   "property": "C126",
   "status": "partial",
   "theorems": [
    "BB.Saved.C126_histories_partial",
    "BB.Saved.C126_load_after_save",
    "BB.Saved.C126_existing_file_is_kept",
    "BB.Saved.C126_stopped_save_loses_both",
    "BB.Saved.C126_race_replaces_file",
    "BB.Saved.C126_race_mixes_objects",
    "BB.Saved.C126_dense_archive"
   ],
   "note": "False in full: a save that is stopped after it opened the file loses the old and the new object (C126_stopped_save_loses_both), and the check for an existing file and the opening are separate steps, so two programs that ask not to replace a file can both succeed (C126_race_replaces_file) or leave a mixture (C126_race_mixes_objects). Proved: every history of one program that is stopped anywhere behaves as specified up to torn files, which are reported on loading (C126_histories_partial); what was saved is what is loaded (C126_load_after_save); under every schedule a file that exists is kept when nobody may replace it (C126_existing_file_is_kept). The archive is a parameter; C126_dense_archive shows that the one of dense matrices is as assumed."
  },
  {
   "property": "C127",
   "status": "partial",
   "theorems": [
    "BB.Files.C127_band_partial",
    "BB.Files.C127_read_back",
    "BB.Files.C127_read_reports",
    "BB.Files.C127_other_files",
    "BB.Files.C127_unwritable_is_silent",
    "BB.Files.C127_other_types",
    "BB.Files.C127_tall_fails"
   ],
   "note": "False in full: matrices with more rows than columns are never written (C127_tall_fails: assertion or undefined behaviour), wide ones lack part of the band (C56_wide_is_wrong), any type other than band gives the 4000 x 4000 block matrix whatever was asked for (C127_other_types), and a file that cannot be opened for writing is not reported (C127_unwritable_is_silent). Proved: square band matrices (C127_band_partial), reading back any window (C127_read_back), errors of descriptions (C127_read_reports), only the named file changes and only if the program exits with 0 (C127_other_files)."
  },
  {
   "property": "C128",
   "status": "partial",
   "theorems": [
    "BB.Show.C128_elements",
    "BB.Show.C128_other_files",
    "BB.Show.C128_reports",
    "BB.Show.C128_unwritable_is_silent",
    "BB.Show.C128_type_blocks_partial",
    "BB.Show.C128_min_one_partial",
    "BB.Show.C128_one_block_partial",
    "BB.Show.C128_small_is_ub",
    "BB.Show.C128_wide_border_fails"
   ],
   "note": "False in full: with a matrix larger than the maximal block size and a dimension of 2 to 2*min-1 elements the block size generator reads uninitialised variables (C128_small_is_ub; with the default limits every matrix with more than 1000 rows and 2 to 399 columns), a border that does not fit a block is never written (C128_wide_border_fails), and a file that cannot be opened is not reported (C128_unwritable_is_silent). Proved: type elements for every matrix (C128_elements); type-blocks whenever the block sizes are found and the border fits (C128_type_blocks_partial), in particular for minimal block size and border at most 1 (C128_min_one_partial) and for matrices of one block (C128_one_block_partial); errors (C128_reports); no other file changes, and none unless the program exits with 0 (C128_other_files)."
  },
  {
   "property": "C129",
   "status": "partial",
   "theorems": [
    "BB.BenchMain.C129_table_partial",
    "BB.BenchMain.C129_difference_read_back",
    "BB.BenchMain.C129_exact_actions_agree",
    "BB.BenchMain.C129_reports",
    "BB.BenchMain.C129_missing_file_is_reported",
    "BB.BenchMain.C129_no_set_is_ub",
    "BB.BenchMain.C129_sets_are_not_empty",
    "BB.BenchMain.C129_unwritable_is_silent"
   ],
   "note": "Proved for every valid configuration (C129_table_partial, C129_exact_actions_agree) and for reading differences back. False of the code in full: without a matrix in set A or B an end iterator is dereferenced and the message \"No matrices defined\" can never be printed (C129_no_set_is_ub, C129_sets_are_not_empty); of several actions only the last difference is kept (C83_diff_is_overwritten); files that cannot be written are not reported (C129_unwritable_is_silent); unknown names are ignored (C83_unknown_action_is_ignored)."
  },
  {
   "property": "C130",
   "status": "partial",
   "theorems": [
    "BB.BenchConsole.C130_text",
    "BB.BenchConsole.C130_screen_partial",
    "BB.BenchConsole.C130_no_run",
    "BB.BenchConsole.C130_unknown_action_leaves_no_trace",
    "BB.BenchConsole.C130_unwritable_leaves_no_trace",
    "BB.BenchConsole.C130_blaze_is_reported",
    "BB.BenchConsole.C130_fields_partial"
   ],
   "note": "False of the code in full: unknown action names and unwritable difference files leave no trace on the screen or in the exit status (C130_unknown_action_leaves_no_trace, C130_unwritable_leaves_no_trace). Proved: the exact text for every configuration and outcome (C130_text), the screen of valid configurations (C130_screen_partial), no run without settings (C130_no_run), Blaze failures are reported (C130_blaze_is_reported), the fields can be read (C130_fields_partial)."
  },
  {
   "property": "C131",
   "status": "partial",
   "theorems": [
    "BB.Limits.C131_exact",
    "BB.Limits.C131_settings_partial",
    "BB.Limits.C131_only_own_blocks",
    "BB.Limits.C131_zero_single_is_ignored",
    "BB.Limits.C131_large_elements_are_lost"
   ],
   "note": "False of the code for the zero type: Threshold.h:170-174 returns its double-precision limit also for single precision, so zeroSingle is never read (C131_zero_single_is_ignored) and large elements can be lost (C131_large_elements_are_lost). Proved: the exact rule for all settings (C131_exact), the rule as named if the single-precision limit of the zero type is not below the double-precision one, as by default (C131_settings_partial), and that changed limits move only blocks of their own type (C131_only_own_blocks)."
  },
  {
   "property": "C132",
   "status": "partial",
   "theorems": [
    "BB.ShowConsole.C132_show_text",
    "BB.ShowConsole.C132_no_run",
    "BB.ShowConsole.C132_unwritable_leaves_no_trace",
    "BB.ShowConsole.C132_tables_partial",
    "BB.ShowConsole.C132_tables_readable",
    "BB.ShowConsole.C132_generate_text",
    "BB.ShowConsole.C132_generate_unwritable_leaves_no_trace"
   ],
   "note": "False of the code in full: pattern and matrix files that cannot be written leave no trace on the screen or in the exit status (C132_unwritable_leaves_no_trace, C132_generate_unwritable_leaves_no_trace). Proved: the exact text for every run that ends (C132_show_text, C132_generate_text, C132_no_run), the tables for partitions with fitting borders (C132_tables_partial), and that they can be read (C132_tables_readable)."
  },
  {
   "property": "C133",
   "status": "proved",
   "theorems": [
    "BB.Cur.C133_names",
    "BB.Cur.C133_outer",
    "BB.Cur.C133_row",
    "BB.Cur.C133_column",
    "BB.Cur.C133_equal",
    "BB.Cur.C133_both_ways"
   ],
   "note": ""
  },
  {
   "property": "C134",
   "status": "partial",
   "theorems": [
    "BB.Cur.C134_contiguous_partial",
    "BB.Cur.C134_subscript_ignores_stride",
    "BB.Cur.C134_counterexample"
   ],
   "note": "False of the code: operator [] adds the subscript to the pointer without the stride (Cursor.h:202), so across the storage order it reaches another line (C134_subscript_ignores_stride, C134_counterexample). Proved for lines that are contiguous in memory (C134_contiguous_partial)."
  },
  {
   "property": "C135",
   "status": "partial",
   "theorems": [
    "BB.Xpm.C135_read_back_partial",
    "BB.Xpm.C135_elements_partial",
    "BB.Xpm.C135_colour_unique",
    "BB.Xpm.C135_long_key_counterexample",
    "BB.Xpm.C135_equal_keys_counterexample"
   ],
   "note": "False of the code for palettes that the settings accept: keys longer than one character contradict the announced one character per pixel (C135_long_key_counterexample), equal keys merge colours (C135_equal_keys_counterexample). Proved for all palettes with distinct keys of one character and without quotes and backslashes (C135_read_back_partial, C135_elements_partial)."
  },
  {
   "property": "C136",
   "status": "partial",
   "theorems": [
    "BB.Interrupted.C136_matrix_stopped",
    "BB.Interrupted.C136_importer_partial",
    "BB.Interrupted.C136_window_complete_iff",
    "BB.Interrupted.C136_matrix_rerun",
    "BB.Interrupted.C136_old_content_lost",
    "BB.Interrupted.C136_window_silent_counterexample",
    "BB.Interrupted.C136_torn_image",
    "BB.Interrupted.C136_pattern_stopped",
    "BB.Interrupted.C136_pattern_rerun",
    "BB.Interrupted.C136_torn_pattern_partial"
   ],
   "note": "False of the code for matrices constructed from a description of the file (C136_window_silent_counterexample): they are complete exactly if the last element of the window was written (C136_window_complete_iff). The importer of whole matrices reports every incomplete file (C136_importer_partial); a torn image cannot be read or is the image (C136_torn_image, C136_torn_pattern_partial); what the file held before is lost as soon as it is opened (C136_old_content_lost)."
  },
  {
   "property": "C137",
   "status": "partial",
   "theorems": [
    "BB.Python.C137_matrices_hold_nothing",
    "BB.Python.C137_programs_partial",
    "BB.Python.C137_first_use_counterexample"
   ],
   "note": "False of the code: the constructor does not use the array, so every matrix is a null pointer (C137_matrices_hold_nothing), every sum is undefined behaviour and every product raises TypeError because the type of the product expression is not registered (C137_first_use_counterexample). Proved: which programs are defined and what they show (C137_programs_partial)."
  },
  {
   "property": "C138",
   "status": "partial",
   "theorems": [
    "BB.Occ.C138_dense",
    "BB.Occ.C138_sparse_partial",
    "BB.Occ.C138_zero_partial",
    "BB.Occ.C138_exclusive",
    "BB.Occ.C138_norm",
    "BB.Occ.C138_sparse_zero_counterexample",
    "BB.Occ.C138_empty_counterexample",
    "BB.Occ.C138_two_part_counterexample"
   ],
   "note": "False of the code in full: sparse matrices do not count zeros that are not stored (C138_sparse_zero_counterexample), empty zero matrices differ from empty dense ones (C138_empty_counterexample), two-part matrices do not answer (C138_two_part_counterexample). Proved: dense matrices exactly (C138_dense, C138_exclusive), norms that can be computed (C138_norm), sparse matrices made from dense ones for checkers that accept only kept elements (C138_sparse_partial), non-empty zero matrices (C138_zero_partial)."
  },
  {
   "property": "C139",
   "status": "proved",
   "theorems": [
    "BB.Interrupted.C139_stopped",
    "BB.Interrupted.C139_complete",
    "BB.Interrupted.C139_rerun",
    "BB.Interrupted.C139_any_action",
    "BB.Interrupted.C139_valid_stopped",
    "BB.Interrupted.C139_reads_its_own_file_counterexample"
   ],
   "note": ""
  },
  {
   "property": "C140",
   "status": "partial",
   "theorems": [
    "BB.Together.C140_elements_partial",
    "BB.Together.C140_same_content",
    "BB.Together.C140_ends",
    "BB.Together.C140_generators",
    "BB.Together.C140_order",
    "BB.Together.C140_mixture_counterexample",
    "BB.Together.C140_stopped_beside_counterexample",
    "BB.Together.C140_turns"
   ],
   "note": "False of the code for programs with different contents for one file (C140_mixture_counterexample): then every element comes from one of the writers at the same position (C140_elements_partial). Files with one writer, or whose writers write the same content, hold that content (C140_same_content); Programs that take turns on a file leave the content of the last (C140_turns); generate_matrix programs that do not share a file with different options leave the files of any sequential run (C140_generators, C140_order); C140_ends: they end. A program that is stopped beside another one with the same options can leave a gap that no program wrote (C140_stopped_beside_counterexample)."
  },
  {
   "property": "C141",
   "status": "partial",
   "theorems": [
    "BB.FullDisk.C141_generator_partial",
    "BB.FullDisk.C141_importer",
    "BB.FullDisk.C141_silent_counterexample",
    "BB.FullDisk.C141_pattern_partial",
    "BB.FullDisk.C141_torn_pattern_partial",
    "BB.FullDisk.C141_benchmark_partial"
   ],
   "note": "False of the code: no program asks for the state of its streams, so all of them report success and exit with 0 while files are cut (C141_silent_counterexample). Proved: what is left is the beginning that fits, and nothing else differs (C141_generator_partial, C141_pattern_partial, C141_benchmark_partial); the importer of whole matrices reports every file that was cut (C141_importer); a picture that was cut cannot be read or is complete (C141_torn_pattern_partial)."
  }
 ]
}