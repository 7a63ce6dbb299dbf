# Axioms of the property theorems

Output of `#print axioms` for every theorem of `MANIFEST.json` (namespace `Grann`), grouped by the
axioms they depend on.

## (none)

* C34_truncation_accepted
* C37_crlf_exceptions
* C43_reported_size_after_reset

## Classical.choice, Quot.sound, propext

* C01_insert_into_sorted_list
* C01_endless
* C02_scan_keeps_k_nearest
* C02_scan_any_filter
* C02_endless
* C03_scan_memory_safe_iff
* C04_graph_search_answer
* C05_terminates
* C06_fixed_point
* C07_exact_on_filtered_reachable
* C07_exact_on_reachable
* C08_ivf_results_match
* C08_lsh_results_match
* C08_vamana_results_match
* C09_search_misses
* C11_ivf_count
* C11_lsh_count
* C11_vamana_count
* C11_rng_count
* C11_hnsw_count
* C12_graph_search_safe_iff
* C12_hnsw_search_safe_iff
* C13_graph_results_are_tags_partial
* C14_inverted_lists_partition
* C15_all_clusters_exact
* C16_more_probes_better_partial
* C16_beyond_clusters_scans_first
* C16_ties_partial
* C16_ties_open
* C17_self_found
* C18_queries_independent
* C18_reload_unaffected
* C19_one_round_partial
* C19_second_generation_empty
* C20_prune_alpha
* C21_prune_reasons
* C21_selection_unique
* C22_degree_bound
* C22_degree_during_build
* C23_valid_edges
* C24_no_repeated_edges_partial
* C24_repeated_everywhere
* C25_stale_copy_loses_edge
* C25_undisturbed_insertion_partial
* C26_build_safe_partial
* C26_empty_sample_unsafe
* C27_relative_neighbourhood_graph
* C27_stored_vector_found
* C27_index_finds_stored_vector
* C28_label_entry_points
* C28_least_used
* C29_levels_nested
* C29_entry_points_valid
* C30_bin_round_trip
* C30_saved_format
* C31_aligned_load
* C31_save_removes_padding
* C31_subset_round_trip
* C32_load_bin_rejects
* C32_load_aligned_rejects_bytes
* C32_load_aligned_rejects_partial
* C32_wraparound_accepted
* C32_metadata
* C32_overflow
* C33_graph_round_trip
* C33_header_is_length
* C34_cut_still_valid
* C34_search_after_report
* C34_truncation_detected_partial
* C34_cut_in_last_list
* C35_load_returns_partial
* C35_vamana_load_diverges
* C38_no_table_partial
* C38_stale_table
* C38_resurrected
* C39_first_save_partial
* C39_overwrite_partial
* C39_mixed_index_accepted
* C39_other_count_partial
* C40_ivf_reload
* C41_vamana_reload
* C41_rng_reload
* C41_hnsw_reload
* C43_blocks_in_order
* C44_float_read
* C44_float_get
* C44_float_exact
* C44_float_again
* C44_float_last
* C44_float_not_finite
* C44_get_last
* C44_get_bool
* C44_unset
* C44_default_not_used
* C44_float_texts
* C44_float_rounded
* C45_hits_partial
* C45_count_partial
* C45_value_partial
* C45_not_100
* C45_tool_partial
* C45_tool_rejects
* C45_tool_zero
* C46_load
* C46_with_distances
* C46_only_ids
* C46_empty
* C47_exact_knn
* C47_parts_partial
* C47_same_distances
* C48_k_partial
* C48_reduced
* C49_k_closest_centres
* C49_independent_of_blocking
* C50_int8
* C50_int8_exact
* C50_int8_overflow
* C50_uint8
* C50_uint8_exact
* C50_uint8_wraps
* C50_metric
* C50_int8_padding
* C50_uint8_padding
* C50_float
* C50_rank
* C51_metrics_partial
* C51_bytes
* C51_fast_l2
* C51_fast_l2_wrong
* C52_inner_product
* C52_multiple
* C52_unpadded
* C52_padded
* C52_fast_norm
* C53_chunks
* C53_cover
* C54_shards
* C54_total
* C54_too_many
* C54_no_points
* C55_retrieve
* C55_two_phase
* C55_too_many
* C56_files
* C56_subsequence
* C56_memory
* C56_matrix
* C56_truncated
* C57_iteration
* C57_lloyd
* C58_random
* C58_random_unset
* C58_kpp_partial
* C58_nan_endless
* C58_kpp_ends
* C58_kpp_exact
* C59_files
* C60_plain_partial
* C60_ivf_partial
* C60_refuted
* C60_hnsw_data_partial
* C60_hnsw_empty_partial
* C61_set_partial
* C61_small_partial
* C61_ids_partial
* C61_refuted
* C62_build_terminates
* C62_hnsw_terminates
* C63_reachable_partial
* C63_degree_zero
* C63_degree_one
* C63_every_degree
* C63_every_parameter
* C64_range_recall
* C64_range_value
* C65_prune
* C66_load
* C66_round_trip_partial
* C66_no_queries
* C67_codes
* C67_decode
* C67_smallest_error
* C67_own_chunks
* C67_no_points
* C67_wrong_chunks
* C67_shapes
* C68_file
* C68_unit
* C68_order
* C68_all_zero
* C68_no_points
* C68_short_file
* C69_in_bounds
* C69_percentile
* C69_degrees
* C70_filtered_partial
* C70_bytes_overflow
* C70_no_match
* C70_more_lines
* C71_count_partial
* C71_full_partial
* C71_overcount
* C71_nothing_found
* C71_short_truth
* C72_sizes
* C72_total
* C72_estimate
* C72_fits_partial
* C72_duplicates
* C72_tiny_budget
* C72_wraps
* C72_uninit
* C73_train
* C73_encode
* C73_mean
* C73_other_chunks
* C73_wraps
* C74_vecs
* C74_vecs_load
* C74_int8
* C74_int8_range
* C74_int8_interval
* C74_int8_truncated
* C74_tsv
* C74_tsv_bytes
* C74_tsv_repeats
* C74_tsv_characters
* C74_tsv_back
* C74_tsv_lost
* C74_convert
* C74_low_byte
* C74_tsv_lines
* C74_tsv_lines_right_iff
* C74_float_back
* C74_float_same
* C74_float_lost
* C75_ivf_build_again
* C75_ivf_stored_twice
* C75_ivf_still_exact
* C75_relng_built_twice
* C75_load_graph_again
* C75_old_graph_used
* C75_old_graph_unsafe
* C75_load_labels_again
* C75_stale_labels
* C75_lsh_build_again
* C75_lsh_new_tables_lost
* C76_critical_sections_atomic
* C76_always_defined
* C76_built_graph
* C76_no_deadlock
* C76_build_ends
* C76_no_race_partial
* C76_no_race_large_degree
* C76_safe_degrees
* C76_slack_exact
* C77_no_interference
* C77_undefined_only_after_race
* C77_no_race_partial
* C77_race_iff
* C77_stored_vectors_safe
* C78_vamana
* C78_vamana_ends
* C78_hnsw
* C78_hnsw_ends
* C78_ivf
* C78_lsh
* C78_rng
* C78_rng_finds
* C79_lost_maximum
* C79_base_serial_partial
* C79_query_file
* C79_order_partial
* C79_base_not_unit
* C79_wrong_order
* C79_normalize
* C79_integer_base
* C79_integer_normalize
* C79_analyze
* C80_defined
* C80_too_large
* C80_one_thread_partial
* C80_duplicates
* C81_serial_partial
* C81_other_vectors
* C81_other_number
* C81_file_gone
* C82_lsh
* C82_minus_one
* C82_results
* C82_short_queries
* C82_no_queries
* C82_short_truth
* C82_negative_k
* C82_vamana
* C82_relng
* C82_hnsw
* C82_ivf
* C83_vamana_args
* C83_vamana_outcomes
* C83_vamana_refused
* C83_vamana_missing
* C83_vamana_extra
* C83_hnsw_args
* C83_hnsw_outcomes
* C83_relng_args
* C83_relng_outcomes
* C83_ivf_args
* C83_ivf_outcomes
* C83_lsh_args
* C83_lsh_outcomes
* C83_list_missing
* C83_search_vamana
* C83_search_vamana_outcomes
* C83_search_hnsw
* C83_search_hnsw_outcomes
* C83_search_relng
* C83_search_relng_outcomes
* C83_search_ivf
* C83_search_ivf_outcomes
* C83_search_lsh
* C83_search_lsh_outcomes
* C83_search_lsh_missing
* C83_atoi
* C83_atof
* C83_alpha
* C83_atof_twice
* C83_vamana_params
* C83_part_names
* C83_level_names
* C83_ivf_names
* C83_result_names
* C83_vamana
* C83_relng
* C83_ivf
* C83_lsh_names
* C83_lsh
* C83_hnsw
* C83_build_stops
* C83_search_stops
* C83_hnsw_keep
* C83_vamana_minus_one
* C83_relng_minus_one
* C83_hnsw_minus_one
* C83_vamana_build_minus_one
* C84_iteration
* C84_kmeans
* C84_rate
* C84_ivf
* C84_partition
* C84_pq
* C84_program
* C84_program_undefined
* C85_truth_partial
* C85_truth_load
* C85_truth_short
* C85_truth_negative
* C85_truth_narrow
* C85_truth_many
* C85_truth_zero
* C85_truth_nothing
* C85_truth_wide
* C86_ties_needed
* C86_truth_counted
* C86_recall
* C86_chain
* C86_ivf
* C86_ties_cost
* C87_tsv_lines
* C87_usage
* C87_vecs
* C87_int8
* C87_tsv_float
* C87_tsv_bytes
* C87_tsv_unknown
* C87_table_bytes
* C87_bytes_back
* C87_float_back
* C87_table_unknown
* C87_table_negative
* C87_table_dimension
* C87_convert
* C87_exact
* C87_modulo
* C87_recall_partial
* C87_recall_negative
* C87_vector
* C87_vector_arguments
* C88_budget
* C88_atof
* C88_partition
* C88_partition_fails
* C88_partition_limits
* C88_pq
* C88_pq_stale
* C88_pq_limits
* C88_ram_partial
* C88_ram_negative
* C88_ram_limits
* C88_ram_rate
* C88_usage
* C88_unknown
* C88_names
* C88_slice
* C88_slice_rates
* C89_filtered_partial
* C89_load
* C89_bytes
* C89_no_match
* C89_negative
* C89_dimension
* C89_zero
* C89_usage
* C89_type
* C90_file
* C90_too_large
* C90_duplicates
* C90_usage
* C90_print
* C90_print_overflow
* C90_make_and_print
* C91_vecs_l2sq
* C91_nearest
* C91_nearest_k
* C91_assign
* C91_process_residuals
* C91_new_centers
* C91_chunks
* C91_first_dist
* C91_next_dist
* C91_medoid
* C91_cut
* C91_codes
* C91_convert
* C91_l2sq
* C91_knn
* C91_norms
* C91_normalize
* C91_relng
* C91_inverted
* C91_cleanup
* C91_queries
* C91_vecs_l2sq_value
* C91_nearest_value
* C91_nearest_k_value
* C91_assign_value
* C91_process_residuals_value
* C91_new_centers_value
* C91_chunks_value
* C91_first_dist_value
* C91_next_dist_value
* C91_medoid_value
* C91_cut_value
* C91_codes_value
* C91_convert_value
* C91_l2sq_value
* C91_norms_value
* C91_normalize_value
* C91_relng_value
* C91_knn_value
* C92_safe_partial
* C92_race
* C92_order
* C92_entry_points
* C93_l2_error
* C93_l2_number
* C93_l2_symm
* C93_l2_zero
* C93_l2_self
* C93_l2_padding
* C93_l2_close
* C93_l2_order
* C93_scan_close
* C93_ivf_close
* C93_dot_close
* C93_ip_loop
* C94_expand_partial
* C94_truth_partial
* C94_truth_wrong
* C95_truth_exact
* C95_index_exact
* C95_truth_bytes
* C95_truth_float_partial
* C95_ivf
* C95_truth_wrong
* C96_symmetric
* C96_number
* C96_vamana
* C96_relng
* C96_hnsw
* C96_lsh
* C96_ivf
* C96_bytes
* C96_slots
* C97_compare_partial
* C97_truth_exact
* C97_truth_bytes
* C97_truth_float_partial
* C97_index_partial
* C97_slots
* C97_truth_wrong
* C98_centre_partial
* C98_ivf_partial
* C98_partition_partial
* C98_pq_partial
* C98_wrong
* C98_entry_partial
* C98_mean
* C98_tame
* C98_kmeans_partial
* C99_kpp
* C99_ends
* C99_bytes
* C99_order_wrong
* C99_stop
* C100_prune
* C100_rng_found
* C100_rng_l2
* C100_rng_graph
* C101_bit
* C101_search
* C101_self
* C102_center
* C102_medoid_partial
* C102_loop
* C102_many_points
* C102_whole
* C103_vector
* C103_file
* C103_normalize
* C103_arithmetic
* C103_order
* C103_ties
* C104_kmeans
* C104_lloyds_null
* C104_slices
* C104_owners
* C104_exceptions
* C104_programs
* C104_ivf_build
* C104_search_programs
* C104_constructors
* C106_vamana
* C106_rng
* C106_hnsw
* C106_ivf
* C106_copy
* C107_rng_start
* C107_vamana_start
* C107_edge
* C107_ivf
* C107_valid_partial
* C107_size_ignored
* C107_vamana_edge
* C107_hnsw_start
* C107_hnsw_edge
* C107_ivf_cut
* C107_ivf_missing
* C107_lsh
* C107_lsh_cut_partial
* C107_lsh_cut_accepted
* C107_lsh_shrunk
* C107_lsh_marker_partial

## Quot.sound, propext

* C03_zero_capacity_unsafe
* C09_exact
* C09_missed
* C09_test_decides_match_partial
* C11_filler
* C12_scan_zero_count_unsafe
* C12_scan_max_count_unsafe
* C12_zero_list_size_unsafe
* C13_lsh_tag_out_of_range
* C20_prune_topK
* C24_repeated_edge_witness
* C25_lost_edge_witness
* C26_small_data_unsafe
* C26_empty_data_unsafe
* C26_rng_small_data_unsafe
* C32_missing_file_rejected
* C36_labels_round_trip
* C36_universal_label
* C37_label_file_parsed
* C37_order_and_line_ends
* C37_second_parse_refused
* C38_medoid_table_round_trip
* C42_cached_reads
* C42_missing_file_garbage
* C42_missing_file_reads
* C43_cached_writes
* C45_recall_at_zero
* C46_missing
* C48_not_points
* C53_limits
* C57_limits
* C58_fallback
* C58_limits
* C59_vamana_start
* C59_rng_start
* C59_rng_graph
* C59_hnsw_start
* C59_entry_point
* C61_growth
* C63_unreachable_witness
* C69_no_points
* C73_stale
* C74_vecs_missing
* C75_relng_build_again
* C76_reserve_races
* C76_race_small_degree
* C79_max_norm_race
* C79_analyze_empty
* C80_safe
* C83_levels
* C83_decimal
* C84_limits
* C85_truth_dropped
* C87_vecs_missing
* C93_l2_loop
* C101_loop
* C103_zero_vector
* C104_ends
* C104_exceptions_lose
* C104_prune_ids

## propext

* C04_largest_list
* C09_accepted_matches
* C09_unsorted_filter_rejects_match
* C09_universal_accepted
* C10_rng_hnsw_ignore_filter
* C12_scan_filter_unlabelled_unsafe
* C13_ivf_reports_positions
* C13_lsh_tag_witness
* C13_lsh_wrong_tag
* C35_missing_graph_diverges
* C36_empty_labels_lost
* C38_resurrected_search_unsafe
* C49_limits
* C49_infinite_distance_unassigned
* C51_unsupported
* C69_out_of_bounds
* C73_too_many
* C75_vamana_built_twice
* C79_max_bound
* C83_hex_digits
* C105_alloc
* C105_rows
* C105_padding_needed
* C105_inside
* C105_truth
