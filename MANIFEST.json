{
 "claims": [
  {
   "property": "C01",
   "status": "proved",
   "theorems": [
    "Grann.C01_insert_into_sorted_list",
    "Grann.C01_endless"
   ],
   "note": "for every 1<=K<=2^31+1, sorted NaN-free list and new entry; C01_endless: beyond that the 32-bit midpoint makes some insertions go on for ever"
  },
  {
   "property": "C02",
   "status": "proved",
   "theorems": [
    "Grann.C02_scan_keeps_k_nearest",
    "Grann.C02_scan_any_filter",
    "Grann.C02_endless"
   ],
   "note": "with sorted filters the accepted set is given by Spec.Matches; for unsorted filters the set is what the filter test accepts; capacities as in Spec.ListFits, whose bounds are sharp (C02_endless)"
  },
  {
   "property": "C03",
   "status": "proved",
   "theorems": [
    "Grann.C03_scan_memory_safe_iff",
    "Grann.C03_zero_capacity_unsafe"
   ],
   "note": "exact characterisation for k>=1; unsafe for k=0 shown"
  },
  {
   "property": "C04",
   "status": "proved",
   "theorems": [
    "Grann.C04_graph_search_answer",
    "Grann.C04_largest_list"
   ],
   "note": "every graph, also changing between reads; sortedness needs NaN-free distances; symmetric distance assumed; list sizes as in Spec.ListFits (C04_largest_list: L = 2^32-1 writes outside of the list)"
  },
  {
   "property": "C05",
   "status": "proved",
   "theorems": [
    "Grann.C05_terminates"
   ],
   "note": "also for graphs changing between reads"
  },
  {
   "property": "C06",
   "status": "proved",
   "theorems": [
    "Grann.C06_fixed_point"
   ],
   "note": "NaN-free distances"
  },
  {
   "property": "C07",
   "status": "proved",
   "theorems": [
    "Grann.C07_exact_on_filtered_reachable",
    "Grann.C07_exact_on_reachable"
   ],
   "note": "also with a filter, and for L >= number of reachable points"
  },
  {
   "property": "C08",
   "status": "proved",
   "theorems": [
    "Grann.C08_ivf_results_match",
    "Grann.C08_lsh_results_match",
    "Grann.C08_vamana_results_match"
   ],
   "note": "Vamana, IVF and LSH (default tags); soundness of every reported point"
  },
  {
   "property": "C09",
   "status": "partial",
   "theorems": [
    "Grann.C09_exact",
    "Grann.C09_missed",
    "Grann.C09_search_misses",
    "Grann.C09_accepted_matches",
    "Grann.C09_test_decides_match_partial",
    "Grann.C09_unsorted_filter_rejects_match",
    "Grann.C09_universal_accepted"
   ],
   "note": "decides matching for sorted filters; C09_exact: right for every point exactly if the filter contains the universal label or each label is found first; every filter with a label behind a larger one misses points (C09_missed), and a search then reports only entry points (C09_search_misses)"
  },
  {
   "property": "C10",
   "status": "partial",
   "theorems": [
    "Grann.C10_rng_hnsw_ignore_filter"
   ],
   "note": "false: RelativeNG and HNSW ignore the filter (proved, with witness); Vamana honours it (C08)"
  },
  {
   "property": "C11",
   "status": "proved",
   "theorems": [
    "Grann.C11_filler",
    "Grann.C11_ivf_count",
    "Grann.C11_lsh_count",
    "Grann.C11_vamana_count",
    "Grann.C11_rng_count",
    "Grann.C11_hnsw_count"
   ],
   "note": "Vamana, RelativeNG, HNSW, IVF and LSH within the memory-safe parameter ranges stated; C11_filler: graph searches leave the tag of point 0 in the slots behind the returned count"
  },
  {
   "property": "C12",
   "status": "partial",
   "theorems": [
    "Grann.C12_scan_zero_count_unsafe",
    "Grann.C12_scan_max_count_unsafe",
    "Grann.C12_scan_filter_unlabelled_unsafe",
    "Grann.C12_graph_search_safe_iff",
    "Grann.C12_hnsw_search_safe_iff",
    "Grann.C12_zero_list_size_unsafe"
   ],
   "note": "exact safe range for graph indices; IVF/LSH safe for res_count>=1 within Spec.ListFits with finite distances; unsafe cases (res_count 0, 2^32-1, filter on unlabelled index) proved"
  },
  {
   "property": "C13",
   "status": "partial",
   "theorems": [
    "Grann.C13_ivf_reports_positions",
    "Grann.C13_lsh_tag_out_of_range",
    "Grann.C13_lsh_tag_witness",
    "Grann.C13_lsh_wrong_tag",
    "Grann.C13_graph_results_are_tags_partial"
   ],
   "note": "graph indices report tags; false for IVF (positions) and LSH (tags used as positions), both proved"
  },
  {
   "property": "C14",
   "status": "proved",
   "theorems": [
    "Grann.C14_inverted_lists_partition"
   ],
   "note": "every schedule of the appends"
  },
  {
   "property": "C15",
   "status": "proved",
   "theorems": [
    "Grann.C15_all_clusters_exact"
   ],
   "note": "with filter: sorted filter and label lists"
  },
  {
   "property": "C16",
   "status": "partial",
   "theorems": [
    "Grann.C16_more_probes_better_partial",
    "Grann.C16_beyond_clusters_scans_first",
    "Grann.C16_ties_partial",
    "Grann.C16_ties_open"
   ],
   "note": "True up to the number of clusters: for every order of ties if the closest centre is unique (C16_more_probes_better_partial), and for all ties with the heap of the GNU library, which is modelled (C16_ties_partial); the C++ standard alone leaves ties open (C16_ties_open). False beyond the number of clusters (C16_beyond_clusters_scans_first)."
  },
  {
   "property": "C17",
   "status": "proved",
   "theorems": [
    "Grann.C17_self_found"
   ],
   "note": ""
  },
  {
   "property": "C18",
   "status": "proved",
   "theorems": [
    "Grann.C18_queries_independent",
    "Grann.C18_reload_unaffected"
   ],
   "note": ""
  },
  {
   "property": "C19",
   "status": "partial",
   "theorems": [
    "Grann.C19_one_round_partial",
    "Grann.C19_second_generation_empty"
   ],
   "note": "One generation is proved; false from the second generation on for every built index (C19_second_generation_empty)."
  },
  {
   "property": "C20",
   "status": "proved",
   "theorems": [
    "Grann.C20_prune_alpha",
    "Grann.C20_prune_topK"
   ],
   "note": ""
  },
  {
   "property": "C21",
   "status": "proved",
   "theorems": [
    "Grann.C21_prune_reasons",
    "Grann.C21_selection_unique"
   ],
   "note": ""
  },
  {
   "property": "C22",
   "status": "proved",
   "theorems": [
    "Grann.C22_degree_bound",
    "Grann.C22_degree_during_build"
   ],
   "note": ""
  },
  {
   "property": "C23",
   "status": "proved",
   "theorems": [
    "Grann.C23_valid_edges"
   ],
   "note": ""
  },
  {
   "property": "C24",
   "status": "partial",
   "theorems": [
    "Grann.C24_no_repeated_edges_partial",
    "Grann.C24_repeated_edge_witness",
    "Grann.C24_repeated_everywhere"
   ],
   "note": "False, and not only for one graph: C24_repeated_everywhere proves that for every data set (room for 2n edges, list of three entries or more, distances that are numbers) and every point other than the start node a schedule exists after which the start node's list holds that point twice, whatever the rest of the build does. Proved for what holds: repetitions never exceed two in Vamana (see C63) and none occur in lists that were re-pruned."
  },
  {
   "property": "C25",
   "status": "partial",
   "theorems": [
    "Grann.C25_stale_copy_loses_edge",
    "Grann.C25_undisturbed_insertion_partial",
    "Grann.C25_lost_edge_witness"
   ],
   "note": "False: stale copies lose edges (general theorem and reachable witness); undisturbed insertions proved correct."
  },
  {
   "property": "C26",
   "status": "partial",
   "theorems": [
    "Grann.C26_small_data_unsafe",
    "Grann.C26_build_safe_partial",
    "Grann.C26_empty_sample_unsafe",
    "Grann.C26_empty_data_unsafe",
    "Grann.C26_rng_small_data_unsafe"
   ],
   "note": "False below 10 points; safe from 10 points on."
  },
  {
   "property": "C27",
   "status": "proved",
   "theorems": [
    "Grann.C27_relative_neighbourhood_graph",
    "Grann.C27_stored_vector_found",
    "Grann.C27_index_finds_stored_vector"
   ],
   "note": "Division is a parameter with the law that a quotient of non-negative numbers exceeds 1 only if the dividend is larger."
  },
  {
   "property": "C28",
   "status": "proved",
   "theorems": [
    "Grann.C28_label_entry_points",
    "Grann.C28_least_used"
   ],
   "note": ""
  },
  {
   "property": "C29",
   "status": "proved",
   "theorems": [
    "Grann.C29_levels_nested",
    "Grann.C29_entry_points_valid"
   ],
   "note": "The temporary file through which the sampled points pass is treated as the identity here; that a saved subset is read back unchanged is part of the file model (C31)."
  },
  {
   "property": "C30",
   "status": "proved",
   "theorems": [
    "Grann.C30_bin_round_trip",
    "Grann.C30_saved_format"
   ],
   "note": "Round trip of save_bin/load_bin for every matrix, element size and contents; format of the file."
  },
  {
   "property": "C31",
   "status": "proved",
   "theorems": [
    "Grann.C31_aligned_load",
    "Grann.C31_save_removes_padding",
    "Grann.C31_subset_round_trip"
   ],
   "note": "Aligned load pads rows with zeros, save in original dimensions reproduces the file; also the subset save used by HNSW."
  },
  {
   "property": "C32",
   "status": "partial",
   "theorems": [
    "Grann.C32_load_bin_rejects",
    "Grann.C32_load_aligned_rejects_bytes",
    "Grann.C32_load_aligned_rejects_partial",
    "Grann.C32_missing_file_rejected",
    "Grann.C32_wraparound_accepted",
    "Grann.C32_metadata",
    "Grann.C32_overflow"
   ],
   "note": "load_bin rejects exactly the ill-formed files for every element size; load_aligned_bin for 1-byte elements and whenever the header describes less than 2^64 bytes. False in general: an 8-byte file announcing 2^31 x 2^31 floats is accepted (C32_wraparound_accepted), and a header whose padded vectors do not fit into 2^64 bytes makes load_aligned_bin write outside of its block (C32_overflow, with a file of 166840 bytes)."
  },
  {
   "property": "C33",
   "status": "proved",
   "theorems": [
    "Grann.C33_graph_round_trip",
    "Grann.C33_header_is_length"
   ],
   "note": "Graph part of save/load, identical code in the three classes; also the size in the header."
  },
  {
   "property": "C34",
   "status": "partial",
   "theorems": [
    "Grann.C34_cut_still_valid",
    "Grann.C34_search_after_report",
    "Grann.C34_truncation_detected_partial",
    "Grann.C34_cut_in_last_list",
    "Grann.C34_truncation_accepted"
   ],
   "note": "Cuts before the neighbours of the last point are reported; C34_cut_in_last_list gives the exact result of every other cut, C34_cut_still_valid shows that what such a cut leaves is a valid graph, C34_search_after_report what searches do after a reported cut, and C34_truncation_accepted is the counterexample."
  },
  {
   "property": "C35",
   "status": "partial",
   "theorems": [
    "Grann.C35_missing_graph_diverges",
    "Grann.C35_load_returns_partial",
    "Grann.C35_vamana_load_diverges"
   ],
   "note": "Loading returns for every existing graph file; with the graph file missing the loop never ends (C35_missing_graph_diverges)."
  },
  {
   "property": "C36",
   "status": "partial",
   "theorems": [
    "Grann.C36_labels_round_trip",
    "Grann.C36_empty_labels_lost",
    "Grann.C36_universal_label"
   ],
   "note": "The round trip holds for every labelled index whose lines are not empty; labels of an index in which some line would be empty are lost or end the process (C36_empty_labels_lost)."
  },
  {
   "property": "C37",
   "status": "proved",
   "theorems": [
    "Grann.C37_label_file_parsed",
    "Grann.C37_order_and_line_ends",
    "Grann.C37_crlf_exceptions",
    "Grann.C37_second_parse_refused"
   ],
   "note": ""
  },
  {
   "property": "C38",
   "status": "partial",
   "theorems": [
    "Grann.C38_medoid_table_round_trip",
    "Grann.C38_no_table_partial",
    "Grann.C38_stale_table",
    "Grann.C38_resurrected",
    "Grann.C38_resurrected_search_unsafe"
   ],
   "note": "The table is restored exactly; the second half is false in general: an index saved without labels over an older one gets the old table back (C38_resurrected), and then a filtered search is undefined behaviour."
  },
  {
   "property": "C39",
   "status": "partial",
   "theorems": [
    "Grann.C39_first_save_partial",
    "Grann.C39_overwrite_partial",
    "Grann.C39_mixed_index_accepted",
    "Grann.C39_other_count_partial"
   ],
   "note": "False in general: for every old and new index with the same number of points there is a crash point after which new vectors and the old graph load without complaint (C39_mixed_index_accepted). Proved: first save under a name, and the classification of crash points when overwriting."
  },
  {
   "property": "C40",
   "status": "proved",
   "theorems": [
    "Grann.C40_ivf_reload"
   ],
   "note": ""
  },
  {
   "property": "C41",
   "status": "proved",
   "theorems": [
    "Grann.C41_vamana_reload",
    "Grann.C41_rng_reload",
    "Grann.C41_hnsw_reload"
   ],
   "note": ""
  },
  {
   "property": "C42",
   "status": "proved",
   "theorems": [
    "Grann.C42_cached_reads",
    "Grann.C42_missing_file_garbage",
    "Grann.C42_missing_file_reads"
   ],
   "note": ""
  },
  {
   "property": "C43",
   "status": "proved",
   "theorems": [
    "Grann.C43_cached_writes",
    "Grann.C43_blocks_in_order",
    "Grann.C43_reported_size_after_reset"
   ],
   "note": ""
  },
  {
   "property": "C44",
   "status": "proved",
   "theorems": [
    "Grann.C44_float_read",
    "Grann.C44_float_get",
    "Grann.C44_float_exact",
    "Grann.C44_float_again",
    "Grann.C44_float_last",
    "Grann.C44_float_not_finite",
    "Grann.C44_get_last",
    "Grann.C44_get_bool",
    "Grann.C44_unset",
    "Grann.C44_default_not_used",
    "Grann.C44_float_texts",
    "Grann.C44_float_rounded"
   ],
   "note": "Unsigned values, booleans and floats. C44_float_rounded shows that floats of more than six digits change; C44_float_not_finite that infinities and NaNs cannot be read back. Ties of six-digit decimals are covered by evaluated examples only."
  },
  {
   "property": "C45",
   "status": "partial",
   "theorems": [
    "Grann.C45_hits_partial",
    "Grann.C45_count_partial",
    "Grann.C45_value_partial",
    "Grann.C45_not_100",
    "Grann.C45_recall_at_zero",
    "Grann.C45_tool_partial",
    "Grann.C45_tool_rejects",
    "Grann.C45_tool_zero"
   ],
   "note": "Proved for the exact number of hits and up to 4 parts in 2^53 for the returned double; the returned double itself can exceed 100 (C45_not_100)."
  },
  {
   "property": "C46",
   "status": "proved",
   "theorems": [
    "Grann.C46_load",
    "Grann.C46_missing",
    "Grann.C46_with_distances",
    "Grann.C46_only_ids",
    "Grann.C46_empty"
   ],
   "note": ""
  },
  {
   "property": "C47",
   "status": "partial",
   "theorems": [
    "Grann.C47_exact_knn",
    "Grann.C47_parts_partial",
    "Grann.C47_same_distances"
   ],
   "note": "Proved for both programs with the number of neighbours actually written (min of k and the last part); the program in tests/utils needs k not to exceed the last part, otherwise its answers contain identifiers that are not points (C48_not_points)."
  },
  {
   "property": "C48",
   "status": "partial",
   "theorems": [
    "Grann.C48_k_partial",
    "Grann.C48_reduced",
    "Grann.C48_not_points"
   ],
   "note": "True when the last part has at least k points; refuted otherwise (C48_reduced, C48_not_points)."
  },
  {
   "property": "C49",
   "status": "proved",
   "theorems": [
    "Grann.C49_k_closest_centres",
    "Grann.C49_independent_of_blocking",
    "Grann.C49_limits",
    "Grann.C49_infinite_distance_unassigned"
   ],
   "note": "distances as an arbitrary matrix; also the case where every distance is FLT_MAX or more"
  },
  {
   "property": "C50",
   "status": "proved",
   "theorems": [
    "Grann.C50_int8",
    "Grann.C50_int8_exact",
    "Grann.C50_int8_overflow",
    "Grann.C50_uint8",
    "Grann.C50_uint8_exact",
    "Grann.C50_uint8_wraps",
    "Grann.C50_metric",
    "Grann.C50_int8_padding",
    "Grann.C50_uint8_padding",
    "Grann.C50_float",
    "Grann.C50_rank"
   ],
   "note": "integer distances exact (characterised for all sizes < 2^31, overflow witnesses), symmetric, zero iff equal, padding-invariant, float conversion order-preserving"
  },
  {
   "property": "C51",
   "status": "partial",
   "theorems": [
    "Grann.C51_metrics_partial",
    "Grann.C51_bytes",
    "Grann.C51_unsupported",
    "Grann.C51_fast_l2",
    "Grann.C51_fast_l2_wrong"
   ],
   "note": "L2 and inner product compute their metric (exact arithmetic), unsupported combinations throw; FAST_L2 refuted for every nonzero query"
  },
  {
   "property": "C52",
   "status": "proved",
   "theorems": [
    "Grann.C52_inner_product",
    "Grann.C52_multiple",
    "Grann.C52_unpadded",
    "Grann.C52_padded",
    "Grann.C52_fast_norm"
   ],
   "note": "exact arithmetic over any commutative ring; dimensions not a multiple of 8 read beyond unpadded vectors (proved)"
  },
  {
   "property": "C53",
   "status": "proved",
   "theorems": [
    "Grann.C53_chunks",
    "Grann.C53_cover",
    "Grann.C53_limits"
   ],
   "note": "double quotient modelled with rounding; identity rearrangement, closed form of offsets, unique cover"
  },
  {
   "property": "C54",
   "status": "proved",
   "theorems": [
    "Grann.C54_shards",
    "Grann.C54_total",
    "Grann.C54_too_many",
    "Grann.C54_no_points"
   ],
   "note": "Both sharding functions, any block sizes; k_base above the number of shards and empty data are separate theorems (C54_too_many, C54_no_points). Distances from the centres enter as a parameter (NaN free)."
  },
  {
   "property": "C55",
   "status": "proved",
   "theorems": [
    "Grann.C55_retrieve",
    "Grann.C55_two_phase",
    "Grann.C55_too_many"
   ],
   "note": "For k_base at most the number of shards, any three block sizes; C55_too_many shows that the methods differ otherwise."
  },
  {
   "property": "C56",
   "status": "proved",
   "theorems": [
    "Grann.C56_files",
    "Grann.C56_subsequence",
    "Grann.C56_memory",
    "Grann.C56_matrix",
    "Grann.C56_truncated"
   ],
   "note": "All three sampling functions, for every outcome of the random numbers; file sizes below 2^63."
  },
  {
   "property": "C57",
   "status": "proved",
   "theorems": [
    "Grann.C57_iteration",
    "Grann.C57_lloyd",
    "Grann.C57_limits"
   ],
   "note": "Exact arithmetic over any ordered field; the hypothesis is that some assignment to the initial centres costs less than FLT_MAX. Matrix products taken at their meaning."
  },
  {
   "property": "C58",
   "status": "partial",
   "theorems": [
    "Grann.C58_random",
    "Grann.C58_random_unset",
    "Grann.C58_kpp_partial",
    "Grann.C58_fallback",
    "Grann.C58_limits",
    "Grann.C58_nan_endless",
    "Grann.C58_kpp_ends",
    "Grann.C58_kpp_exact"
   ],
   "note": "Proved for k-means++ (any arithmetic, every outcome); C58_random_unset shows that random_centers leaves centres unset, for every outcome if there are more centres than points, and C58_nan_endless that k-means++ never ends on NaN data."
  },
  {
   "property": "C59",
   "status": "proved",
   "theorems": [
    "Grann.C59_vamana_start",
    "Grann.C59_rng_start",
    "Grann.C59_rng_graph",
    "Grann.C59_hnsw_start",
    "Grann.C59_files",
    "Grann.C59_entry_point"
   ],
   "note": ""
  },
  {
   "property": "C60",
   "status": "partial",
   "theorems": [
    "Grann.C60_plain_partial",
    "Grann.C60_ivf_partial",
    "Grann.C60_refuted",
    "Grann.C60_hnsw_data_partial",
    "Grann.C60_hnsw_empty_partial"
   ],
   "note": "The heap model makes releasing an uninitialised pointer, a dead block or a block allocated another way undefined. For Vamana, RelativeNG, LSH (C60_plain_partial), IVF (C60_ivf_partial) and HNSW with any number of levels (C60_hnsw_data_partial, C60_hnsw_empty_partial) the theorems tell, for every sequence of builds and loads including ones that throw, exactly when the life of the object is well defined, that then nothing foreign is released, and (all but HNSW) how many blocks leak. The property as stated is false and refuted by C60_refuted: destroying an empty object or one whose load threw frees an uninitialised pointer, and a loaded or unbuilt IVF index cannot be destroyed. Constructors that throw and memory managed inside functions are in C104."
  },
  {
   "property": "C61",
   "status": "partial",
   "theorems": [
    "Grann.C61_set_partial",
    "Grann.C61_small_partial",
    "Grann.C61_ids_partial",
    "Grann.C61_growth",
    "Grann.C61_refuted"
   ],
   "note": "Proved for every hash function and every growth decision, for sequences whose keys do not crowd around few buckets (C61_set_partial; in particular for at most 32767 different keys, C61_small_partial, and for identity-hashed point numbers below 163838, C61_ids_partial). C61_refuted: in general the property fails, the 16-bit distance wraps and a lookup reads an empty bucket. Erasing is not modelled."
  },
  {
   "property": "C62",
   "status": "proved",
   "theorems": [
    "Grann.C62_build_terminates",
    "Grann.C62_hnsw_terminates"
   ],
   "note": ""
  },
  {
   "property": "C63",
   "status": "partial",
   "theorems": [
    "Grann.C63_reachable_partial",
    "Grann.C63_unreachable_witness",
    "Grann.C63_degree_zero",
    "Grann.C63_degree_one",
    "Grann.C63_every_degree",
    "Grann.C63_every_parameter"
   ],
   "note": "False for every degree bound: for all R >= 1 and all list sizes there are points for which a single thread builds a graph where a point cannot be reached (C63_every_degree, C63_every_parameter); with R = 0 only the start node can be reached and with R = 1 only a chain of points, for all data and schedules (C63_degree_zero, C63_degree_one). Proved for R >= 2n."
  },
  {
   "property": "C64",
   "status": "proved",
   "theorems": [
    "Grann.C64_range_recall",
    "Grann.C64_range_value"
   ],
   "note": ""
  },
  {
   "property": "C65",
   "status": "proved",
   "theorems": [
    "Grann.C65_prune"
   ],
   "note": ""
  },
  {
   "property": "C66",
   "status": "partial",
   "theorems": [
    "Grann.C66_load",
    "Grann.C66_round_trip_partial",
    "Grann.C66_no_queries"
   ],
   "note": "Every outcome is characterised; a file announcing zero queries is undefined behaviour (C66_no_queries)."
  },
  {
   "property": "C67",
   "status": "proved",
   "theorems": [
    "Grann.C67_codes",
    "Grann.C67_decode",
    "Grann.C67_smallest_error",
    "Grann.C67_own_chunks",
    "Grann.C67_no_points",
    "Grann.C67_wrong_chunks",
    "Grann.C67_shapes"
   ],
   "note": "for data sets with at least one point (C67_no_points: division by zero otherwise); distances and the subtraction are parameters; no NaN and one distance below FLT_MAX per chunk"
  },
  {
   "property": "C68",
   "status": "proved",
   "theorems": [
    "Grann.C68_file",
    "Grann.C68_unit",
    "Grann.C68_order",
    "Grann.C68_all_zero",
    "Grann.C68_no_points",
    "Grann.C68_short_file"
   ],
   "note": "over the real numbers; with only zero vectors every coordinate is NaN (C68_all_zero), without points the function divides by zero (C68_no_points), a short file is not noticed (C68_short_file)"
  },
  {
   "property": "C69",
   "status": "proved",
   "theorems": [
    "Grann.C69_in_bounds",
    "Grann.C69_percentile",
    "Grann.C69_out_of_bounds",
    "Grann.C69_degrees",
    "Grann.C69_no_points"
   ],
   "note": "As stated; C69_out_of_bounds and C69_no_points give the exceptions."
  },
  {
   "property": "C70",
   "status": "partial",
   "theorems": [
    "Grann.C70_filtered_partial",
    "Grann.C70_bytes_overflow",
    "Grann.C70_no_match",
    "Grann.C70_more_lines"
   ],
   "note": "Proved for float vectors when some point matches; for byte vectors the property is false (C70_bytes_overflow, for all inputs), and without a matching point memory is read out of bounds (C70_no_match); C70_more_lines shows that there must not be more lines than points."
  },
  {
   "property": "C71",
   "status": "partial",
   "theorems": [
    "Grann.C71_count_partial",
    "Grann.C71_full_partial",
    "Grann.C71_overcount",
    "Grann.C71_nothing_found",
    "Grann.C71_short_truth"
   ],
   "note": "False as stated: C71_count_partial gives the exact number for every order of the stores, C71_full_partial the case in which every search fills its slots, C71_overcount refutes the property for every run with a short result and an omitted true neighbour 0, C71_nothing_found is a concrete run, C71_short_truth the out-of-bounds read for a ground truth with too few rows."
  },
  {
   "property": "C72",
   "status": "partial",
   "theorems": [
    "Grann.C72_sizes",
    "Grann.C72_total",
    "Grann.C72_estimate",
    "Grann.C72_fits_partial",
    "Grann.C72_duplicates",
    "Grann.C72_tiny_budget",
    "Grann.C72_wraps",
    "Grann.C72_uninit"
   ],
   "note": "The loop need not end: C72_duplicates and C72_tiny_budget refute termination for whole classes of inputs, C72_wraps shows the 32-bit counts hiding 2^32 points, C72_uninit the use of indeterminate values for k_base > 3. Proved: C72_sizes, C72_total (the counts), C72_estimate (rounding), C72_fits_partial (what is returned if the loop ends)."
  },
  {
   "property": "C73",
   "status": "partial",
   "theorems": [
    "Grann.C73_train",
    "Grann.C73_encode",
    "Grann.C73_mean",
    "Grann.C73_stale",
    "Grann.C73_other_chunks",
    "Grann.C73_too_many",
    "Grann.C73_wraps"
   ],
   "note": "Proved for runs without old centres of the same shape and tables below 2^32 numbers (C73_train, C73_encode, C73_mean). The property is false otherwise: an existing file of the same shape is kept whatever the training data (C73_stale), files for another number of chunks make every run fail (C73_other_chunks), and a larger table overflows its array (C73_wraps)."
  },
  {
   "property": "C74",
   "status": "partial",
   "theorems": [
    "Grann.C74_vecs",
    "Grann.C74_vecs_load",
    "Grann.C74_vecs_missing",
    "Grann.C74_int8",
    "Grann.C74_int8_range",
    "Grann.C74_int8_interval",
    "Grann.C74_int8_truncated",
    "Grann.C74_tsv",
    "Grann.C74_tsv_bytes",
    "Grann.C74_tsv_repeats",
    "Grann.C74_tsv_characters",
    "Grann.C74_tsv_back",
    "Grann.C74_tsv_lost",
    "Grann.C74_convert",
    "Grann.C74_low_byte",
    "Grann.C74_tsv_lines",
    "Grann.C74_tsv_lines_right_iff",
    "Grann.C74_float_back",
    "Grann.C74_float_same",
    "Grann.C74_float_lost"
   ],
   "note": "False in general. Proved: fvecs/ivecs conversion for all block sizes (C74_vecs, C74_vecs_load), int8 conversion for values in range (C74_int8) and which values are (C74_int8_interval), tables of floats (C74_tsv) and their reading (C74_float_back; bit for bit for numbers of six digits, C74_float_same), tables of bytes within one block (C74_tsv_bytes, C74_tsv_back), whole-file conversions (C74_convert). Refuted: C74_float_lost, C74_int8_range, C74_int8_truncated, C74_tsv_repeats, C74_tsv_characters, C74_tsv_lost, C74_vecs_missing. C74_tsv_lines gives every line of a table of bytes for any number of blocks, and C74_tsv_lines_right_iff shows that the lines are right exactly up to one block."
  },
  {
   "property": "C75",
   "status": "partial",
   "theorems": [
    "Grann.C75_ivf_build_again",
    "Grann.C75_ivf_stored_twice",
    "Grann.C75_ivf_still_exact",
    "Grann.C75_relng_build_again",
    "Grann.C75_relng_built_twice",
    "Grann.C75_load_graph_again",
    "Grann.C75_old_graph_used",
    "Grann.C75_old_graph_unsafe",
    "Grann.C75_load_labels_again",
    "Grann.C75_stale_labels",
    "Grann.C75_lsh_build_again",
    "Grann.C75_lsh_new_tables_lost",
    "Grann.C75_vamana_built_twice"
   ],
   "note": "False as stated. Proved in general: a second build of IVF appends every point to its list again (all orders of threads), yet searches of all clusters stay exact; a second build of the exact graph doubles every list and changes no answer; loading a graph into an object with a graph keeps the old lists in front, so searches follow them (undefined behaviour if the old lists of the start mention a point that does not exist); loading labels again ends the program; loading an index without labels keeps the old labels; a second LSH build doubles every old bucket, and saving loses the new tables. For Vamana a computed witness."
  },
  {
   "property": "C76",
   "status": "partial",
   "theorems": [
    "Grann.C76_critical_sections_atomic",
    "Grann.C76_always_defined",
    "Grann.C76_built_graph",
    "Grann.C76_no_deadlock",
    "Grann.C76_build_ends",
    "Grann.C76_no_race_partial",
    "Grann.C76_no_race_large_degree",
    "Grann.C76_reserve_races",
    "Grann.C76_race_small_degree",
    "Grann.C76_safe_degrees",
    "Grann.C76_slack_exact"
   ],
   "note": "Proved for all schedules of single operations: critical sections take effect atomically, nothing undefined happens, no deadlock, every fair schedule ends; no data race for every degree bound R < 2^32 outside {1,2,4,5,7,8}. For those six the property is false (the reserve outside the lock, src/vamana.cpp:291-292, src/hnsw.cpp:215-216, reads the bounds of a vector another thread is reallocating): C76_race_small_degree gives racing executions. Taken at its meaning: std::shared_timed_mutex."
  },
  {
   "property": "C77",
   "status": "partial",
   "theorems": [
    "Grann.C77_no_interference",
    "Grann.C77_undefined_only_after_race",
    "Grann.C77_no_race_partial",
    "Grann.C77_race_iff",
    "Grann.C77_stored_vectors_safe"
   ],
   "note": "False: a lookup that misses inserts into the std::map without a lock; C77_race_iff shows that with two or more searches a race is possible exactly if some query misses in some table. Proved for all interleavings: without a miss (in particular for stored vectors) no race and unchanged tables; undefined behaviour only after a race; finished searches agree with searches alone."
  },
  {
   "property": "C78",
   "status": "partial",
   "theorems": [
    "Grann.C78_vamana",
    "Grann.C78_vamana_ends",
    "Grann.C78_hnsw",
    "Grann.C78_hnsw_ends",
    "Grann.C78_ivf",
    "Grann.C78_lsh",
    "Grann.C78_rng",
    "Grann.C78_rng_finds"
   ],
   "note": "Proved for all data files, label files, parameters, schedules and queries: Vamana, RelativeNG and HNSW with tags, IVF and LSH without tags. With tags IVF and LSH do not satisfy it: IVF reports positions and LSH reads at the tags (refuted in C13)."
  },
  {
   "property": "C79",
   "status": "partial",
   "theorems": [
    "Grann.C79_max_norm_race",
    "Grann.C79_lost_maximum",
    "Grann.C79_base_serial_partial",
    "Grann.C79_query_file",
    "Grann.C79_order_partial",
    "Grann.C79_base_not_unit",
    "Grann.C79_wrong_order",
    "Grann.C79_normalize",
    "Grann.C79_integer_base",
    "Grann.C79_integer_normalize",
    "Grann.C79_max_bound",
    "Grann.C79_analyze",
    "Grann.C79_analyze_empty"
   ],
   "note": "Proved for floats as real numbers when the iterations do not overlap, in any order. In general false, proved: for every data set with a vector of positive norm some schedule makes that norm the largest one found, which leaves longer vectors outside the unit sphere and spoils the order; in integer files all vectors but those of maximal norm become zero; normalising gives zero vectors. Proved for every schedule: the value found is a norm or 0. The percentiles are proved for non-empty files."
  },
  {
   "property": "C80",
   "status": "partial",
   "theorems": [
    "Grann.C80_defined",
    "Grann.C80_safe",
    "Grann.C80_too_large",
    "Grann.C80_one_thread_partial",
    "Grann.C80_duplicates"
   ],
   "note": "Proved for num_vectors * dim below 2^32: with one thread the file holds the first numbers of the generator in order; with any number of threads and any schedule nothing is stored outside the array and every coordinate is a number drawn. False in general, both proved: 2^32 numbers or more always lead outside the array; with two threads some schedule makes half of the vectors copies."
  },
  {
   "property": "C81",
   "status": "partial",
   "theorems": [
    "Grann.C81_serial_partial",
    "Grann.C81_other_vectors",
    "Grann.C81_other_number",
    "Grann.C81_file_gone"
   ],
   "note": "Proved for builds whose use of the file does not overlap, in any order and number. False in general, proved for all pairs of builds: the first may get the sampled vectors of the second (equal numbers), or throw (different numbers, or file removed)."
  },
  {
   "property": "C82",
   "status": "proved",
   "theorems": [
    "Grann.C82_lsh",
    "Grann.C82_minus_one",
    "Grann.C82_results",
    "Grann.C82_short_queries",
    "Grann.C82_no_queries",
    "Grann.C82_short_truth",
    "Grann.C82_negative_k",
    "Grann.C82_vamana",
    "Grann.C82_relng",
    "Grann.C82_hnsw",
    "Grann.C82_ivf"
   ],
   "note": "C82_results for any index whose searches fill at most K slots; C82_vamana, C82_relng, C82_hnsw, C82_ivf and C82_lsh from the data file on (HNSW and Vamana: for every schedule that is long enough; LSH: for searches that do not overlap, see C77 for those that do). C82_short_queries, C82_no_queries, C82_short_truth and C82_negative_k show that the conditions are needed. Printing is modelled as the exact fraction; times are not modelled."
  },
  {
   "property": "C83",
   "status": "partial",
   "theorems": [
    "Grann.C83_vamana_args",
    "Grann.C83_vamana_outcomes",
    "Grann.C83_vamana_refused",
    "Grann.C83_vamana_missing",
    "Grann.C83_vamana_extra",
    "Grann.C83_hnsw_args",
    "Grann.C83_hnsw_outcomes",
    "Grann.C83_levels",
    "Grann.C83_relng_args",
    "Grann.C83_relng_outcomes",
    "Grann.C83_ivf_args",
    "Grann.C83_ivf_outcomes",
    "Grann.C83_lsh_args",
    "Grann.C83_lsh_outcomes",
    "Grann.C83_list_missing",
    "Grann.C83_search_vamana",
    "Grann.C83_search_vamana_outcomes",
    "Grann.C83_search_hnsw",
    "Grann.C83_search_hnsw_outcomes",
    "Grann.C83_search_relng",
    "Grann.C83_search_relng_outcomes",
    "Grann.C83_search_ivf",
    "Grann.C83_search_ivf_outcomes",
    "Grann.C83_search_lsh",
    "Grann.C83_search_lsh_outcomes",
    "Grann.C83_search_lsh_missing",
    "Grann.C83_atoi",
    "Grann.C83_decimal",
    "Grann.C83_atof",
    "Grann.C83_alpha",
    "Grann.C83_atof_twice",
    "Grann.C83_vamana_params",
    "Grann.C83_hex_digits",
    "Grann.C83_part_names",
    "Grann.C83_level_names",
    "Grann.C83_ivf_names",
    "Grann.C83_result_names",
    "Grann.C83_vamana",
    "Grann.C83_relng",
    "Grann.C83_ivf",
    "Grann.C83_lsh_names",
    "Grann.C83_lsh",
    "Grann.C83_hnsw",
    "Grann.C83_build_stops",
    "Grann.C83_search_stops",
    "Grann.C83_hnsw_keep",
    "Grann.C83_vamana_minus_one",
    "Grann.C83_relng_minus_one",
    "Grann.C83_hnsw_minus_one",
    "Grann.C83_vamana_build_minus_one"
   ],
   "note": "All argument lists of the ten programs are characterised by equivalences (C83_*_args, C83_search_*), with every other outcome in C83_*_outcomes; C83_vamana, C83_relng, C83_hnsw, C83_ivf and C83_lsh compose the build and the search program of each index type from the two command lines to the result files (k-means is a parameter of C83_ivf; the builds of Vamana and HNSW end or loop). Partial because the property fails for some command lines: C83_vamana_missing, C83_list_missing, C83_search_lsh_missing (undefined), C83_vamana_extra (ignored), C83_atof_twice (alpha rounded twice)."
  },
  {
   "property": "C84",
   "status": "proved",
   "theorems": [
    "Grann.C84_iteration",
    "Grann.C84_kmeans",
    "Grann.C84_limits",
    "Grann.C84_rate",
    "Grann.C84_ivf",
    "Grann.C84_partition",
    "Grann.C84_pq",
    "Grann.C84_program",
    "Grann.C84_program_undefined"
   ],
   "note": "Proved for 1 to 2^23 sampled vectors and arithmetic that keeps distances below FLT_MAX. Termination of k-means++ is not part of the claim (it can fail, C58); without a sampled vector or without clusters the behaviour is proved undefined."
  },
  {
   "property": "C85",
   "status": "partial",
   "theorems": [
    "Grann.C85_truth_partial",
    "Grann.C85_truth_load",
    "Grann.C85_truth_short",
    "Grann.C85_truth_negative",
    "Grann.C85_truth_narrow",
    "Grann.C85_truth_dropped",
    "Grann.C85_truth_many",
    "Grann.C85_truth_zero",
    "Grann.C85_truth_nothing",
    "Grann.C85_truth_wide"
   ],
   "note": "C85_truth_partial holds for K up to the size of the last part, at most 10000000 queries, fewer than 2^31 points and equal dimensions; each of these conditions is shown to be needed (C85_truth_narrow, _wide, _dropped, _many, _negative, _short, C48 for K)."
  },
  {
   "property": "C86",
   "status": "partial",
   "theorems": [
    "Grann.C86_ties_needed",
    "Grann.C86_truth_counted",
    "Grann.C86_recall",
    "Grann.C86_chain",
    "Grann.C86_ivf",
    "Grann.C86_ties_cost"
   ],
   "note": "C86_truth_counted, C86_chain and C86_recall for any search program, C86_ivf for the IVF programs, if the ties fit in the file. The property fails otherwise, proved in general by C86_ties_needed and for three concrete runs by C86_ties_cost."
  },
  {
   "property": "C87",
   "status": "partial",
   "theorems": [
    "Grann.C87_tsv_lines",
    "Grann.C87_usage",
    "Grann.C87_vecs",
    "Grann.C87_vecs_missing",
    "Grann.C87_int8",
    "Grann.C87_tsv_float",
    "Grann.C87_tsv_bytes",
    "Grann.C87_tsv_unknown",
    "Grann.C87_table_bytes",
    "Grann.C87_bytes_back",
    "Grann.C87_float_back",
    "Grann.C87_table_unknown",
    "Grann.C87_table_negative",
    "Grann.C87_table_dimension",
    "Grann.C87_convert",
    "Grann.C87_exact",
    "Grann.C87_modulo",
    "Grann.C87_recall_partial",
    "Grann.C87_recall_negative",
    "Grann.C87_vector",
    "Grann.C87_vector_arguments"
   ],
   "note": "Proved for every argument list and file, with the failures stated in the text. Partial: the recall printed is within 4/2^53 of the exact quotient (doubles are rounded), and reading and writing the same file at once is left open for the tools that do both."
  },
  {
   "property": "C88",
   "status": "partial",
   "theorems": [
    "Grann.C88_budget",
    "Grann.C88_atof",
    "Grann.C88_partition",
    "Grann.C88_partition_fails",
    "Grann.C88_partition_limits",
    "Grann.C88_pq",
    "Grann.C88_pq_stale",
    "Grann.C88_pq_limits",
    "Grann.C88_ram_partial",
    "Grann.C88_ram_negative",
    "Grann.C88_ram_limits",
    "Grann.C88_ram_rate",
    "Grann.C88_usage",
    "Grann.C88_unknown",
    "Grann.C88_names",
    "Grann.C88_slice",
    "Grann.C88_slice_rates"
   ],
   "note": "Proved: C88_usage, C88_unknown, C88_names (the places of the arguments), C88_budget and C88_atof (a decimal budget is read as the nearest double, the rate as its float), C88_slice and C88_slice_rates, C88_pq, C88_partition. C88_ram_partial holds whenever the program ends with a result; it need not end. The property fails for some inputs, proved in general: C88_pq_stale, C88_pq_limits, C88_partition_fails, C88_partition_limits, C88_ram_negative, C88_ram_limits, C88_ram_rate."
  },
  {
   "property": "C89",
   "status": "partial",
   "theorems": [
    "Grann.C89_filtered_partial",
    "Grann.C89_load",
    "Grann.C89_bytes",
    "Grann.C89_no_match",
    "Grann.C89_negative",
    "Grann.C89_dimension",
    "Grann.C89_zero",
    "Grann.C89_usage",
    "Grann.C89_type"
   ],
   "note": "Proved for float vectors, from the command line to the files (C89_filtered_partial, C89_load, C89_usage, C89_type). False for vectors of bytes with a query and a match (C89_bytes); undefined without a match, for K = 0 or negative and for queries of smaller dimension, all proved for all inputs."
  },
  {
   "property": "C90",
   "status": "partial",
   "theorems": [
    "Grann.C90_file",
    "Grann.C90_too_large",
    "Grann.C90_duplicates",
    "Grann.C90_usage",
    "Grann.C90_print",
    "Grann.C90_print_overflow",
    "Grann.C90_make_and_print"
   ],
   "note": "Proved for products below 2^32 and files of fewer than 2^31 vectors and dimensions (C90_file, C90_print, C90_make_and_print, C90_usage). The property fails for larger products (C90_too_large), for two threads with some order of accesses as far as independence of the vectors is concerned (C90_duplicates), and for printing 2^31 vectors or more (C90_print_overflow)."
  },
  {
   "property": "C91",
   "status": "proved",
   "theorems": [
    "Grann.C91_vecs_l2sq",
    "Grann.C91_nearest",
    "Grann.C91_nearest_k",
    "Grann.C91_assign",
    "Grann.C91_process_residuals",
    "Grann.C91_new_centers",
    "Grann.C91_chunks",
    "Grann.C91_first_dist",
    "Grann.C91_next_dist",
    "Grann.C91_medoid",
    "Grann.C91_cut",
    "Grann.C91_codes",
    "Grann.C91_convert",
    "Grann.C91_l2sq",
    "Grann.C91_knn",
    "Grann.C91_norms",
    "Grann.C91_normalize",
    "Grann.C91_relng",
    "Grann.C91_inverted",
    "Grann.C91_cleanup",
    "Grann.C91_queries",
    "Grann.C91_vecs_l2sq_value",
    "Grann.C91_nearest_value",
    "Grann.C91_nearest_k_value",
    "Grann.C91_assign_value",
    "Grann.C91_process_residuals_value",
    "Grann.C91_new_centers_value",
    "Grann.C91_chunks_value",
    "Grann.C91_first_dist_value",
    "Grann.C91_next_dist_value",
    "Grann.C91_medoid_value",
    "Grann.C91_cut_value",
    "Grann.C91_codes_value",
    "Grann.C91_convert_value",
    "Grann.C91_l2sq_value",
    "Grann.C91_norms_value",
    "Grann.C91_normalize_value",
    "Grann.C91_relng_value",
    "Grann.C91_knn_value"
   ],
   "note": "Every parallel loop not covered by C76, C77, C79, C80 and C92, over all interleavings of single loads and stores; the loops that only clear one vector per node (src/vamana.cpp:303, src/hnsw.cpp:227) and the query loops of the search programs (read-only index, own rows) are not written out."
  },
  {
   "property": "C92",
   "status": "partial",
   "theorems": [
    "Grann.C92_safe_partial",
    "Grann.C92_race",
    "Grann.C92_order",
    "Grann.C92_entry_points"
   ],
   "note": "Proved for every schedule: no undefined access, completion, and the result of some serial order (C92_order, C92_entry_points). False: the progress counter is read outside of its critical section; with two labels or more a data race is reachable, and it is the only one (C92_race, C92_safe_partial)."
  },
  {
   "property": "C93",
   "status": "proved",
   "theorems": [
    "Grann.C93_l2_error",
    "Grann.C93_l2_number",
    "Grann.C93_l2_symm",
    "Grann.C93_l2_zero",
    "Grann.C93_l2_self",
    "Grann.C93_l2_padding",
    "Grann.C93_l2_close",
    "Grann.C93_l2_order",
    "Grann.C93_scan_close",
    "Grann.C93_ivf_close",
    "Grann.C93_dot_close",
    "Grann.C93_l2_loop",
    "Grann.C93_ip_loop"
   ],
   "note": "for all finite vectors whose exact squared distance is at most 2^125; overflow, infinities and NaN are outside"
  },
  {
   "property": "C94",
   "status": "partial",
   "theorems": [
    "Grann.C94_expand_partial",
    "Grann.C94_truth_partial",
    "Grann.C94_truth_wrong"
   ],
   "note": "error bound and nearest points up to the error proved; refuted that the order is right (C94_truth_wrong), in every dimension and every order of additions"
  },
  {
   "property": "C95",
   "status": "partial",
   "theorems": [
    "Grann.C95_truth_exact",
    "Grann.C95_index_exact",
    "Grann.C95_truth_bytes",
    "Grann.C95_truth_float_partial",
    "Grann.C95_ivf",
    "Grann.C95_truth_wrong"
   ],
   "note": "C95_truth_bytes, C95_truth_exact, C95_index_exact and C95_ivf: no rounding errors for bytes up to dimension 258 and full recall of the chain; C95_truth_float_partial: float files up to the errors. C95_truth_wrong: from dimension 259 on the ground truth of uint8 files may be wrong, in every order of the additions."
  },
  {
   "property": "C96",
   "status": "proved",
   "theorems": [
    "Grann.C96_symmetric",
    "Grann.C96_number",
    "Grann.C96_vamana",
    "Grann.C96_relng",
    "Grann.C96_hnsw",
    "Grann.C96_lsh",
    "Grann.C96_ivf",
    "Grann.C96_bytes",
    "Grann.C96_slots"
   ],
   "note": "Bytes: dimensions in which the integer sums do not overflow (C50 treats the others). Inner product of floats: norms up to 2^60, an example shows that a bound is needed. The squared distance of floats needs finite values only."
  },
  {
   "property": "C97",
   "status": "partial",
   "theorems": [
    "Grann.C97_compare_partial",
    "Grann.C97_truth_exact",
    "Grann.C97_truth_bytes",
    "Grann.C97_truth_float_partial",
    "Grann.C97_index_partial",
    "Grann.C97_slots",
    "Grann.C97_truth_wrong"
   ],
   "note": "Bytes: exact (C97_truth_exact, C97_truth_bytes). Floats: within explicit errors (C97_compare_partial, C97_truth_float_partial, C97_index_partial, C97_slots). Exactly largest inner products are refuted by C97_truth_wrong."
  },
  {
   "property": "C98",
   "status": "partial",
   "theorems": [
    "Grann.C98_centre_partial",
    "Grann.C98_ivf_partial",
    "Grann.C98_partition_partial",
    "Grann.C98_pq_partial",
    "Grann.C98_wrong",
    "Grann.C98_entry_partial",
    "Grann.C98_mean",
    "Grann.C98_tame",
    "Grann.C98_kmeans_partial"
   ],
   "note": "k-means, the inverted index, partition_data and generate_pq with all distances and means in the arithmetic of the program: exact up to explicit errors of rounding; they end under the conditions of C99; exactly nearest is refuted (C98_wrong)"
  },
  {
   "property": "C99",
   "status": "proved",
   "theorems": [
    "Grann.C99_kpp",
    "Grann.C99_ends",
    "Grann.C99_bytes",
    "Grann.C99_order_wrong",
    "Grann.C99_stop"
   ],
   "note": "k-means++ and Lloyd's algorithm in the arithmetic of the program: termination for every outcome of the random numbers under the stated conditions (KppEnds); C99_order_wrong shows what can happen in another order"
  },
  {
   "property": "C100",
   "status": "proved",
   "theorems": [
    "Grann.C100_prune",
    "Grann.C100_rng_found",
    "Grann.C100_rng_l2",
    "Grann.C100_rng_graph"
   ],
   "note": "Division and distances in binary32; squared distances."
  },
  {
   "property": "C101",
   "status": "proved",
   "theorems": [
    "Grann.C101_loop",
    "Grann.C101_bit",
    "Grann.C101_search",
    "Grann.C101_self"
   ],
   "note": "Squared distances; the hyperplanes are given, their random choice is not modelled."
  },
  {
   "property": "C102",
   "status": "partial",
   "theorems": [
    "Grann.C102_center",
    "Grann.C102_medoid_partial",
    "Grann.C102_loop",
    "Grann.C102_many_points",
    "Grann.C102_whole"
   ],
   "note": "Holds for sums that are at most 2^22 - 6 additions deep (C102_medoid_partial). With 2^26 points or more the sums of the loops saturate and the entry point can be the point farthest from the mean (C102_many_points)."
  },
  {
   "property": "C103",
   "status": "proved",
   "theorems": [
    "Grann.C103_vector",
    "Grann.C103_file",
    "Grann.C103_normalize",
    "Grann.C103_zero_vector",
    "Grann.C103_arithmetic",
    "Grann.C103_order",
    "Grann.C103_ties"
   ],
   "note": "Errors are explicit; the maximum is the one of a loop in order, as in prepare_base_for_inner_products; the race of augment_base is in C79."
  },
  {
   "property": "C104",
   "status": "proved",
   "theorems": [
    "Grann.C104_ends",
    "Grann.C104_kmeans",
    "Grann.C104_lloyds_null",
    "Grann.C104_slices",
    "Grann.C104_owners",
    "Grann.C104_exceptions",
    "Grann.C104_exceptions_lose",
    "Grann.C104_prune_ids",
    "Grann.C104_programs",
    "Grann.C104_ivf_build",
    "Grann.C104_search_programs",
    "Grann.C104_constructors"
   ],
   "note": "Every function is a statement over its pointers, checked by a checker that is proved sound for all executions; the blocks lost on exceptions and kept by the search programs are counted, with executions that reach the count (C104_exceptions_lose, C104_constructors, C104_search_programs, C104_lloyds_null)."
  },
  {
   "property": "C105",
   "status": "proved",
   "theorems": [
    "Grann.C105_alloc",
    "Grann.C105_rows",
    "Grann.C105_padding_needed",
    "Grann.C105_inside",
    "Grann.C105_truth"
   ],
   "note": "Proved for all element types, sizes, base addresses and vector numbers. The addresses are those of the pointer expressions at the call sites; that the allocator returns a block aligned as asked for is its contract."
  },
  {
   "property": "C106",
   "status": "proved",
   "theorems": [
    "Grann.C106_vamana",
    "Grann.C106_rng",
    "Grann.C106_hnsw",
    "Grann.C106_ivf",
    "Grann.C106_copy"
   ],
   "note": "For every index a build can leave and the formats can express, any number of save and load generations under the same name leaves the files of the first save byte for byte and the object of the beginning, for Vamana, RelativeNG, HNSW and IVF; a copy under another name has the same files."
  },
  {
   "property": "C107",
   "status": "partial",
   "theorems": [
    "Grann.C107_rng_start",
    "Grann.C107_vamana_start",
    "Grann.C107_edge",
    "Grann.C107_ivf",
    "Grann.C107_valid_partial",
    "Grann.C107_size_ignored",
    "Grann.C107_vamana_edge",
    "Grann.C107_hnsw_start",
    "Grann.C107_hnsw_edge",
    "Grann.C107_ivf_cut",
    "Grann.C107_ivf_missing",
    "Grann.C107_lsh",
    "Grann.C107_lsh_cut_partial",
    "Grann.C107_lsh_cut_accepted",
    "Grann.C107_lsh_shrunk",
    "Grann.C107_lsh_marker_partial"
   ],
   "note": "The property is false for the code, which is proved: for every stored index of up to 2^31 points one flipped bit of the entry point (Vamana, RelativeNG, HNSW innermost level), of any edge of the entry point (Vamana, RelativeNG, HNSW innermost level; C107_vamana_edge, C107_hnsw_start, C107_hnsw_edge), of any member of an inverted list (IVF) or of a hash bucket (LSH, C107_lsh) is accepted by load and makes the searches read outside of the data; the size in the header is never looked at; truncated inverted lists are accepted too (C107_ivf_cut, C107_ivf_missing), and truncated hash tables if uninitialised variables hold certain values (C107_lsh_cut_accepted, C107_lsh_shrunk). Proved for what holds: truncated hash tables are reported if the uninitialised characters are no markers (C107_lsh_cut_partial), a changed marker in the hash tables is reported (C107_lsh_marker_partial), load returns on all bytes, and lists that are valid are searched safely. Missing: the check, which the code does not have."
  }
 ]
}