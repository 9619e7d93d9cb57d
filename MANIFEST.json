{"claims": [
 {"property": "C01", "status": "proved", "theorems": ["Spta.C01_regular_partition_covers"], "note": ""},
 {"property": "C02", "status": "proved", "theorems": ["Spta.C02_rejects_exactly_small", "Spta.C02_zero_clusters_raise"], "note": ""},
 {"property": "C03", "status": "partial", "theorems": ["Spta.C03_equal_size_partial", "Spta.C03_equal_size_refuted", "Spta.C03_any_size_partial"], "note": "The code does not guarantee approximately equal sizes; the refutation gives a family of regions, the partial theorem the bound that does hold. C03_any_size_partial gives the sizes of all bands for all regions and k."},
 {"property": "C04", "status": "proved", "theorems": ["Spta.C04_divisors_exact_sorted"], "note": ""},
 {"property": "C05", "status": "proved", "theorems": ["Spta.C05_balanced_divisors", "Spta.C05_order_follows_shape"], "note": ""},
 {"property": "C06", "status": "proved", "theorems": ["Spta.C06_index_point_inverse", "Spta.C06_list_of_points", "Spta.C06_absolute_point"], "note": ""},
 {"property": "C07", "status": "proved", "theorems": ["Spta.C07_full_loop"], "note": ""},
 {"property": "C08", "status": "partial", "theorems": ["Spta.C08_loops_partial", "Spta.C08_abandoned_loop_refuted", "Spta.C08_nested_loop_refuted"], "note": "False of the code: the cursor lives in the region, so an abandoned loop makes the next one start in the middle, and a nested loop never ends. The partial theorem describes what every loop yields for any cursor."},
 {"property": "C09", "status": "proved", "theorems": ["Spta.C09_clusters_partition", "Spta.C09_base_cluster_len"], "note": "The crisp partition overrides cluster_len of the base class, which always gives 0 (C09_base_cluster_len)."},
 {"property": "C10", "status": "proved", "theorems": ["Spta.C10_cluster_value_at", "Spta.C10_all_point_indices", "Spta.C10_outside"], "note": ""},
 {"property": "C11", "status": "proved", "theorems": ["Spta.C11_apply_region", "Spta.C11_apply_shape", "Spta.C11_apply_cluster", "Spta.C11_apply_resumed", "Spta.C11_apply_cluster_resumed"], "note": "C11_apply_resumed: if an iteration was abandoned before, only the points not yet visited are handled (see C08)."},
 {"property": "C12", "status": "proved", "theorems": ["Spta.C12_split_merge", "Spta.C12_apply_merge"], "note": "Assumes that no loop over the partition object was abandoned (cursor 0), see C08. The conversion to the dtype of the first cluster is not modelled."},
 {"property": "C13", "status": "partial", "theorems": ["Spta.C13_merge_indices_partial", "Spta.C13_merge_order_refuted", "Spta.C13_exactly_partial"], "note": "False of the code: the result of sorted() is discarded, so any order other than 0..k-1 raises ValueError."},
 {"property": "C14", "status": "proved", "theorems": ["Spta.C14_merge_representatives", "Spta.C14_rejected"], "note": ""},
 {"property": "C15", "status": "partial", "theorems": ["Spta.C15_intersecting_inside", "Spta.C15_medoids_inside", "Spta.C15_outside_refuted", "Spta.C15_any_rectangle_partial"], "note": "Holds for rectangles inside the region; outside it flat indices wrap to other rows."},
 {"property": "C16", "status": "proved", "theorems": ["Spta.C16_membership_queries", "Spta.C16_indices"], "note": ""},
 {"property": "C17", "status": "partial", "theorems": ["Spta.C17_labels_partial", "Spta.C17_labels_present_refuted", "Spta.C17_regular_partition_labels", "Spta.C17_accepted_partial"], "note": "The constructor only checks the maximum label. All labels are present for regular partitions. C17_accepted_partial says exactly which labels are accepted."},
 {"property": "C18", "status": "proved", "theorems": ["Spta.C18_scale_range_and_order", "Spta.C18_scale_idempotent", "Spta.C18_no_samples"], "note": "Exact arithmetic over any linear ordered field, NaN as none; any stack of decorators meeting the numpy shape invariants."},
 {"property": "C19", "status": "proved", "theorems": ["Spta.C19_descale_inverts_scale", "Spta.C19_descale_inverts_scale_plain"], "note": "Exact arithmetic; NaN positions are preserved."},
 {"property": "C20", "status": "partial", "theorems": ["Spta.C20_descale_commutes_with_region_subset", "Spta.C20_descale_commutes_with_interval_subset", "Spta.C20_descale_commutes_with_subset_partial", "Spta.C20_descale_commutes_with_subset_refuted", "Spta.C20_descale_subset_anywhere_partial"], "note": "Region and interval subsets proved; the combined subset() keeps the scaling data of the whole region, so the full claim is refuted."},
 {"property": "C21", "status": "partial", "theorems": ["Spta.C21_descaled_cluster_still_scaled_refuted", "Spta.C21_double_descale_refuted", "Spta.C21_descaled_not_scaled_partial", "Spta.C21_cluster_descale_data", "Spta.C21_exactly_partial"], "note": "Descaling a cluster over a scaled region leaves the scaling decoration: refuted for clusters, proved for scaled regions over plain ones."},
 {"property": "C22", "status": "proved", "theorems": ["Spta.C22_find_extrema_region", "Spta.C22_find_extrema_cluster", "Spta.C22_resumed"], "note": "Values in any bounded linear order plus NaN."},
 {"property": "C23", "status": "partial", "theorems": ["Spta.C23_repeat_value", "Spta.C23_repeat_point_spatial", "Spta.C23_repeat_series", "Spta.C23_repeat_series_over_region", "Spta.C23_repeat_point_series_partial", "Spta.C23_repeat_point_decorated_refuted"], "note": "repeat_point on a scaled region or spatio-temporal cluster always raises (method resolution order picks the spatial version): refuted there; everything else proved."},
 {"property": "C24", "status": "proved", "theorems": ["Spta.C24_region_subset", "Spta.C24_region_subset_spatial", "Spta.C24_subset_of_subset", "Spta.C24_subset_of_subset_spatial", "Spta.C24_region_and_interval_commute", "Spta.C24_interval_subset", "Spta.C24_subset"], "note": ""},
 {"property": "C25", "status": "proved", "theorems": ["Spta.C25_region_centroid", "Spta.C25_cluster_centroid"], "note": "The distance matrix is given (already loaded); sums in any commutative monoid with a linear order and a top element."},
 {"property": "C26", "status": "proved", "theorems": ["Spta.C26_labels_and_costs", "Spta.C26_returns"], "note": "Both branches of the cost function (precomputed matrix, measure on the fly); distances in any ordered additive group, NaN not modelled. The random initial choice is a parameter."},
 {"property": "C27", "status": "proved", "theorems": ["Spta.C27_cost_never_increases"], "note": "With a ghost history of accepted swaps."},
 {"property": "C28", "status": "proved", "theorems": ["Spta.C28_distinct_medoids"], "note": ""},
 {"property": "C29", "status": "proved", "theorems": ["Spta.C29_bounded_and_swap_optimal"], "note": "Passes are counted by the model; termination is by a decreasing measure."},
 {"property": "C30", "status": "partial", "theorems": ["Spta.C30_medoid_in_own_cluster_partial", "Spta.C30_verbose_report_partial", "Spta.C30_partition_has_k_clusters_partial", "Spta.C30_medoid_in_own_cluster_refuted", "Spta.C30_when_partial"], "note": "Fails when two medoids are at distance zero (identical series): empty cluster, wrong medoid label, IndexError with the default verbose=True. Proved when each sample is strictly closest to itself."},
 {"property": "C31", "status": "proved", "theorems": ["Spta.C31_memberships", "Spta.powOK_real", "Spta.powOK_id", "Spta.C31_checked"], "note": "Exact arithmetic; inf and nan of the medoid rows are modelled. The power is any positive monotone function on positive numbers; powOK_real shows that x^(1/(m-1)) over the reals is one for every m > 1."},
 {"property": "C32", "status": "partial", "theorems": ["Spta.C32_returns_partial", "Spta.C32_returns_refuted"], "note": "The code violates the claim: with already optimal initial medoids it raises UnboundLocalError. The partial theorem characterises exactly when, and the result in all other cases."},
 {"property": "C33", "status": "partial", "theorems": ["Spta.C33_member_iff", "Spta.C33_threshold_monotone", "Spta.C33_maximal_member", "Spta.C33_threshold_one", "Spta.C33_threshold_zero_partial", "Spta.C33_threshold_zero_refuted", "Spta.C33_loop", "Spta.C33_from_uij", "Spta.C33_medoid_only_in_own_cluster"], "note": "Everything is proved except uniqueness with threshold 0, which is refuted for ties and proved without ties."},
 {"property": "C34", "status": "proved", "theorems": ["Spta.C34_schedule_independent", "Spta.C34_always_finishes"], "note": "Nondeterministic worker pool (any chunk size, any number of workers, any interleaving): the collected results equal the sequential map, no run is infinite and an unfinished pool can always step."},
 {"property": "C35", "status": "partial", "theorems": ["Spta.C35_sequential", "Spta.C35_parallel", "Spta.C35_parallel_exists", "Spta.C35_agree_iff_partial", "Spta.C35_nan_refuted"], "note": "Each matrix is characterised entry by entry; the two agree exactly when the DTW values are symmetric with a zero diagonal (no NaN), and a NaN distance makes them differ, which is the part of the claim that fails."},
 {"property": "C36", "status": "partial", "theorems": ["Spta.C36_never_twice", "Spta.C36_weight_zero", "Spta.C36_one_load_partial", "Spta.C36_computed_partial", "Spta.C36_reload_unweighted", "Spta.C36_refuted"], "note": "weights are never added twice and one load gives temporal + weight * squared spatial distance; refuted in general: a matrix computed in place, or loaded again, is used without weights"},
 {"property": "C37", "status": "partial", "theorems": ["Spta.C37_load", "Spta.C37_load_spatial_partial", "Spta.C37_load_spatial_refuted", "Spta.C37_distances", "Spta.C37_distances_total"], "note": "base class proved; the spatial class changes the matrix on load"},
 {"property": "C38", "status": "partial", "theorems": ["Spta.C38_path", "Spta.C38_transparent_partial", "Spta.C38_stale", "Spta.C38_rectangle_refuted", "Spta.C38_medoids_refuted", "Spta.C38_distance_refuted", "Spta.C38_no_metadata_refuted"], "note": "transparent when equal settings mean equal results; refuted: the file name ignores rectangle, medoid option, distance"},
 {"property": "C39", "status": "proved", "theorems": ["Spta.C39_least_path", "Spta.C39_too_long", "Spta.C39_empty"], "note": ""},
 {"property": "C40", "status": "proved", "theorems": ["Spta.C40_symmetric", "Spta.C40_nonneg", "Spta.C40_pointwise", "Spta.C40_self"], "note": ""},
 {"property": "C41", "status": "proved", "theorems": ["Spta.C41_windows", "Spta.C41_count", "Spta.C41_labeled", "Spta.C41_labeled_all", "Spta.C41_labeled_error"], "note": ""},
 {"property": "C42", "status": "proved", "theorems": ["Spta.C42_interval", "Spta.C42_first", "Spta.C42_adjacent", "Spta.C42_error"], "note": ""},
 {"property": "C43", "status": "partial", "theorems": ["Spta.C43_mse", "Spta.C43_smape_partial", "Spta.C43_smape_refuted", "Spta.C43_smape_undefined", "Spta.C43_mase", "Spta.C43_mase_scale", "Spta.C43_mase_undefined", "Spta.C43_lengths", "Spta.C43_smape_symmetric", "Spta.C43_smape_signs_partial"], "note": "sMAPE is no error measure when forecast + observation is negative somewhere (refuted); proved when the sums are positive C43_smape_signs_partial gives the value of sMAPE for all signs."},
 {"property": "C44", "status": "proved", "theorems": ["Spta.C44_sound", "Spta.C44_complete"], "note": "negative n is not modelled"},
 {"property": "C45", "status": "proved", "theorems": ["Spta.C45_split", "Spta.C45_too_long"], "note": "also: a test_len larger than the series raises nothing but gives fewer than test_len test samples"},
 {"property": "C46", "status": "proved", "theorems": ["Spta.C46_nearest", "Spta.C46_errors", "Spta.C46_forecast", "Spta.C46_forecast_errors"], "note": "numpy argpartition enters as a parameter with its contract"},
 {"property": "C47", "status": "proved", "theorems": ["Spta.C47_models_of_medoids", "Spta.C47_constant_trainer", "Spta.C47_auto_arima"], "note": "the training function of the library is a parameter"},
 {"property": "C48", "status": "proved", "theorems": ["Spta.C48_predict_plain", "Spta.C48_predict_scaled", "Spta.C48_region_independent"], "note": "plain and scaled domains, in-sample and future forecasts"},
 {"property": "C49", "status": "proved", "theorems": ["Spta.C49_round_trip", "Spta.C49_absolute", "Spta.C49_row_length", "Spta.C49_row", "Spta.C49_rows"], "note": "Result coordinates, absolute coordinates and row layout for every nesting of result decorators; text formatting of the lines is not modelled."},
 {"property": "C50", "status": "proved", "theorems": ["Spta.C50_regular", "Spta.C50_kmedoids", "Spta.C50_initial_lost", "Spta.C50_label"], "note": "for modes without underscore and no initial medoids, as stated"},
 {"property": "C51", "status": "proved", "theorems": ["Spta.C51_column", "Spta.C51_file", "Spta.C51_last_row", "Spta.C51_rejected"], "note": ""},
 {"property": "C52", "status": "proved", "theorems": ["Spta.C52_kmedoids", "Spta.C52_pairs", "Spta.C52_seeds", "Spta.C52_regular", "Spta.C52_invalid_name", "Spta.C52_generator", "Spta.C52_organise", "Spta.C52_organise_regular", "Spta.C52_missing_k"], "note": ""},
 {"property": "C53", "status": "partial", "theorems": ["Spta.C53_elbow", "Spta.C53_rejected", "Spta.C53_repeated_k", "Spta.C53_suite", "Spta.C53_single_seed_partial", "Spta.C53_two_seeds_refuted", "Spta.C53_exactly_partial"], "note": "the elbow of one list is proved; per-seed part refuted for several seeds (metadata of equal k compare equal and the full cost dictionary is passed): every seed gets the elbow k of the last seed, proved in C53_suite C53_exactly_partial: each seed gets its own elbow exactly if the elbow of the last seed is an elbow of every seed."},
 {"property": "C54", "status": "partial", "theorems": ["Spta.C54_choice", "Spta.C54_no_nan_partial", "Spta.C54_nan_refuted"], "note": "Claim holds when no penalty is NaN; with NaN, np.argmin picks the NaN and hides the other medoids of that clustering (refuted). C54_choice characterises the choice for all penalties."},
 {"property": "C55", "status": "proved", "theorems": ["Spta.C55_counts", "Spta.C55_bound", "Spta.C55_threshold", "Spta.C55_prefix", "Spta.C55_no_assertion", "Spta.C55_capacity", "Spta.C55_exhausted", "Spta.C55_when"], "note": "For every penalty function and every history, including runs that end with an exception."},
 {"property": "C56", "status": "partial", "theorems": ["Spta.C56_distinct", "Spta.C56_origin_partial", "Spta.C56_offset_refuted", "Spta.C56_exactly_partial"], "note": "Distinct points of the region for every offset; different from the medoids only for regions that start at the origin: with an offset the blacklist is in absolute coordinates (refuted). C56_exactly_partial says when: the random points avoid the medoids exactly if every medoid inside the region has a relative position that is the absolute position of some medoid."},
 {"property": "C57", "status": "partial", "theorems": ["Spta.C57_calculated_partial", "Spta.C57_missing_file_refuted", "Spta.C57_spatial", "Spta.C57_try"], "note": "holds when loading raises; refuted when the file is missing, as loading then returns nothing and the assertion fails"},
 {"property": "C58", "status": "proved", "theorems": ["Spta.C58_update"], "note": ""},
 {"property": "C59", "status": "proved", "theorems": ["Spta.C59_decreases"], "note": ""},
 {"property": "C60", "status": "proved", "theorems": ["Spta.C60_iterations", "Spta.C60_average"], "note": ""},
 {"property": "C61", "status": "proved", "theorems": ["Spta.C61_summary_length", "Spta.C61_summary", "Spta.C61_summary_columns"], "note": "Length for every result kind; content for the clustering result around an in-sample or out-of-sample result (formatting of numbers to text not modelled)."},
 {"property": "C62", "status": "proved", "theorems": ["Spta.C62_min_error", "Spta.C62_min_distance"], "note": "The solver error and the label of the point are parameters of the min_error strategy."},
 {"property": "C63", "status": "proved", "theorems": ["Spta.C63_medoid_rows", "Spta.C63_layout"], "note": "Suites of one clustering type (as the code assumes); text formatting of numbers not modelled."},
 {"property": "C64", "status": "proved", "theorems": ["Spta.C64_forecast_at_each_point", "Spta.C64_textbook_error", "Spta.C64_error_functions", "Spta.C64_without_training", "Spta.C64_other_lengths"], "note": "Models and forecasts are parameters; the trainer is any function. Hypotheses: at most one scaling layer, MASE with more than one training sample."},
 {"property": "C65", "status": "proved", "theorems": ["Spta.C65_overall_error", "Spta.C65_between"], "note": "The square root is any function meeting IsRoot."},
 {"property": "C66", "status": "proved", "theorems": ["Spta.C66_single_model", "Spta.C66_overall_with_each_forecast", "Spta.C66_parallel_eq_serial", "Spta.C66_raises"], "note": "The errors after forecast_at_each_point; C68 treats the other call orders. Parallel: any order of the tasks, each task being atomic (lock)."},
 {"property": "C67", "status": "proved", "theorems": ["Spta.C67_analyze_errors", "Spta.C67_bounds"], "note": "Holds for any previous state of the object, because analyze_errors refreshes the saved forecast."},
 {"property": "C68", "status": "partial", "theorems": ["Spta.C68_single_model_partial", "Spta.C68_all_models_partial", "Spta.C68_rejected", "Spta.C68_retrained_refuted", "Spta.C68_failed_training", "Spta.C68_failed_training_refuted", "Spta.C68_history_partial", "Spta.C68_stale"], "note": "False in general: train_models does not reset forecast_region_each, so after a second training the old forecast is used (C68_retrained_refuted); after a failed second training the old models are used with the new region (C68_failed_training_refuted). Proved for the first training and, by C66, when forecast_at_each_point is called after training. For all sequences of calls: C68_history_partial proves the claim when only trainings came before the last one, or forecast_at_each_point was called since; C68_stale says which forecast is used otherwise."},
 {"property": "C69", "status": "proved", "theorems": ["Spta.C69_daily_means", "Spta.C69_rejected", "Spta.C69_mean_kept"], "note": ""},
 {"property": "C70", "status": "partial", "theorems": ["Spta.C70_retrieve_transparent_partial", "Spta.C70_create_transparent_partial", "Spta.C70_retrieved_value", "Spta.C70_rejected", "Spta.C70_overwritten_refuted"], "note": "False for all histories: saving an unscaled region called 'SouthAmerica' in the directory 'raw' overwrites the cache file (C70_overwritten_refuted). Proved for all other histories."},
 {"property": "C71", "status": "partial", "theorems": ["Spta.C71_same_file_iff_partial", "Spta.C71_collision_refuted", "Spta.C71_rectangle_not_in_name"], "note": "False in general: the dataset of a region called 'distances_x' and the distance matrix of region 'x' are the same file (C71_collision_refuted). Proved: this is the only collision, for names without slashes (a slash in a name moves the boundary between directory and name). The rectangle is not part of any name."},
 {"property": "C72", "status": "proved", "theorems": ["Spta.C72_create_instance"], "note": "Rectangle inside the raw dataset, which covers 1979-2015 with 4 samples per day; previous saves do not overwrite the cache (C70)."},
 {"property": "C73", "status": "partial", "theorems": ["Spta.C73_save_load_partial", "Spta.C73_scaled_not_saved_refuted"], "note": "False for every scaled region (the default of the metadata): the decorated region has no metadata, so save() raises ValueError and writes nothing (C73_scaled_not_saved_refuted). Proved for regions without scaling."},
 {"property": "C74", "status": "proved", "theorems": ["Spta.C74_mean_of_past", "Spta.C74_mean_bounded", "Spta.C74_mean_nan"], "note": ""},
 {"property": "C75", "status": "proved", "theorems": ["Spta.C75_suite_best", "Spta.C75_suite_error", "Spta.C75_seeds_best"], "note": "The silhouette score itself (sklearn) is a parameter."},
 {"property": "C76", "status": "proved", "theorems": ["Spta.C76_intra_cluster_cost", "Spta.C76_rejected", "Spta.C76_nearest_least", "Spta.C76_kmedoids_cost"], "note": "The distance matrix is already loaded."},
 {"property": "C77", "status": "proved", "theorems": ["Spta.C77_save_load", "Spta.C77_train_save_load", "Spta.C77_same_answers"], "note": "Region name, mode and error type without path separators."},
 {"property": "C78", "status": "partial", "theorems": ["Spta.C78_training_path", "Spta.C78_whole_path", "Spta.C78_errors_path", "Spta.C78_kinds", "Spta.C78_origin", "Spta.C78_history_partial", "Spta.C78_stale", "Spta.C78_same_refitter", "Spta.C78_test_len_refuted", "Spta.C78_distance_refuted"], "note": "Refuted: the file of the whole models lacks the number of test samples, although auto ARIMA models depend on it; all distances share one name; the rectangle of the region is missing too (C38). C78_history_partial adds the hypothesis that solvers sharing a file have the same content in it; C78_origin holds for all histories."},
 {"property": "C79", "status": "proved", "theorems": ["Spta.C79_csv_path"], "note": "Settings mean region name, years, samples per day and scaling; the rectangle of the region and the distance are not part of the names, so results that differ only there share their files."},
 {"property": "C80", "status": "proved", "theorems": ["Spta.C80_predict", "Spta.C80_first", "Spta.C80_index_rejected", "Spta.C80_label_rejected"], "note": "tp at most the length of the series (see C82); region name without path separator. C80_predict is for a solver that answered queries before, C80_first for a new one."},
 {"property": "C81", "status": "partial", "theorems": ["Spta.C81_history_partial", "Spta.C81_region_refuted", "Spta.C81_failed_prepare"], "note": "Refuted: only the first call prepares the regions, later calls ignore the out-of-sample region they name; after a failed preparation every call fails. C81_history_partial: the answer is the one for the region of the first call, for labels of the form k-seed-i."},
 {"property": "C82", "status": "partial", "theorems": ["Spta.C82_given_partial", "Spta.C82_refuted", "Spta.C82_window"], "note": "Refuted: if tp exceeds the length n the start of the slice is negative and counted from the end, so the last tp - n samples (at most n) are used. C82_given_partial gives the exact number for all tp."},
 {"property": "C83", "status": "proved", "theorems": ["Spta.C83_label", "Spta.C83_total", "Spta.C83_rejected", "Spta.C83_scale_invariant"], "note": "Over an ordered field; the network is a parameter."},
 {"property": "C84", "status": "proved", "theorems": ["Spta.C84_outside", "Spta.C84_complete", "Spta.C84_stable", "Spta.C84_whole_region"], "note": "The random outcome is a permutation of the candidates."},
 {"property": "C85", "status": "proved", "theorems": ["Spta.C85_numbers", "Spta.C85_exactly", "Spta.C85_minimum"], "note": "Over an ordered field; the square root of the variance and the printing with two decimals are not modelled."},
 {"property": "C86", "status": "partial", "theorems": ["Spta.C86_axis_partial", "Spta.C86_axis", "Spta.C86_axis_all_outside", "Spta.C86_random_refuted"], "note": "Refuted: random points are drawn once for the end of the axis and again for the figure. Proved for the distances of clusters, without random points, and if all outside points are drawn."},
 {"property": "C87", "status": "proved", "theorems": ["Spta.C87_grid", "Spta.C87_regular", "Spta.C87_drawn", "Spta.C87_single"], "note": "One cluster alone is rejected (C87_single); the code says that it assumes two or more."},
 {"property": "C88", "status": "proved", "theorems": ["Spta.C88_rows_plain", "Spta.C88_rows_scaled"], "note": "Cells are values; the formatting of numbers and series as text is not modelled."},
 {"property": "C89", "status": "proved", "theorems": ["Spta.C89_rows"], "note": "The labels must stand for saved models (as in C80). For an out-of-sample region forecast, error and test samples are those of the region of the solver, see AnswerAt."},
 {"property": "C90", "status": "proved", "theorems": ["Spta.C90_train", "Spta.C90_train_medoids", "Spta.C90_mase"], "note": "The partition and its medoids are the outcome of the clustering algorithm (TrainingSetup). MASE needs at least two training samples or none (otherwise the code divides by zero). C90_mase: with exactly one training sample MASE raises ZeroDivisionError."},
 {"property": "C91", "status": "proved", "theorems": ["Spta.C91_rows_in_sample", "Spta.C91_rows_out_of_sample", "Spta.C91_rows_in_sample_medoids", "Spta.C91_rows_out_of_sample_medoids"], "note": "Composes C90 with C88."},
 {"property": "C92", "status": "proved", "theorems": ["Spta.C92_result", "Spta.C92_finishes"], "note": "Operations on the Manager queue and arrays are atomic steps."},
 {"property": "C93", "status": "partial", "theorems": ["Spta.C93_failures_partial", "Spta.C93_entries", "Spta.C93_failures_refuted", "Spta.C93_left", "Spta.C93_exactly_partial"], "note": "The code violates it: the exception ends the process and is not reported, the entry is 0, and when as many tasks raise as there are processes the remaining tasks are not executed (refuted). Proved: with fewer failures than processes all other entries are right; an entry is always 0 or the right value. C93_left and C93_exactly_partial give all entries of the result and the tasks that are left, for all schedules: the tasks up to the one that ends the last process are executed, the entries after it are 0."},
 {"property": "C94", "status": "proved", "theorems": ["Spta.C94_result", "Spta.C94_random_start"], "note": "NaN distances are not modelled; the random choice is any list of k positions."},
 {"property": "C95", "status": "partial", "theorems": ["Spta.C95_labels_partial", "Spta.C95_single_partial", "Spta.C95_refuted", "Spta.C95_limit_partial"], "note": "The code violates it: candidates are judged by their distances to all series, so the cost can go up, and the labels are computed before the last update (refuted). Proved: with max_steps the labels are those of the medoids before the last update; for one medoid and combine = sum the result is the best medoid. C95_limit_partial: a limit above k times the number of series has no effect and the labels are right; with 0 steps the start and labels 0 are returned."},
 {"property": "C96", "status": "proved", "theorems": ["Spta.C96_pdq", "Spta.C96_auto"], "note": "The library is a parameter: any outcome per series among a model and the two exceptions that are caught; other exceptions are in C97. The orders are stored as int8."},
 {"property": "C97", "status": "partial", "theorems": ["Spta.C97_no_data_partial", "Spta.C97_no_data_refuted", "Spta.C97_other_refuted", "Spta.C97_exactly_partial", "Spta.C97_exactly_auto_partial"], "note": "The code violates it: auto ARIMA takes the length of the series before it checks that there is one (TypeError), and exceptions other than the expected ones end the training of the whole region (refuted). Proved: without data or parameters, training with a fixed order gives no model. C97_exactly_partial and C97_exactly_auto_partial: the training of a region succeeds exactly if no call of the library for one of its series raises another exception, and then the models are those of the library."},
 {"property": "C98", "status": "proved", "theorems": ["Spta.C98_refit", "Spta.C98_solver"], "note": "The library never finds the order (-1, -1, -1), the mark of a missing model."},
 {"property": "C99", "status": "proved", "theorems": ["Spta.C99_complete", "Spta.C99_order", "Spta.C99_count"], "note": ""},
 {"property": "C100", "status": "proved", "theorems": ["Spta.C100_pareto"], "note": "The Pareto library is a parameter with its documented result as hypothesis; division by zero and NaN are not modelled."},
 {"property": "C101", "status": "partial", "theorems": ["Spta.C101_sweep_partial", "Spta.C101_cost_refuted", "Spta.C101_when_partial"], "note": "The code violates the last part: the cost logged with the best models is the variable of the loop, that is the cost of the last model (refuted). Proved: the rest. C101_when_partial: the cost logged is the least one exactly if the last optimal model is among the best, and greater otherwise."},
 {"property": "C102", "status": "proved", "theorems": ["Spta.C102_regular"], "note": "NaN or infinite distances are covered by C25 (centroid of a region) but excluded here."},
 {"property": "C103", "status": "proved", "theorems": ["Spta.C103_report", "Spta.C103_kmedoids", "Spta.C103_regular"], "note": "Coverage before it is written with one decimal."},
 {"property": "C104", "status": "proved", "theorems": ["Spta.C104_regular"], "note": "Trainer, refitter and forecaster are parameters that do not raise."},
 {"property": "C105", "status": "partial", "theorems": ["Spta.C105_kmedoids_partial", "Spta.C105_refuted", "Spta.C105_when_partial"], "note": "The code violates it for equal series: two medoids on equal series leave a cluster empty and the training stops with AssertionError, or IndexError when verbose is set (refuted). Proved: when every series is strictly nearer to itself than to the other ones. For all data: it succeeds exactly when no medoid is nearer to another medoid than that one to itself, nor an earlier one as near."},
 {"property": "C106", "status": "proved", "theorems": ["Spta.C106_partition", "Spta.C106_suite", "Spta.C106_interrupted"], "note": "Number formatting is a parameter; exact arithmetic."},
 {"property": "C107", "status": "partial", "theorems": ["Spta.C107_kmedoids_suite_partial", "Spta.C107_refuted", "Spta.C107_when_partial"], "note": "The code violates it for equal series: an empty cluster makes the analysis stop with IndexError (refuted). Proved: when every series is strictly nearer to itself than to the other ones. For all data: it succeeds exactly when in every clustering the last cluster has a member (with verbose, all clusters)."},
 {"property": "C108", "status": "proved", "theorems": ["Spta.C108_file", "Spta.C108_symmetric", "Spta.C108_rejected", "Spta.C108_kmedoids"], "note": "Number formatting is a parameter."},
 {"property": "C109", "status": "proved", "theorems": ["Spta.C109_file", "Spta.C109_diagonal"], "note": "Training and forecasting of a single model are parameters; number formatting is a parameter; exact arithmetic."},
 {"property": "C110", "status": "proved", "theorems": ["Spta.C110_cluster", "Spta.C110_all"], "note": "As C109; the distance matrix is a parameter. Header for DTW."},
 {"property": "C111", "status": "partial", "theorems": ["Spta.C111_between_partial", "Spta.C111_distance_partial", "Spta.C111_kinds", "Spta.C111_refuted"], "note": "The code violates it: the forecast length is not part of the names, so runs with different lengths replace each other (refuted). Proved: exact characterisation of the collisions; everything else distinguishes the files. Names without path separators, type of the error without underscore."},
 {"property": "C112", "status": "proved", "theorems": ["Spta.C112_rows", "Spta.C112_medoid", "Spta.C112_knn"], "note": "Training and forecasting of a single model are parameters (k-NN is modelled, its argpartition and distance are parameters with the numpy contract). Training does not raise; missing models are allowed. Exact arithmetic."},
 {"property": "C113", "status": "partial", "theorems": ["Spta.C113_suite", "Spta.C113_runs_partial", "Spta.C113_kinds", "Spta.C113_refuted", "Spta.C113_classifier_refuted"], "note": "The code violates it: the threshold is not part of the names of training input, so runs with different thresholds replace each other (refuted); the (unused) classifier file name ignores both of its arguments. Proved: exact characterisation of all collisions. Names without path separators, type of the error without underscore, name of the algorithm without hyphen. Settings of the region: name, years, samples per day and scaling, not the rectangle."},
 {"property": "C114", "status": "proved", "theorems": ["Spta.C114_results"], "note": "Exact characterisation. Agreement in the region means name, years, samples per day and scaling (not the rectangle); k-NN parameters up to the distance, whose representation is constant. Names without path separators."},
 {"property": "C115", "status": "partial", "theorems": ["Spta.C115_terminates_partial", "Spta.C115_order", "Spta.C115_init", "Spta.C115_medoid_refuted", "Spta.C115_cost_refuted", "Spta.C115_labels_refuted", "Spta.C115_data_refuted", "Spta.C115_limit_partial"], "note": "The code violates parts of it: candidates are compared by their distance to the whole data, so a medoid need not be the best point of its cluster and the cost of the clustering can increase; labels are stale if max_steps ends the loop; update_medoids uses a global variable instead of its argument. Proved: termination within k*n+1 rounds for every start among the data, independence of the iteration order, nearest labels, and optimality of each medoid among its cluster with respect to the distance to the whole data. Exact arithmetic, natural exponent p > 0. C115_limit_partial: result and labels for every limit of steps."},
 {"property": "C116", "status": "partial", "theorems": ["Spta.C116_two_labels_partial", "Spta.C116_half", "Spta.C116_three_labels_refuted", "Spta.C116_any_labels_partial"], "note": "Holds for two labels; refuted for three labels, which the assertions allow and for which the script uses it. C116_any_labels_partial treats all label arrays: which are rejected, and otherwise the result is the larger of the agreement and the length minus the agreement."},
 {"property": "C117", "status": "partial", "theorems": ["Spta.C117_groups_partial", "Spta.C117_repr", "Spta.C117_name_refuted", "Spta.C117_spatial_refuted", "Spta.C117_medoids_refuted", "Spta.C117_empty_refuted"], "note": "The code violates parts of it: NameError unless the module is executed as a program, no medoids, ValueError for spatial regions, an empty cluster 0 without noise (exactly then), factory does not know the algorithm. Proved: the clusters are exactly the noise and the groups. The labels of scikit-learn are a parameter (numbered from 0 without gaps, -1 for noise)."},
 {"property": "C118", "status": "proved", "theorems": ["Spta.C118_orders", "Spta.C118_orders_overrun", "Spta.C118_auto", "Spta.C118_auto_overrun", "Spta.C118_bounds", "Spta.C118_cells_orders", "Spta.C118_cells_auto", "Spta.C118_files"], "note": "Fitting and forecasting are parameters: fitting gives a model or one of the caught errors, forecasts have the requested length. Times are opaque text. For k larger than the number of clusters, the rows of the existing clusters are written before IndexError."},
 {"property": "C119", "status": "partial", "theorems": ["Spta.C119_plot_orders", "Spta.C119_plot_auto", "Spta.C119_table_orders_partial", "Spta.C119_table_auto_partial", "Spta.C119_files", "Spta.C119_files_kinds", "Spta.C119_missing_refuted", "Spta.C119_missing_auto_refuted", "Spta.C119_lost_orders", "Spta.C119_lost_auto"], "note": "Holds if a model was found at every medoid; otherwise --plots ends the program with AttributeError and the remaining rows are missing (C119_missing_refuted). C119_lost_orders and C119_lost_auto say what is left then: the rows of the table without plots up to and including the first experiment without a model at its medoid."},
 {"property": "C120", "status": "partial", "theorems": ["Spta.C120_catalogue", "Spta.C120_arguments", "Spta.C120_metadata", "Spta.C120_train", "Spta.C120_in_sample", "Spta.C120_predict_partial", "Spta.C120_own_refitter", "Spta.C120_untrained", "Spta.C120_rows", "Spta.C120_refuted"], "note": "Holds for in-sample predictions and, for mean of past and k-NN, for all predictions. Out-of-sample predictions of auto ARIMA change when the same solver is trained with another number of test samples (C120_refuted): the file of the models of the whole series is shared. Dataset and distance matrices do not change during the session; the parsing of the command line is not modelled."},
 {"property": "C121", "status": "proved", "theorems": ["Spta.C121_matrix", "Spta.C121_total", "Spta.C121_session", "Spta.C121_frame", "Spta.C121_load", "Spta.C121_distances", "Spta.C121_center", "Spta.C121_shown", "Spta.C121_dtw"], "note": "The measure is a parameter; C121_dtw shows that the root of the least alignment cost is symmetric and zero on equal series. Series with NaN are excluded from C121_distances by the hypothesis that a series has distance zero to itself (see C35 for what happens with them). Drawing and the parsing of the command line are not modelled."},
 {"property": "C122", "status": "proved", "theorems": ["Spta.C122_suite", "Spta.C122_outcome", "Spta.C122_catalogue", "Spta.C122_suites", "Spta.C122_program"], "note": "The distances of the matrix are numbers; a negative or zero number of clusters is excluded (the suites have none)."},
 {"property": "C123", "status": "partial", "theorems": ["Spta.C123_suites", "Spta.C123_suites_refuted", "Spta.C123_arima_partial", "Spta.C123_arima_refuted", "Spta.C123_auto_arima", "Spta.C123_silhouette_partial", "Spta.C123_silhouette_refuted", "Spta.C123_centroid", "Spta.C123_options"], "note": "The claim is false of the code in three places, each with a witness: the parsers accept suites of the other clustering type (kmedoids with part1 or part2, regular with large or all), the experiment arima_whole_brazil uses a suite that does not exist, and the regions named whole_real_brazil have no silhouette analysis. In all of them a KeyError is raised; all other combinations are defined. The proofs decide over all entries of the catalogues, which are finite."},
 {"property": "C124", "status": "partial", "theorems": ["Spta.C124_program_partial", "Spta.C124_single_seed_partial", "Spta.C124_too_few", "Spta.C124_args", "Spta.C124_quick", "Spta.C124_refuted", "Spta.C124_exactly_partial"], "note": "False of the code with two or more seeds: metadata that differ in the seed only are the same key, so the costs of the last seed are used for all. C124_program_partial says what is printed, C124_single_seed_partial proves the claim for one seed, and C124_refuted runs the whole program on nine series where seed 0 gets the elbow of seed 1. Every series is nearer to itself than to the others (as in C107), because the report of the clustering fails otherwise. Saved partitions are not used."},
 {"property": "C125", "status": "proved", "theorems": ["Spta.C125_score", "Spta.C125_range", "Spta.C125_above", "Spta.C125_dtw"], "note": "silhouette_score and silhouette_samples of sklearn are modelled from their documentation (Model/Silhouette: silhouetteSample, silhouetteSamples); the specification IsSilhouette is the definition of Rousseeuw over finite sets."},
 {"property": "C126", "status": "partial", "theorems": ["Spta.C126_some", "Spta.C126_suite_partial", "Spta.C126_command_partial", "Spta.C126_matrix", "Spta.C126_degenerate", "Spta.C126_refuted", "Spta.C126_when_partial"], "note": "False of the code: with one cluster, with as many clusters as points (C126_degenerate), or when equal series leave only one cluster (C126_refuted) the whole analysis ends with a ValueError. Proved when no two series are at distance 0 and all numbers of clusters are between 2 and the number of points minus 1. C126_some needs neither: whenever the analysis ends without exception, it has a clustering. C126_when_partial says exactly when it ends without exception."},
 {"property": "C127", "status": "partial", "theorems": ["Spta.C127_bands_partial", "Spta.C127_refuted", "Spta.C127_any_labels_partial"], "note": "False of the code for labels with gaps, which k-medoids produces for equal series: the number of clusters is the number of different labels, so that the last cluster is not drawn and the colours differ (C127_refuted). Proved for labels without gaps. C127_any_labels_partial says what is drawn for all labels."},
 {"property": "C128", "status": "proved", "theorems": ["Spta.C128_show_distances", "Spta.C128_no_file"], "note": "The region is nonempty and the matrix in the file fits it. The drawing itself is not modelled."},
 {"property": "C129", "status": "partial", "theorems": ["Spta.C129_saved_partial", "Spta.C129_session", "Spta.C129_again", "Spta.C129_missing_refuted", "Spta.C129_stale", "Spta.C129_default_refuted"], "note": "False of the code: the matrix is never calculated (C129_missing_refuted: AssertionError or ValueError), and an object that has a matrix uses it for every region (C129_stale, C129_default_refuted). Proved with saved distances and a new object, or one used for the same region only."},
 {"property": "C130", "status": "partial", "theorems": ["Spta.C130_chain", "Spta.C130_set", "Spta.C130_none", "Spta.C130_calculate_refuted", "Spta.C130_medoids", "Spta.C130_indices", "Spta.C130_rejected", "Spta.C130_inherited", "Spta.C130_member_refuted"], "note": "False of the code: get_centroid(measure) without a centroid always ends with AttributeError, since find_centroid_and_cost does not exist (C130_calculate_refuted); clusters created without medoids report the centroid of the region, which may be in another cluster (C130_member_refuted)."},
 {"property": "C131", "status": "proved", "theorems": ["Spta.C131_forecast", "Spta.C131_session", "Spta.C131_missing", "Spta.C131_line"], "note": "The text of a number is a parameter; without --parallel (C66 shows that workers make no difference). The libraries raise only the expected exceptions and forecast eight samples."},
 {"property": "C132", "status": "proved", "theorems": ["Spta.C132_round_trip", "Spta.C132_lines", "Spta.C132_limit", "Spta.C132_suite", "Spta.C132_analysis", "Spta.C132_query", "Spta.C132_cells", "Spta.C132_failed"], "note": "The reader and the writer of the csv module of python 3.7 are modelled; the text of numbers and arrays is a parameter."},
 {"property": "C133", "status": "proved", "theorems": ["Spta.C133_lines", "Spta.C133_printed"], "note": "The text of numbers and arrays is a parameter."},
 {"property": "C134", "status": "proved", "theorems": ["Spta.C134_drawn", "Spta.C134_map", "Spta.C134_marks", "Spta.C134_rectangle", "Spta.C134_title", "Spta.C134_result", "Spta.C134_files"], "note": "matplotlib and its colour map are parameters; the square of an element of an image is that of imshow."},
 {"property": "C135", "status": "proved", "theorems": ["Spta.C135_entries", "Spta.C135_generated", "Spta.C135_slope", "Spta.C135_file"], "note": "The generators are parameters: a number per random.choice, a standard normal outcome per sample. Exact arithmetic, so np.arange has its 12 values; numbers below 10^100 so that the csv module can read the fields."},
 {"property": "C136", "status": "proved", "theorems": ["Spta.C136_minimum", "Spta.C136_maximum", "Spta.C136_distances"], "note": "Arrays with at least one axis; the square root is a parameter with its defining property."},
 {"property": "C137", "status": "proved", "theorems": ["Spta.C137_metric", "Spta.C137_nan", "Spta.C137_combine"], "note": "The square root is a parameter with its defining property; exact arithmetic."},
 {"property": "C138", "status": "partial", "theorems": ["Spta.C138_delayed", "Spta.C138_group", "Spta.C138_region_partial", "Spta.C138_no_functions", "Spta.C138_fill_refuted", "Spta.C138_shares_partial"], "note": "The equal shares are false of the code: point (x, y) has function x * y modulo the number of functions, which gives 39 of 64 points of the example the first function. Random outcomes are parameters; exact arithmetic. C138_shares_partial: for a prime number m of functions and sides that are multiples of m, 2m-1 of every m\u00b2 points show the first function and m-1 each of the others."},
 {"property": "C139", "status": "proved", "theorems": ["Spta.C139_colours", "Spta.C139_matrix", "Spta.C139_series", "Spta.C139_region", "Spta.C139_group"], "note": "Random outcomes and the distance function are parameters; the figure is the data given to matplotlib; exact arithmetic."},
 {"property": "C140", "status": "proved", "theorems": ["Spta.C140_finite", "Spta.C140_report"], "note": "The power of the fuzzifier is a strictly increasing positive function; exact arithmetic; the rounding of the percentage is not modelled. Whether there is a result at all is C32."},
 {"property": "C141", "status": "proved", "theorems": ["Spta.C141_files", "Spta.C141_when", "Spta.C141_failed"], "note": "The texts of the samples, the outcome of the random generator, and the errors and clusters found by solvers are parameters; --random and --tp are at least 0. For C141_files the keys of the suite are the representations of clusterings without initial medoids and all texts are short enough for a csv reader. Failures of the file system are not modelled."},
 {"property": "C142", "status": "proved", "theorems": ["Spta.C142_session", "Spta.C142_unusable", "Spta.C142_rows", "Spta.C142_paths"], "note": "The classifier, the models, the regions and partitions and the texts of numbers are parameters; labels have the form k-seed-i (which is what the training data contains, C141), and texts are short enough for a csv reader. Arguments are those that the catalogues accept (C134)."},
 {"property": "C143", "status": "proved", "theorems": ["Spta.C143_session", "Spta.C143_between", "Spta.C143_distance", "Spta.C143_failed", "Spta.C143_work_failed", "Spta.C143_empty", "Spta.C143_parts"], "note": "Partitions, models, distances, orders of models and texts of numbers are parameters; the clusterings of a suite are regular or k-medoids with a k and a seed, and the region has less than 10^9 points. Arguments are those that the catalogues accept (C123). Files of an earlier run with another forecast length are replaced (C111)."},
 {"property": "C144", "status": "proved", "theorems": ["Spta.C144_session", "Spta.C144_tables", "Spta.C144_missing_model", "Spta.C144_analysis", "Spta.C144_medoids", "Spta.C144_elbows", "Spta.C144_failed", "Spta.C144_missing_auto", "Spta.C144_shape", "Spta.C144_paths", "Spta.C144_analysis_shape", "Spta.C144_parts", "Spta.C144_lost", "Spta.C144_shape_later"], "note": "Partitions, models, distances, texts of numbers and timings are parameters; the clusterings of a suite are regular or k-medoids with a k and a seed, and the region has less than 10^9 points (for the analysis, coordinates below 10000). Without parallel workers and without the options --silhouette and --variance. What find_elbows prints for a suite is the subject of C124."},
 {"property": "C145", "status": "proved", "theorems": ["Spta.C145_nearest", "Spta.C145_training", "Spta.C145_own"], "note": "Partitions, distances, texts of numbers and the random permutation are parameters. Regular clusterings and k-medoids with a k and a seed; coordinates below 10000. Which points are left to draw from is the subject of C56: outside a region at the origin the code does not exclude the medoids."},
 {"property": "C146", "status": "partial", "theorems": ["Spta.C146_kmedoids_partial", "Spta.C146_show_partial", "Spta.C146_order", "Spta.C146_at_once", "Spta.C146_scaled_refuted", "Spta.C146_shared_refuted"], "note": "Two parts are refuted: a scaled region can not be saved by the command save (the created region is not scaled and its metadata says it is), so no session analyses it (C146_scaled_refuted); and with one distance measure for two regions, kmedoids without a file of distances uses the matrix of the other region (C146_shared_refuted). The full property holds of sessions in which save and distances were run for an unscaled region. The __main__ block of the file is not modelled: it calls the constructor of the silhouette metadata without its last argument and always raises TypeError."},
 {"property": "C147", "status": "partial", "theorems": ["Spta.C147_plain", "Spta.C147_same", "Spta.C147_paths", "Spta.C147_figures_partial", "Spta.C147_lost", "Spta.C147_bins", "Spta.C147_no_score", "Spta.C147_refuted"], "note": "Refuted as stated (C147_refuted): if a cluster has one point, or there is one cluster, or --bins is a number, or --random is negative, --variance ends the analysis and the rows from that clustering on are missing in the table (C147_lost, C147_bins); with --silhouette a clustering with one cluster or with as many clusters as points ends the analysis before the table is written (C147_no_score). C147_figures_partial is the full property for suites in which every clustering has a score and can be drawn. matplotlib is not modelled: a figure is the data that is drawn and the path under which it is saved; numpy accepts eight names for bins."},
 {"property": "C148", "status": "partial", "theorems": ["Spta.C148_data", "Spta.C148_created", "Spta.C148_metadata", "Spta.C148_derived", "Spta.C148_cluster_interval", "Spta.C148_round_trip", "Spta.C148_paths", "Spta.C148_other_files", "Spta.C148_untouched", "Spta.C148_last", "Spta.C148_session_partial", "Spta.C148_interval_refuted", "Spta.C148_cluster_refuted", "Spta.C148_program_refuted"], "note": "Refuted as stated: an interval of a scaled region keeps the metadata and, pickled, replaces the whole region (C148_interval_refuted); so does a cluster (C148_cluster_refuted); the program of temporal.py ends with a ValueError, because save of a scaled region asks its inner region, which has no metadata, and without scaling it reads a file that no region has (C148_program_refuted). C148_session_partial is the property for sessions that pickle created regions and undecorated derived ones. pickle is modelled as storing the object under its path; creating the directory of the path is not modelled."},
 {"property": "C149", "status": "partial", "theorems": ["Spta.C149_step", "Spta.C149_refines", "Spta.C149_reached", "Spta.C149_interleaved", "Spta.C149_loop", "Spta.C149_nested_partial", "Spta.C149_nested_refuted", "Spta.C149_nested_resumed", "Spta.C149_nested_exactly_partial"], "note": "Refuted as stated: a scaled region and an error region have no cursor of their own, so a loop over one inside a loop over the other (or over the same region twice) takes the items of the outer loop, which never ends (C149_nested_refuted, for every bound on the steps). C149_nested_partial is the property of nested loops for regions with different iterators; C149_refines and C149_interleaved say exactly which calls share an iterator."},
 {"property": "C150", "status": "proved", "theorems": ["Spta.C150_mean", "Spta.C150_mean_future", "Spta.C150_knn", "Spta.C150_knn_future", "Spta.C150_knn_short"], "note": "Proved. The samples are numbers (no NaN) and np.argpartition is a parameter with its contract; for k nearest neighbours out of sample the forecast length and k together do not exceed the number of samples."}
]}
