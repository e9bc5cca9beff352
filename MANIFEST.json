{"claims": [
{"property": "C01", "status": "proved", "theorems": ["Golearn.C01_unpack_pack", "Golearn.C01_pack_unpack", "Golearn.C01_pack_injective", "Golearn.C01_pack_value", "Golearn.C01_pack_inline", "Golearn.C01_short_rejected", "Golearn.C01_float_roundtrip", "Golearn.C01_byteSeqEqual_iff"], "note": ""},
{"property": "C02", "status": "proved", "theorems": ["Golearn.C02_read_last_write", "Golearn.C02_read_last_write_any_group"], "note": ""},
{"property": "C03", "status": "proved", "theorems": ["Golearn.C03_set_no_interference", "Golearn.C03_set_frame"], "note": ""},
{"property": "C04", "status": "proved", "theorems": ["Golearn.C04_binary_reads_last_bit", "Golearn.C04_text", "Golearn.C04_other_bits_unchanged"], "note": ""},
{"property": "C05", "status": "proved", "theorems": ["Golearn.C05_extend"], "note": ""},
{"property": "C06", "status": "proved", "theorems": ["Golearn.C06_specs_distinct", "Golearn.C06_specs_stay_valid", "Golearn.C06_all_attributes", "Golearn.C06_accepted_iff", "Golearn.C06_add_after_extend_rejected"], "note": ""},
{"property": "C07", "status": "partial", "theorems": ["Golearn.C07_frozen_fails", "Golearn.C07_frozen_partial"], "note": "The full statement is false of the code: attributes can be pushed into a named group after allocation (C07_frozen_fails). The partial theorem covers every other call."},
{"property": "C08", "status": "proved", "theorems": ["Golearn.C08_get_attribute_iff", "Golearn.C08_get_attribute_spec"], "note": ""},
{"property": "C09", "status": "proved", "theorems": ["Golearn.C09_class_attributes", "Golearn.C09_absent_is_error", "Golearn.C09_frame"], "note": ""},
{"property": "C10", "status": "proved", "theorems": ["Golearn.C10_map_over_rows"], "note": ""},
{"property": "C11", "status": "proved", "theorems": ["Golearn.C11_dense_copy", "Golearn.C11_dense_copy_of_dense", "Golearn.C11_copy_independent"], "note": "Equality: C11_dense_copy for any grid (dense, view, filtered, nested), any map orders. Independence: C11_copy_independent, in a memory model where byte slices are windows into arrays (see C119): after any history, the copy and its source change only through calls on, and slices handed out by, each of them."},
{"property": "C12", "status": "proved", "theorems": ["Golearn.C12_shuffle_permutes", "Golearn.C12_every_permutation"], "note": ""},
{"property": "C13", "status": "partial", "theorems": ["Golearn.C13_lazy_shuffle_fails", "Golearn.C13_lazy_shuffle_partial"], "note": "The full statement is false of the code (C13_lazy_shuffle_fails). The partial theorem says what holds for every sequence of draws."},
{"property": "C14", "status": "proved", "theorems": ["Golearn.C14_sort_permutes"], "note": ""},
{"property": "C15", "status": "partial", "theorems": ["Golearn.C15_sort_order_partial", "Golearn.C15_sort_small_codes_partial", "Golearn.C15_sort_high_bytes_partial", "Golearn.C15_sort_order_fails", "Golearn.C15_negative_floats_fail"], "note": "The full statement is false of the code: bit 7 of the low byte of the last sort attribute is flipped (C15_sort_order_fails) and negative floats are misplaced (C15_negative_floats_fail). The partial theorems give the exact order produced, for all inputs."},
{"property": "C16", "status": "proved", "theorems": ["Golearn.C16_lazy_sort_agrees", "Golearn.C16_lazy_sort_any_grid"], "note": ""},
{"property": "C17", "status": "partial", "theorems": ["Golearn.C17_sample_size_fails", "Golearn.C17_sample_partial", "Golearn.C17_sample_empty"], "note": "The size part is false of the code when the sample is smaller than the source (C17_sample_size_fails). The partial theorem covers what each row shows."},
{"property": "C18", "status": "proved", "theorems": ["Golearn.C18_view_reads_through", "Golearn.C18_views_compose"], "note": ""},
{"property": "C19", "status": "partial", "theorems": ["Golearn.C19_view_iteration_partial", "Golearn.C19_rows_view_iteration_fails"], "note": "Iteration of unmasked row views is wrong in the code (C19_rows_view_iteration_fails). The partial theorem covers every other view."},
{"property": "C20", "status": "proved", "theorems": ["Golearn.C20_restricted_views", "Golearn.C20_values_intact"], "note": ""},
{"property": "C21", "status": "proved", "theorems": ["Golearn.C21_decompose_values", "Golearn.C21_decompose_threshold", "Golearn.C21_each_row_once"], "note": ""},
{"property": "C22", "status": "partial", "theorems": ["Golearn.C22_split_dense_partial", "Golearn.C22_split_view_fails"], "note": "False of the code for sources that are not DenseInstances, which are shuffled lazily (C22_split_view_fails). The partial theorem covers DenseInstances from every history of calls, all draws and all proportions."},
{"property": "C23", "status": "proved", "theorems": ["Golearn.C23_class_distribution", "Golearn.C23_after_split", "Golearn.C23_after_threshold"], "note": ""},
{"property": "C24", "status": "partial", "theorems": ["Golearn.C24_categorical_partial", "Golearn.C24_categorical_fails", "Golearn.C24_binary_float_partial"], "note": "The count claim is false of the code: the row callbacks return false, so iteration stops after one row (C24_categorical_fails, for every grid of two or more rows). The partial theorems state what is returned, for every grid."},
{"property": "C25", "status": "partial", "theorems": ["Golearn.C25_equal_grids_partial", "Golearn.C25_instances_equal_fails"], "note": "Grids reported equal need not be equal: the code compares the first grid with itself (C25_instances_equal_fails). The partial theorem is the other direction."},
{"property": "C26", "status": "partial", "theorems": ["Golearn.C26_check_compatible", "Golearn.C26_compatible_same_attributes", "Golearn.C26_strict_partial", "Golearn.C26_strict_only_dense", "Golearn.C26_strict_fails"], "note": "Never panicking and exactness are false of the code when groups of the same name differ in length (C26_strict_fails). The partial theorem covers all other pairs from any histories."},
{"property": "C27", "status": "proved", "theorems": ["Golearn.C27_intersect", "Golearn.C27_difference", "Golearn.C27_partition", "Golearn.C27_references"], "note": ""},
{"property": "C28", "status": "proved", "theorems": ["Golearn.C28_equals_iff", "Golearn.C28_compatible_iff", "Golearn.C28_equals_refl", "Golearn.C28_equals_symm", "Golearn.C28_equals_trans", "Golearn.C28_equals_compatible", "Golearn.C28_compatible_equiv"], "note": ""},
{"property": "C29", "status": "proved", "theorems": ["Golearn.C29_values", "Golearn.C29_codes", "Golearn.C29_stable", "Golearn.C29_decode", "Golearn.C29_injective"], "note": ""},
{"property": "C30", "status": "partial", "theorems": ["Golearn.C30_attribute_roundtrip_partial", "Golearn.C30_attributes_roundtrip_partial", "Golearn.C30_nil_values_panic", "Golearn.C30_roundtrip_fails"], "note": "Holds for attributes whose precision survives a float64 and whose value slice is not nil; a categorical attribute that never saw a value panics on reading (proved)."},
{"property": "C31", "status": "partial", "theorems": ["Golearn.C31_roundtrip_partial", "Golearn.C31_dense_roundtrip_partial", "Golearn.C31_short_read_fails"], "note": "Missing: nil-valued categorical attributes (reading panics, see C30) and readers that hand over short counts (reading fails, proved); rows come back in the order MapOverRows visits them, which is the same order for dense grids."},
{"property": "C32", "status": "partial", "theorems": ["Golearn.C32_first_write_partial", "Golearn.C32_distinct_keys_partial", "Golearn.C32_last_write_fails", "Golearn.C32_attributes_for_key_partial"], "note": "Lookup returns the first entry with the name, so a second write of a key is never seen (proved); holds for keys written once."},
{"property": "C33", "status": "partial", "theorems": ["Golearn.C33_get", "Golearn.C33_class_attributes", "Golearn.C33_iteration_partial", "Golearn.C33_iteration_fails"], "note": "Get is proved for every filter. MapOverRows also applies Transform to columns the filter does not convert (proved to fail with the binary conversion filter); it agrees with Get for filters that leave those columns alone."},
{"property": "C34", "status": "partial", "theorems": ["Golearn.C34_parse_partial", "Golearn.C34_rows", "Golearn.C34_groups_rows", "Golearn.C34_groups_fail", "Golearn.C34_unstable_sort_fails"], "note": "ParseCSVToInstances is proved: row count for every input, and all cells, names, kinds and class when the (always-false) sort of specifications keeps their order, which Go's sort does for up to 12 columns and from Go 1.19 on. ParseCSVToInstancesWithAttributeGroups counts the header as a row: proved, with the negation of the claim. The text level (encoding/csv, regexp, ParseFloat, TrimSpace) is left arbitrary."},
{"property": "C35", "status": "proved", "theorems": ["Golearn.C35_confusion_matrix", "Golearn.C35_mismatch"], "note": ""},
{"property": "C36", "status": "proved", "theorems": ["Golearn.C36_counts"], "note": ""},
{"property": "C37", "status": "proved", "theorems": ["Golearn.C37_accuracy", "Golearn.C37_precision_recall", "Golearn.C37_f1", "Golearn.C37_macro"], "note": ""},
{"property": "C38", "status": "partial", "theorems": ["Golearn.C38_micro_recall", "Golearn.C38_micro_precision_value", "Golearn.C38_micro_precision_partial", "Golearn.C38_micro_precision_fails"], "note": "GetMicroPrecision ignores predictions of labels that no row has; the value it computes is characterised exactly, the claim is proved when predicted labels are reference labels, and refuted in general. GetMicroRecall equals accuracy always."},
{"property": "C39", "status": "proved", "theorems": ["Golearn.C39_folds_partition", "Golearn.C39_cross_validation", "Golearn.C39_every_row_counted", "Golearn.C39_mean_variance"], "note": ""},
{"property": "C40", "status": "proved", "theorems": ["Golearn.C40_maximum", "Golearn.C40_insert", "Golearn.C40_extract", "Golearn.C40_drain"], "note": ""},
{"property": "C41", "status": "proved", "theorems": ["Golearn.C41_build", "Golearn.C41_accepts"], "note": ""},
{"property": "C42", "status": "partial", "theorems": ["Golearn.C42_search_general_partial", "Golearn.C42_search_partial", "Golearn.C42_full_tree_partial", "Golearn.C42_errors", "Golearn.C42_search_witness", "Golearn.C42_search_fails", "Golearn.C42_zero_panics"], "note": "A search visits places of the tree that hold no row and can return row 0 with the distance of the origin (C42_search_fails refutes the full statement SearchFindsNearest). Proved: what every search returns (C42_search_general_partial), correctness when at least k rows are closer to the target than the origin (C42_search_partial), and correctness for every k and target when the tree is full (C42_full_tree_partial)."},
{"property": "C43", "status": "proved", "theorems": ["Golearn.C43_select", "Golearn.C43_linear_search", "Golearn.C43_too_many_panics"], "note": "SortIntMap and the linear search; k above the number of rows panics (C43_too_many_panics)."},
{"property": "C44", "status": "partial", "theorems": ["Golearn.C44_vote", "Golearn.C44_weighted_vote", "Golearn.C44_predict", "Golearn.C44_predict_weighted", "Golearn.C44_predict_tree_partial", "Golearn.C44_no_neighbours", "Golearn.C44_tree_error_dropped"], "note": "Proved for the linear search (plain and weighted). For the k-d tree the theorem is partial because the search itself may miss nearest rows (C42_search_fails); with k above the number of rows the search error is dropped and rows stay unlabelled (C44_tree_error_dropped)."},
{"property": "C45", "status": "proved", "theorems": ["Golearn.C45_mean", "Golearn.C45_between", "Golearn.C45_bounds"], "note": "Exact arithmetic; k=0 gives NaN and k above the number of rows panics (C45_bounds)."},
{"property": "C46", "status": "proved", "theorems": ["Golearn.C46_distances", "Golearn.C46_same_ranking", "Golearn.C46_predict", "Golearn.C46_layout", "Golearn.C46_ignores_weighted", "Golearn.C46_no_rows_panics"], "note": "Exact arithmetic: the C kernel accumulates in single precision, which is not modelled. The optimised path ignores Weighted (C46_ignores_weighted) and panics without rows (C46_no_rows_panics)."},
{"property": "C47", "status": "proved", "theorems": ["Golearn.C47_predicts_trained_class", "Golearn.C47_no_rows_panics"], "note": ""},
{"property": "C48", "status": "proved", "theorems": ["Golearn.C48_fits", "Golearn.C48_paths", "Golearn.C48_pure_is_leaf", "Golearn.C48_training_rows"], "note": ""},
{"property": "C49", "status": "partial", "theorems": ["Golearn.C49_never_worse_partial", "Golearn.C49_collapse", "Golearn.C49_numbers_break", "Golearn.C49_unknown_values_break", "Golearn.C49_refuted"], "note": "Proved for ID3 trees with a branch for every value in the pruning data and no number printing as 0 or 1. Each condition is needed: C49_numbers_break and C49_unknown_values_break. C49_collapse gives the local rule without conditions."},
{"property": "C50", "status": "partial", "theorems": ["Golearn.C50_information_gain_partial", "Golearn.C50_gain_ratio_partial", "Golearn.C50_categorical", "Golearn.C50_information_gain_chooses", "Golearn.C50_gain_ratio_chooses", "Golearn.C50_trees_fit", "Golearn.C50_nan_never_ends", "Golearn.C50_repeats_break", "Golearn.C50_threshold_on_value"], "note": "Proved for exact numbers without repeated values, and for categorical attributes without that condition. Refuted in general: with repeated values the scan skips thresholds (C50_repeats_break), the threshold can equal a value (C50_threshold_on_value) and a NaN makes the loop endless (C50_nan_never_ends). Gain ratio divides by the entropy left after the split, which is what the code does, not by the intrinsic information."},
{"property": "C51", "status": "partial", "theorems": ["Golearn.C51_always_one", "Golearn.C51_never_right", "Golearn.C51_refuted", "Golearn.C51_average_is_one", "Golearn.C51_picks_first"], "note": "Refuted: the code reads the map of proportions before storing into it, so its index is 1 for every distribution (C51_always_one), never the Gini index (C51_never_right), and the generator always picks its first candidate (C51_picks_first)."},
{"property": "C52", "status": "partial", "theorems": ["Golearn.C52_selection", "Golearn.C52_terminates", "Golearn.C52_too_many_never_ends", "Golearn.C52_best_of_selection_partial"], "note": "Selection and termination are proved for every sequence of draws. When more attributes are requested than exist, which happens below the root of a tree, the selection never ends (C52_too_many_never_ends). The choice among the selected attributes is proved for numbers without repeats (C50)."},
{"property": "C53", "status": "proved", "theorems": ["Golearn.C53_partition", "Golearn.C53_missing_labels"], "note": "Classifier and regressor share one model; exact arithmetic. C53_missing_labels: fewer labels than rows panics."},
{"property": "C54", "status": "proved", "theorems": ["Golearn.C54_update", "Golearn.C54_scan", "Golearn.C54_needs_order", "Golearn.C54_past_the_end"], "note": "Holds on rows sorted by the feature for thresholds up to the last value; C54_needs_order and C54_past_the_end show that both conditions are needed. The tree only calls it under them (proof of C55)."},
{"property": "C55", "status": "proved", "theorems": ["Golearn.C55_gini", "Golearn.C55_entropy", "Golearn.C55_mae", "Golearn.C55_mse", "Golearn.C55_root", "Golearn.C55_data_set"], "note": "All four criteria, every node, over all thresholds that have rows on both sides (not only the midpoints tried). Exact arithmetic; the sort of the rows is any sort by value. The list of splits already tried never excludes a useful split."},
{"property": "C56", "status": "partial", "theorems": ["Golearn.C56_depth", "Golearn.C56_depth_regression", "Golearn.C56_predicts_partial", "Golearn.C56_regression_partial", "Golearn.C56_unsplit", "Golearn.C56_all_the_same", "Golearn.C56_no_better_split", "Golearn.C56_limit_zero", "Golearn.C56_refuted", "Golearn.C56_no_columns", "Golearn.C56_evaluate", "Golearn.C56_data_set"], "note": "Depth limit proved. Predictions: proved if the root was split. False otherwise (C56_refuted): a root that was not split has threshold 0 and right label 0, so it predicts 0 for any row whose first value is not negative, even if all training labels are 5."},
{"property": "C57", "status": "proved", "theorems": ["Golearn.C57_gini", "Golearn.C57_gini_range", "Golearn.C57_entropy", "Golearn.C57_mae", "Golearn.C57_mse", "Golearn.C57_unknown_labels", "Golearn.C57_repeated_labels"], "note": "Labels passed to the constructor must be distinct and cover the data; C57_unknown_labels and C57_repeated_labels show what happens otherwise. Exact arithmetic; entropy for any logarithm."},
{"property": "C58", "status": "proved", "theorems": ["Golearn.C58_split", "Golearn.C58_both_sides", "Golearn.C58_one_side", "Golearn.C58_tree", "Golearn.C58_depth", "Golearn.C58_ends", "Golearn.C58_never_ends", "Golearn.C58_path", "Golearn.C58_path_unsplit", "Golearn.C58_path_bounds", "Golearn.C58_sample"], "note": "Proved for every draw of random numbers and every data set, with thresholds as elements of an ordered field. A threshold is moved up by 0.000001, so values closer than that can all go to one side (C58_one_side). The redraw loop ends if every column comes up, and does not end if only constant columns come up."},
{"property": "C59", "status": "partial", "theorems": ["Golearn.C59_formula", "Golearn.C59_range", "Golearn.C59_decreasing", "Golearn.C59_fitted", "Golearn.C59_fit_ends", "Golearn.C59_sample_of_one", "Golearn.C59_refuted", "Golearn.C59_range_partial", "Golearn.C59_rows", "Golearn.C59_needs_class", "Golearn.C59_table_partial"], "note": "The score is not a number for a forest without trees or for the sample size zero (C59_refuted). For forests that Fit makes from samples of one row or more scores lie in (0, 1]; from two rows they lie strictly inside and decrease strictly with the mean path length. C59_table_partial states this for Fit and Predict on tables: rows are the numeric attributes and the class; without one numeric class both panic (C59_needs_class)."},
{"property": "C60", "status": "partial", "theorems": ["Golearn.C60_binary", "Golearn.C60_float", "Golearn.C60_columns", "Golearn.C60_distinct", "Golearn.C60_fits", "Golearn.C60_grid_partial", "Golearn.C60_collision"], "note": "Names of new columns can collide: C60_collision is the witness; the grid theorem assumes distinct names."},
{"property": "C61", "status": "partial", "theorems": ["Golearn.C61_positive", "Golearn.C61_refuted", "Golearn.C61_partial", "Golearn.C61_other_columns"], "note": "The code tests for values greater than zero, so negative numbers become false (C61_refuted); C61_partial covers non-negative data."},
{"property": "C62", "status": "partial", "theorems": ["Golearn.C62_train", "Golearn.C62_add", "Golearn.C62_bins", "Golearn.C62_lowest", "Golearn.C62_width", "Golearn.C62_extra_bin", "Golearn.C62_outside", "Golearn.C62_labels", "Golearn.C62_labels_collide", "Golearn.C62_grid_partial"], "note": "The code makes bins+1 bins: the largest value has a bin of its own (C62_extra_bin). Values outside the training range, or labels that print alike, make printing panic."},
{"property": "C63", "status": "proved", "theorems": ["Golearn.C63_table", "Golearn.C63_statistic", "Golearn.C63_runs", "Golearn.C63_merge", "Golearn.C63_classes", "Golearn.C63_intervals", "Golearn.C63_min_rows_refuted"], "note": "At least MinRows intervals need not remain: all neighbours with the least statistic are merged at once (C63_min_rows_refuted)."},
{"property": "C64", "status": "proved", "theorems": ["Golearn.C64_no_deadlock", "Golearn.C64_terminates", "Golearn.C64_completes", "Golearn.C64_tally", "Golearn.C64_parts"], "note": "Goroutines move in any order over bounded channels; every schedule makes at most 5m+cpus+4 moves and never deadlocks or panics when all models succeed (errors: C90)."},
{"property": "C65", "status": "proved", "theorems": ["Golearn.C65_majority", "Golearn.C65_no_models"], "note": "Any schedule, any order of maps; at least one model. Without models every row keeps the first class."},
{"property": "C66", "status": "partial", "theorems": ["Golearn.C66_distinct", "Golearn.C66_all", "Golearn.C66_ends", "Golearn.C66_endless", "Golearn.C66_refuted", "Golearn.C66_selects_partial", "Golearn.C66_grid", "Golearn.C66_forest", "Golearn.C66_fit_schedules"], "note": "Refuted as stated: asking for more features than there are loops for ever (C66_endless); otherwise selected attributes are distinct, for every sequence of draws that hits k of them."},
{"property": "C67", "status": "proved", "theorems": ["Golearn.C67_most_confident", "Golearn.C67_training", "Golearn.C67_fit", "Golearn.C67_reports_errors"], "note": "Outputs may be NaN (ignored by the comparison). Training: each classifier sees 1.0 exactly for its own class, if no float feature has the name of the class. If no output is positive the first class is chosen."},
{"property": "C68", "status": "partial", "theorems": ["Golearn.C68_trains_partial", "Golearn.C68_succeeds_iff", "Golearn.C68_range", "Golearn.C68_rejects", "Golearn.C68_not_always"], "note": "Training succeeds exactly when there are no features or every occurring class has a row with some feature; otherwise it panics on a nil slice (C68_not_always)."},
{"property": "C69", "status": "proved", "theorems": ["Golearn.C69_log_arguments", "Golearn.C69_predict", "Golearn.C69_order_independent", "Golearn.C69_panics"], "note": "Exact arithmetic. The start score must be below (features+1)*log(1/(rows+1)), which -MaxFloat64 is for any data that fits in memory."},
{"property": "C70", "status": "partial", "theorems": ["Golearn.C70_fit", "Golearn.C70_ignores_labels", "Golearn.C70_threshold", "Golearn.C70_predict_partial", "Golearn.C70_refuses", "Golearn.C70_not_own_row"], "note": "Rows scoring below the threshold are written to row 1 instead of their own row: the exact result is proved, the full claim refuted (C70_not_own_row). Labels are never used in training (C70_ignores_labels)."},
{"property": "C71", "status": "partial", "theorems": ["Golearn.C71_weights", "Golearn.C71_biases", "Golearn.C71_new", "Golearn.C71_input_bias", "Golearn.C71_update", "Golearn.C71_topology_partial", "Golearn.C71_not_topology", "Golearn.C71_drops"], "note": "Accessors, input biases and what training does to each weight are proved in full. That training never creates a connection is refuted (a connection removed by hand after training has begun comes back at the next step) and proved when no weight is set after training has begun. Training also drops connections of weight at most 1/200, and connections made after training began."},
{"property": "C72", "status": "partial", "theorems": ["Golearn.C72_fit", "Golearn.C72_fitted", "Golearn.C72_fit_class", "Golearn.C72_reads", "Golearn.C72_class_partial", "Golearn.C72_two_values", "Golearn.C72_float_partial", "Golearn.C72_second_fit", "Golearn.C72_fit_twice", "Golearn.C72_other_inputs", "Golearn.C72_not_any_order", "Golearn.C72_not_hidden"], "note": "Proved for any layers, drawings and map orders: Fit builds a network in layers with a random start and trains it (C72_fit), each value's output neuron towards 1 for its rows and 0 otherwise (C72_fit_class); Predict stores the number of the greatest of the neurons that follow the inputs (C72_reads). The whole claim C72_greatest holds without hidden layers if the map of class attributes is listed in the order of the values (C72_class_partial), and for a class that is a number with any hidden layers (C72_float_partial). It is false with hidden layers (C72_not_hidden) and in other map orders (C72_not_any_order). Also: two values give the first always, a second Fit or a categorical input makes Predict panic."},
{"property": "C73", "status": "partial", "theorems": ["Golearn.C73_grid", "Golearn.C73_needs_numbers", "Golearn.C73_terminates", "Golearn.C73_clusters", "Golearn.C73_panics_iff", "Golearn.C73_refuted", "Golearn.C73_grid_panics", "Golearn.C73_partial"], "note": "The clusters that are returned are disjoint, have at least MinCount points and are reached from one core point; the loops end. Panics are characterised exactly (C73_panics_iff) and do happen (C73_refuted, C73_grid_panics); C73_partial gives data without panics. big.Int is a natural number."},
{"property": "C74", "status": "proved", "theorems": ["Golearn.C74_bit_count", "Golearn.C74_region_query"], "note": "BitCount is exact for naturals of any size; big.Int.Bytes is modelled as base 256 digits."},
{"property": "C75", "status": "partial", "theorems": ["Golearn.C75_invert", "Golearn.C75_refuted", "Golearn.C75_outcome", "Golearn.C75_complete", "Golearn.C75_partial"], "note": "Invert is proved in full. Equals is wrong if the first map has an empty cluster (C75_refuted) and right otherwise (C75_partial); relabelled maps are always equal (C75_complete)."},
{"property": "C76", "status": "proved", "theorems": ["Golearn.C76_predict", "Golearn.C76_unfitted"], "note": "gonum's normal distribution is a parameter; NaN is excluded, minus infinity is included."},
{"property": "C77", "status": "proved", "theorems": ["Golearn.C77_back_substitution", "Golearn.C77_normal_equations", "Golearn.C77_least_squares", "Golearn.C77_not_enough_rows", "Golearn.C77_class_count"], "note": "Exact arithmetic in an ordered field. The QR factorisation is the library's: its contract is a hypothesis on the matrix the code builds. Least squares optimality is proved for training and the stored predictions for Predict."},
{"property": "C78", "status": "partial", "theorems": ["Golearn.C78_training", "Golearn.C78_no_rows", "Golearn.C78_prediction", "Golearn.C78_drops_negative", "Golearn.C78_faithful_partial", "Golearn.C78_two_classes", "Golearn.C78_more_classes", "Golearn.C78_wrong_side"], "note": "Training vectors are exact. For prediction only positive numbers are kept (x[i] > 0), so C78_faithful fails; C78_faithful_partial covers rows without negative numbers and C78_prediction says what is represented for every row."},
{"property": "C79", "status": "partial", "theorems": ["Golearn.C79_documented", "Golearn.C79_undocumented", "Golearn.C79_documented_iff", "Golearn.C79_refuses_documented", "Golearn.C79_accepts_partial", "Golearn.C79_again", "Golearn.C79_no_logistic", "Golearn.C79_constructor", "Golearn.C79_constructed", "Golearn.C79_logistic", "Golearn.C79_copy"], "note": "The table of documented combinations is svcTable. C79_accepts, that a documented combination gives no error, fails: when the form has to change the error is non-nil although the parameters are valid (C79_refuses_documented), and NewLinearSVC then returns no machine. C79_accepts_partial says exactly when the error is nil; a second call always accepts (C79_again)."},
{"property": "C80", "status": "partial", "theorems": ["Golearn.C80_centred", "Golearn.C80_default_components_fails", "Golearn.C80_shape_partial", "Golearn.C80_scores", "Golearn.C80_transform_uncentred"], "note": "Exact arithmetic in a field of characteristic zero; the library's singular value decomposition is a parameter with its contract as a hypothesis. The default of 0 components gives fewer columns than features when there are fewer rows than features (C80_default_components_fails), and Transform does not centre (C80_transform_uncentred)."},
{"property": "C81", "status": "proved", "theorems": ["Golearn.C81_manhattan", "Golearn.C81_chebyshev", "Golearn.C81_euclidean", "Golearn.C81_manhattan_axis", "Golearn.C81_euclidean_axis"], "note": "Real numbers; includes the bound that makes Euclidean and Manhattan usable in the k-d tree theorems (C81_*_axis)."},
{"property": "C82", "status": "proved", "theorems": ["Golearn.C82_cosine_range", "Golearn.C82_cosine_symm", "Golearn.C82_cranberra", "Golearn.C82_rbf"], "note": ""},
{"property": "C83", "status": "partial", "theorems": ["Golearn.C83_inner_product", "Golearn.C83_symm", "Golearn.C83_distance_positive_partial", "Golearn.C83_vanishes_fails", "Golearn.C83_rows_ignored"], "note": "The distance from a vector to itself is always 1, so the vanishing claim is refuted (C83_vanishes_fails); only the first column of the arguments counts (C83_rows_ignored)."},
{"property": "C84", "status": "proved", "theorems": ["Golearn.C84_predictions", "Golearn.C84_no_labels"], "note": ""},
{"property": "C85", "status": "partial", "theorems": ["Golearn.C85_index", "Golearn.C85_lower_end", "Golearn.C85_refuted", "Golearn.C85_partial", "Golearn.C85_training", "Golearn.C85_grid", "Golearn.C85_labels"], "note": "A number equal to the lower end of an interval after the first is put into the interval before (C85_refuted, C85_training); C85_partial covers all other numbers."},
{"property": "C86", "status": "partial", "theorems": ["Golearn.C86_train", "Golearn.C86_partial", "Golearn.C86_refuted"], "note": "MapOverRows on the sorted view delivers the rows of the source, so numbers are paired with classes of other rows (C86_refuted); C86_partial covers data that are already in order."},
{"property": "C87", "status": "partial", "theorems": ["Golearn.C87_exact", "Golearn.C87_refuted", "Golearn.C87_groups_partial", "Golearn.C87_no_border_partial", "Golearn.C87_two_partial"], "note": "C87_exact describes the returned clusters for all data. The claim fails (C87_refuted: a core point is left out) and holds if no point that is reached is lost, in particular for MinCount at most two."},
{"property": "C88", "status": "partial", "theorems": ["Golearn.C88_first_means", "Golearn.C88_step", "Golearn.C88_result", "Golearn.C88_same_rows", "Golearn.C88_refuted", "Golearn.C88_fit", "Golearn.C88_equal_rows", "Golearn.C88_partial"], "note": "gonum's functions are parameters; mat.NewDense is taken to panic for zero rows (as documented for the pinned version). C88_fit characterises Fit on tables exactly: when it is an error, which models it can return, and when it panics. Fit panics on equal rows with two or more components (C88_same_rows); with one component it succeeds but the model cannot predict (C88_equal_rows)."},
{"property": "C89", "status": "partial", "theorems": ["Golearn.C89_cells_partial", "Golearn.C89_iteration", "Golearn.C89_refuted"], "note": "Cells of the training data are those of the rows drawn. Refuted for iteration: MapOverRows on the sample visits the original rows, so models that iterate are all trained on the same rows."},
{"property": "C90", "status": "partial", "theorems": ["Golearn.C90_never_returns", "Golearn.C90_panics", "Golearn.C90_success_partial", "Golearn.C90_refuted"], "note": "Refuted: the error is dropped and the nil grid makes the collecting goroutine panic under every schedule; proved when all models succeed."},
{"property": "C91", "status": "partial", "theorems": ["Golearn.C91_same_order_partial", "Golearn.C91_label", "Golearn.C91_unfiltered", "Golearn.C91_refuted"], "note": "Refuted: class numbers are stored without translation, so data that lists the same values in another order gets wrong names; also the filters do not apply to other attribute objects (C91_unfiltered). Proved when the order is the same."},
{"property": "C92", "status": "proved", "theorems": ["Golearn.C92_activate", "Golearn.C92_unique", "Golearn.C92_settled", "Golearn.C92_histories", "Golearn.C92_needs_levels"], "note": "Exact arithmetic over any ordered field; matrices of the library as functions."},
{"property": "C93", "status": "proved", "theorems": ["Golearn.C93_error", "Golearn.C93_gradient", "Golearn.C93_weight", "Golearn.C93_bias", "Golearn.C93_step", "Golearn.C93_trainable", "Golearn.C93_descends", "Golearn.C93_functions", "Golearn.C93_softplus"], "note": "Over the real numbers. SoftplusRectifier is shown not to meet the condition. Trainable holds after the first training step on any network set up from lower to higher levels (C93_trainable)."},
{"property": "C94", "status": "partial", "theorems": ["Golearn.C94_svc", "Golearn.C94_logistic", "Golearn.C94_no_weights", "Golearn.C94_class"], "note": "Numerical solvers behind train_one are a parameter. Predict sees the positive part of a row (see C78) and takes the columns of the data to predict in their own order, not those of the training data; both are in the theorem's statement, which is why the status is partial."},
{"property": "C95", "status": "partial", "theorems": ["Golearn.C95_given", "Golearn.C95_empty", "Golearn.C95_inverse", "Golearn.C95_automatic_partial", "Golearn.C95_automatic_fails"], "note": "Automatic weighting has no effect: C95_automatic fails (C95_automatic_fails), because GetClassDistributionByBinaryFloatValue stops after the first row (see C24); C95_automatic_partial: both weights are always 1."},
{"property": "C96", "status": "partial", "theorems": ["Golearn.C96_iterations_partial", "Golearn.C96_single_row", "Golearn.C96_not_squared"], "note": "Proved when training ends (C96_iterations_partial). The error used is not the mean squared error: errors of opposite sign cancel, and the sum is divided by the number of the last row. The claim is refuted by C96_not_squared; with a single row training never ends early (C96_single_row)."},
{"property": "C97", "status": "proved", "theorems": ["Golearn.C97_proba", "Golearn.C97_many_rows_panics"], "note": ""},
{"property": "C98", "status": "partial", "theorems": ["Golearn.C98_tree_file_partial", "Golearn.C98_content_partial", "Golearn.C98_tree_prefix_partial", "Golearn.C98_trained_partial", "Golearn.C98_infinite_threshold", "Golearn.C98_filtered_grid_fails"], "note": "Proved for finite thresholds, attributes that survive being written, and data that is not filtered lazily or whose filters convert the attributes of the tree (C98_content_partial). A tree with an infinite threshold is not saved (error). For lazily filtered data that leaves attributes alone the full claim is refuted: the loaded tree does not find them by address and panics."},
{"property": "C99", "status": "partial", "theorems": ["Golearn.C99_bagging_partial", "Golearn.C99_bagging_file_partial", "Golearn.C99_forest_partial", "Golearn.C99_forest_size", "Golearn.C99_fitted", "Golearn.C99_whole_forest_fails"], "note": "Proved when the receiver has as many classifiers as the file, for grids that are not filtered lazily and for trees with finite thresholds. Refuted in general (C99_whole_forest_fails): the number of trees in the file is ignored, so that loading into a smaller forest silently keeps only the first trees, and loading into a larger one is an error."},
{"property": "C100", "status": "partial", "theorems": ["Golearn.C100_restores_partial", "Golearn.C100_file_partial", "Golearn.C100_predicts_same", "Golearn.C100_roundtrip_partial", "Golearn.C100_fitted", "Golearn.C100_unfiltered", "Golearn.C100_converted", "Golearn.C100_filtered_fails"], "note": "Proved for grids that are not filtered lazily and for lazily filtered grids that convert the features used. Refuted for lazily filtered grids that leave a feature unconverted (C100_filtered_fails): the loaded classifier has a new address for the feature, the grid compares addresses, and prediction panics. Numbers are exact; the probabilities are assumed to be finite float64 numbers."},
{"property": "C101", "status": "partial", "theorems": ["Golearn.C101_file_partial", "Golearn.C101_reordered", "Golearn.C101_in_order", "Golearn.C101_predicts_same_partial", "Golearn.C101_roundtrip_partial", "Golearn.C101_dense_partial", "Golearn.C101_optimised_fails"], "note": "Proved unless the optimised path may be taken (allowed, linear, euclidean): every prediction of the loaded classifier is a prediction of the saved one with corresponding choices, and with the same choices when the training data is dense. Refuted otherwise (C101_optimised_fails): the file may reorder the features, so that the optimised path, which ignores the weights, is no longer taken. Numbers are exact."},
{"property": "C102", "status": "partial", "theorems": ["Golearn.C102_nested_partial", "Golearn.C102_bagged_bayes_partial", "Golearn.C102_closing_never_saved", "Golearn.C102_bagged_knn_fails", "Golearn.C102_knn_prefix_fails", "Golearn.C102_together_fails"], "note": "Proved for members that leave the file open, with naive Bayes classifiers and nested bagged models as instances. Refuted for nearest neighbours classifiers, for all of them: their SaveWithPrefix closes the shared file, so that saving any nonempty bagged model of them is an error (C102_bagged_knn_fails), and what is saved under a prefix can never be loaded from it (C102_knn_prefix_fails)."},
{"property": "C103", "status": "partial", "theorems": ["Golearn.C103_svc_file", "Golearn.C103_svc_partial", "Golearn.C103_ova_partial", "Golearn.C103_multi_partial", "Golearn.C103_fitted", "Golearn.C103_trained", "Golearn.C103_predicts_same_partial", "Golearn.C103_untrained", "Golearn.C103_bagged", "Golearn.C103_rounding_refuted", "Golearn.C103_grown"], "note": "Proved for what is restored (C103_svc_file, C103_ova_partial, C103_multi_partial), for trained models meeting the requirements (C103_trained), and for equal predictions if 16 digits tell the weights exactly (C103_svc_partial, C103_predicts_same_partial). Refuted in general: %.16g does not tell float64 numbers apart, and a row is decided differently after loading (C103_rounding_refuted). If the class attribute got another value after the training, the model can be saved and loaded, and every prediction of the loaded model panics (C103_grown). Bagged models of such models can never be saved (C103_bagged); saving an untrained one panics (C103_untrained). Missing: data to predict on whose class attribute is neither the one of training nor one not clashing with it."},
{"property": "C104", "status": "partial", "theorems": ["Golearn.C104_reads_partial", "Golearn.C104_bad_field", "Golearn.C104_long_record", "Golearn.C104_rows", "Golearn.C104_long_line", "Golearn.C104_fills", "Golearn.C104_at_panics", "Golearn.C104_marker_panics", "Golearn.C104_refuted", "Golearn.C104_long_record_loses", "Golearn.C104_comment_loses"], "note": "Proved: a file of fitting records is read in full (C104_reads_partial), with a row for each data line whatever the file (C104_rows), and a field that says nothing in its column is an error (C104_bad_field). Reading into a table that is there already, with attributes of any kind, fills the cells that have a field and no others (C104_fills). Refuted in general (C104_refuted): a record with too many fields ends the reading without an error and leaves the remaining rows zero (C104_long_record, C104_long_record_loses); a line of 65536 bytes or more ends the file without an error (C104_long_line); a value that starts with @ in the first column, or a space after the marker, makes the parser panic (C104_at_panics, C104_marker_panics); a value that starts with % drops its row (C104_comment_loses); a short record leaves zeros. Missing: two attributes of one name and an order-changing sort of the specifications."},
{"property": "C105", "status": "partial", "theorems": ["Golearn.C105_space", "Golearn.C105_writes", "Golearn.C105_round_trip_partial", "Golearn.C105_codes", "Golearn.C105_floats", "Golearn.C105_space_in_name", "Golearn.C105_comma_in_value", "Golearn.C105_space_in_value", "Golearn.C105_no_values", "Golearn.C105_two_classes", "Golearn.C105_refuted"], "note": "Proved for tables whose names, values and texts are plain words (C105_round_trip_partial); then categorical cells hold the same bytes (C105_codes), and float cells too if the text of each number is read as that number (C105_floats). Binary columns come back as float columns. Refuted in general (C105_refuted): a name or a value with a space makes a file that cannot be read (C105_space_in_name, C105_space_in_value), a value with a comma comes back as two values without an error (C105_comma_in_value), an attribute without values gets the empty one (C105_no_values), and only the last of several class attributes comes back as a class (C105_two_classes). Missing: which tables outside the plain ones survive."},
{"property": "C106", "status": "partial", "theorems": ["Golearn.C106_at_most", "Golearn.C106_estimate_partial", "Golearn.C106_first_six", "Golearn.C106_refuted", "Golearn.C106_seventh_line"], "note": "Proved: the estimate never exceeds the digits that follow some dot (C106_at_most), and it is the largest number of decimals if the first six data lines have only numbers with a dot and texts without digits (C106_estimate_partial). Refuted in general (C106_refuted): the unescaped dot of the expression takes the comma after a whole number for a decimal point, so that 1,2.5 has no decimals; and only the first six lines count (C106_first_six, C106_seventh_line). Missing: numbers in other notations."},
{"property": "C107", "status": "partial", "theorems": ["Golearn.C107_records", "Golearn.C107_numbers", "Golearn.C107_writes", "Golearn.C107_round_trip_partial", "Golearn.C107_texts", "Golearn.C107_floats", "Golearn.C107_number_category", "Golearn.C107_number_category_fails", "Golearn.C107_empty_rows", "Golearn.C107_empty_text", "Golearn.C107_carriage_return", "Golearn.C107_filtered_loses", "Golearn.C107_refuted"], "note": "Proved: records of any texts survive (C107_records), except for a carriage return before a newline and records of one empty field; a column is numeric exactly if its first text is a number (C107_numbers); what is written (C107_writes); and a table comes back with its names, rows and texts (C107_round_trip_partial, C107_texts, C107_floats). Refuted in general (C107_refuted): a categorical column that starts with a number becomes a float column or makes the file unreadable (C107_number_category, C107_number_category_fails); rows with an empty text are lost or changed (C107_empty_rows, C107_empty_text); carriage returns are lost (C107_carriage_return); and filtered instances whose filter makes more columns lose the last ones, even the class, since Size is that of the source (C107_filtered_loses). Missing: these cases, and that values are numbered in the order in which they occur in the file."},
{"property": "C108", "status": "partial", "theorems": ["Golearn.C108_template_partial", "Golearn.C108_codes", "Golearn.C108_panics", "Golearn.C108_unknown_column", "Golearn.C108_no_header", "Golearn.C108_witness", "Golearn.C108_two_categories", "Golearn.C108_refuted"], "note": "Proved when attributes in one group of the template are compatible (C108_template_partial, C108_codes). Refuted in general (C108_refuted): two categorical columns of the template with different values are kept in one group, and copying it then panics, for every file (C108_panics, C108_two_categories). A file with a column the template lacks is an error (C108_unknown_column), and so is a file without header for a template with named columns (C108_no_header). New values in the file are added to the attribute that the template shares (C108_witness)."},
{"property": "C109", "status": "partial", "theorems": ["Golearn.C109_groups_partial", "Golearn.C109_extra_row", "Golearn.C109_auto_name_fails", "Golearn.C109_refuted"], "note": "Proved when no group has a name that AddAttribute uses for its own groups and columns in one group are compatible (C109_groups_partial). Refuted in general (C109_refuted): for a file with header the result has a row of zeros too many, because the header is counted as a line (C109_extra_row). With a group called FLOAT0 for a binary column, the columns of numbers are put into that group and their numbers are lost (C109_auto_name_fails)."},
{"property": "C110", "status": "proved", "theorems": ["Golearn.C110_rows", "Golearn.C110_not_numeric", "Golearn.C110_unknown", "Golearn.C110_none", "Golearn.C110_witness"], "note": "The comparison in the sort of ResolveAttributes is always false, so the sort is an arbitrary permutation in the model; C110_rows gives the order of attrs if it leaves lists of that length as they are. Without attributes the conversion of a row panics (C110_none)."},
{"property": "C111", "status": "proved", "theorems": ["Golearn.C111_columns", "Golearn.C111_lookup", "Golearn.C111_cells", "Golearn.C111_iter", "Golearn.C111_class", "Golearn.C111_unchecked", "Golearn.C111_witness"], "note": "The numbers of rows and columns are not compared with the matrix: a row that the matrix lacks is counted, and reading it panics (C111_unchecked)."},
{"property": "C112", "status": "partial", "theorems": ["Golearn.C112_frame_partial", "Golearn.C112_otherwise_panics", "Golearn.C112_missing_panics", "Golearn.C112_float_kept", "Golearn.C112_refuted", "Golearn.C112_witness"], "note": "Proved with numbers as their texts read (C112_frame_partial). Refuted for the numbers themselves: floats are printed with six decimals, so one ten-millionth becomes zero (C112_refuted); a float that survives its text is kept (C112_float_kept). A frame without rows, a missing value in the first row, or a missing value in a numeric column panics (C112_otherwise_panics, C112_missing_panics); a missing string is a category of its own (C112_witness)."},
{"property": "C113", "status": "partial", "theorems": ["Golearn.C113_refused_partial", "Golearn.C113_panics", "Golearn.C113_trees", "Golearn.C113_witness", "Golearn.C113_refuted"], "note": "No file of another kind is loaded, and the refusal is an error (C113_refused_partial) with these exceptions: loading the file of a naive Bayes classifier, a random tree or a random forest as k nearest neighbours panics, because these files are labelled KNN (C113_panics, C113_refuted); naive Bayes and one-vs-all models share the first entry they read, and for them it is only shown that the load does not succeed. The two tree classifiers load each other's files alike (C113_trees). C113_witness runs all 81 combinations."},
{"property": "C114", "status": "partial", "theorems": ["Golearn.C114_dense_partial", "Golearn.C114_view_partial", "Golearn.C114_filtered_partial", "Golearn.C114_row_dense_partial", "Golearn.C114_row_partial", "Golearn.C114_mat_partial", "Golearn.C114_witness", "Golearn.C114_refuted", "Golearn.C114_no_category"], "note": "C114_dense_partial, C114_view_partial, C114_filtered_partial and C114_mat_partial give the whole text, C114_row_dense_partial and C114_row_partial the row strings. Texts of the cells shown must exist: C114_no_category shows that String panics for a categorical attribute without categories. C114_refuted: a class attribute that was given to a view through an equal attribute has no star, the first row of a view stands on the line of the heading, an empty group leaves two spaces, the row string of a matrix is only its number, and the stars of a matrix are at the wrong columns when the sort changes the order, so C114_mat_partial assumes that it does not."},
{"property": "C115", "status": "partial", "theorems": ["Golearn.C115_matrix_partial", "Golearn.C115_rows_shown", "Golearn.C115_summary_partial", "Golearn.C115_tables_partial", "Golearn.C115_witness", "Golearn.C115_refuted"], "note": "C115_matrix_partial and C115_summary_partial give the printed texts from the pairs of labels for every order, C115_tables_partial from the two tables. C115_rows_shown: the table has all rows exactly when every predicted label is also the label of a row. C115_refuted: a label that is only predicted has no column and no line, so rows are missing. The alignment by the tab writer and the formatting of numbers are parameters."},
{"property": "C116", "status": "partial", "theorems": ["Golearn.C116_pruned_partial", "Golearn.C116_whole", "Golearn.C116_no_validation_rows", "Golearn.C116_witness", "Golearn.C116_reorders", "Golearn.C116_empty_parts", "Golearn.C116_refuted"], "note": "C116_pruned_partial is for dense tables when both parts have a row, and for the comparison with the tree before pruning when it has a branch for the values of the validation rows and no number prints as 0 or 1 (see C49). C116_whole is without pruning, for any instances. C116_no_validation_rows: with an empty validation part every split is given up. C116_reorders: the caller's rows are shuffled. C116_empty_parts: an empty training part makes Fit panic. C116_refuted: the full claim fails. Splitting a view does not partition its rows (C22)."},
{"property": "C117", "status": "partial", "theorems": ["Golearn.C117_text_shows", "Golearn.C117_prints", "Golearn.C117_same_text_partial", "Golearn.C117_classifier_partial", "Golearn.C117_witness", "Golearn.C117_refuted"], "note": "C117_text_shows: the text determines the shape, the features, the printed thresholds and the printed predictions. C117_same_text_partial and C117_classifier_partial: the same text gives the same predictions if the format tells the thresholds of the two trees apart. C117_refuted: with three decimals it does not, so trees with the same text can predict differently. C117_prints: every fitted tree can be printed. Number formats are parameters that give no line break."},
{"property": "C118", "status": "partial", "theorems": ["Golearn.C118_text_shows_partial", "Golearn.C118_order", "Golearn.C118_same_text_partial", "Golearn.C118_witness", "Golearn.C118_refuted"], "note": "C118_text_shows_partial: trees whose names have no line break and whose branches do not begin with a tab have the same text exactly when they are alike. C118_order needs no condition on names. C118_same_text_partial: the same text gives the same predictions for rows with known values, if attributes have different names without <, and the format tells the thresholds apart. C118_refuted: values with line breaks give two trees with the same text and different predictions."},
{"property": "C119", "status": "proved", "theorems": ["Golearn.C119_tables_separate", "Golearn.C119_calls_on_values", "Golearn.C119_get_on_values"], "note": "For all histories: C119_tables_separate (only calls on a table and writes into its own slices change it and the grids above it), C119_calls_on_values and C119_get_on_values (each call succeeds, fails and acts as on plain values whatever is shared). Not modelled: slices of attributes and specifications (not bytes), data races between goroutines, filters whose Transform returns its argument (treated as a new array)."},
{"property": "C120", "status": "partial", "theorems": ["Golearn.C120_live_partial", "Golearn.C120_write_through", "Golearn.C120_extend_detaches", "Golearn.C120_bits_snapshot", "Golearn.C120_filtered_snapshot", "Golearn.C120_not_a_snapshot"], "note": "False as stated: C120_not_a_snapshot (a float cell that was read changes when the cell is set, base/fixed.go:81-84). Proved for all histories: C120_live_partial (live window, also through views), C120_write_through (writing into it is Set), C120_extend_detaches (Extend cuts it off), C120_bits_snapshot and C120_filtered_snapshot (these are snapshots)."},
{"property": "C121", "status": "partial", "theorems": ["Golearn.C121_grows", "Golearn.C121_identity", "Golearn.C121_one_feature", "Golearn.C121_forest_partial", "Golearn.C121_refuted"], "note": "False as stated: C121_refuted (the root sends row q of the sample to the branch of row q of the data, because iteration over a sample ignores the draws). Proved: C121_grows (Fit succeeds; exactly what each tree is), C121_identity (it fits if the draws are the identity), C121_one_feature (with one feature per tree every tree is a leaf), C121_forest_partial (prediction under all schedules: no panic, can be completed, majority of the trees, answers are labels drawn)."},
{"property": "C122", "status": "partial", "theorems": ["Golearn.C122_constructor", "Golearn.C122_number", "Golearn.C122_predicts_partial", "Golearn.C122_unlisted", "Golearn.C122_no_rows", "Golearn.C122_refuted"], "note": "Partial: the full claim (MultiSvcFaithful) is refuted (C122_refuted), because negative numbers of the row to predict are dropped. Proved: what each model is trained on, that fitting and predicting succeed, and that a row gets the first class whose model claims the row with its negative numbers replaced by 0; for rows without negative numbers this is the full claim. Data read separately gets the value with the same number in its own list. Also: a class without a configured weight is trained with the weight 0, and a model fitted on no rows crashes when predicting."},
{"property": "C123", "status": "proved", "theorems": ["Golearn.C123_cross_validation", "Golearn.C123_split"], "note": "Proved for the table as a whole (C123_cross_validation, C123_split), including the dispatch on the name of the distance and the fact that views never take the optimised path. Distances are exact, as in C44."},
{"property": "C124", "status": "proved", "theorems": ["Golearn.C124_cross_validation", "Golearn.C124_panics", "Golearn.C124_split"], "note": "Proved (C124_cross_validation, C124_panics, C124_split). Numbers are exact, the logarithm is any function with the laws of one, and -math.MaxFloat64 is assumed to be below the smallest possible score, as in C69."},
{"property": "C125", "status": "proved", "theorems": ["Golearn.C125_id3", "Golearn.C125_random_tree", "Golearn.C125_split"], "note": "Proved (C125_id3, C125_random_tree, C125_split). That the rule generators of the code pick an attribute is C50. Pruning is not covered: Fit then splits the view it is given by LazyShuffle, which is not a permutation (C13)."},
{"property": "C126", "status": "partial", "theorems": ["Golearn.C126_attribute_partial", "Golearn.C126_attribute_panics", "Golearn.C126_tree_partial", "Golearn.C126_bag_partial", "Golearn.C126_selected", "Golearn.C126_attribute_list", "Golearn.C126_naive_bayes", "Golearn.C126_knn_panics", "Golearn.C126_threshold_panics", "Golearn.C126_class_values", "Golearn.C126_refuted"], "note": "The full claim is false (C126_refuted): a threshold or class values of null crash the program, and so do missing or wrong parameters of a nearest neighbours file (C126_knn_panics). Proved: C126_tree_partial, C126_attribute_partial, C126_attribute_panics, C126_attribute_list, C126_threshold_panics, C126_class_values, C126_naive_bayes, and for ensembles C126_bag_partial and C126_selected. Damage below the level of entries (gzip, tar) is not modelled, nor JSON keys that differ in case only, nor the text of a damaged linear model (load_model of liblinear)."},
{"property": "C127", "status": "partial", "theorems": ["Golearn.C127_knn", "Golearn.C127_knn_search", "Golearn.C127_perceptron", "Golearn.C127_perceptron_predict", "Golearn.C127_cart", "Golearn.C127_criterion", "Golearn.C127_linear_models", "Golearn.C127_linear_models_predict", "Golearn.C127_distributions", "Golearn.C127_one_vs_all", "Golearn.C127_untrained_net", "Golearn.C127_untrained_mixture", "Golearn.C127_svc_settings", "Golearn.C127_naive_bayes_cell", "Golearn.C127_fast_neighbours", "Golearn.C127_untrained_cart", "Golearn.C127_numbers_only", "Golearn.C127_no_attributes", "Golearn.C127_refuted", "Golearn.C127_witness"], "note": "The full claim (always an error) is false: the averaged perceptron returns nil without an error for other attributes (C127_refuted), and several estimators panic, as stated in the theorems. The errors of the other estimators are in C35_mismatch, C42_errors, C68_rejects, C77_class_count, C79_undocumented and C88_fit."},
{"property": "C128", "status": "proved", "theorems": ["Golearn.C128_rounding", "Golearn.C128_counts", "Golearn.C128_correctly_rounded", "Golearn.C128_accuracy", "Golearn.C128_precision_recall", "Golearn.C128_f1", "Golearn.C128_macro", "Golearn.C128_micro", "Golearn.C128_cross_validated", "Golearn.C128_variance"], "note": "Round to nearest even as on amd64; no overflow can occur in these functions; NaN is none."},
{"property": "C129", "status": "partial", "theorems": ["Golearn.C129_knn", "Golearn.C129_error_partial", "Golearn.C129_whole_partial", "Golearn.C129_two_partial", "Golearn.C129_refuted", "Golearn.C129_losses", "Golearn.C129_losses_error", "Golearn.C129_constant_refuted"], "note": "The full claims fail (C129_refuted, C129_constant_refuted). Proved: the prediction is the computed average of k nearest rows, error bounds for all values, the full claim for whole numbers and for one or two values, losses never negative. No overflow in the model."},
{"property": "C130", "status": "partial", "theorems": ["Golearn.C130_midpoint", "Golearn.C130_separates_partial", "Golearn.C130_neighbours", "Golearn.C130_refuted", "Golearn.C130_drawn", "Golearn.C130_isolation_partial", "Golearn.C130_isolation_neighbours", "Golearn.C130_isolation_refuted"], "note": "The full claims fail (C130_refuted, C130_isolation_refuted). Proved: thresholds stay in the range for all values, values further apart than 2^-50 are separated, isolation splits whose threshold is not rounded to an end have rows on both sides."},
{"property": "C131", "status": "partial", "theorems": ["Golearn.C131_manhattan", "Golearn.C131_chebyshev", "Golearn.C131_euclidean_partial", "Golearn.C131_euclidean_refuted", "Golearn.C131_manhattan_error", "Golearn.C131_triangle_partial", "Golearn.C131_triangle_refuted"], "note": "The full claims fail (C131_euclidean_refuted, C131_triangle_refuted). Proved in full for Manhattan and Chebyshev except the triangle inequality, which holds up to the rounding error (C131_triangle_partial). Infinities and NaN are not modelled."},
{"property": "C132", "status": "partial", "theorems": ["Golearn.C132_monotone", "Golearn.C132_partial", "Golearn.C132_bad_bin", "Golearn.C132_refuted", "Golearn.C132_width_partial", "Golearn.C132_edges"], "note": "The full claim fails (C132_refuted). Proved for all widths of at least 2^-1022; monotone, not negative and the lowest bin for all ranges. Infinities and NaN are not modelled."},
{"property": "C133", "status": "proved", "theorems": ["Golearn.C133_gini", "Golearn.C133_entropy", "Golearn.C133_gini_error", "Golearn.C133_splits"], "note": "math.Log2 is a parameter with a contract. The regression counterpart fails: C129_constant_refuted."},
{"property": "C134", "status": "proved", "theorems": ["Golearn.C134_add", "Golearn.C134_page", "Golearn.C134_few", "Golearn.C134_named_refuted"], "note": "For tables built with AddAttribute only; C134_named_refuted shows what a hand-made group of the same name does."},
{"property": "C135", "status": "proved", "theorems": ["Golearn.C135_forest", "Golearn.C135_split", "Golearn.C135_features"], "note": "Numbers are exact (as in C50 and C121). What a tree is grown from is stated with `FitsSample`, because the root sends drawn rows to the branches of other rows (C121)."},
{"property": "C136", "status": "partial", "theorems": ["Golearn.C136_patterns", "Golearn.C136_numbers", "Golearn.C136_comparisons", "Golearn.C136_threshold", "Golearn.C136_trees_fit", "Golearn.C136_truth", "Golearn.C136_sort_partial", "Golearn.C136_sort_whole", "Golearn.C136_sort_near_partial", "Golearn.C136_sort_full_fails"], "note": "False as stated for sorting: -1 and 1 come out in the opposite order (`C136_sort_full_fails`), because negative patterns are compared as larger. Proved for sorting: columns of one sign whose lowest byte is below 128, whole numbers below 2^45, and for columns that are not negative, misplaced numbers differ by less than a relative 2^-44. Patterns, comparisons, thresholds and truth values are proved in full."},
{"property": "C137", "status": "proved", "theorems": ["Golearn.C137_loaded", "Golearn.C137_id3", "Golearn.C137_fits", "Golearn.C137_knn", "Golearn.C137_witness"], "note": "The file is as described in `DataFile`, and its numbers are finite. Sorting the columns with the comparison that is always false keeps their order (see C34 for what happens otherwise)."},
{"property": "C138", "status": "proved", "theorems": ["Golearn.C138_chooses", "Golearn.C138_random", "Golearn.C138_midpoint", "Golearn.C138_fits", "Golearn.C138_nan_never_ends", "Golearn.C138_exact", "Golearn.C138_witness"], "note": "Numbers are finite: with NaN the scan never ends (`C138_nan_never_ends`). A random tree may ask for more attributes than are left (C52). Which rule is best after rounding is not claimed."},
{"property": "C139", "status": "partial", "theorems": ["Golearn.C139_gives_up", "Golearn.C139_grown_partial", "Golearn.C139_training_rows_partial", "Golearn.C139_last_attribute", "Golearn.C139_witness", "Golearn.C139_refuted"], "note": "The code makes a leaf as soon as one attribute is left besides the class, so the last attribute is never tested and a table with one attribute always gives a single leaf (`C139_last_attribute`, `C139_refuted`). Proved with that excuse allowed. Entropies and midpoints are exact here; see C138 for rounding."},
{"property": "C140", "status": "proved", "theorems": ["Golearn.C140_tree", "Golearn.C140_knn", "Golearn.C140_naive_bayes", "Golearn.C140_svc", "Golearn.C140_bagging", "Golearn.C140_forest", "Golearn.C140_one_vs_all", "Golearn.C140_multi", "Golearn.C140_table", "Golearn.C140_table_cells", "Golearn.C140_appends", "Golearn.C140_old_model_lost", "Golearn.C140_tree_lost", "Golearn.C140_knn_lost", "Golearn.C140_naive_bayes_lost", "Golearn.C140_svc_lost", "Golearn.C140_forest_lost", "Golearn.C140_table_lost", "Golearn.C140_tree_crash"], "note": "An incomplete entry counts as missing, because reading it is an error of the tar and gzip readers of the standard library; this is an assumption. For one-vs-all models and MultiLinearSVC it is not proved that a file lacking an entry is always an error, only that it never loads as another model."},
{"property": "C141", "status": "partial", "theorems": ["Golearn.C141_cut_short", "Golearn.C141_svc_cut_short", "Golearn.C141_returned", "Golearn.C141_good_disk", "Golearn.C141_dropped_loses", "Golearn.C141_full_false", "Golearn.C141_tree_loses", "Golearn.C141_forest_loses", "Golearn.C141_naive_bayes_loses", "Golearn.C141_svc_loses", "Golearn.C141_knn_safe"], "note": "Partial: refuted for the models that drop the error of Close or do not call it, as the statement says, see C141_full_false; proved for the others. That gzip.Writer and tar.Writer keep an error and report it on the next call is an assumption."},
{"property": "C142", "status": "partial", "theorems": ["Golearn.C142_no_file", "Golearn.C142_csv_exact", "Golearn.C142_csv_round_trip_partial", "Golearn.C142_csv_stale", "Golearn.C142_csv_silent", "Golearn.C142_csv_full_false", "Golearn.C142_arff_pieces", "Golearn.C142_arff_exact", "Golearn.C142_arff_row_lost", "Golearn.C142_arff_full_false", "Golearn.C142_table"], "note": "Partial: refuted for CSV and ARFF files, as the statement says, see C142_csv_full_false and C142_arff_full_false. That bytes after the end of the archive in a binary file are not read, and what is in a binary file after an error, is not modelled."},
{"property": "C143", "status": "partial", "theorems": ["Golearn.C143_not_a_model", "Golearn.C143_naive_bayes", "Golearn.C143_tree", "Golearn.C143_tree_forgets", "Golearn.C143_tree_wrong_file", "Golearn.C143_tree_not_kept", "Golearn.C143_knn", "Golearn.C143_knn_lost", "Golearn.C143_knn_wrong_file", "Golearn.C143_knn_other_models", "Golearn.C143_knn_not_kept", "Golearn.C143_svc", "Golearn.C143_svc_mixed", "Golearn.C143_svc_lost", "Golearn.C143_svc_not_kept", "Golearn.C143_bag_mixed", "Golearn.C143_bag", "Golearn.C143_node_new", "Golearn.C143_node_mixed", "Golearn.C143_node_counts", "Golearn.C143_node_answer", "Golearn.C143_weights_mixed"], "note": "Partial: refuted except for naive Bayes classifiers, as the statement says. What json.Unmarshal leaves in a tree or in parameters when it fails half way is an arbitrary value. One-vs-all models in place are not modelled."},
{"property": "C144", "status": "partial", "theorems": ["Golearn.C144_knn", "Golearn.C144_trees", "Golearn.C144_naive_bayes", "Golearn.C144_naive_bayes_stale", "Golearn.C144_perceptron", "Golearn.C144_perceptron_count", "Golearn.C144_binning", "Golearn.C144_chimerge", "Golearn.C144_binary_filter", "Golearn.C144_float_filter", "Golearn.C144_net", "Golearn.C144_perceptron_not"], "note": "Partial: refuted for the perceptron (C144_perceptron_not), networks (C144_net) and conversion filters. Forests, one-vs-all models, support vector machines, regressions, CART, isolation forests, EM and PCA build a new model in Fit, which their models here already show: they take no old state."},
{"property": "C145", "status": "partial", "theorems": ["Golearn.C145_split_values", "Golearn.C145_views_change_nothing", "Golearn.C145_kept_until_used", "Golearn.C145_stay_a_partition", "Golearn.C145_split_again", "Golearn.C145_not_kept", "Golearn.C145_test_becomes_training", "Golearn.C145_knn_until_used", "Golearn.C145_knn_changes"], "note": "Partial: PartsKept is refuted; what remains true is proved for all histories."},
{"property": "C146", "status": "partial", "theorems": ["Golearn.C146_shows", "Golearn.C146_texts_partial", "Golearn.C146_same_names", "Golearn.C146_predict_partial", "Golearn.C146_predict_known", "Golearn.C146_predict_changes", "Golearn.C146_no_longer_equal", "Golearn.C146_data_partial", "Golearn.C146_tree", "Golearn.C146_naive_bayes", "Golearn.C146_knn"], "note": "Partial: TextsDoNotInterfere and PredictingLeavesData are refuted; the part that is true is proved for all plain grids. Filtered grids are not covered, nor are the goroutines of an ensemble."},
{"property": "C147", "status": "partial", "theorems": ["Golearn.C147_known_partial", "Golearn.C147_all_known", "Golearn.C147_one_at_a_time", "Golearn.C147_lost", "Golearn.C147_lost_value", "Golearn.C147_out_of_range", "Golearn.C147_overwritten"], "note": "Partial: AnyScheduleDecodes is refuted; known labels are proved safe in every schedule and new ones when calls do not overlap. Torn reads of slice headers and weak memory are not modelled."},
{"property": "C148", "status": "partial", "theorems": ["Golearn.C148_knn_partial", "Golearn.C148_knn_weighted_partial", "Golearn.C148_knn_tree_partial", "Golearn.C148_bagging_partial", "Golearn.C148_tree_partial", "Golearn.C148_vote_tie", "Golearn.C148_distance_tie", "Golearn.C148_not_repeated", "Golearn.C148_tree_order", "Golearn.C148_bagging_tie"], "note": "Partial: KnnRepeats is refuted; the theorems give the class under all orders where there is no tie. For naive Bayes see C69_order_independent. That building a tree is repeatable is not claimed."},
{"property": "C149", "status": "partial", "theorems": ["Golearn.C149_in_turn_partial", "Golearn.C149_cells_partial", "Golearn.C149_fixed", "Golearn.C149_rows", "Golearn.C149_ends", "Golearn.C149_lost", "Golearn.C149_extend_lost", "Golearn.C149_torn"], "note": "Partial: AnyScheduleFills is refuted for binary attributes of one row (C149_lost). Reordering of memory accesses is not modelled, a step is one access to one byte, and the unread field maxRow is left out."},
{"property": "C150", "status": "partial", "theorems": ["Golearn.C150_at_once_partial", "Golearn.C150_attributes", "Golearn.C150_no_panic", "Golearn.C150_extended_first", "Golearn.C150_equal"], "note": "Partial: AnyScheduleInSomeOrder is refuted for equal attributes (C150_equal). C150_no_panic: no schedule panics if nobody extends the table, or nobody calls AddAttribute; otherwise the schedule decides (C150_extended_first), and the schedule ends at the panic. AllAttributeGroups, which takes no lock, is not modelled; for Set and Get see C149."},
{"property": "C151", "status": "partial", "theorems": ["Golearn.C151_picks", "Golearn.C151_greedy", "Golearn.C151_same_tree_partial", "Golearn.C151_same_class_partial", "Golearn.C151_training_rows_partial", "Golearn.C151_first_wins", "Golearn.C151_ties", "Golearn.C151_gini", "Golearn.C151_witness", "Golearn.C151_refuted"], "note": "Partial: false for data with ties (`C151_ties`, `C151_refuted`) and, with the Gini generator, for all data (`C151_gini`). Numeric attributes are not covered. `C151_same_class_partial` and `C151_training_rows_partial` are for information gain, for rows with a branch for every value."},
{"property": "C152", "status": "partial", "theorems": ["Golearn.C152_shuffle", "Golearn.C152_sort", "Golearn.C152_tree_partial", "Golearn.C152_naive_bayes", "Golearn.C152_naive_bayes_class_partial", "Golearn.C152_knn_partial", "Golearn.C152_confusion", "Golearn.C152_distance_tie", "Golearn.C152_refuted"], "note": "Partial: false with ties (`C152_refuted`, same environment, three rows in two orders). Proved in full for the numbers of naive Bayes (`C152_naive_bayes`) and for the confusion matrix (`C152_confusion`). Trees with numeric attributes, other models and lazily shuffled views are not covered; the view of LazyShuffle may repeat rows (C13)."},
{"property": "C153", "status": "proved", "theorems": ["Golearn.C153_classifier", "Golearn.C153_regressor", "Golearn.C153_data_set", "Golearn.C153_data_set_regressor", "Golearn.C153_shuffle", "Golearn.C153_witness", "Golearn.C153_label_order"], "note": "Numbers are exact. With float64 the sums of the regressor may be rounded differently in another order; the losses of the classifier are functions of counts."},
{"property": "C154", "status": "partial", "theorems": ["Golearn.C154_classifier", "Golearn.C154_regressor", "Golearn.C154_predicts_partial", "Golearn.C154_regressor_predicts_partial", "Golearn.C154_witness", "Golearn.C154_zero_matters", "Golearn.C154_refuted"], "note": "Partial: false for trees without a split (`C154_refuted`: -10 degrees Celsius, 14 degrees Fahrenheit). The equality of the trees up to thresholds is proved in full (`C154_classifier`, `C154_regressor`). Numbers are exact."},
{"property": "C155", "status": "proved", "theorems": ["Golearn.C155_classifier", "Golearn.C155_regressor", "Golearn.C155_built", "Golearn.C155_built_regressor", "Golearn.C155_witness", "Golearn.C155_uneven"], "note": "Numbers are exact; with float64 the quotients of the classifier are those of multiplied counts, which are rounded alike only if the division rounds exactly the same quotient, as IEEE division does."},
{"property": "C156", "status": "proved", "theorems": ["Golearn.C156_unique", "Golearn.C156_determined", "Golearn.C156_witness"], "note": "Exact arithmetic over an ordered field; the factorisation is a parameter with its contract as a hypothesis, one for each of the two runs. With float64 the two results differ by rounding."},
{"property": "C157", "status": "proved", "theorems": ["Golearn.C157_rewritten", "Golearn.C157_copies", "Golearn.C157_witness"], "note": "Exact arithmetic over an ordered field; the factorisation is a parameter with its contract as a hypothesis. With float64 the two results differ by rounding."},
{"property": "C158", "status": "partial", "theorems": ["Golearn.C158_tree", "Golearn.C158_predicts_partial", "Golearn.C158_witness", "Golearn.C158_no_split", "Golearn.C158_refuted"], "note": "Exact arithmetic. Refuted as stated: a tree without a split (all labels equal, or no column that separates rows) predicts zero in any unit, see C158_refuted. Proved for all trees with a split."},
{"property": "C159", "status": "partial", "theorems": ["Golearn.C159_knn_partial", "Golearn.C159_tree_partial", "Golearn.C159_euclidean", "Golearn.C159_manhattan", "Golearn.C159_witness", "Golearn.C159_one_column", "Golearn.C159_refuted", "Golearn.C159_tree_origin", "Golearn.C159_tree_witness"], "note": "Refuted as stated: with another factor for one column, the nearest row changes, see C159_refuted; nothing in the library normalises columns. Proved for the same factor in all columns and any shifts, for rows with clear neighbours and a clear winner, with the linear search. With the k-d tree proved for a common factor without shifts where the origin is farther than the neighbours; otherwise even a shift of the only column changes a prediction, see C159_tree_origin."},
{"property": "C160", "status": "partial", "theorems": ["Golearn.C160_linear", "Golearn.C160_tree_partial", "Golearn.C160_distances", "Golearn.C160_witness", "Golearn.C160_tree_order", "Golearn.C160_tree_refuted"], "note": "Proved with the linear search, for plain and weighted votes, as equality of the whole predictions for all choices of the run. With the k-d tree proved for columns in the same order; with another order the prediction can change, since the search takes the origin for a row or not, see C160_tree_refuted."},
{"property": "C161", "status": "proved", "theorems": ["Golearn.C161_columns", "Golearn.C161_witness"], "note": "Proved as equality of the results of Predict for all choices of a run. Scores are elements of an ordered field, so that sums do not depend on the order; with float64 sums in another order may differ in the last bits."},
{"property": "C162", "status": "partial", "theorems": ["Golearn.C162_columns_partial", "Golearn.C162_witness", "Golearn.C162_refuted"], "note": "Missing from C162_columns_partial: tables to predict whose columns are not in the order of the training data, for which C162_refuted shows that the claim is false. Numbers are exact, so that sums do not depend on the order of terms."},
{"property": "C163", "status": "proved", "theorems": ["Golearn.C163_columns", "Golearn.C163_witness"], "note": "Numbers are exact. The QR factorisation is that of the library: any that meets its contract."},
{"property": "C164", "status": "partial", "theorems": ["Golearn.C164_cart_partial", "Golearn.C164_isolation_partial", "Golearn.C164_scores_partial", "Golearn.C164_logistic_partial", "Golearn.C164_linear_partial", "Golearn.C164_witness", "Golearn.C164_orders", "Golearn.C164_refuted", "Golearn.C164_ties"], "note": "The claim that columns are found by name is false (C164_refuted, C164_ties). The partial theorems say what holds instead: only places count. Training a linear support vector machine also weights the classes, which is not treated here."},
{"property": "C165", "status": "proved", "theorems": ["Golearn.C165_tree", "Golearn.C165_trained", "Golearn.C165_witness"], "note": "Proved as equality of the results, including panics. The orders of the branches and of the rows are the same for both runs; C148 and C151 say what these orders can change."},
{"property": "C166", "status": "proved", "theorems": ["Golearn.C166_columns", "Golearn.C166_units", "Golearn.C166_distances", "Golearn.C166_witness"], "note": "Proved as equality of the results, including panics. The square of the Euclidean distance and the Manhattan distance meet the conditions (C160_distances, C166_distances). Numbers are those of an ordered field; rounding is not modelled here."},
{"property": "C167", "status": "partial", "theorems": ["Golearn.C167_rows_partial", "Golearn.C167_two_partial", "Golearn.C167_witness", "Golearn.C167_refuted"], "note": "The full claim is refuted (C167_refuted): points at 0, 3, 3, 3, 2 with eps 2 and a minimum of three. Proved without rows at the border of a cluster, and for a minimum count of at most two; there neither run fails."},
{"property": "C168", "status": "proved", "theorems": ["Golearn.C168_predict", "Golearn.C168_fit", "Golearn.C168_witness"], "note": "Proved. The densities are a parameter of the model, as in C76. The class columns of a table are told apart before: the theorem on fitting takes the list of columns that are not class columns."},
{"property": "C169", "status": "proved", "theorems": ["Golearn.C169_tree", "Golearn.C169_regression", "Golearn.C169_tree_witness", "Golearn.C169_regression_witness"], "note": "Proved. The order in which the branches of a node are looked through is the same for both rows; it matters only for values without a branch (C148)."},
{"property": "C170", "status": "partial", "theorems": ["Golearn.C170_rows_partial", "Golearn.C170_rows_weighted_partial", "Golearn.C170_rows_tree_partial", "Golearn.C170_witness", "Golearn.C170_weighted_witness", "Golearn.C170_tree_witness", "Golearn.C170_tie", "Golearn.C170_refuted"], "note": "Proved where the nearest rows are clear and one label has most votes, or most weight. With the k-d tree also only where at least k training rows are nearer than the origin, because a search visits places of the tree that hold no row and can return row 0 with the distance of the origin (C42). The full claim is false: two equal rows of one table with tied votes can get different classes in one run, because the votes are looked through in the order of a map."},
{"property": "C171", "status": "proved", "theorems": ["Golearn.C171_rows", "Golearn.C171_witness"], "note": "Proved. Which of several equally likely classes a row gets is left open: the order of a map decides."},
{"property": "C172", "status": "proved", "theorems": ["Golearn.C172_rows", "Golearn.C172_witness"], "note": "Proved. Which of several classes with equally many votes a row gets is left open: the order of a map decides (C148)."}
]}
