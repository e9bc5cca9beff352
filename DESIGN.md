# DESIGN

Formal model of sjwhitworth/golearn (source in /repo, read as text) in Lean 4.33.0.

## Layout

* `lean/Verif/Model/*`  definitions modelling the Go code; each cites file and lines.
* `lean/Verif/Spec/*`   small specifications, written without the model's helpers.
* `lean/Verif/Proofs/*` helper lemmas.
* `lean/Verif/Props/*`  the property theorems (named `Cnn_...`), each with an `example` showing its hypotheses are met.
* `MANIFEST.json` maps each property to its theorems; `seeded/LOG.jsonl` records mutation experiments.

## Conventions

* `Res` makes Go outcomes explicit: `ok v`, `err` (returned error) or `panic`.
* Maps iterate in an arbitrary order: the order is a parameter (a permutation) or the model is relational.
* Random draws are arbitrary parameters (a list, or a function from the number of the draw). Goroutines are a transition system; theorems quantify over all schedules.
* Integers: `Nat`/`Int` (Go `int` overflow is not modelled) except packed values, which are `BitVec 64`.
* Floats: where only comparisons matter, an arbitrary linear order (no NaN, unless the comment says otherwise); where arithmetic matters, an ordered field or the reals, and in addition, for C128 and later, `float64` arithmetic itself: rationals with every operation rounded to nearest even (`Verif/Model/Float64.lean`). A packed float is a 64-bit pattern; `val : BitVec 64 -> K` is an arbitrary reading of patterns as numbers.
* Loops that need not end carry fuel; theorems say for which fuel the loop has ended, or that no fuel is enough.
* Library functions (gonum, math, encoding/*, archive/tar, strconv, regexp, sort, liblinear's inner solvers) are parameters; what is needed of them is a hypothesis of the theorem.
* Where the code violates a property the full property is stated as a `Prop` and its negation is proved with a concrete witness; a theorem with the suffix `_partial` states what does hold.

## Trusted base

1. Lean's kernel (4.33.0), which accepts every proof. `decide +kernel` is used for closed facts about concrete witnesses; it is evaluated by the kernel. No `native_decide`, `bv_decide`, `sorry`, `admit` or added axiom occurs.
2. The axioms of each theorem, listed below from `#print axioms`. Only Lean's three standard axioms occur.
3. That the definitions in `Model/` say what the cited lines of Go do. Nothing checks this but reading; the mutation log shows that the theorems notice changes of the definitions.
4. The conventions above: exact arithmetic except where a theorem is about rounding (C128 to C133), no overflow of `int`, no memory exhaustion, and the library contracts stated as hypotheses.

### Axioms per theorem

* `Quot.sound`, `propext` only (167): C01_unpack_pack, C01_pack_unpack, C01_pack_injective, C01_pack_value, C01_pack_inline, C01_short_rejected, C01_float_roundtrip, C07_frozen_fails, C08_get_attribute_iff, C09_absent_is_error, C09_frame, C15_sort_order_fails, C15_negative_floats_fail, C17_sample_partial, C20_restricted_views, C24_categorical_partial, C24_categorical_fails, C24_binary_float_partial, C25_instances_equal_fails, C26_check_compatible, C26_strict_only_dense, C26_strict_fails, C27_intersect, C27_difference, C27_partition, C29_stable, C31_short_read_fails, C33_iteration_fails, C34_rows, C34_groups_rows, C34_groups_fail, C34_unstable_sort_fails, C35_mismatch, C40_insert, C43_select, C44_no_neighbours, C46_layout, C50_nan_never_ends, C51_always_one, C53_partition, C58_split, C58_sample, C59_needs_class, C60_columns, C60_collision, C61_positive, C61_refuted, C61_partial, C61_other_columns, C62_add, C62_lowest, C63_runs, C66_distinct, C66_forest, C69_panics, C71_update, C73_needs_numbers, C73_grid_panics, C75_refuted, C76_unfitted, C77_not_enough_rows, C77_class_count, C78_no_rows, C88_result, C89_iteration, C91_unfiltered, C94_no_weights, C94_class, C98_infinite_threshold, C100_predicts_same, C100_converted, C102_closing_never_saved, C103_fitted, C103_untrained, C103_bagged, C107_records, C108_codes, C108_witness, C108_two_categories, C108_refuted, C109_extra_row, C109_auto_name_fails, C109_refuted, C110_not_numeric, C110_unknown, C110_none, C111_columns, C111_unchecked, C111_witness, C114_view_partial, C114_filtered_partial, C114_row_partial, C114_witness, C114_refuted, C114_no_category, C115_matrix_partial, C115_rows_shown, C117_prints, C118_order, C120_not_a_snapshot, C121_identity, C122_unlisted, C126_attribute_partial, C126_tree_partial, C126_naive_bayes, C126_knn_panics, C127_knn, C127_knn_search, C127_criterion, C127_linear_models_predict, C127_distributions, C127_one_vs_all, C127_untrained_mixture, C127_naive_bayes_cell, C127_fast_neighbours, C127_untrained_cart, C127_numbers_only, C127_no_attributes, C134_named_refuted, C140_knn, C140_naive_bayes, C140_svc, C140_one_vs_all, C140_multi, C140_table, C140_tree_lost, C140_svc_lost, C141_dropped_loses, C141_full_false, C141_knn_safe, C142_csv_stale, C142_table, C143_naive_bayes, C143_tree, C143_knn, C143_svc, C143_svc_mixed, C143_svc_lost, C143_node_new, C143_node_mixed, C143_node_counts, C143_weights_mixed, C144_knn, C144_naive_bayes, C144_naive_bayes_stale, C144_binning, C144_chimerge, C145_views_change_nothing, C145_not_kept, C145_test_becomes_training, C146_shows, C146_same_names, C146_predict_changes, C146_no_longer_equal, C146_naive_bayes, C146_knn, C147_one_at_a_time, C147_lost, C147_out_of_range, C148_bagging_tie, C149_ends, C149_lost, C149_extend_lost, C149_torn, C150_no_panic, C159_euclidean, C160_distances.
* `propext` only (19): C06_add_after_extend_rejected, C17_sample_empty, C42_errors, C42_search_witness, C42_zero_panics, C66_all, C126_attribute_list, C126_threshold_panics, C126_refuted, C140_tree, C141_cut_short, C141_svc_cut_short, C141_returned, C141_good_disk, C143_not_a_model, C143_tree_forgets, C147_lost_value, C147_overwritten, C150_extended_first.
* no axioms (7): C79_copy, C100_unfiltered, C106_first_six, C142_no_file, C142_csv_silent, C142_csv_full_false, C142_arff_full_false.
* `propext`, `Classical.choice`, `Quot.sound` (775): all other theorems named in MANIFEST.json, namely C01_byteSeqEqual_iff; C02_read_last_write, C02_read_last_write_any_group; C03_set_no_interference, C03_set_frame; C04_binary_reads_last_bit, C04_text, C04_other_bits_unchanged; C05_extend; C06_specs_distinct, C06_specs_stay_valid, C06_all_attributes, C06_accepted_iff; C07_frozen_partial; C08_get_attribute_spec; C09_class_attributes; C10_map_over_rows; C11_dense_copy, C11_dense_copy_of_dense, C11_copy_independent; C12_shuffle_permutes, C12_every_permutation; C13_lazy_shuffle_fails, C13_lazy_shuffle_partial; C14_sort_permutes; C15_sort_order_partial, C15_sort_small_codes_partial, C15_sort_high_bytes_partial; C16_lazy_sort_agrees, C16_lazy_sort_any_grid; C17_sample_size_fails; C18_view_reads_through, C18_views_compose; C19_view_iteration_partial, C19_rows_view_iteration_fails; C20_values_intact; C21_decompose_values, C21_decompose_threshold, C21_each_row_once; C22_split_dense_partial, C22_split_view_fails; C23_class_distribution, C23_after_split, C23_after_threshold; C25_equal_grids_partial; C26_compatible_same_attributes, C26_strict_partial; C27_references; C28_equals_iff, C28_compatible_iff, C28_equals_refl, C28_equals_symm, C28_equals_trans, C28_equals_compatible, C28_compatible_equiv; C29_values, C29_codes, C29_decode, C29_injective; C30_attribute_roundtrip_partial, C30_attributes_roundtrip_partial, C30_nil_values_panic, C30_roundtrip_fails; C31_roundtrip_partial, C31_dense_roundtrip_partial; C32_first_write_partial, C32_distinct_keys_partial, C32_last_write_fails, C32_attributes_for_key_partial; C33_get, C33_class_attributes, C33_iteration_partial; C34_parse_partial; C35_confusion_matrix; C36_counts; C37_accuracy, C37_precision_recall, C37_f1, C37_macro; C38_micro_recall, C38_micro_precision_value, C38_micro_precision_partial, C38_micro_precision_fails; C39_folds_partition, C39_cross_validation, C39_every_row_counted, C39_mean_variance; C40_maximum, C40_extract, C40_drain; C41_build, C41_accepts; C42_search_general_partial, C42_search_partial, C42_full_tree_partial, C42_search_fails; C43_linear_search, C43_too_many_panics; C44_vote, C44_weighted_vote, C44_predict, C44_predict_weighted, C44_predict_tree_partial, C44_tree_error_dropped; C45_mean, C45_between, C45_bounds; C46_distances, C46_same_ranking, C46_predict, C46_ignores_weighted, C46_no_rows_panics; C47_predicts_trained_class, C47_no_rows_panics; C48_fits, C48_paths, C48_pure_is_leaf, C48_training_rows; C49_never_worse_partial, C49_collapse, C49_numbers_break, C49_unknown_values_break, C49_refuted; C50_information_gain_partial, C50_gain_ratio_partial, C50_categorical, C50_information_gain_chooses, C50_gain_ratio_chooses, C50_trees_fit, C50_repeats_break, C50_threshold_on_value; C51_never_right, C51_refuted, C51_average_is_one, C51_picks_first; C52_selection, C52_terminates, C52_too_many_never_ends, C52_best_of_selection_partial; C53_missing_labels; C54_update, C54_scan, C54_needs_order, C54_past_the_end; C55_gini, C55_entropy, C55_mae, C55_mse, C55_root, C55_data_set; C56_depth, C56_depth_regression, C56_predicts_partial, C56_regression_partial, C56_unsplit, C56_all_the_same, C56_no_better_split, C56_limit_zero, C56_refuted, C56_no_columns, C56_evaluate, C56_data_set; C57_gini, C57_gini_range, C57_entropy, C57_mae, C57_mse, C57_unknown_labels, C57_repeated_labels; C58_both_sides, C58_one_side, C58_tree, C58_depth, C58_ends, C58_never_ends, C58_path, C58_path_unsplit, C58_path_bounds; C59_formula, C59_range, C59_decreasing, C59_fitted, C59_fit_ends, C59_sample_of_one, C59_refuted, C59_range_partial, C59_rows, C59_table_partial; C60_binary, C60_float, C60_distinct, C60_fits, C60_grid_partial; C62_train, C62_bins, C62_width, C62_extra_bin, C62_outside, C62_labels, C62_labels_collide, C62_grid_partial; C63_table, C63_statistic, C63_merge, C63_classes, C63_intervals, C63_min_rows_refuted; C64_no_deadlock, C64_terminates, C64_completes, C64_tally, C64_parts; C65_majority, C65_no_models; C66_ends, C66_endless, C66_refuted, C66_selects_partial, C66_grid, C66_fit_schedules; C67_most_confident, C67_training, C67_fit, C67_reports_errors; C68_trains_partial, C68_succeeds_iff, C68_range, C68_rejects, C68_not_always; C69_log_arguments, C69_predict, C69_order_independent; C70_fit, C70_ignores_labels, C70_threshold, C70_predict_partial, C70_refuses, C70_not_own_row; C71_weights, C71_biases, C71_new, C71_input_bias, C71_topology_partial, C71_not_topology, C71_drops; C72_fit, C72_fitted, C72_fit_class, C72_reads, C72_class_partial, C72_two_values, C72_float_partial, C72_second_fit, C72_fit_twice, C72_other_inputs, C72_not_any_order, C72_not_hidden; C73_grid, C73_terminates, C73_clusters, C73_panics_iff, C73_refuted, C73_partial; C74_bit_count, C74_region_query; C75_invert, C75_outcome, C75_complete, C75_partial; C76_predict; C77_back_substitution, C77_normal_equations, C77_least_squares; C78_training, C78_prediction, C78_drops_negative, C78_faithful_partial, C78_two_classes, C78_more_classes, C78_wrong_side; C79_documented, C79_undocumented, C79_documented_iff, C79_refuses_documented, C79_accepts_partial, C79_again, C79_no_logistic, C79_constructor, C79_constructed, C79_logistic; C80_centred, C80_default_components_fails, C80_shape_partial, C80_scores, C80_transform_uncentred; C81_manhattan, C81_chebyshev, C81_euclidean, C81_manhattan_axis, C81_euclidean_axis; C82_cosine_range, C82_cosine_symm, C82_cranberra, C82_rbf; C83_inner_product, C83_symm, C83_distance_positive_partial, C83_vanishes_fails, C83_rows_ignored; C84_predictions, C84_no_labels; C85_index, C85_lower_end, C85_refuted, C85_partial, C85_training, C85_grid, C85_labels; C86_train, C86_partial, C86_refuted; C87_exact, C87_refuted, C87_groups_partial, C87_no_border_partial, C87_two_partial; C88_first_means, C88_step, C88_same_rows, C88_refuted, C88_fit, C88_equal_rows, C88_partial; C89_cells_partial, C89_refuted; C90_never_returns, C90_panics, C90_success_partial, C90_refuted; C91_same_order_partial, C91_label, C91_refuted; C92_activate, C92_unique, C92_settled, C92_histories, C92_needs_levels; C93_error, C93_gradient, C93_weight, C93_bias, C93_step, C93_trainable, C93_descends, C93_functions, C93_softplus; C94_svc, C94_logistic; C95_given, C95_empty, C95_inverse, C95_automatic_partial, C95_automatic_fails; C96_iterations_partial, C96_single_row, C96_not_squared; C97_proba, C97_many_rows_panics; C98_tree_file_partial, C98_content_partial, C98_tree_prefix_partial, C98_trained_partial, C98_filtered_grid_fails; C99_bagging_partial, C99_bagging_file_partial, C99_forest_partial, C99_forest_size, C99_fitted, C99_whole_forest_fails; C100_restores_partial, C100_file_partial, C100_roundtrip_partial, C100_fitted, C100_filtered_fails; C101_file_partial, C101_reordered, C101_in_order, C101_predicts_same_partial, C101_roundtrip_partial, C101_dense_partial, C101_optimised_fails; C102_nested_partial, C102_bagged_bayes_partial, C102_bagged_knn_fails, C102_knn_prefix_fails, C102_together_fails; C103_svc_file, C103_svc_partial, C103_ova_partial, C103_multi_partial, C103_trained, C103_predicts_same_partial, C103_rounding_refuted, C103_grown; C104_reads_partial, C104_bad_field, C104_long_record, C104_rows, C104_long_line, C104_fills, C104_at_panics, C104_marker_panics, C104_refuted, C104_long_record_loses, C104_comment_loses; C105_space, C105_writes, C105_round_trip_partial, C105_codes, C105_floats, C105_space_in_name, C105_comma_in_value, C105_space_in_value, C105_no_values, C105_two_classes, C105_refuted; C106_at_most, C106_estimate_partial, C106_refuted, C106_seventh_line; C107_numbers, C107_writes, C107_round_trip_partial, C107_texts, C107_floats, C107_number_category, C107_number_category_fails, C107_empty_rows, C107_empty_text, C107_carriage_return, C107_filtered_loses, C107_refuted; C108_template_partial, C108_panics, C108_unknown_column, C108_no_header; C109_groups_partial; C110_rows, C110_witness; C111_lookup, C111_cells, C111_iter, C111_class; C112_frame_partial, C112_otherwise_panics, C112_missing_panics, C112_float_kept, C112_refuted, C112_witness; C113_refused_partial, C113_panics, C113_trees, C113_witness, C113_refuted; C114_dense_partial, C114_row_dense_partial, C114_mat_partial; C115_summary_partial, C115_tables_partial, C115_witness, C115_refuted; C116_pruned_partial, C116_whole, C116_no_validation_rows, C116_witness, C116_reorders, C116_empty_parts, C116_refuted; C117_text_shows, C117_same_text_partial, C117_classifier_partial, C117_witness, C117_refuted; C118_text_shows_partial, C118_same_text_partial, C118_witness, C118_refuted; C119_tables_separate, C119_calls_on_values, C119_get_on_values; C120_live_partial, C120_write_through, C120_extend_detaches, C120_bits_snapshot, C120_filtered_snapshot; C121_grows, C121_one_feature, C121_forest_partial, C121_refuted; C122_constructor, C122_number, C122_predicts_partial, C122_no_rows, C122_refuted; C123_cross_validation, C123_split; C124_cross_validation, C124_panics, C124_split; C125_id3, C125_random_tree, C125_split; C126_attribute_panics, C126_bag_partial, C126_selected, C126_class_values; C127_perceptron, C127_perceptron_predict, C127_cart, C127_linear_models, C127_untrained_net, C127_svc_settings, C127_refuted, C127_witness; C128_rounding, C128_counts, C128_correctly_rounded, C128_accuracy, C128_precision_recall, C128_f1, C128_macro, C128_micro, C128_cross_validated, C128_variance; C129_knn, C129_error_partial, C129_whole_partial, C129_two_partial, C129_refuted, C129_losses, C129_losses_error, C129_constant_refuted; C130_midpoint, C130_separates_partial, C130_neighbours, C130_refuted, C130_drawn, C130_isolation_partial, C130_isolation_neighbours, C130_isolation_refuted; C131_manhattan, C131_chebyshev, C131_euclidean_partial, C131_euclidean_refuted, C131_manhattan_error, C131_triangle_partial, C131_triangle_refuted; C132_monotone, C132_partial, C132_bad_bin, C132_refuted, C132_width_partial, C132_edges; C133_gini, C133_entropy, C133_gini_error, C133_splits; C134_add, C134_page, C134_few; C135_forest, C135_split, C135_features; C136_patterns, C136_numbers, C136_comparisons, C136_threshold, C136_trees_fit, C136_truth, C136_sort_partial, C136_sort_whole, C136_sort_near_partial, C136_sort_full_fails; C137_loaded, C137_id3, C137_fits, C137_knn, C137_witness; C138_chooses, C138_random, C138_midpoint, C138_fits, C138_nan_never_ends, C138_exact, C138_witness; C139_gives_up, C139_grown_partial, C139_training_rows_partial, C139_last_attribute, C139_witness, C139_refuted; C140_bagging, C140_forest, C140_table_cells, C140_appends, C140_old_model_lost, C140_knn_lost, C140_naive_bayes_lost, C140_forest_lost, C140_table_lost, C140_tree_crash; C141_tree_loses, C141_forest_loses, C141_naive_bayes_loses, C141_svc_loses; C142_csv_exact, C142_csv_round_trip_partial, C142_arff_pieces, C142_arff_exact, C142_arff_row_lost; C143_tree_wrong_file, C143_tree_not_kept, C143_knn_lost, C143_knn_wrong_file, C143_knn_other_models, C143_knn_not_kept, C143_svc_not_kept, C143_bag_mixed, C143_bag, C143_node_answer; C144_trees, C144_perceptron, C144_perceptron_count, C144_binary_filter, C144_float_filter, C144_net, C144_perceptron_not; C145_split_values, C145_kept_until_used, C145_stay_a_partition, C145_split_again, C145_knn_until_used, C145_knn_changes; C146_texts_partial, C146_predict_partial, C146_predict_known, C146_data_partial, C146_tree; C147_known_partial, C147_all_known; C148_knn_partial, C148_knn_weighted_partial, C148_knn_tree_partial, C148_bagging_partial, C148_tree_partial, C148_vote_tie, C148_distance_tie, C148_not_repeated, C148_tree_order; C149_in_turn_partial, C149_cells_partial, C149_fixed, C149_rows; C150_at_once_partial, C150_attributes, C150_equal; C151_picks, C151_greedy, C151_same_tree_partial, C151_same_class_partial, C151_training_rows_partial, C151_first_wins, C151_ties, C151_gini, C151_witness, C151_refuted; C152_shuffle, C152_sort, C152_tree_partial, C152_naive_bayes, C152_naive_bayes_class_partial, C152_knn_partial, C152_confusion, C152_distance_tie, C152_refuted; C153_classifier, C153_regressor, C153_data_set, C153_data_set_regressor, C153_shuffle, C153_witness, C153_label_order; C154_classifier, C154_regressor, C154_predicts_partial, C154_regressor_predicts_partial, C154_witness, C154_zero_matters, C154_refuted; C155_classifier, C155_regressor, C155_built, C155_built_regressor, C155_witness, C155_uneven; C156_unique, C156_determined, C156_witness; C157_rewritten, C157_copies, C157_witness; C158_tree, C158_predicts_partial, C158_witness, C158_no_split, C158_refuted; C159_knn_partial, C159_tree_partial, C159_manhattan, C159_witness, C159_one_column, C159_refuted, C159_tree_origin, C159_tree_witness; C160_linear, C160_tree_partial, C160_witness, C160_tree_order, C160_tree_refuted; C161_columns, C161_witness; C162_columns_partial, C162_witness, C162_refuted; C163_columns, C163_witness; C164_cart_partial, C164_isolation_partial, C164_scores_partial, C164_logistic_partial, C164_linear_partial, C164_witness, C164_orders, C164_refuted, C164_ties; C165_tree, C165_trained, C165_witness; C166_columns, C166_units, C166_distances, C166_witness; C167_rows_partial, C167_two_partial, C167_witness, C167_refuted; C168_predict, C168_fit, C168_witness; C169_tree, C169_regression, C169_tree_witness, C169_regression_witness; C170_rows_partial, C170_rows_weighted_partial, C170_rows_tree_partial, C170_witness, C170_weighted_witness, C170_tree_witness, C170_tie, C170_refuted; C171_rows, C171_witness; C172_rows, C172_witness.

## Plan per property

Each line: what is modelled and how the property is proved, the modules, and the outcome.

* **C01 Value packing round-trips** - Bytes as `BitVec 8`, uint64 as `BitVec 64`; bit-extensionality proof. *proved.*
* **C02 A stored cell reads back what was last written** - Byte-array groups inside a DenseInstances state machine; refinement to an abstract `cell -> value` map by induction on the history. *proved.*
* **C03 Writing one cell never changes another** - Same model; frame theorem over all pairs of cells, from offset-disjointness lemmas. *proved.*
* **C04 Binary attributes store exactly one bit** - BinaryAttributeGroup at bit level; `getBit (set ..)` law. *proved.*
* **C05 Extend preserves data and adds zeroed rows** - Extend as zero-append per group; Get before/after. *proved.*
* **C06 Attribute specifications stay valid and distinct** - Invariant over AddAttribute histories: specs are (group, position) pairs, injective. *proved.*
* **C07 Allocated structure is frozen** - AddAttributeToAttributeGroup does not test `fixed`: counterexample plus partial for the entry points that do. *partial.* The full statement is false of the code: attributes can be pushed into a named group after allocation (C07_frozen_fails). The partial theorem covers every other call.
* **C08 GetAttribute finds exactly the attributes present** - Search over groups modelled as in the code; iff characterisation. *proved.*
* **C09 Class attributes behave as a set** - classAttrs as a finite map keyed by spec; history invariant; order = any permutation. *proved.*
* **C10 MapOverRows visits every row once, in order, and honours early stop** - Loop over rows with an arbitrary stateful callback. *proved.*
* **C11 A dense copy is equal and independent** - Copy of structure then cell-wise Set; values model has no sharing, so independence is stated against the abstract cells. *proved.* Equality: C11_dense_copy for any grid (dense, view, filtered, nested), any map orders. Independence: C11_copy_independent, in a memory model where byte slices are windows into arrays (see C119): after any history, the copy and its source change only through calls on, and slices handed out by, each of them.
* **C12 Shuffle is a permutation of rows** - Fisher-Yates over arbitrary draws using the byte-level swapRows. *proved.*
* **C13 Lazy shuffle presents each row exactly once** - Counterexample draws; partial for what does hold (every displayed row is a source row). *partial.* The full statement is false of the code (C13_lazy_shuffle_fails). The partial theorem says what holds for every sequence of draws.
* **C14 Sort permutes whole rows** - swapRows list from createSortSpec; permutation by induction on swaps. *proved.*
* **C15 Sort orders rows by key** - LSD radix sort modelled with counting buckets; sorted wrt the key the code really uses; negation for the documented order, partial for the case where it agrees. *partial.* The full statement is false of the code: bit 7 of the low byte of the last sort attribute is flipped (C15_sort_order_fails) and negative floats are misplaced (C15_negative_floats_fail). The partial theorems give the exact order produced, for all inputs.
* **C16 LazySort shows the same order as Sort** - Swap list folded over indices vs over rows. *proved.*
* **C17 Sampling with replacement returns only source rows** - View row map from draws; counterexample for size < rows. *partial.* The size part is false of the code when the sample is smaller than the source (C17_sample_size_fails). The partial theorem covers what each row shows.
* **C18 Views read through to the source** - Inductive `Grid` (dense / view / filtered) with recursive Get; induction over nesting. *proved.*
* **C19 Views iterate the rows they present** - Relational MapOverRows (any order for map-backed views); negation for unmasked views and partial for masked. *partial.* Iteration of unmasked row views is wrong in the code (C19_rows_view_iteration_fails). The partial theorem covers every other view.
* **C20 Attribute-restricted views hide the other attributes** - Spec list restricted views. *proved.*
* **C21 Decomposition partitions the rows** - Row scan producing per-value row lists; partition theorem. *proved.*
* **C22 Train/test split partitions the data** - Arbitrary draws. *partial.* False of the code for sources that are not DenseInstances, which are shuffled lazily (C22_split_view_fails). The partial theorem covers DenseInstances from every history of calls, all draws and all proportions.
* **C23 Class distribution counts every row** - Counting fold, any order. *proved.*
* **C24 Categorical and binary-float class distributions count every row** - Callback returns false after first row: negation plus what is computed. *partial.* The count claim is false of the code: the row callbacks return false, so iteration stops after one row (C24_categorical_fails, for every grid of two or more rows). The partial theorems state what is returned, for every grid.
* **C25 InstancesAreEqual detects differences** - Code compares a grid with itself: negation. *partial.* Grids reported equal need not be equal: the code compares the first grid with itself (C25_instances_equal_fails). The partial theorem is the other direction.
* **C26 Compatibility checks are sound** - Explicit index-out-of-range outcome: negation, partial for equal lengths. *partial.* Never panicking and exactness are false of the code when groups of the same name differ in length (C26_strict_fails). The partial theorem covers all other pairs from any histories.
* **C27 Attribute set operations obey set laws** - List functions. *proved.*
* **C28 Attribute equality is an equivalence and implies compatibility** - Attribute datatype with the three kinds. *proved.*
* **C29 Categorical interning is a stable bijection** - Interning as list index; history induction. *proved.*
* **C30 Attribute serialisation round-trips** - JSON value tree (abstract syntax); text encoding by Go's encoding/json is trusted. *partial.* Holds for attributes whose precision survives a float64 and whose value slice is not nil; a categorical attribute that never saw a value panics on reading (proved).
* **C31 Serialised instances round-trip** - Archive as list of named byte strings; row-major data stream. *partial.* Missing: nil-valued categorical attributes (reading panics, see C30) and readers that hand over short counts (reading fails, proved); rows come back in the order MapOverRows visits them, which is the same order for dense grids.
* **C32 A named entry reads back what was written** - Archive history; code returns the first match: negation for duplicates. *partial.* Lookup returns the first entry with the name, so a second write of a key is never seen (proved); holds for keys written once.
* **C33 Lazily filtered instances are consistent** - Filtered Grid constructor. *partial.* Get is proved for every filter. MapOverRows also applies Transform to columns the filter does not convert (proved to fail with the binary conversion filter); it agrees with Get for filters that leave those columns alone.
* **C34 CSV row accounting** - Record lists; parse loops; negation for the extra trailing row. *partial.* ParseCSVToInstances is proved: row count for every input, and all cells, names, kinds and class when the (always-false) sort of specifications keeps their order, which Go's sort does for up to 12 columns and from Go 1.19 on. ParseCSVToInstancesWithAttributeGroups counts the header as a row: proved, with the negation of the claim. The text level (encoding/csv, regexp, ParseFloat, TrimSpace) is left arbitrary.
* **C35 Confusion matrix accounts for every row** - Counting fold over rows. *proved.*
* **C36 Per-class counts are complementary** - Sums over finite maps. *proved.*
* **C37 Metrics lie in range** - Rationals for ratios. *proved.*
* **C38 Micro-averaged precision counts all predictions** - Negation + partial. *partial.* GetMicroPrecision ignores predictions of labels that no row has; the value it computes is characterised exactly, the claim is proved when predicted labels are reference labels, and refuted in general. GetMicroRecall equals accuracy always.
* **C39 Cross-validation folds partition the data** - Arbitrary fold assignment. *proved.*
* **C40 Neighbour heap keeps the maximum on top** - Array heap exactly as coded, sift-up/down. *proved.*
* **C41 k-d tree holds every row exactly once** - Median split recursion. *proved.*
* **C42 k-d tree search returns the k nearest rows** - Search with pruning; phantom node for empty children. *partial.* A search visits places of the tree that hold no row and can return row 0 with the distance of the origin (C42_search_fails refutes the full statement SearchFindsNearest). Proved: what every search returns (C42_search_general_partial), correctness when at least k rows are closer to the target than the origin (C42_search_partial), and correctness for every k and target when the tree is full (C42_full_tree_partial).
* **C43 Nearest neighbours are really nearest** - Insertion into sorted key list. *proved.* SortIntMap and the linear search; k above the number of rows panics (C43_too_many_panics).
* **C44 k-NN votes by majority** - Tally as finite map, any iteration order. *partial.* Proved for the linear search (plain and weighted). For the k-d tree the theorem is partial because the search itself may miss nearest rows (C42_search_fails); with k above the number of rows the search error is dropped and rows stay unlabelled (C44_tree_error_dropped).
* **C45 k-NN regression averages neighbours** - Mean over rationals/reals. *proved.* Exact arithmetic; k=0 gives NaN and k above the number of rows panics (C45_bounds).
* **C46 The optimised Euclidean kernel computes squared distance** - C loop as fold. *proved.* Exact arithmetic: the C kernel accumulates in single precision, which is not modelled. The optimised path ignores Weighted (C46_ignores_weighted) and panics without rows (C46_no_rows_panics).
* **C47 Decision tree prediction always ends at a trained class** - Tree recursion with arbitrary fallback child. *proved.*
* **C48 Decision tree leaves agree with their training rows** - Induction on tree construction. *proved.*
* **C49 Pruning never reduces validation accuracy** - Prune recursion. *partial.* Proved for ID3 trees with a branch for every value in the pruning data and no number printing as 0 or 1. Each condition is needed: C49_numbers_break and C49_unknown_values_break. C49_collapse gives the local rule without conditions.
* **C50 Information gain is chosen maximally** - Argmax loop. *partial.* Proved for exact numbers without repeated values, and for categorical attributes without that condition. Refuted in general: with repeated values the scan skips thresholds (C50_repeats_break), the threshold can equal a value (C50_threshold_on_value) and a NaN makes the loop endless (C50_nan_never_ends). Gain ratio divides by the entropy left after the split, which is what the code does, not by the intrinsic information.
* **C51 Gini impurity is computed from the distribution** - Negation. *partial.* Refuted: the code reads the map of proportions before storing into it, so its index is 1 for every distribution (C51_always_one), never the Gini index (C51_never_right), and the generator always picks its first candidate (C51_picks_first).
* **C52 Random tree considers only distinct real attributes** - Draw stream. *partial.* Selection and termination are proved for every sequence of draws. When more attributes are requested than exist, which happens below the root of a tree, the selection never ends (C52_too_many_never_ends). The choice among the selected attributes is proved for numbers without repeats (C50).
* **C53 CART splits partition the data** - List filter. *proved.* Classifier and regressor share one model; exact arithmetic. C53_missing_labels: fewer labels than rows panics.
* **C54 Incremental CART split equals recomputed split** - Sorted scan. *proved.* Holds on rows sorted by the feature for thresholds up to the last value; C54_needs_order and C54_past_the_end show that both conditions are needed. The tree only calls it under them (proof of C55).
* **C55 CART picks the impurity-minimising split** - Argmin loop. *proved.* All four criteria, every node, over all thresholds that have rows on both sides (not only the midpoints tried). Exact arithmetic; the sort of the rows is any sort by value. The list of splits already tried never excludes a useful split.
* **C56 CART trees respect the depth limit and predict seen labels** - Depth induction. *partial.* Depth limit proved. Predictions: proved if the root was split. False otherwise (C56_refuted): a root that was not split has threshold 0 and right label 0, so it predicts 0 for any row whose first value is not negative, even if all training labels are 5.
* **C57 CART impurity measures are in range** - Rationals. *proved.* Labels passed to the constructor must be distinct and cover the data; C57_unknown_labels and C57_repeated_labels show what happens otherwise. Exact arithmetic; entropy for any logarithm.
* **C58 Isolation trees partition the sample and respect the depth limit** - Random draws as parameters. *proved.* Proved for every draw of random numbers and every data set, with thresholds as elements of an ordered field. A threshold is moved up by 0.000001, so values closer than that can all go to one side (C58_one_side). The redraw loop ends if every column comes up, and does not end if only constant columns come up.
* **C59 Anomaly scores lie in (0,1]** - Reals. *partial.* The score is not a number for a forest without trees or for the sample size zero (C59_refuted). For forests that Fit makes from samples of one row or more scores lie in (0, 1]; from two rows they lie strictly inside and decrease strictly with the mean path length. C59_table_partial states this for Fit and Predict on tables: rows are the numeric attributes and the class; without one numeric class both panic (C59_needs_class).
* **C60 One-hot conversion sets exactly one output** - One-hot transform. *partial.* Names of new columns can collide: C60_collision is the witness; the grid theorem assumes distinct names.
* **C61 Binary conversion of numbers marks non-zero values** - Negation + partial. *partial.* The code tests for values greater than zero, so negative numbers become false (C61_refuted); C61_partial covers non-negative data.
* **C62 Equal-width binning maps every value to a valid bin monotonically** - Rationals, floor. *partial.* The code makes bins+1 bins: the largest value has a bin of its own (C62_extra_bin). Values outside the training range, or labels that print alike, make printing panic.
* **C63 ChiMerge preserves counts and terminates** - Merge loop. *proved.* At least MinRows intervals need not remain: all neighbours with the least statistic are merged at once (C63_min_rows_refuted).
* **C64 Bagging counts every model's vote once under every schedule** - Goroutines and bounded channels as a transition system; invariant + termination measure + progress. *proved.* Goroutines move in any order over bounded channels; every schedule makes at most 5m+cpus+4 moves and never deadlocks or panics when all models succeed (errors: C90).
* **C65 Bagging predicts a majority class** - Argmax over any map order. *proved.* Any schedule, any order of maps; at least one model. Without models every row keeps the first class.
* **C66 Bagging selects distinct features** - Draw stream. *partial.* Refuted as stated: asking for more features than there are loops for ever (C66_endless); otherwise selected attributes are distinct, for every sequence of draws that hits k of them.
* **C67 One-vs-all chooses a most confident class** - Argmax loop. *proved.* Outputs may be NaN (ignored by the comparison). Training: each classifier sees 1.0 exactly for its own class, if no float feature has the name of the class. If no output is positive the first class is chosen.
* **C68 Naive Bayes fits any binary data** - Counts; nil slice index is an explicit panic: negation, partial. *partial.* Training succeeds exactly when there are no features or every occurring class has a row with some feature; otherwise it panics on a nil slice (C68_not_always).
* **C69 Naive Bayes predicts a class of maximal score** - Argmax loop over any order with abstract log. *proved.* Exact arithmetic. The start score must be below (features+1)*log(1/(rows+1)), which -MaxFloat64 is for any data that fits in memory.
* **C70 Perceptron predictions are written to their own row** - Negation + partial. *partial.* Rows scoring below the threshold are written to row 1 instead of their own row: the exact result is proved, the full claim refuted (C70_not_own_row). Labels are never used in training (C70_ignores_labels).
* **C71 Network weight accessors are faithful and training keeps the topology** - Matrix as function. *partial.* Accessors, input biases and what training does to each weight are proved in full. That training never creates a connection is refuted (a connection removed by hand after training has begun comes back at the next step) and proved when no weight is set after training has begun. Training also drops connections of weight at most 1/200, and connections made after training began.
* **C72 Multi-layer net reads its prediction from the output layer** - Index arithmetic: negation + partial. *partial.* Proved for any layers, drawings and map orders: Fit builds a network in layers with a random start and trains it (C72_fit), each value's output neuron towards 1 for its rows and 0 otherwise (C72_fit_class); Predict stores the number of the greatest of the neurons that follow the inputs (C72_reads). The whole claim C72_greatest holds without hidden layers if the map of class attributes is listed in the order of the values (C72_class_partial), and for a class that is a number with any hidden layers (C72_float_partial). It is false with hidden layers (C72_not_hidden) and in other map orders (C72_not_any_order). Also: two values give the first always, a second Fit or a categorical input makes Predict panic.
* **C73 DBSCAN puts each point in at most one cluster and never fails** - Worklist algorithm with explicit panic: negation + partial. *partial.* The clusters that are returned are disjoint, have at least MinCount points and are reached from one core point; the loops end. Panics are characterised exactly (C73_panics_iff) and do happen (C73_refuted, C73_grid_panics); C73_partial gives data without panics. big.Int is a natural number.
* **C74 DBSCAN bit counting is exact** - Byte table, decide +kernel over the whole table, lifted. *proved.* BitCount is exact for naturals of any size; big.Int.Bytes is modelled as base 256 digits.
* **C75 ClusterMap inversion and equality are correct** - Finite maps. *partial.* Invert is proved in full. Equals is wrong if the first map has an empty cluster (C75_refuted) and right otherwise (C75_partial); relabelled maps are always equal (C75_complete).
* **C76 EM prediction assigns each row to exactly one component** - Argmax loop. *proved.* gonum's normal distribution is a parameter; NaN is excluded, minus infinity is included.
* **C77 Linear regression back-substitution solves the triangular system** - Back-substitution over a field. *proved.* Exact arithmetic in an ordered field. The QR factorisation is the library's: its contract is a hypothesis on the matrix the code builds. Least squares optimality is proved for training and the stored predictions for Predict.
* **C78 liblinear feature encoding is faithful and the same in training and prediction** - Sparse encode/decode. *partial.* Training vectors are exact. For prediction only positive numbers are kept (x[i] > 0), so C78_faithful fails; C78_faithful_partial covers rows without negative numbers and C78_prediction says what is represented for every row.
* **C79 SVC solver selection is total and consistent** - Decision table. *partial.* The table of documented combinations is svcTable. C79_accepts, that a documented combination gives no error, fails: when the form has to change the error is non-nil although the parameters are valid (C79_refuses_documented), and NewLinearSVC then returns no machine. C79_accepts_partial says exactly when the error is nil; a second call always accepts (C79_again).
* **C80 PCA centring removes column means** - Matrices over a field. *partial.* Exact arithmetic in a field of characteristic zero; the library's singular value decomposition is a parameter with its contract as a hypothesis. The default of 0 components gives fewer columns than features when there are fewer rows than features (C80_default_components_fails), and Transform does not centre (C80_transform_uncentred).
* **C81 Distances are metrics** - Reals (Mathlib). *proved.* Real numbers; includes the bound that makes Euclidean and Manhattan usable in the k-d tree theorems (C81_*_axis).
* **C82 Similarity measures are in range** - Reals. *proved.*
* **C83 Polynomial kernel distance vanishes on equal vectors** - Negation + partial. *partial.* The distance from a vector to itself is always 1, so the vanishing claim is refuted (C83_vanishes_fails); only the first column of the arguments counts (C83_rows_ignored).
* **C84 Predictions are read back as written** - Single attribute dense instances; induction over the writes. *proved.*
* **C85 ChiMerge puts a value into its interval** - Interval lookup as a loop over the sorted boundaries; iff for every number, negation for numbers on a boundary. *partial.* A number equal to the lower end of an interval after the first is put into the interval before (C85_refuted, C85_training); C85_partial covers all other numbers.
* **C86 ChiMerge is trained on the examples of the data** - Frequency table built through the sorted view's MapOverRows; negation for unsorted data, partial for sorted. *partial.* MapOverRows on the sorted view delivers the rows of the source, so numbers are paired with classes of other rows (C86_refuted); C86_partial covers data that are already in order.
* **C87 DBSCAN finds the density-connected groups** - The DBSCAN work list from C73; exact description by reachability, negation, partial. *partial.* C87_exact describes the returned clusters for all data. The claim fails (C87_refuted: a core point is left out) and holds if no point that is reached is lost, in particular for MinCount at most two.
* **C88 Fitting by expectation maximisation succeeds and ends at fitted parameters** - EM loop with gonum's functions as parameters and an explicit panic for an empty component. *partial.* gonum's functions are parameters; mat.NewDense is taken to panic for zero rows (as documented for the pinned version). C88_fit characterises Fit on tables exactly: when it is an error, which models it can return, and when it panics. Fit panics on equal rows with two or more components (C88_same_rows); with one component it succeeds but the model cannot predict (C88_equal_rows).
* **C89 Each model of an ensemble is trained on a sample of the rows** - Sample view of the training data per model; cells against iteration. *partial.* Cells of the training data are those of the rows drawn. Refuted for iteration: MapOverRows on the sample visits the original rows, so models that iterate are all trained on the same rows.
* **C90 An ensemble reports the error of a model** - The transition system of C64 with models that fail. *partial.* Refuted: the error is dropped and the nil grid makes the collecting goroutine panic under every schedule; proved when all models succeed.
* **C91 One-vs-all names classes as in training** - Predictions read through the attributes of the data that is predicted; negation for another order of values. *partial.* Refuted: class numbers are stored without translation, so data that lists the same values in another order gets wrong names; also the filters do not apply to other attribute objects (C91_unfiltered). Proved when the order is the same.
* **C92 Activating a layered network computes its feed-forward values** - Forward pass as matrix/vector functions over a field; equality with the sum over paths of the layer definition. *proved.* Exact arithmetic over any ordered field; matrices of the library as functions.
* **C93 The errors a network back-propagates are the gradient of its squared error** - Real analysis: derivative of the squared error with respect to every weight (HasDerivAt), by induction over levels from the outputs. *proved.* Over the real numbers. SoftplusRectifier is shown not to meet the condition. Trainable holds after the first training step on any network set up from lower to higher levels (C93_trainable).
* **C94 Linear SVM and logistic regression train one against the rest and predict the side** - liblinear's train/predict with train_one as parameter; one-against-rest weights and argmax. *partial.* Numerical solvers behind train_one are a parameter. Predict sees the positive part of a row (see C78) and takes the columns of the data to predict in their own order, not those of the training data; both are in the theorem's statement, which is why the status is partial.
* **C95 Class weights of a linear SVM are applied as configured** - Class weights as computed and handed to liblinear; negation for automatic weights. *partial.* Automatic weighting has no effect: C95_automatic fails (C95_automatic_fails), because GetClassDistributionByBinaryFloatValue stops after the first row (see C24); C95_automatic_partial: both weights are always 1.
* **C96 A multi-layer net trains until its error is small or its iterations are used up** - Training loop with its error accumulator; negation that it is the mean squared error, partial. *partial.* Proved when training ends (C96_iterations_partial). The error used is not the mean squared error: errors of opposite sign cancel, and the sum is divided by the number of the last row. The claim is refuted by C96_not_squared; with a single row training never ends early (C96_single_row).
* **C97 Class probabilities of a decision tree are the shares of the training rows at the leaf** - The descent of C47 ending in the leaf's distribution; induction over the tree, with the rows that reach each node as in C48. *proved.*
* **C98 A decision tree that is saved and loaded predicts the same** - Trees as JSON documents, written and read; induction over the tree shows the document reads back as the same tree up to the addresses of attributes, and that prediction does not look at addresses unless the data is filtered lazily; the archive by lookup of its keys. *partial.* Proved for finite thresholds, attributes that survive being written, and data that is not filtered lazily or whose filters convert the attributes of the tree (C98_content_partial). A tree with an infinite threshold is not saved (error). For lazily filtered data that leaves attributes alone the full claim is refuted: the loaded tree does not find them by address and panics.
* **C99 Saved ensembles load back and predict the same** - Save and load are modelled on the list of entries of the archive, for classifiers of any type whose own save and load fit together (`Restores`). The entries of the classifiers, of the grid and of the rest are shown to have different names; the grid is read back by C31, selected attributes are replaced by the attribute of the loaded grid with the same body, and the pipelines of the two forests (C64) are shown to be equal. *partial.* Proved when the receiver has as many classifiers as the file, for grids that are not filtered lazily and for trees with finite thresholds. Refuted in general (C99_whole_forest_fails): the number of trees in the file is ignored, so that loading into a smaller forest silently keeps only the first trees, and loading into a larger one is an error.
* **C100 A naive Bayes classifier that is saved and loaded predicts the same** - Model/SaveNB.lean writes and reads the six entries of a classifier; Proofs/SaveNB.lean shows they have different names and read back; Proofs/ByContent.lean shows that grids which do not compare addresses answer the same for attributes with the same contents. Where a lazily filtered grid passes a feature through, a witness refutes the property. *partial.* Proved for grids that are not filtered lazily and for lazily filtered grids that convert the features used. Refuted for lazily filtered grids that leave a feature unconverted (C100_filtered_fails): the loaded classifier has a new address for the feature, the grid compares addresses, and prediction panics. Numbers are exact; the probabilities are assumed to be finite float64 numbers.
* **C101 A nearest neighbours classifier that is saved and loaded predicts the same** - Model/SaveKnn.lean puts the search paths of Model/Knn.lean behind one Predict with its dispatch, and models saving and loading. Proofs/KnnReorder.lean relates a search over a table to a search over the same table with its rows renumbered; Proofs/SaveKnn.lean lifts this to whole predictions. A witness refutes the property when the optimised path is allowed. *partial.* Proved unless the optimised path may be taken (allowed, linear, euclidean): every prediction of the loaded classifier is a prediction of the saved one with corresponding choices, and with the same choices when the training data is dense. Refuted otherwise (C101_optimised_fails): the file may reorder the features, so that the optimised path, which ignores the weights, is no longer taken. Numbers are exact.
* **C102 Classifiers that can be saved can be saved as members of an ensemble** - Uses the models of Model/SaveBag.lean, Model/SaveNB.lean and Model/SaveKnn.lean, where a file records whether it is closed. Members that leave the file open compose, to any nesting; a general theorem shows that members that close it never do; nearest neighbours classifiers are such members. *partial.* Proved for members that leave the file open, with naive Bayes classifiers and nested bagged models as instances. Refuted for nearest neighbours classifiers, for all of them: their SaveWithPrefix closes the shared file, so that saving any nonempty bagged model of them is an error (C102_bagged_knn_fails), and what is saved under a prefix can never be loaded from it (C102_knn_prefix_fails).
* **C103 A saved linear support vector machine, and a saved one-vs-all model, predicts the same when it is loaded** - Model/SaveSvc.lean models the JSON of the parameters, the text format of liblinear as tokens with a rounding function for the 16 digits, and the entries written and read for filters, classifiers and class values. The codec between tokens and bytes is a parameter. Spec/SaveSvc.lean says what must survive and when two models are the same. Each saver is shown to add entries under its own names that its loader reads back; the predictions of the loaded one-vs-all model are compared with the old ones through the views its filters make of the data. *partial.* Proved for what is restored (C103_svc_file, C103_ova_partial, C103_multi_partial), for trained models meeting the requirements (C103_trained), and for equal predictions if 16 digits tell the weights exactly (C103_svc_partial, C103_predicts_same_partial). Refuted in general: %.16g does not tell float64 numbers apart, and a row is decided differently after loading (C103_rounding_refuted). If the class attribute got another value after the training, the model can be saved and loaded, and every prediction of the loaded model panics (C103_grown). Bagged models of such models can never be saved (C103_bagged); saving an untrained one panics (C103_untrained). Missing: data to predict on whose class attribute is neither the one of training nor one not clashing with it.
* **C104 Reading an ARFF file gives the table that the file holds, or an error** - Model/Text.lean models the scanner of lines, the splitting and trimming functions, the reader of comma-separated values on one line and the estimate of the precision, on lists of characters. Model/Arff.lean models the four functions of the parser with the ways in which they end: at the end, with an error, with a runtime error that is recovered, or with a panic. Spec/Arff.lean says what table a file holds. By induction on the lines the records fill consecutive rows of a grid that was built from the header. *partial.* Proved: a file of fitting records is read in full (C104_reads_partial), with a row for each data line whatever the file (C104_rows), and a field that says nothing in its column is an error (C104_bad_field). Reading into a table that is there already, with attributes of any kind, fills the cells that have a field and no others (C104_fills). Refuted in general (C104_refuted): a record with too many fields ends the reading without an error and leaves the remaining rows zero (C104_long_record, C104_long_record_loses); a line of 65536 bytes or more ends the file without an error (C104_long_line); a value that starts with @ in the first column, or a space after the marker, makes the parser panic (C104_at_panics, C104_marker_panics); a value that starts with % drops its row (C104_comment_loses); a short record leaves zeros. Missing: two attributes of one name and an order-changing sort of the specifications.
* **C105 A table that is written to an ARFF file and read again is the same table** - The writer of Model/Arff.lean gives the text of the file. It is shown to be the lines of a specification (C105_writes). The reader takes the lines, the words of a declaration and the fields of a record apart again, if they are plain; with C104 the result is the table of the texts. *partial.* Proved for tables whose names, values and texts are plain words (C105_round_trip_partial); then categorical cells hold the same bytes (C105_codes), and float cells too if the text of each number is read as that number (C105_floats). Binary columns come back as float columns. Refuted in general (C105_refuted): a name or a value with a space makes a file that cannot be read (C105_space_in_name, C105_space_in_value), a value with a comma comes back as two values without an error (C105_comma_in_value), an attribute without values gets the empty one (C105_no_values), and only the last of several class attributes comes back as a class (C105_two_classes). Missing: which tables outside the plain ones survive.
* **C106 The precision of a file is the largest number of decimals in its data** - Model/Text.lean models the search for numbers as a state machine for the regular expression, whose dot stands for any character, and the choice of lines. Spec/Precision.lean says what a number with decimals is. By induction on a line the state machine finds the decimals of each field. *partial.* Proved: the estimate never exceeds the digits that follow some dot (C106_at_most), and it is the largest number of decimals if the first six data lines have only numbers with a dot and texts without digits (C106_estimate_partial). Refuted in general (C106_refuted): the unescaped dot of the expression takes the comma after a whole number for a decimal point, so that 1,2.5 has no decimals; and only the first six lines count (C106_first_six, C106_seventh_line). Missing: numbers in other notations.
* **C107 A table written to a CSV file is read back as the same table** - Model/CsvText.lean models the reader and the writer of encoding/csv on characters, the regular expression for numbers, and SerializeInstancesToCSVStream. By induction over fields and records the reader gives back what the writer wrote; with C34 the table follows. Spec/CsvText.lean says what a number is. *partial.* Proved: records of any texts survive (C107_records), except for a carriage return before a newline and records of one empty field; a column is numeric exactly if its first text is a number (C107_numbers); what is written (C107_writes); and a table comes back with its names, rows and texts (C107_round_trip_partial, C107_texts, C107_floats). Refuted in general (C107_refuted): a categorical column that starts with a number becomes a float column or makes the file unreadable (C107_number_category, C107_number_category_fails); rows with an empty text are lost or changed (C107_empty_rows, C107_empty_text); carriage returns are lost (C107_carriage_return); and filtered instances whose filter makes more columns lose the last ones, even the class, since Size is that of the source (C107_filtered_loses). Missing: these cases, and that values are numbered in the order in which they occur in the file.
* **C108 A CSV file read with a template has the template's columns, classes and codes** - Model/Template.lean models CopyDenseInstances, with the order of the groups arbitrary, and the reader with a template. An invariant over the copied attributes gives a grid with the same columns and zero cells; the lemmas of C34 about reading records give the cells. Spec/Template.lean says what the result must be. *partial.* Proved when attributes in one group of the template are compatible (C108_template_partial, C108_codes). Refuted in general (C108_refuted): two categorical columns of the template with different values are kept in one group, and copying it then panics, for every file (C108_panics, C108_two_categories). A file with a column the template lacks is an error (C108_unknown_column), and so is a file without header for a template with named columns (C108_no_header). New values in the file are added to the attribute that the template shares (C108_witness).
* **C109 A CSV file read with attribute groups has every column in the group asked for** - Model/Csv.lean models the reader with groups; the order in which groups are created is an arbitrary permutation. An invariant over the added columns says where each column is; the lemmas of C34 about reading records give the cells. Spec/CsvGroups.lean says what the result must be. *partial.* Proved when no group has a name that AddAttribute uses for its own groups and columns in one group are compatible (C109_groups_partial). Refuted in general (C109_refuted): for a file with header the result has a row of zeros too many, because the header is counted as a line (C109_extra_row). With a group called FLOAT0 for a binary column, the columns of numbers are put into that group and their numbers are lost (C109_auto_name_fails).
* **C110 Rows converted to matrices hold the numbers of the given columns** - Model/Cluster.lean models both functions over the grid of Model/Grid.lean; the sort of ResolveAttributes is an arbitrary permutation. The lemma is shared with DBSCAN (C73). *proved.* The comparison in the sort of ResolveAttributes is always false, so the sort is an arbitrary permutation in the model; C110_rows gives the order of attrs if it leaves lists of that length as they are. Without attributes the conversion of a row panics (C110_none).
* **C111 Instances over a matrix show the matrix** - Model/Mat.lean models the type with the matrix as a list of rows of bit patterns. Spec/Mat.lean has the cells of a matrix and the calls. The class attributes follow by an invariant over the calls. *proved.* The numbers of rows and columns are not compared with the matrix: a row that the matrix lacks is counted, and reading it panics (C111_unchecked).
* **C112 A data frame becomes a data set with the same names, rows, texts and numbers** - Model/Frame.lean models the frame as named columns of values, with Go's formatting and parsing as arbitrary functions. A row of the frame is read like a CSV record with a mark in front of each field, which makes the lemmas of C34 apply. The frames that can be converted are given exactly; all others panic. *partial.* Proved with numbers as their texts read (C112_frame_partial). Refuted for the numbers themselves: floats are printed with six decimals, so one ten-millionth becomes zero (C112_refuted); a float that survives its text is kept (C112_float_kept). A frame without rows, a missing value in the first row, or a missing value in a numeric column panics (C112_otherwise_panics, C112_missing_panics); a missing string is a category of its own (C112_witness).
* **C113 A classifier is not loaded from the file of another kind of classifier** - Spec/Formats.lean lists the kinds, the files each can save and the outcome of each Load. For each saver the names of all entries it writes are bounded by a set of prefixes; for each loader the first entry it needs is not among those of other kinds. Members of bagged and one-vs-all models are arbitrary savers that keep to their prefix. *partial.* No file of another kind is loaded, and the refusal is an error (C113_refused_partial) with these exceptions: loading the file of a naive Bayes classifier, a random tree or a random forest as k nearest neighbours panics, because these files are labelled KNN (C113_panics, C113_refuted); naive Bayes and one-vs-all models share the first entry they read, and for them it is only shown that the load does not succeed. The two tree classifiers load each other's files alike (C113_trees). C113_witness runs all 81 combinations.
* **C114 The printed text of a data set shows its attributes, class attributes and rows** - Model/Show.lean has the text of the four kinds of data sets, Spec/Show.lean the lines expected. The proof resolves the attributes as C23 does and reads each cell through the table a data set presents; the star follows from the class attributes of C09. For RowString the texts of the groups are joined, and no group may be empty. *partial.* C114_dense_partial, C114_view_partial, C114_filtered_partial and C114_mat_partial give the whole text, C114_row_dense_partial and C114_row_partial the row strings. Texts of the cells shown must exist: C114_no_category shows that String panics for a categorical attribute without categories. C114_refuted: a class attribute that was given to a view through an equal attribute has no star, the first row of a view stands on the line of the heading, an empty group leaves two spaces, the row string of a matrix is only its number, and the stars of a matrix are at the wrong columns when the sort changes the order, so C114_mat_partial assumes that it does not.
* **C115 The printed evaluation shows every row, count and metric** - Model/Report.lean has the text given to the tab writer, whose alignment is a parameter, as are the number formats. Spec/Report.lean has the table and the cells of a summary line in terms of the list of pairs of labels. The counts are those of C36; the sum over the printed entries is exchanged with the count over rows. *partial.* C115_matrix_partial and C115_summary_partial give the printed texts from the pairs of labels for every order, C115_tables_partial from the two tables. C115_rows_shown: the table has all rows exactly when every predicted label is also the label of a row. C115_refuted: a label that is only predicted has no column and no line, so rows are missing. The alignment by the tab writer and the formatting of numbers are parameters.
* **C116 Fitting an ID3 tree trains on one part of the rows and prunes with the other** - Model/Id3.lean composes the models of the split, of the tree and of pruning. Proofs/Id3.lean shows that pruning keeps the fit to the training rows, that a split with no validation row is given up, and that both parts of a dense table meet the conditions of the tree theorems. The rows of the two parts are mapped back to the rows of the caller's table through the shuffle. *partial.* C116_pruned_partial is for dense tables when both parts have a row, and for the comparison with the tree before pruning when it has a branch for the values of the validation rows and no number prints as 0 or 1 (see C49). C116_whole is without pruning, for any instances. C116_no_validation_rows: with an empty validation part every split is given up. C116_reorders: the caller's rows are shuffled. C116_empty_parts: an empty training part makes Fit panic. C116_refuted: the full claim fails. Splitting a view does not partition its rows (C22).
* **C117 The printed CART tree shows every test and every prediction** - Model/CartText.lean has the printed text, with the format of numbers as a parameter. Spec/CartText.lean has the tests and predictions of a tree as texts. Proofs/Lines.lean shows that a text has only one list of lines, Proofs/CartText.lean that the lines of a tree have only one reading, by induction over the tree with a case for which sides have a child. *partial.* C117_text_shows: the text determines the shape, the features, the printed thresholds and the printed predictions. C117_same_text_partial and C117_classifier_partial: the same text gives the same predictions if the format tells the thresholds of the two trees apart. C117_refuted: with three decimals it does not, so trees with the same text can predict differently. C117_prints: every fitted tree can be printed. Number formats are parameters that give no line break.
* **C118 The printed ID3 tree shows every rule, branch and class** - Model/TreeText.lean has the printed text, with the format of numbers and the sorting of strings as parameters. Spec/TreeText.lean says when trees are alike. Proofs/TreeText.lean shows by induction over the tree, and inside it over the sorted branches, that the lines have one reading: the number of tabs tells where a subtree ends. *partial.* C118_text_shows_partial: trees whose names have no line break and whose branches do not begin with a tab have the same text exactly when they are alike. C118_order needs no condition on names. C118_same_text_partial: the same text gives the same predictions for rows with known values, if attributes have different names without <, and the format tells the thresholds apart. C118_refuted: values with line breaks give two trees with the same text and different predictions.
* **C119 Tables do not share storage** - Model/Memory: memory as a list of arrays; a byte slice is a window into one. Tables hold the addresses of their groups' arrays, `Get` of a fixed group returns a window, of a binary group a new array, `resize` allocates, `swapRows` copies the second value first. Views and filtered grids refer to tables. A client history may make tables, restructure, extend, read, write, swap, copy, keep slices and write into them. An invariant (no two groups share an array; a slice into a table's array came from that table) is kept by every step, and each step simulates the value model used in the other files. This is what licenses treating grids as values there. *proved.* For all histories: C119_tables_separate (only calls on a table and writes into its own slices change it and the grids above it), C119_calls_on_values and C119_get_on_values (each call succeeds, fails and acts as on plain values whatever is shared). Not modelled: slices of attributes and specifications (not bytes), data races between goroutines, filters whose Transform returns its argument (treated as a new array).
* **C120 A value that was read stays as it was read** - Same memory model as C119. The claim is false for attributes stored in whole bytes: refute it with a two-step history. Prove what holds instead: such a slice is a live window (it shows what Get would return now, and writing into it is Set) until the table is extended, which cuts it off for good; a slice of a binary attribute or of a filtered value is a snapshot. *partial.* False as stated: C120_not_a_snapshot (a float cell that was read changes when the cell is set, base/fixed.go:81-84). Proved for all histories: C120_live_partial (live window, also through views), C120_write_through (writing into it is Set), C120_extend_detaches (Extend cuts it off), C120_bits_snapshot and C120_filtered_snapshot (these are snapshots).
* **C121 A random forest learns from samples and predicts by majority** - Compose the models of sampling (C89), attribute selection and Fit schedules (C66), tree building (C48, C50), tree prediction (C47) and the voting pipeline (C64, C65). A sample is compared with its twin, a view that shows the drawn rows both when read and when iterated over; they differ only at the root of the tree. Characterise the tree exactly, refute that it fits the sample, and prove the rest for all schedules. *partial.* False as stated: C121_refuted (the root sends row q of the sample to the branch of row q of the data, because iteration over a sample ignores the draws). Proved: C121_grows (Fit succeeds; exactly what each tree is), C121_identity (it fits if the draws are the identity), C121_one_feature (with one feature per tree every tree is a leaf), C121_forest_partial (prediction under all schedules: no panic, can be completed, majority of the trees, answers are labels drawn).
* **C122 A multi-class linear support vector classifier gives each row the first class whose own model claims it** - Model/MultiSvc composes the one-vs-all model (Model/OneVsAll) with the linear support vector machine (Model/Liblinear). The filter's view of the data is shown to be a table with the labels 0 and 1; the theorems about training and predicting with liblinear are applied to it, and the outputs are fed into the theorem about one-vs-all choice. *partial.* Partial: the full claim (MultiSvcFaithful) is refuted (C122_refuted), because negative numbers of the row to predict are dropped. Proved: what each model is trained on, that fitting and predicting succeed, and that a row gets the first class whose model claims the row with its negative numbers replaced by 0; for rows without negative numbers this is the full claim. Data read separately gets the value with the same number in its own list. Also: a class without a configured weight is trained with the weight 0, and a model fitted on no rows crashes when predicting.
* **C123 Evaluating a k-nearest-neighbours classifier measures predictions from rows that are not being tested** - Model/Pipeline presents the classifier to the cross-validation loop. Spec/Pipeline says what a part of a table is, what it means that a classifier answers by a rule, and what k nearest rows of a set are, in row numbers of the original table. A general lemma turns an answering rule into what cross-validation and the split return; C44 supplies the rule. *proved.* Proved for the table as a whole (C123_cross_validation, C123_split), including the dispatch on the name of the distance and the fact that views never take the optimised path. Distances are exact, as in C44.
* **C124 Evaluating a naive Bayes classifier measures predictions from rows that are not being tested** - Model/Pipeline presents the classifier to the cross-validation loop, with its state carried from fold to fold. Spec/Pipeline defines the score of a label in row numbers of the original table. The general lemma of C123 is applied to C69; a second general lemma shows that a fold whose training panics makes the loop panic. *proved.* Proved (C124_cross_validation, C124_panics, C124_split). Numbers are exact, the logarithm is any function with the laws of one, and -math.MaxFloat64 is assumed to be below the smallest possible score, as in C69.
* **C125 Evaluating a decision tree measures predictions from rows that are not being tested** - Model/Pipeline presents the two classifiers to the cross-validation loop. The general lemma of C123 is extended by a model per fold, here the tree; C48 gives a tree that fits the part, and its rules are read on the original table. A new lemma shows that a descent ends at the class the tree leads to, whatever branch stands in for a missing value. *proved.* Proved (C125_id3, C125_random_tree, C125_split). That the rule generators of the code pick an attribute is C50. Pruning is not covered: Fit then splits the view it is given by LazyShuffle, which is not a permutation (C13).
* **C126 A model file with unexpected content is reported as an error** - Spec/Load defines what is of the right kind in a document, independently of the reading functions. No panic by induction on the depth of the document; the panics by computation. The full claim (never a panic) is refuted by a file with a null threshold. *partial.* The full claim is false (C126_refuted): a threshold or class values of null crash the program, and so do missing or wrong parameters of a nearest neighbours file (C126_knn_panics). Proved: C126_tree_partial, C126_attribute_partial, C126_attribute_panics, C126_attribute_list, C126_threshold_panics, C126_class_values, C126_naive_bayes, and for ensembles C126_bag_partial and C126_selected. Damage below the level of entries (gzip, tar) is not modelled, nor JSON keys that differ in case only, nor the text of a damaged linear model (load_model of liblinear).
* **C127 An estimator gives no result for settings or data it does not support** - Spec/Refuse says what is supported in terms of the attributes of a data set. Each estimator by following its checks. That predicting for other attributes is always an error is refuted by the averaged perceptron, which returns nothing and no error. *partial.* The full claim (always an error) is false: the averaged perceptron returns nil without an error for other attributes (C127_refuted), and several estimators panic, as stated in the theorems. The errors of the other estimators are in C35_mismatch, C42_errors, C68_rejects, C77_class_count, C79_undocumented and C88_fit.
* **C128 The metrics keep their meaning under float64 rounding** - Model/Float64.lean: round64, round to nearest even on the rationals, proved to give a nearest float64 (C128_rounding). Model/Eval64.lean: the metrics with every operation rounded. Sums of counts are exact below 2^53; monotone rounding keeps bounds that are float64s; errors by the standard model of rounding. *proved.* Round to nearest even as on amd64; no overflow can occur in these functions; NaN is none.
* **C129 Averages and regression losses under float64 rounding** - Model/Average64.lean: the averages and losses with every operation rounded. Monotone rounding for bounds; the error of a sum by induction; the counterexample by computing three roundings. *partial.* The full claims fail (C129_refuted, C129_constant_refuted). Proved: the prediction is the computed average of k nearest rows, error bounds for all values, the full claim for whole numbers and for one or two values, losses never negative. No overflow in the model.
* **C130 Split thresholds under float64 rounding separate the values** - Model/Average64.lean: midpoint64, drawn64 and selectValue64 with every operation rounded. Monotone rounding keeps thresholds in the range; relative error bounds give separation; counterexamples by computing roundings. *partial.* The full claims fail (C130_refuted, C130_isolation_refuted). Proved: thresholds stay in the range for all values, values further apart than 2^-50 are separated, isolation splits whose threshold is not rounded to an end have rows on both sides.
* **C131 The distances are metrics under float64 rounding** - Model/Metrics64.lean: the three distances with every operation rounded; mat.Sum and math.Sqrt are parameters with contracts. Differences of float64s are never rounded to zero; sums of non-negative float64s are at least each summand; errors of sums by induction. *partial.* The full claims fail (C131_euclidean_refuted, C131_triangle_refuted). Proved in full for Manhattan and Chebyshev except the triangle inequality, which holds up to the rounding error (C131_triangle_partial). Infinities and NaN are not modelled.
* **C132 Equal-width binning under float64 rounding** - Model/Bins64.lean: width, bin and edges with every operation rounded. Monotone rounding; relative errors of the quotient bounded by 2^-13, below 0.0001; the counterexample by computing roundings below the normal range. *partial.* The full claim fails (C132_refuted). Proved for all widths of at least 2^-1022; monotone, not negative and the lowest bin for all ranges. Infinities and NaN are not modelled.
* **C133 CART impurities under float64 rounding** - Model/Bins64.lean: both impurities with every operation rounded. Shares of at most 2^53 rows are 0 or 1 only for absent and only labels, and their products do not underflow; sums of non-negative float64s are at least each summand. *proved.* math.Log2 is a parameter with a contract. The regression counterpart fails: C129_constant_refuted.
* **C134 Storage groups chosen by AddAttribute fit into a page** - Invariant over repeated AddAttribute on Model/Dense.lean: names of groups are injective, the group named kind+j holds exactly the attributes of that kind whose running number falls into the j-th page (Proofs/Pages.lean). *proved.* For tables built with AddAttribute only; C134_named_refuted shows what a hand-made group of the same name does.
* **C135 Evaluating a random forest measures predictions from rows that are not being tested** - `forestOps` composes the forest, its goroutines (driven by any scheduler that only chooses goroutines that can move) and the votes into a classifier; `AnswersWith` for it follows from C121, C64, C65 and C66, and `crossValidate_with` and `split_with` give the two ways of evaluating. *proved.* Numbers are exact (as in C50 and C121). What a tree is grown from is stated with `FitsSample`, because the root sends drawn rows to the branches of other rows (C121).
* **C136 Numbers stored as bit patterns are compared, split and sorted as the numbers they stand for** - `val64` decodes patterns and `bits64` encodes rounded results; decoding is strictly increasing in the pattern, which gives the order and the encoding. `C136_threshold` shows that `float64` meets the assumption `ExactOn` of the theorems about trees (C50, C121, C135), with C130 for the middle. Sorting follows from C15 and the order of patterns. *partial.* False as stated for sorting: -1 and 1 come out in the opposite order (`C136_sort_full_fails`), because negative patterns are compared as larger. Proved for sorting: columns of one sign whose lowest byte is below 128, whole numbers below 2^45, and for columns that are not negative, misplaced numbers differ by less than a relative 2^-44. Patterns, comparisons, thresholds and truth values are proved in full.
* **C137 A classifier evaluated on a CSV file is measured on the lines of the file** - `loadCSV` is the parser of C34 and C107 with attributes seen through their addresses (`Dense.current`): values that were added while reading are visible in the table. `DenseOK.current` carries the invariants of tables over, `loaded_data` gives the training data of C48, C123 and C125, and C138 covers thresholds and entropies in `float64`. Nearest lines are stated with the numbers in the file. *proved.* The file is as described in `DataFile`, and its numbers are finite. Sorting the columns with the comparison that is always false keeps their order (see C34 for what happens otherwise).
* **C138 Rounding in entropies and logarithms cannot break the building of a decision tree** - `Model/EntropyF` has the generators statement by statement with the operations on entropies as parameters, of which nothing is assumed. The scan for a threshold ends because a midpoint of finite `float64` is not NaN (C136), the loops over attributes keep a candidate. C48 then gives the tree. `exactArith` is exact arithmetic with the rules of IEEE 754 for infinities and NaN; with it the generators are those of C50 to C52, whatever the orders of iteration, by induction over the loops. *proved.* Numbers are finite: with NaN the scan never ends (`C138_nan_never_ends`). A random tree may ask for more attributes than are left (C52). Which rule is best after rounding is not claimed.
* **C139 A decision tree stops growing only when it must** - `Tree.GrownOut` says where leaves may be. It is proved along the recursion of `inferLoop`, carrying rows and attributes of the views back to the table. The scan for a threshold finds one unless the column has one number, by induction over its turns. Without numeric attributes, rows that share a leaf with different labels then agree on all attributes but one. The whole claim is refuted: the last attribute is never tested. *partial.* The code makes a leaf as soon as one attribute is left besides the class, so the last attribute is never tested and a table with one attribute always gives a single leaf (`C139_last_attribute`, `C139_refuted`). Proved with that excuse allowed. Entropies and midpoints are exact here; see C138 for rounding.
* **C140 A model file cut short by a crash loads as the model that was saved, or is an error** - A file whose writing was interrupted is a first part of the list of entries, `CutShort`. Looking up a name in it gives the same entry or an error. This is carried through every loader by a relation on outcomes, `SameOrError`, which sequencing and loops preserve. For the errors: the last entry that is saved has a name that no entry before it has, and loading asks for it. The cells of a table are read without looking up a name, so that an incomplete entry is treated by induction over the cells. *proved.* An incomplete entry counts as missing, because reading it is an error of the tar and gzip readers of the standard library; this is an assumption. For one-vs-all models and MultiLinearSVC it is not proved that a file lacking an entry is always an error, only that it never loads as another model.
* **C141 A save that reports success has written the whole model** - A file that is being written has entries on the disk and entries in the buffers; an arbitrary function says which hand-over to the file fails and after how many entries, another when the buffers are full. Invariant: the disk has a first part of what was written, and while there was no error, disk and buffers together have all of it. For those who drop errors, a disk that fails exactly when the last entry is flushed gives the counterexample for every list of entries; with C140 the file is an error on loading. *partial.* Partial: refuted for the models that drop the error of Close or do not call it, as the statement says, see C141_full_false; proved for the others. That gzip.Writer and tar.Writer keep an error and report it on the next call is an assumption.
* **C142 A table written to a path is what the file at that path then contains** - A file is a list of bytes or absent; writing to a file that was opened without being emptied replaces the bytes at the start. CSV text goes through one buffer, so that a first part is written; ARFF text is a list of pieces written one by one, each with its own outcome. The text is that of C107 and C105, and the pieces are proved to make it up. Stale rows: the records of the new text followed by those of the old rest are read by C107. Binary files use the model of C141. *partial.* Partial: refuted for CSV and ARFF files, as the statement says, see C142_csv_full_false and C142_arff_full_false. That bytes after the end of the archive in a binary file are not read, and what is in a binary file after an error, is not modelled.
* **C143 Loading into a classifier that is in use replaces it, or leaves it as it was** - Each Load method as a function from the classifier and the file to the classifier afterwards and the outcome, assignment by assignment. The outcome and the result on success are proved to be those of the functional loaders of C98, C99, C100, C101 and C103. KeepsOnError and Replaces are the two halves of the property; they are proved, or refuted with what is left instead, for every old state. For nodes and class weights, reading JSON into a map keeps the entries that the document does not have. *partial.* Partial: refuted except for naive Bayes classifiers, as the statement says. What json.Unmarshal leaves in a tree or in parameters when it fails half way is an arbitrary value. One-vs-all models in place are not modelled.
* **C144 A model that is fitted again is that of its last training data** - Fit as a function of the old model, over sequences of tables. Forgets says that the predictions after any sequence are those of a model fitted to the last table only. For naive Bayes, two models that differ in the probabilities of uncounted classes predict alike. For the perceptron, a closed form of the counter, the edges and the weights after a fit in any state, and two tables for which the predictions differ. For networks, the second fit of C72. For filters, training in any state by induction over the columns. *partial.* Partial: refuted for the perceptron (C144_perceptron_not), networks (C144_net) and conversion filters. Forests, one-vs-all models, support vector machines, regressions, CART, isolation forests, EM and PCA build a new model in Fit, which their models here already show: they take no old state.
* **C145 The parts of a split stay a partition of the table, but not what they were** - The memory model of C119, with Shuffle as exchanges of rows of a table and views as references. The split is proved to give the parts of the value model of C22. Steps that at most exchange rows of the table compose to a permutation, so the parts remain a partition of the rows before the split; a concrete history refutes that they stay what they were. *partial.* Partial: PartsKept is refuted; what remains true is proved for all histories.
* **C146 Attributes are shared between tables: what new texts and predictions do to the data** - The contents of attributes are looked up by pointer in a store, and the grids of the other models are shown under a store. The store after any texts is proved to grow; growing keeps which attribute is found where, by induction over the grid. The predictions of the three families are proved to be sequences of SetClass calls on a prediction vector. Two concrete cases refute the full claims. *partial.* Partial: TextsDoNotInterfere and PredictingLeavesData are refuted; the part that is true is proved for all plain grids. Filtered grids are not covered, nor are the goroutines of an ensemble.
* **C147 Members of an ensemble that predict at the same time share the class attribute** - A small-step machine in which every access to the shared slice is a step: reading the slice header, comparing one element, writing the element of append into the array or into a new one, setting the header, reading the length. An invariant over all schedules keeps the initial values as a beginning of every slice in use; a second invariant holds while calls do not overlap. Concrete schedules refute the full claim. *partial.* Partial: AnyScheduleDecodes is refuted; known labels are proved safe in every schedule and new ones when calls do not overlap. Torn reads of slice headers and weak memory are not modelled.
* **C148 Predicting again: what the result depends on besides the data** - The orders are parameters of the models. From the theorems of C44 and C65 a prediction is one of the best; clearness of the data makes the best unique. For trees a relation says which leaf the values of a row lead to. Concrete data with two orders refutes the claim for ties. *partial.* Partial: KnnRepeats is refuted; the theorems give the class under all orders where there is no tie. For naive Bayes see C69_order_independent. That building a tree is repeatable is not claimed.
* **C149 Several goroutines that set and get cells of one table** - A machine with shared arrays and one step for each access to a byte or to the slice. Invariant: the bytes of a goroutine's cells will end as if it were alone, since the steps of the others write other bytes; offsets of different cells do not overlap. Then the storage equals that of the sequential model. Concrete schedules refute the claim for shared bytes, Extend and overlapping Get. *partial.* Partial: AnyScheduleFills is refuted for binary attributes of one row (C149_lost). Reordering of memory accesses is not modelled, a step is one access to one byte, and the unread field maxRow is left out.
* **C150 Several goroutines that build the columns of one table** - A machine whose steps are the sections under the lock, so that choosing a class attribute is two steps. Invariant: what a goroutine has found would be found again, since attributes are only added and differ from it; so the second step is the moment of the call. A concrete schedule with equal attributes is checked against all orders. *partial.* Partial: AnyScheduleInSomeOrder is refuted for equal attributes (C150_equal). C150_no_panic: no schedule panics if nobody extends the table, or nobody calls AddAttribute; otherwise the schedule decides (C150_extended_first), and the schedule ends at the panic. AllAttributeGroups, which takes no lock, is not modelled; for Set and Get see C149.
* **C151 Training a decision tree again: when the tree is the same** - Two runs are two environments with arbitrary orders at each node. By induction over the building of the tree, every node tests an attribute with the greatest score for its rows; together with the fit of the tree (C48) and its growth (C139) this leaves one tree if there are no ties, by induction over the tree. Ties are shown to be broken by the order of the candidates for all data, and the full claim is refuted with two training rows. *partial.* Partial: false for data with ties (`C151_ties`, `C151_refuted`) and, with the Gini generator, for all data (`C151_gini`). Numeric attributes are not covered. `C151_same_class_partial` and `C151_training_rows_partial` are for information gain, for rows with a branch for every value.
* **C152 Training on the same rows in another order** - A reordering is a pair of tables and a permutation that maps the cells of one to the cells of the other; Shuffle and Sort are shown to give one (C12, C14). Counts of rows are invariant under the permutation, which gives the numbers of naive Bayes and the confusion matrix. For trees the fit, the growth and the greedy choice (C48, C139, C151) are carried along the permutation, then C151 applies. For nearest neighbours the clearly nearest rows are carried back. Ties are refuted with three rows in two orders. *partial.* Partial: false with ties (`C152_refuted`, same environment, three rows in two orders). Proved in full for the numbers of naive Bayes (`C152_naive_bayes`) and for the confusion matrix (`C152_confusion`). Trees with numeric attributes, other models and lazily shuffled views are not covered; the view of LazyShuffle may repeat rows (C13).
* **C153 A CART tree does not depend on the order of the training rows** - Two runs are related step by step: the sorted distinct values of a column are the same list, so the thresholds are; the two sides of a threshold are permutations of each other; every loss is the same for permuted labels. The best split so far is therefore the same up to the order of its rows, and induction on the depth gives equal trees. Fit on data sets is reduced to rows with C55, Shuffle with C152. *proved.* Numbers are exact. With float64 the sums of the regressor may be rounded differently in another order; the losses of the classifier are functions of counts.
* **C154 CART trees and the units of the columns** - As for C153, with the second run in other units: distinct values, midpoints and sides of a threshold are carried over by the conversion of the column, which keeps the order, and losses look at labels only. The best split is the same up to its threshold. The node without a split keeps its threshold 0, which refutes the claim about predictions for such trees. *partial.* Partial: false for trees without a split (`C154_refuted`: -10 degrees Celsius, 14 degrees Fahrenheit). The equality of the trees up to thresholds is proved in full (`C154_classifier`, `C154_regressor`). Numbers are exact.
* **C155 A CART tree does not change if every row occurs k times as often** - As for C153, with the second run on k copies: the distinct values and the thresholds are the same, the sides of a threshold are k copies, losses and weighted losses are quotients in which k cancels, and the most frequent label is the same. The recursion of the model is bounded by the number of rows, so a lemma says that more steps give the same tree. *proved.* Numbers are exact; with float64 the quotients of the classifier are those of multiplied counts, which are rounded alike only if the division rounds exactly the same quotient, as IEEE division does.
* **C156 A linear regression is determined by the rows of the training data** - The midpoint of two minimisers has a smaller sum of squared errors unless they agree on all rows, which independent columns exclude. Coefficients found for one order of the attributes are moved to the other one, and the sum of squared errors does not depend on the order of the rows. *proved.* Exact arithmetic over an ordered field; the factorisation is a parameter with its contract as a hypothesis, one for each of the two runs. With float64 the two results differ by rounding.
* **C157 Linear regression does not depend on units or on how often all rows are repeated** - Spec/Rewritten says what the second table is. The sum of squared errors of converted coefficients is k times the square of the factor of the class times the old one, so the converted coefficients of the second run are a minimiser of the first one, and C156 says there is only one. *proved.* Exact arithmetic over an ordered field; the factorisation is a parameter with its contract as a hypothesis. With float64 the two results differ by rounding.
* **C158 CART regressor predictions follow a change of the units of the labels** - As for C154: the two runs are compared step by step. Mean absolute errors are multiplied by the absolute value of the factor, mean squared errors by its square, so every comparison of losses has the same result. *partial.* Exact arithmetic. Refuted as stated: a tree without a split (all labels equal, or no column that separates rows) predicts zero in any unit, see C158_refuted. Proved for all trees with a split.
* **C159 Nearest neighbour predictions do not depend on units** - C148 says which class a row with clear neighbours gets. If all columns have the same factor, all distances are multiplied by one positive number, for the square of the Euclidean distance and the Manhattan distance, so the same rows are clearly nearest. *partial.* Refuted as stated: with another factor for one column, the nearest row changes, see C159_refuted; nothing in the library normalises columns. Proved for the same factor in all columns and any shifts, for rows with clear neighbours and a clear winner, with the linear search. With the k-d tree proved for a common factor without shifts where the origin is farther than the neighbours; otherwise even a shift of the only column changes a prediction, see C159_tree_origin.
* **C160 Nearest neighbours look at the numeric columns only, in any order** - Two runs on tables with the same numbers are compared step by step: the maps of distances are equal after every row, so the neighbours, votes and predictions are equal, ties included. The distances are sums over columns and do not depend on their order. For the k-d tree the points are equal if the columns are in the same order. *partial.* Proved with the linear search, for plain and weighted votes, as equality of the whole predictions for all choices of the run. With the k-d tree proved for columns in the same order; with another order the prediction can change, since the search takes the origin for a row or not, see C160_tree_refuted.
* **C161 Naive Bayes does not depend on the order of the columns** - The labels of both models are in the order in which the rows have them, and the score of a class is a sum over the features that does not depend on their order, so the loop over the classes takes the same class for every row. *proved.* Proved as equality of the results of Predict for all choices of a run. Scores are elements of an ordered field, so that sums do not depend on the order; with float64 sums in another order may differ in the last bits.
* **C162 The perceptron does not depend on the order of the columns** - By induction over rows and epochs both perceptrons have the same weight and the same edge for each column: an update and the average treat columns separately, and the score is a sum over the columns. The whole claim is refuted by a table of three rows. *partial.* Missing from C162_columns_partial: tables to predict whose columns are not in the order of the training data, for which C162_refuted shows that the claim is false. Numbers are exact, so that sums do not depend on the order of terms.
* **C163 Linear regression finds its columns by name** - The least squares solution of independent columns is unique (C156), and the squared error does not depend on the order of the columns, so both runs find the same coefficient for each column; Predict resolves the columns of the model by name. *proved.* Numbers are exact. The QR factorisation is that of the library: any that meets its contract.
* **C164 Trees and linear classifiers take columns by their places** - The rows that the conversion of instances gives are those of the numeric columns in the order of the table, moved in a way that depends on their number only, so two tables with the same numbers in the same places give the same rows. Concrete tables of two columns refute that names decide, and that a common order makes no difference. *partial.* The claim that columns are found by name is false (C164_refuted, C164_ties). The partial theorems say what holds instead: only places count. Training a linear support vector machine also weights the classes, which is not treated here.
* **C165 A decision tree looks at the columns of its rules only, by name** - By induction over the tree: a rule looks its attribute up by name and reads the cell of the row, so both tables lead to the same branch. The loop over the rows then does the same to the table of predictions. *proved.* Proved as equality of the results, including panics. The orders of the branches and of the rows are the same for both runs; C148 and C151 say what these orders can change.
* **C166 DBSCAN looks at the numbers of the chosen columns only, in any order and any units** - The loops of DBSCAN only ask which rows are within eps of each other, for row numbers below the number of rows. The distances of two rows are the same in both tables, or compare with eps in the same way. *proved.* Proved as equality of the results, including panics. The square of the Euclidean distance and the Manhattan distance meet the conditions (C160_distances, C166_distances). Numbers are those of an ordered field; rounding is not modelled here.
* **C167 DBSCAN puts the same rows together whatever the order of the rows** - Which rows are within eps, core rows and density-connected rows move with the rows. By C87 the clusters are the density-connected rows if there are no border rows. A table of five points on a line refutes the full claim. *partial.* The full claim is refuted (C167_refuted): points at 0, 3, 3, 3, 2 with eps 2 and a minimum of three. Proved without rows at the border of a cluster, and for a minimum count of at most two; there neither run fails.
* **C168 Expectation maximisation looks at the numbers of its columns only, row by row** - The matrix is the numbers of the columns of the model by row. Prediction takes the first component of greatest log-probability, row by row (C76). Equal matrices make the loop of Fit do the same. *proved.* Proved. The densities are a parameter of the model, as in C76. The class columns of a table are told apart before: the theorem on fitting takes the list of columns that are not class columns.
* **C169 Decision trees and linear regressions predict each row on its own** - For the tree by induction over its nodes, with the value of the row at each rule. For the regression from the exact value that is stored for a row. *proved.* Proved. The order in which the branches of a node are looked through is the same for both rows; it matters only for values without a branch (C148).
* **C170 Nearest neighbours predict each row on its own, without ties** - From C148 for both tables: rows with the same numbers are the same points, so the clearly nearest rows and the clear winner of the votes are the same. The full claim is refuted by two equal rows of one table with a tie. *partial.* Proved where the nearest rows are clear and one label has most votes, or most weight. With the k-d tree also only where at least k training rows are nearer than the origin, because a search visits places of the tree that hold no row and can return row 0 with the distance of the origin (C42). The full claim is false: two equal rows of one table with tied votes can get different classes in one run, because the votes are looked through in the order of a map.
* **C171 Naive Bayes judges each row on its own** - From C69 for both tables: the class of a row is one of the most likely, and how likely a class is depends on the features of the row only. *proved.* Proved. Which of several equally likely classes a row gets is left open: the order of a map decides.
* **C172 An ensemble judges each row by the votes of its models** - From C65 for both runs: the class of a row is one of those with most votes, and the number of votes depends on the predictions of the models for the row only. C64 gives runs that come to the end, for the witness. *proved.* Proved. Which of several classes with equally many votes a row gets is left open: the order of a map decides (C148).

## Discrepancies between the code and its documented behaviour

Proved (the theorem is named with the property above): C07, C13, C15, C17, C19, C22, C24, C25, C26, C30, C31, C32, C33, C34, C38, C42, C44, C49, C50, C51, C52, C56, C59, C60, C61, C62, C66, C68, C70, C71, C72, C73, C75, C78, C79, C80, C83, C85, C86, C87, C88, C89, C90, C91, C94, C95, C96, C98, C99, C100, C101, C102, C103, C104, C105, C106, C107, C108, C109, C112, C113, C114, C115, C116, C117, C118, C120, C121, C122, C126, C127, C129, C130, C131, C132, C136, C139, C141, C142, C143, C144, C145, C146, C147, C148, C149, C150, C151, C152, C154, C158, C159, C160, C162, C164, C167, C170.

Seen while reading and not stated as theorems:

* knn: a float class is used as a feature when some attribute is not a float; when all are floats the last attribute is dropped; filtered training data with other attribute objects panics in ResolveAttributes; the optimised path without feature groups votes for row 0 only.
* ID3: two columns make a leaf without looking at the data; zero training rows give a node without branches and Predict panics.
* Bagging: the outputs of the models share the class attribute object, which is a data race when a model changes it; a negative RandomFeatures selects no features.
* One-vs-all: a float feature with the class's name clashes with the class; the best score starts at 0.0.
* Naive Bayes: conditional probabilities of an earlier Fit are not cleared.
* Filtered grids: Size reports the number of columns of the source.
* RemoveClassAttribute handles the first match only.
* CSV: an empty categorical field reads as the first category; the last matching template wins in ParseMatchAttributes.
* Network training: a connection with an initial weight of at most 1/200 is removed.
* LinearSVC and LogisticRegression match columns by position; the bias nodes in liblinear.go have index 0.

## What is modelled, file by file

Generated from the citations in the model: a function counts as modelled when a definition cites lines inside it. Its comment says what is simplified. Functions in the last column are not modelled.

| file | modelled | not modelled |
|---|---|---|
| base/arff.go | SerializeInstancesToDenseARFF, SerializeInstancesToDenseARFFWithAttributes, SerializeInstancesToWriterDenseARFFWithAttributes, ParseARFFGetRows, ParseARFFGetAttributes, ParseDenseARFFBuildInstancesFromReader, ParseDenseARFFToInstances | - |
| base/bag.go | BinaryAttributeGroup.RowSizeInBytes, BinaryAttributeGroup.AddAttribute, BinaryAttributeGroup.getByteOffset, BinaryAttributeGroup.set, BinaryAttributeGroup.get, BinaryAttributeGroup.appendToRowBuf, BinaryAttributeGroup.resize | BinaryAttributeGroup.String, BinaryAttributeGroup.Attributes, BinaryAttributeGroup.Storage, BinaryAttributeGroup.setStorage |
| base/binary.go | BinaryAttribute.MarshalJSON, BinaryAttribute.UnmarshalJSON, BinaryAttribute.GetName, BinaryAttribute.GetSysValFromString, BinaryAttribute.GetStringFromSysVal, BinaryAttribute.Equals, BinaryAttribute.Compatible, BinaryAttribute.String | NewBinaryAttribute, BinaryAttribute.SetName, BinaryAttribute.GetType |
| base/categorical.go | CategoricalAttribute.MarshalJSON, CategoricalAttribute.UnmarshalJSON, CategoricalAttribute.GetName, CategoricalAttribute.GetSysVal, CategoricalAttribute.GetUsrVal, CategoricalAttribute.GetSysValFromString, CategoricalAttribute.String, CategoricalAttribute.GetStringFromSysVal, CategoricalAttribute.Equals, CategoricalAttribute.Compatible | NewCategoricalAttribute, CategoricalAttribute.GetValues, CategoricalAttribute.SetName, CategoricalAttribute.GetType |
| base/conversion.go | ConvertRowToMat64, ConvertAllRowsToMat64 | checkAllAttributesAreFloat |
| base/csv.go | ParseCSVGetRowsFromReader, ParseCSVEstimateFilePrecisionFromReader, ParseCSVGetAttributesFromReader, ParseCSVSniffAttributeNamesFromReader, ParseCSVSniffAttributeTypesFromReader, ParseCSVBuildInstancesFromReader, ParseCSVToInstancesFromReader, ParseMatchAttributes, ParseCSVToTemplatedInstancesFromReader, ParseCSVToInstancesWithAttributeGroupsFromReader | - |
| base/dataframe_go.go | ConvertDataFrameToInstances | - |
| base/dense.go | NewDenseInstances, copyFixedDataGridStructure, NewStructuralCopy, NewDenseCopy, DenseInstances.createAttributeGroup, DenseInstances.CreateAttributeGroup, DenseInstances.AllAttributeGroups, DenseInstances.GetAttributeGroup, DenseInstances.AddAttribute, DenseInstances.AddAttributeToAttributeGroup, DenseInstances.GetAttribute, DenseInstances.AllAttributes, DenseInstances.AddClassAttribute, DenseInstances.RemoveClassAttribute, DenseInstances.AllClassAttributes, DenseInstances.allClassAttributes, DenseInstances.realiseAttributeGroups, DenseInstances.Extend, DenseInstances.Set, DenseInstances.Get, DenseInstances.RowString, DenseInstances.MapOverRows, DenseInstances.Size, DenseInstances.swapRows, DenseInstances.String | - |
| base/domain.go | - | SaveEstimatorToGob |
| base/error.go | - | wrapLinesWithTabPrefix, GoLearnError.Error, GoLearnError.attachFormattedStack, DescribeError, WrapError, FormatError |
| base/filewrapper.go | ParseCSVToInstances | ParseCSVGetRows, ParseCSVEstimateFilePrecision, ParseCSVGetAttributes, ParseCSVSniffAttributeNames, ParseCSVSniffAttributeTypes, ParseCSVToTemplatedInstances, ParseCSVToInstancesWithAttributeGroups |
| base/filtered.go | NewLazilyFilteredInstances, LazilyFilteredInstances.GetAttribute, LazilyFilteredInstances.AllAttributes, LazilyFilteredInstances.AddClassAttribute, LazilyFilteredInstances.RemoveClassAttribute, LazilyFilteredInstances.AllClassAttributes, LazilyFilteredInstances.transformNewToOldAttribute, LazilyFilteredInstances.Get, LazilyFilteredInstances.MapOverRows, LazilyFilteredInstances.RowString, LazilyFilteredInstances.Size, LazilyFilteredInstances.String | - |
| base/fixed.go | FixedAttributeGroup.RowSizeInBytes, FixedAttributeGroup.AddAttribute, FixedAttributeGroup.Storage, FixedAttributeGroup.offset, FixedAttributeGroup.set, FixedAttributeGroup.get, FixedAttributeGroup.appendToRowBuf, FixedAttributeGroup.resize | FixedAttributeGroup.String, FixedAttributeGroup.Attributes, FixedAttributeGroup.setStorage |
| base/float.go | FloatAttribute.MarshalJSON, FloatAttribute.UnmarshalJSON, FloatAttribute.Compatible, FloatAttribute.Equals, FloatAttribute.GetName, FloatAttribute.String, FloatAttribute.GetSysValFromString, FloatAttribute.GetStringFromSysVal | NewFloatAttribute, FloatAttribute.SetName, FloatAttribute.GetType, FloatAttribute.CheckSysValFromString, FloatAttribute.GetFloatFromSysVal |
| base/logger.go | - | SetLogger, SetLoggerOut, Silent |
| base/mat.go | InstancesFromMat64, Mat64Instances.GetAttribute, Mat64Instances.AllAttributes, Mat64Instances.AddClassAttribute, Mat64Instances.RemoveClassAttribute, Mat64Instances.AllClassAttributes, Mat64Instances.Get, Mat64Instances.MapOverRows, Mat64Instances.RowString, Mat64Instances.Size, Mat64Instances.String | - |
| base/serialize.go | FunctionalTarReader.GetNamedFile, ClassifierDeserializer.Prefix, ClassifierDeserializer.ReadMetadataAtPrefix, ReadSerializedClassifierStub, ClassifierDeserializer.GetBytesForKey, ClassifierDeserializer.GetJSONForKey, ClassifierDeserializer.GetInstancesForKey, ClassifierDeserializer.GetU64ForKey, ClassifierDeserializer.GetAttributeForKey, ClassifierDeserializer.GetAttributesForKey, ClassifierSerializer.Close, ClassifierSerializer.WriteBytesForKey, ClassifierSerializer.WriteU64ForKey, ClassifierSerializer.WriteAttributeForKey, ClassifierSerializer.WriteAttributesForKey, ClassifierSerializer.WriteInstancesForKey, ClassifierSerializer.Prefix, CreateSerializedClassifierStub | NewFunctionalTarReader, tarPrefix, ClassifierDeserializer.GetStringForKey, ClassifierDeserializer.Close, ClassifierSerializer.WriteJSONForKey, ClassifierSerializer.WriteMetadataAtPrefix |
| base/serialize_attributes.go | DeserializeAttribute, DeserializeAttributes, ReplaceDeserializedAttributeWithVersionFromInstances, ReplaceDeserializedAttributesWithVersionsFromInstances | writeAttributesToFilePart, MarshalAttribute, SerializeAttribute |
| base/serialize_instances.go | SerializeInstancesToFile, SerializeInstancesToCSV, SerializeInstancesToCSVStream, DeserializeInstancesFromTarReader, SerializeInstances, SerializeInstancesToTarWriter | DeserializeInstances |
| base/sort.go | sortXorOp, createSortSpec, Sort, LazySort | - |
| base/spec.go | byPosition.Less | byPosition.Len, byPosition.Swap, AttributeSpec.GetAttribute, AttributeSpec.String |
| base/util.go | PackU64ToBytesInline, PackFloatToBytesInline, PackU64ToBytes, UnpackBytesToU64, PackFloatToBytes, UnpackBytesToFloat, byteSeqEqual | - |
| base/util_attributes.go | NonClassFloatAttributes, NonClassAttributes, ResolveAttributes, ResolveAllAttributes, buildAttrSet, AttributeIntersect, AttributeIntersectReferences, AttributeDifference, AttributeDifferenceReferences | - |
| base/util_instances.go | GeneratePredictionVector, CopyDenseInstances, GetClass, SetClass, GetClassDistributionByBinaryFloatValue, GetClassDistributionByCategoricalValue, GetClassDistribution, GetClassDistributionAfterThreshold, GetClassDistributionAfterSplit, DecomposeOnNumericAttributeThreshold, DecomposeOnAttributeValues, InstancesTrainTestSplit, LazyShuffle, Shuffle, SampleWithReplacement, CheckCompatible, CheckStrictlyCompatible, InstancesAreEqual | GetAttributeByName |
| base/view.go | InstancesView.addClassAttrsFromSrc, InstancesView.resolveRow, NewInstancesViewFromRows, NewInstancesViewFromVisible, NewInstancesViewFromAttrs, InstancesView.GetAttribute, InstancesView.AllAttributes, InstancesView.AddClassAttribute, InstancesView.RemoveClassAttribute, InstancesView.AllClassAttributes, InstancesView.Get, InstancesView.MapOverRows, InstancesView.Size, InstancesView.String, InstancesView.RowString | - |
| clustering/clustering.go | ClusterMap.Invert, ClusterMap.Equals | - |
| clustering/dbscan.go | regionQuery, computePairwiseDistances, DBSCAN, BitCount | - |
| clustering/em.go | ExpectationMaximization.Fit, ExpectationMaximization.Predict, maximization, estimateLogProb, shrunkCovariance, initMeans, distance, vectorMin, vectorMax, means, where | NewExpectationMaximization, expectation, initCovariance, vecToInts, identity, symVals |
| ensemble/multisvc.go | NewMultiLinearSVC, MultiLinearSVC.initializeOneVsAllModel, MultiLinearSVC.Fit, MultiLinearSVC.Predict, MultiLinearSVC.Save, MultiLinearSVC.SaveWithPrefix, MultiLinearSVC.Load, MultiLinearSVC.LoadWithPrefix | MultiLinearSVC.GetClassifierMetadata, MultiLinearSVC.GetMetadata |
| ensemble/randomforest.go | RandomForest.Fit, RandomForest.Predict, RandomForest.GetMetadata, RandomForest.Save, RandomForest.SaveWithPrefix, RandomForest.Load, RandomForest.LoadWithPrefix | NewRandomForest, RandomForest.String |
| evaluation/confusion.go | GetConfusionMatrix, GetTruePositives, GetFalsePositives, GetFalseNegatives, GetTrueNegatives, GetPrecision, GetRecall, GetF1Score, GetAccuracy, GetMicroPrecision, GetMacroPrecision, GetMicroRecall, GetMacroRecall, GetSummary, ShowConfusionMatrix | - |
| evaluation/cross_fold.go | GetCrossValidatedMetric, GenerateCrossFoldValidationConfusionMatrices | - |
| filters/binary.go | NewBinaryConvertFilter, BinaryConvertFilter.Transform, BinaryConvertFilter.Train | BinaryConvertFilter.AddAttribute, BinaryConvertFilter.GetAttributesAfterFiltering, BinaryConvertFilter.String |
| filters/binning.go | BinningFilter.Train, BinningFilter.Transform, BinningFilter.GetAttributesAfterFiltering | NewBinningFilter, BinningFilter.String |
| filters/chimerge.go | chiMerge, ChiMergeFilter.Train, ChiMergeFilter.GetAttributesAfterFiltering, ChiMergeFilter.Transform | NewChiMergeFilter, ChiMergeFilter.String |
| filters/chimerge_freq.go | - | FrequencyTableEntry.String |
| filters/chimerge_funcs.go | ChiMBuildFrequencyTable, chiSquaredPdf, chiSquaredPercentile, chiCountClasses, chiComputeStatistic, chiMergeMergeZipAdjacent | - |
| filters/disc.go | AbstractDiscretizeFilter.AddAttribute, AbstractDiscretizeFilter.GetAttributesAfterFiltering, AbstractDiscretizeFilter.getAttributeSpecs | - |
| filters/float.go | NewFloatConvertFilter, FloatConvertFilter.Transform, FloatConvertFilter.Train | FloatConvertFilter.AddAttribute, FloatConvertFilter.GetAttributesAfterFiltering, FloatConvertFilter.String |
| kdtree/heap.go | heap.maximum, heap.extractMax, heap.insert | newHeap, heap.size |
| kdtree/kdtree.go | Tree.Build, Tree.buildHandle, Tree.Search, Tree.searchHandle, Tree.searchAllNodes | SortData.Len, SortData.Less, SortData.Swap, New |
| knn/knn.go | NewKnnClassifier, KNNClassifier.Fit, KNNClassifier.canUseOptimisations, KNNClassifier.Predict, KNNClassifier.vote, KNNClassifier.weightedVote, KNNClassifier.GetMetadata, KNNClassifier.Save, KNNClassifier.SaveWithPrefix, KNNClassifier.Load, KNNClassifier.LoadWithPrefix, ReloadKNNClassifier, KNNRegressor.Predict | KNNClassifier.String, NewKnnRegressor, KNNRegressor.Fit |
| knn/knn_opt_euclidean.go | KNNClassifier.optimisedEuclideanPredict | distanceRecs.Len, distanceRecs.Swap, distanceRecs.Less |
| linear_models/liblinear.go | NewParameter, NewProblem, Export, Load, Predict, convert_vector, convert_features | Train |
| linear_models/liblinear_print.go | - | libLinearPrintFunc, libLinearHookPrintFunc |
| linear_models/liblinear_print_11.go | - | libLinearPrintFunc, libLinearHookPrintFunc |
| linear_models/linear_regression.go | LinearRegression.Fit, LinearRegression.Predict | NewLinearRegression |
| linear_models/linearsvc.go | LinearSVCParams.Copy, LinearSVCParams.SetKindFromStrings, LinearSVCParams.convertToNativeFormat, NewLinearSVC, NewLinearSVCFromParams, LinearSVC.Fit, LinearSVC.Predict, LinearSVC.GetMetadata, LinearSVC.Save, LinearSVC.SaveWithPrefix, LinearSVC.Load, LinearSVC.LoadWithPrefix | LinearSVC.String |
| linear_models/logistic.go | NewLogisticRegression, LogisticRegression.Fit, LogisticRegression.Predict | LogisticRegression.String |
| linear_models/util.go | generateClassWeightVectorFromDist, generateClassWeightVectorFromFixed, convertInstancesToProblemVec, convertInstancesToLabelVec | - |
| meta/bagging.go | BaggedModel.generateTrainingAttrs, BaggedModel.generatePredictionInstances, BaggedModel.generateTrainingInstances, BaggedModel.Fit, BaggedModel.Predict, BaggedModel.Save, BaggedModel.Load, BaggedModel.SaveWithPrefix, BaggedModel.LoadWithPrefix | BaggedModel.AddModel, BaggedModel.String, BaggedModel.GetMetadata |
| meta/one_v_all.go | OneVsAllModel.Fit, OneVsAllModel.Predict, OneVsAllModel.Load, OneVsAllModel.LoadWithPrefix, OneVsAllModel.Save, OneVsAllModel.SaveWithPrefix, OneVsAllModel.generateAttributes, oneVsAllFilter.AddAttribute, oneVsAllFilter.GetAttributesAfterFiltering, oneVsAllFilter.String, oneVsAllFilter.Transform, oneVsAllFilter.Train | NewOneVsAllModel, OneVsAllModel.GetMetadata |
| metrics/pairwise/chebyshev.go | Chebyshev.Distance | NewChebyshev |
| metrics/pairwise/cosine.go | Cosine.Dot, Cosine.Distance | NewCosine |
| metrics/pairwise/cranberra.go | cranberraDistanceStep, Cranberra.Distance | NewCranberra |
| metrics/pairwise/euclidean.go | Euclidean.InnerProduct, Euclidean.Distance | NewEuclidean |
| metrics/pairwise/manhattan.go | Manhattan.Distance | NewManhattan |
| metrics/pairwise/poly_kernel.go | PolyKernel.InnerProduct, PolyKernel.Distance | NewPolyKernel |
| metrics/pairwise/rbf_kernel.go | RBFKernel.InnerProduct | NewRBFKernel |
| naive/bernoulli_nb.go | BernoulliNBClassifier.GetMetadata, BernoulliNBClassifier.Save, BernoulliNBClassifier.Load, BernoulliNBClassifier.LoadWithPrefix, BernoulliNBClassifier.SaveWithPrefix, BernoulliNBClassifier.Fit, BernoulliNBClassifier.PredictOne, BernoulliNBClassifier.Predict | BernoulliNBClassifier.String, NewBernoulliNBClassifier |
| neural/layered.go | NewMultiLayerNet, MultiLayerNet.convertToFloatInsts, MultiLayerNet.Predict, MultiLayerNet.Fit | MultiLayerNet.String |
| neural/network.go | NewNetwork, Network.GetWeight, Network.SetWeight, Network.SetBias, Network.GetBias, Network.Activate, Network.UpdateWeights, Network.UpdateBias, Network.Error | Network.String |
| pca/pca.go | PCA.FitTransform, PCA.Fit, PCA.Transform, mean, matrixSubVector | NewPCA, compute |
| perceptron/average.go | AveragePerceptron.updateWeights, AveragePerceptron.average, AveragePerceptron.score, AveragePerceptron.Fit, AveragePerceptron.Predict, processData, NewAveragePerceptron | - |
| trees/cart_classifier.go | convertToMap, computeGiniImpurityAndModeLabel, computeEntropyAndModeLabel, calculateClassificationLoss, classifierCreateSplit, classifierReOrderData, classifierUpdateSplit, CARTDecisionTreeClassifier.Fit, classifierBestSplit, CARTDecisionTreeClassifier.String, classifierPrintTreeFromNode, classifierPredictSingle, CARTDecisionTreeClassifier.Predict, classifierPredictFromNode, classifierEvaluateFromNode, classifierConvertInstancesToLabelVec | NewDecisionTreeClassifier, CARTDecisionTreeClassifier.Evaluate |
| trees/cart_regressor.go | average, meanAbsoluteError, computeMaeImpurityAndAverage, meanSquaredError, computeMseImpurityAndAverage, calculateRegressionLoss, regressorCreateSplit, regressorReOrderData, regressorUpdateSplit, CARTDecisionTreeRegressor.Fit, regressorBestSplit, CARTDecisionTreeRegressor.String, regressorPrintTreeFromNode, regressorPredictSingle, CARTDecisionTreeRegressor.Predict, regressorPredictFromNode, regressorConvertInstancesToProblemVec, regressorConvertInstancesToLabelVec | NewDecisionTreeRegressor |
| trees/cart_utils.go | findUnique, getFeature, validate, convertInstancesToProblemVec | - |
| trees/entropy.go | InformationGainRuleGenerator.GenerateSplitRule, InformationGainRuleGenerator.GetSplitRuleFromSelection, getNumericAttributeEntropy, getSplitEntropyFast, getSplitEntropy, getBaseEntropy | splitVec.Len, splitVec.Swap, splitVec.Less |
| trees/gini.go | GiniCoefficientRuleGenerator.GenerateSplitRule, GiniCoefficientRuleGenerator.GetSplitRuleFromSelection, computeGini, computeAverageGiniIndex | - |
| trees/gr.go | InformationGainRatioRuleGenerator.GenerateSplitRule, InformationGainRatioRuleGenerator.GetSplitRuleFromSelection | - |
| trees/id3.go | DecisionTreeRule.MarshalJSON, DecisionTreeRule.unmarshalJSON, DecisionTreeRule.UnmarshalJSON, DecisionTreeRule.String, DecisionTreeNode.Save, DecisionTreeNode.SaveWithPrefix, DecisionTreeNode.Load, DecisionTreeNode.LoadWithPrefix, InferID3Tree, DecisionTreeNode.getNestedString, DecisionTreeNode.String, computeAccuracy, DecisionTreeNode.Prune, DecisionTreeNode.Predict, ClassesProba.Less, ID3DecisionTree.PredictProba, NewID3DecisionTree, ID3DecisionTree.Fit, ID3DecisionTree.Predict, ID3DecisionTree.String, ID3DecisionTree.GetMetadata, ID3DecisionTree.Save, ID3DecisionTree.SaveWithPrefix, ID3DecisionTree.Load, ID3DecisionTree.LoadWithPrefix | getClassAttr, ClassesProba.Len, ClassesProba.Swap, NewID3DecisionTreeFromRule |
| trees/isolation.go | minMax, selectValue, splitData, checkData, buildTree, getRandomData, IsolationForest.Fit, pathLength, evaluateInstance, cFactor, anomalyScore, IsolationForest.Predict, preprocessData | selectFeature, NewIsolationForest |
| trees/random.go | RandomTreeRuleGenerator.GenerateSplitRule, RandomTree.Fit, RandomTree.Predict, RandomTree.Save, RandomTree.SaveWithPrefix, RandomTree.Load, RandomTree.LoadWithPrefix | NewRandomTree, RandomTree.String, RandomTree.Prune, RandomTree.GetMetadata |
| trees/sorter.go | - | Slice.Swap, NewSlice |
| utilities/utilities.go | SortIntMap, FloatsToMatrix | sortedIntMap.Len, sortedIntMap.Less, sortedIntMap.Swap, VectorToMatrix |

The programs under examples/ and the tests are not modelled. Of the C and C++ sources: the distance loop of knn/euclidean.c and, of linear_models' bundled liblinear, `train`, `predict` and the data layout are modelled; the numerical solvers behind `train_one` are parameters.

Not modelled anywhere: IEEE rounding outside C128 to C133, overflow of `float64`, NaN and infinities (except where a theorem names them), overflow of `int`, the byte formats of JSON, tar, gzip and CSV (trusted Go standard library; abstract values stand for them), file-system effects and crashes during a write, sharing of slices other than byte slices (attributes, specifications), printing for people (`String`, `RowString` and summaries), and logging. Sharing of byte slices between grids, copies and clients is modelled in Model/Memory (C11, C119, C120). The other files treat grids as values; C119 shows that this is faithful.
