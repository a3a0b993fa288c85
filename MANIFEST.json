{
 "claims": [
  {
   "property": "C01",
   "status": "proved",
   "theorems": [
    "Cleanlab.Props.C01_calibrated_confident_joint",
    "Cleanlab.Props.C01_calibrate_user_joint",
    "Cleanlab.Props.C01_zero_row_breaks_row_totals"
   ],
   "note": "Holds for all inputs of the model."
  },
  {
   "property": "C02",
   "status": "proved",
   "theorems": [
    "Cleanlab.Props.C02_round_preserving_sum",
    "Cleanlab.Props.C02_integer_total_kept"
   ],
   "note": "Holds for all inputs of the model."
  },
  {
   "property": "C03",
   "status": "partial",
   "theorems": [
    "Cleanlab.Props.C03_not_most_probable_confident",
    "Cleanlab.Props.C03_confident_joint_counts_partial",
    "Cleanlab.Props.C03_most_probable_confident_partial",
    "Cleanlab.Props.C03_off_diagonal_indices"
   ],
   "note": "Refuted as stated by C03_not_most_probable_confident: When two or more classes reach their thresholds the overall argmax is counted, although that class may miss its own threshold. The other theorems hold for all inputs; what the _partial ones leave out is said in their docstrings."
  },
  {
   "property": "C04",
   "status": "partial",
   "theorems": [
    "Cleanlab.Props.C04_threshold_present",
    "Cleanlab.Props.C04_threshold_absent",
    "Cleanlab.Props.C04_absent_class_is_counted",
    "Cleanlab.Props.C04_absent_class_partial"
   ],
   "note": "Refuted as stated by C04_absent_class_is_counted: The threshold of an absent class is out of reach, but an example can still be counted into the absent class through the collision rule of C03. The other theorems hold for all inputs; what the _partial ones leave out is said in their docstrings."
  },
  {
   "property": "C05",
   "status": "partial",
   "theorems": [
    "Cleanlab.Props.C05_estimate_joint",
    "Cleanlab.Props.C05_estimate_joint_user_partial",
    "Cleanlab.Props.C05_not_zero_row",
    "Cleanlab.Props.C05_calibration_idempotent"
   ],
   "note": "Refuted as stated by C05_not_zero_row: A supplied confident joint with a zero row for a class that has examples is not refused: the estimated joint then says that no example is given that class, and the other rows are too large. The other theorems hold for all inputs; what the _partial ones leave out is said in their docstrings."
  },
  {
   "property": "C06",
   "status": "proved",
   "theorems": [
    "Cleanlab.Props.C06_count_matches_list",
    "Cleanlab.Props.C06_low_score_filters"
   ],
   "note": "Holds for all inputs of the model."
  },
  {
   "property": "C07",
   "status": "proved",
   "theorems": [
    "Cleanlab.Props.C07_flagged_has_better_class",
    "Cleanlab.Props.C07_predicted_neq_given_iff"
   ],
   "note": "Holds for all inputs of the model."
  },
  {
   "property": "C08",
   "status": "partial",
   "theorems": [
    "Cleanlab.Props.C08_min_examples_by_class",
    "Cleanlab.Props.C08_min_examples_by_noise_rate_partial",
    "Cleanlab.Props.C08_not_min_examples_by_noise_rate"
   ],
   "note": "Refuted as stated by C08_not_min_examples_by_noise_rate: With `prune_by_noise_rate` and `min_examples_per_class=5` a class of six examples can be left with four. The other theorems hold for all inputs; what the _partial ones leave out is said in their docstrings."
  },
  {
   "property": "C09",
   "status": "proved",
   "theorems": [
    "Cleanlab.Props.C09_both_is_intersection",
    "Cleanlab.Props.C09_errors"
   ],
   "note": "Holds for all inputs of the model."
  },
  {
   "property": "C10",
   "status": "proved",
   "theorems": [
    "Cleanlab.Props.C10_ranked_indices"
   ],
   "note": "Holds for all inputs of the model."
  },
  {
   "property": "C11",
   "status": "proved",
   "theorems": [
    "Cleanlab.Props.C11_jobs_independent",
    "Cleanlab.Props.C11_combine_order"
   ],
   "note": "Holds for all inputs of the model."
  },
  {
   "property": "C12",
   "status": "partial",
   "theorems": [
    "Cleanlab.Props.C12_not_num_to_remove_by_noise_rate",
    "Cleanlab.Props.C12_num_to_remove_by_class_partial",
    "Cleanlab.Props.C12_split_partial"
   ],
   "note": "Refuted as stated by C12_not_num_to_remove_by_noise_rate: With `prune_by_noise_rate`, `num_to_remove_per_class[k]` limits the removals whose *true* class is k, not those of the given class k. The other theorems hold for all inputs; what the _partial ones leave out is said in their docstrings."
  },
  {
   "property": "C13",
   "status": "proved",
   "theorems": [
    "Cleanlab.Props.C13_frac_noise_monotone",
    "Cleanlab.Props.C13_frac_noise_zero",
    "Cleanlab.Props.C13_column_totals",
    "Cleanlab.Props.C13_frac_noise_one"
   ],
   "note": "Holds for all inputs of the model."
  },
  {
   "property": "C14",
   "status": "proved",
   "theorems": [
    "Cleanlab.Props.C14_self_confidence_range",
    "Cleanlab.Props.C14_normalized_margin_range",
    "Cleanlab.Props.C14_normalized_margin_one_class",
    "Cleanlab.Props.C14_normalized_entropy_range",
    "Cleanlab.Props.C14_confidence_weighted_entropy_range",
    "Cleanlab.Props.C14_adjusted_is_distribution"
   ],
   "note": "Holds for all inputs of the model."
  },
  {
   "property": "C15",
   "status": "proved",
   "theorems": [
    "Cleanlab.Props.C15_top_issues",
    "Cleanlab.Props.C15_all_issues"
   ],
   "note": "Holds for all inputs of the model."
  },
  {
   "property": "C16",
   "status": "partial",
   "theorems": [
    "Cleanlab.Props.C16_uniform_between",
    "Cleanlab.Props.C16_accuracy_between",
    "Cleanlab.Props.C16_accuracy_undefined",
    "Cleanlab.Props.C16_log_loss_between",
    "Cleanlab.Props.C16_log_loss_missing_class",
    "Cleanlab.Props.C16_log_loss_best",
    "Cleanlab.Props.C16_clipped",
    "Cleanlab.Props.C16_custom_between_partial",
    "Cleanlab.Props.C16_not_custom_between"
   ],
   "note": "Refuted as stated by C16_not_custom_between: Custom weights are not normalised, so the score can leave the range of the models' scores. With `accuracy` and no correct prediction the weights are 0/0. The other theorems hold for all inputs; what the _partial ones leave out is said in their docstrings."
  },
  {
   "property": "C17",
   "status": "proved",
   "theorems": [
    "Cleanlab.Props.C17_out_of_sample",
    "Cleanlab.Props.C17_one_class",
    "Cleanlab.Props.C17_one_split"
   ],
   "note": "Holds for all inputs of the model."
  },
  {
   "property": "C18",
   "status": "partial",
   "theorems": [
    "Cleanlab.Props.C18_integer_labels",
    "Cleanlab.Props.C18_not_float_labels",
    "Cleanlab.Props.C18_float_labels_partial",
    "Cleanlab.Props.C18_total",
    "Cleanlab.Props.C18_not_agreement_posterior"
   ],
   "note": "Refuted as stated by C18_not_float_labels, C18_not_agreement_posterior: Counts of a float array are written to positions 0, 1, ... in order of appearance of the values and not to the position of their class. With `quality_method='agreement'` this gives wrong posteriors. The other theorems hold for all inputs; what the _partial ones leave out is said in their docstrings."
  },
  {
   "property": "C19",
   "status": "partial",
   "theorems": [
    "Cleanlab.Props.C19_majority_vote_is_mode",
    "Cleanlab.Props.C19_majority_vote_was_given",
    "Cleanlab.Props.C19_returns_partial",
    "Cleanlab.Props.C19_returns_with_pred_probs_partial",
    "Cleanlab.Props.C19_not_total"
   ],
   "note": "Refuted as stated by C19_not_total: Raises when every example is tied and no `pred_probs` are given. The other theorems hold for all inputs; what the _partial ones leave out is said in their docstrings."
  },
  {
   "property": "C20",
   "status": "partial",
   "theorems": [
    "Cleanlab.Props.C20_posterior_is_distribution",
    "Cleanlab.Props.C20_scores_in_range",
    "Cleanlab.Props.C20_best_quality_partial",
    "Cleanlab.Props.C20_not_best_quality",
    "Cleanlab.Props.C20_annotator_quality"
   ],
   "note": "Refuted as stated by C20_not_best_quality: The `best_quality` consensus is chosen with the scores of a first run; the returned scores come from a second run, under which another label can be better. The other theorems hold for all inputs; what the _partial ones leave out is said in their docstrings."
  },
  {
   "property": "C21",
   "status": "proved",
   "theorems": [
    "Cleanlab.Props.C21_example_agreement",
    "Cleanlab.Props.C21_annotator_agreement",
    "Cleanlab.Props.C21_stats_agreement"
   ],
   "note": "Holds for all inputs of the model."
  },
  {
   "property": "C22",
   "status": "partial",
   "theorems": [
    "Cleanlab.Props.C22_score_between",
    "Cleanlab.Props.C22_total_weight",
    "Cleanlab.Props.C22_more_annotators_partial",
    "Cleanlab.Props.C22_not_more_annotators",
    "Cleanlab.Props.C22_unlabeled_between"
   ],
   "note": "Refuted as stated by C22_not_more_annotators: The score follows the total weight of the annotators, not their number: an example labelled by two annotators of low weight is asked for before one labelled by a single trusted annotator. The other theorems hold for all inputs; what the _partial ones leave out is said in their docstrings."
  },
  {
   "property": "C23",
   "status": "proved",
   "theorems": [
    "Cleanlab.Props.C23_ema_between",
    "Cleanlab.Props.C23_ema_alpha",
    "Cleanlab.Props.C23_ema_class_order",
    "Cleanlab.Props.C23_ema_monotone",
    "Cleanlab.Props.C23_ema_extremes",
    "Cleanlab.Props.C23_softmin_between",
    "Cleanlab.Props.C23_softmin_class_order"
   ],
   "note": "Holds for all inputs of the model."
  },
  {
   "property": "C24",
   "status": "partial",
   "theorems": [
    "Cleanlab.Props.C24_union",
    "Cleanlab.Props.C24_predicted_neq_given_partial",
    "Cleanlab.Props.C24_ranked_partial",
    "Cleanlab.Props.C24_low_filters",
    "Cleanlab.Props.C24_not_ranked_low",
    "Cleanlab.Props.C24_not_ranked_low_empty"
   ],
   "note": "Refuted as stated by C24_not_ranked_low, C24_not_ranked_low_empty: For the `low_*` filters the ranked output is not sorted by quality, and it raises when nothing is flagged. The search also raises if a class is given to every example (C115). The other theorems hold for all inputs; what the _partial ones leave out is said in their docstrings."
  },
  {
   "property": "C25",
   "status": "proved",
   "theorems": [
    "Cleanlab.Props.C25_int_onehot_int",
    "Cleanlab.Props.C25_onehot_int_onehot",
    "Cleanlab.Props.C25_int_onehot_int_sorted"
   ],
   "note": "Holds for all inputs of the model."
  },
  {
   "property": "C26",
   "status": "partial",
   "theorems": [
    "Cleanlab.Props.C26_bayes_round_trip_partial",
    "Cleanlab.Props.C26_not_columns_sum_to_one",
    "Cleanlab.Props.C26_not_round_trip"
   ],
   "note": "Refuted as stated by C26_not_columns_sum_to_one, C26_not_round_trip: A class that is never given leads to a zero column of the inverse noise matrix; rates above 0.9999 are clipped, so converting back does not recover them. The other theorems hold for all inputs; what the _partial ones leave out is said in their docstrings."
  },
  {
   "property": "C27",
   "status": "partial",
   "theorems": [
    "Cleanlab.Props.C27_clip_noise_rates_partial",
    "Cleanlab.Props.C27_clip_noise_rates_distribution",
    "Cleanlab.Props.C27_not_zero_column",
    "Cleanlab.Props.C27_clip_noise_rates_valid",
    "Cleanlab.Props.C27_remove_noise_from_class",
    "Cleanlab.Props.C27_clip_values"
   ],
   "note": "Refuted as stated by C27_not_zero_column: A column of zeros stays a column of zeros instead of summing to 1 (the other columns are normalised). The other theorems hold for all inputs; what the _partial ones leave out is said in their docstrings."
  },
  {
   "property": "C28",
   "status": "proved",
   "theorems": [
    "Cleanlab.Props.C28_pairs_once",
    "Cleanlab.Props.C28_pairs_sum",
    "Cleanlab.Props.C28_health_from_joint",
    "Cleanlab.Props.C28_health_from_labels"
   ],
   "note": "Holds for all inputs of the model."
  },
  {
   "property": "C29",
   "status": "partial",
   "theorems": [
    "Cleanlab.Props.C29_flagged_disagree_partial",
    "Cleanlab.Props.C29_downsample_partial",
    "Cleanlab.Props.C29_batch_size_partial",
    "Cleanlab.Props.C29_not_batch_size",
    "Cleanlab.Props.C29_batch_memory",
    "Cleanlab.Props.C29_batch_size"
   ],
   "note": "Refuted as stated by C29_not_batch_size: `batch_size` changes the result when a given label has probability below 2e-6. The other theorems hold for all inputs; what the _partial ones leave out is said in their docstrings."
  },
  {
   "property": "C30",
   "status": "partial",
   "theorems": [
    "Cleanlab.Props.C30_below_threshold_partial",
    "Cleanlab.Props.C30_not_exact",
    "Cleanlab.Props.C30_pixels"
   ],
   "note": "Refuted as stated by C30_not_exact: Off by one: one image that is not below the threshold is returned as well. The other theorems hold for all inputs; what the _partial ones leave out is said in their docstrings."
  },
  {
   "property": "C31",
   "status": "partial",
   "theorems": [
    "Cleanlab.Props.C31_one_to_one",
    "Cleanlab.Props.C31_flagged_tokens",
    "Cleanlab.Props.C31_low_memory_partial",
    "Cleanlab.Props.C31_not_sorted_low_memory"
   ],
   "note": "Refuted as stated by C31_not_sorted_low_memory: With `low_memory=True` the pairs are not ordered by label quality. The other theorems hold for all inputs; what the _partial ones leave out is said in their docstrings."
  },
  {
   "property": "C32",
   "status": "partial",
   "theorems": [
    "Cleanlab.Props.C32_not_total",
    "Cleanlab.Props.C32_below_threshold_partial",
    "Cleanlab.Props.C32_tokens"
   ],
   "note": "Refuted as stated by C32_not_total: IndexError when every sentence is below the threshold and for an empty array. The other theorems hold for all inputs; what the _partial ones leave out is said in their docstrings."
  },
  {
   "property": "C33",
   "status": "partial",
   "theorems": [
    "Cleanlab.Props.C33_exact_partial",
    "Cleanlab.Props.C33_close_partial",
    "Cleanlab.Props.C33_not_absent_class",
    "Cleanlab.Props.C33_not_clipped"
   ],
   "note": "Refuted as stated by C33_not_absent_class, C33_not_clipped: A class without examples gets the threshold 2e-6 instead of an unreachable one. Clipping inside the batches makes thresholds depend on the batching by up to 2e-6. The other theorems hold for all inputs; what the _partial ones leave out is said in their docstrings."
  },
  {
   "property": "C34",
   "status": "partial",
   "theorems": [
    "Cleanlab.Props.C34_off_diagonal_partial",
    "Cleanlab.Props.C34_calibrated_partial",
    "Cleanlab.Props.C34_not_calibrated"
   ],
   "note": "Refuted as stated by C34_not_calibrated: With several workers and `off_diagonal_calibrated`, duplicate increments in one `+=` are lost: 10000 issues become 5000. The other theorems hold for all inputs; what the _partial ones leave out is said in their docstrings."
  },
  {
   "property": "C35",
   "status": "partial",
   "theorems": [
    "Cleanlab.Props.C35_closed_form",
    "Cleanlab.Props.C35_bounds",
    "Cleanlab.Props.C35_not_documented_example",
    "Cleanlab.Props.C35_too_few_neighbors"
   ],
   "note": "Refuted as stated by C35_not_documented_example: The documented example announces 0.55; the code gives 0.5 because the recursion starts at 0. The other theorems hold for all inputs; what the _partial ones leave out is said in their docstrings."
  },
  {
   "property": "C36",
   "status": "proved",
   "theorems": [
    "Cleanlab.Props.C36_corrected",
    "Cleanlab.Props.C36_duplicate_sets"
   ],
   "note": "Holds for all inputs of the model."
  },
  {
   "property": "C37",
   "status": "proved",
   "theorems": [
    "Cleanlab.Props.C37_sets",
    "Cleanlab.Props.C37_symmetric",
    "Cleanlab.Props.C37_median"
   ],
   "note": "Holds for all inputs of the model."
  },
  {
   "property": "C38",
   "status": "partial",
   "theorems": [
    "Cleanlab.Props.C38_score_antitone",
    "Cleanlab.Props.C38_never_refitted",
    "Cleanlab.Props.C38_fit_then_score",
    "Cleanlab.Props.C38_not_stateless_with_given_knn",
    "Cleanlab.Props.C38_needs_fit",
    "Cleanlab.Props.C38_score_formula"
   ],
   "note": "Refuted as stated by C38_not_stateless_with_given_knn: With an estimator given in `params`, the scaling factor is fitted by the first `score` call, so scores depend on the call history. The other theorems hold for all inputs; what the _partial ones leave out is said in their docstrings."
  },
  {
   "property": "C39",
   "status": "partial",
   "theorems": [
    "Cleanlab.Props.C39_symmetric",
    "Cleanlab.Props.C39_range",
    "Cleanlab.Props.C39_positive_iff",
    "Cleanlab.Props.C39_one_iff_equal_partial",
    "Cleanlab.Props.C39_not_identity"
   ],
   "note": "Refuted as stated by C39_not_identity: The 1e-6 floor of the union makes the overlap of a small box with itself less than 1. The other theorems hold for all inputs; what the _partial ones leave out is said in their docstrings."
  },
  {
   "property": "C40",
   "status": "proved",
   "theorems": [
    "Cleanlab.Props.C40_exactly_one",
    "Cleanlab.Props.C40_one_to_one",
    "Cleanlab.Props.C40_greedy",
    "Cleanlab.Props.C40_counts"
   ],
   "note": "Holds for all inputs of the model."
  },
  {
   "property": "C41",
   "status": "proved",
   "theorems": [
    "Cleanlab.Props.C41_range",
    "Cleanlab.Props.C41_perfect",
    "Cleanlab.Props.C41_class_range",
    "Cleanlab.Props.C41_per_class_ap_range",
    "Cleanlab.Props.C41_at_least_each_cutoff",
    "Cleanlab.Props.C41_perfect_ranking"
   ],
   "note": "Holds for all inputs of the model."
  },
  {
   "property": "C42",
   "status": "partial",
   "theorems": [
    "Cleanlab.Props.C42_interval_partial",
    "Cleanlab.Props.C42_identifier_found_partial",
    "Cleanlab.Props.C42_not_documented",
    "Cleanlab.Props.C42_report",
    "Cleanlab.Props.C42_not_score",
    "Cleanlab.Props.C42_table"
   ],
   "note": "Refuted as stated by C42_not_documented, C42_not_score: Every integer column whose values form an interval of at least two values is reported, for instance a 0/1 feature; the number of rows plays no role. The summary score is 0 if the issue is present and 1 if not, the documentation says the opposite. The other theorems hold for all inputs; what the _partial ones leave out is said in their docstrings."
  },
  {
   "property": "C43",
   "status": "partial",
   "theorems": [
    "Cleanlab.Props.C43_scores_partial",
    "Cleanlab.Props.C43_flag_sound_partial",
    "Cleanlab.Props.C43_separated_partial",
    "Cleanlab.Props.C43_not_worst"
   ],
   "note": "Refuted as stated by C43_not_worst: A raw cluster performance is compared with a ratio while searching, so the worst cluster can be missed and the result depends on the iteration order of a set. The other theorems hold for all inputs; what the _partial ones leave out is said in their docstrings."
  },
  {
   "property": "C44",
   "status": "partial",
   "theorems": [
    "Cleanlab.Props.C44_not_majority",
    "Cleanlab.Props.C44_baseline_partial",
    "Cleanlab.Props.C44_score_range_partial",
    "Cleanlab.Props.C44_antitone_partial",
    "Cleanlab.Props.C44_range",
    "Cleanlab.Props.C44_documented_partial",
    "Cleanlab.Props.C44_not_documented",
    "Cleanlab.Props.C44_not_renumbering"
   ],
   "note": "Refuted as stated by C44_not_majority, C44_not_documented, C44_not_renumbering: The baseline is the *index* of the most frequent class over n; scores can be negative for labels that are not encoded. With labels 0 0 0 1 a property without any information gets 1/4 instead of 1 and is reported; exchanging the two classes changes the score. The other theorems hold for all inputs; what the _partial ones leave out is said in their docstrings."
  },
  {
   "property": "C45",
   "status": "partial",
   "theorems": [
    "Cleanlab.Props.C45_args_partial",
    "Cleanlab.Props.C45_runs_partial",
    "Cleanlab.Props.C45_defaults_partial",
    "Cleanlab.Props.C45_unchanged_partial",
    "Cleanlab.Props.C45_not_unchanged",
    "Cleanlab.Props.C45_not_fresh",
    "Cleanlab.Props.C45_not_fresh_any",
    "Cleanlab.Props.C45_needs_labels",
    "Cleanlab.Props.C45_default_checks",
    "Cleanlab.Props.C45_group",
    "Cleanlab.Props.C45_group_runs"
   ],
   "note": "Refuted as stated by C45_not_unchanged, C45_not_fresh, C45_not_fresh_any: The inner dictionaries of the caller's `issue_types` are changed; a second call with the same dictionary uses the `pred_probs` of the first. The other theorems hold for all inputs; what the _partial ones leave out is said in their docstrings."
  },
  {
   "property": "C46",
   "status": "partial",
   "theorems": [
    "Cleanlab.Props.C46_summary_partial",
    "Cleanlab.Props.C46_columns_partial",
    "Cleanlab.Props.C46_columns_nodup",
    "Cleanlab.Props.C46_health",
    "Cleanlab.Props.C46_failures_change_nothing",
    "Cleanlab.Props.C46_not_latest_columns",
    "Cleanlab.Props.C46_not_atomic",
    "Cleanlab.Props.C46_get_summary"
   ],
   "note": "Refuted as stated by C46_not_latest_columns, C46_not_atomic: Extra columns of a custom check survive a later run without them; a run that fails late has already dropped the previous summary row. The other theorems hold for all inputs; what the _partial ones leave out is said in their docstrings."
  },
  {
   "property": "C47",
   "status": "partial",
   "theorems": [
    "Cleanlab.Props.C47_builtin_partial",
    "Cleanlab.Props.C47_own_columns",
    "Cleanlab.Props.C47_not_only_own"
   ],
   "note": "Refuted as stated by C47_not_only_own: Columns are selected by substring: `get_issues('label')` also returns the columns of a custom check `label_length`. The other theorems hold for all inputs; what the _partial ones leave out is said in their docstrings."
  },
  {
   "property": "C48",
   "status": "partial",
   "theorems": [
    "Cleanlab.Props.C48_computed_graphs_partial",
    "Cleanlab.Props.C48_not_outlier_fallback",
    "Cleanlab.Props.C48_requested_metric_partial",
    "Cleanlab.Props.C48_not_user_graph",
    "Cleanlab.Props.C48_not_requested_metric"
   ],
   "note": "Refuted as stated by C48_not_outlier_fallback, C48_not_user_graph, C48_not_requested_metric: The outlier fallback stores its metric although no graph was built; a user graph keeps the old metric. A later check then works on a graph of another metric. The other theorems hold for all inputs; what the _partial ones leave out is said in their docstrings."
  },
  {
   "property": "C49",
   "status": "proved",
   "theorems": [
    "Cleanlab.Props.C49_flags"
   ],
   "note": "Holds for all inputs of the model."
  },
  {
   "property": "C50",
   "status": "proved",
   "theorems": [
    "Cleanlab.Props.C50_scores",
    "Cleanlab.Props.C50_flag_iff_zero",
    "Cleanlab.Props.C50_most_common",
    "Cleanlab.Props.C50_column_impact",
    "Cleanlab.Props.C50_table"
   ],
   "note": "Holds for all inputs of the model."
  },
  {
   "property": "C51",
   "status": "proved",
   "theorems": [
    "Cleanlab.Props.C51_near_best",
    "Cleanlab.Props.C51_flags_lowest",
    "Cleanlab.Props.C51_none_if_no_improvement",
    "Cleanlab.Props.C51_best_fraction",
    "Cleanlab.Props.C51_scores",
    "Cleanlab.Props.C51_scale"
   ],
   "note": "Holds for all inputs of the model."
  },
  {
   "property": "C52",
   "status": "proved",
   "theorems": [
    "Cleanlab.Props.C52_flip_counts",
    "Cleanlab.Props.C52_absent_class_raises"
   ],
   "note": "Holds for all inputs of the model."
  },
  {
   "property": "C53",
   "status": "proved",
   "theorems": [
    "Cleanlab.Props.C53_multi_class",
    "Cleanlab.Props.C53_multi_label",
    "Cleanlab.Props.C53_class_label"
   ],
   "note": "Holds for all inputs of the model."
  },
  {
   "property": "C54",
   "status": "partial",
   "theorems": [
    "Cleanlab.Props.C54_roundtrip_partial",
    "Cleanlab.Props.C54_no_overwrite",
    "Cleanlab.Props.C54_refuses_other_data",
    "Cleanlab.Props.C54_not_unlabeled",
    "Cleanlab.Props.C54_not_constructor_data"
   ],
   "note": "Refuted as stated by C54_not_unlabeled, C54_not_constructor_data: A lab without labels cannot be loaded with its data (its row count is compared with 0 labels). Data frames, dictionaries and lists accepted by the constructor are unhashable and refused by `load`. The other theorems hold for all inputs; what the _partial ones leave out is said in their docstrings."
  },
  {
   "property": "C55",
   "status": "partial",
   "theorems": [
    "Cleanlab.Props.C55_independent_partial",
    "Cleanlab.Props.C55_repeat_partial",
    "Cleanlab.Props.C55_not_other_data",
    "Cleanlab.Props.C55_not_clone",
    "Cleanlab.Props.C55_not_same_data",
    "Cleanlab.Props.C55_not_noise_matrix"
   ],
   "note": "Refuted as stated by C55_not_other_data, C55_not_clone, C55_not_same_data, C55_not_noise_matrix: The first call stores its confident joint in `find_label_issues_kwargs`. Later calls on other data use it, clones carry it, a repeated call raises if a class is absent, and a given `noise_matrix` is ignored. The other theorems hold for all inputs; what the _partial ones leave out is said in their docstrings."
  },
  {
   "property": "C56",
   "status": "partial",
   "theorems": [
    "Cleanlab.Props.C56_trains_on_unflagged",
    "Cleanlab.Props.C56_trains_on_found",
    "Cleanlab.Props.C56_weights_partial",
    "Cleanlab.Props.C56_given_weights",
    "Cleanlab.Props.C56_rejects",
    "Cleanlab.Props.C56_not_list_labels",
    "Cleanlab.Props.C56_not_noise_matrix_argument"
   ],
   "note": "Refuted as stated by C56_not_list_labels, C56_not_noise_matrix_argument: Labels in a Python list give weight 1 everywhere. A `noise_matrix` passed together with `label_issues` is not used for the weights. The other theorems hold for all inputs; what the _partial ones leave out is said in their docstrings."
  },
  {
   "property": "C57",
   "status": "partial",
   "theorems": [
    "Cleanlab.Props.C57_zero_iff_one_hot_partial",
    "Cleanlab.Props.C57_formula",
    "Cleanlab.Props.C57_not_perfect_prediction_scores_best"
   ],
   "note": "Refuted as stated by C57_not_perfect_prediction_scores_best: A perfect prediction of the given label gets the lowest score 0. The other theorems hold for all inputs; what the _partial ones leave out is said in their docstrings."
  },
  {
   "property": "C58",
   "status": "partial",
   "theorems": [
    "Cleanlab.Props.C58_py_is_distribution",
    "Cleanlab.Props.C58_py_formula",
    "Cleanlab.Props.C58_pyx_is_distribution",
    "Cleanlab.Props.C58_estimate_latent_partial",
    "Cleanlab.Props.C58_not_noise_matrix_stochastic"
   ],
   "note": "Refuted as stated by C58_not_noise_matrix_stochastic: A class that is never counted gets a zero column in the noise matrix. The other theorems hold for all inputs; what the _partial ones leave out is said in their docstrings."
  },
  {
   "property": "C59",
   "status": "partial",
   "theorems": [
    "Cleanlab.Props.C59_pred_probs_first_partial",
    "Cleanlab.Props.C59_least_frequent_class_partial",
    "Cleanlab.Props.C59_not_most_frequent_class"
   ],
   "note": "Refuted as stated by C59_not_most_frequent_class: Documented: ties go to the class with the highest frequency. Code: lowest frequency. The other theorems hold for all inputs; what the _partial ones leave out is said in their docstrings."
  },
  {
   "property": "C60",
   "status": "proved",
   "theorems": [
    "Cleanlab.Props.C60_worst_class"
   ],
   "note": "Holds for all inputs of the model."
  },
  {
   "property": "C61",
   "status": "partial",
   "theorems": [
    "Cleanlab.Props.C61_scores_partial",
    "Cleanlab.Props.C61_not_total"
   ],
   "note": "Refuted as stated by C61_not_total: A label matrix of only ones or only zeros is refused. The other theorems hold for all inputs; what the _partial ones leave out is said in their docstrings."
  },
  {
   "property": "C62",
   "status": "proved",
   "theorems": [
    "Cleanlab.Props.C62_rank_classes",
    "Cleanlab.Props.C62_counts"
   ],
   "note": "Holds for all inputs of the model."
  },
  {
   "property": "C63",
   "status": "partial",
   "theorems": [
    "Cleanlab.Props.C63_documented_inputs_partial",
    "Cleanlab.Props.C63_not_one_class",
    "Cleanlab.Props.C63_not_rank_classes",
    "Cleanlab.Props.C63_not_health_summary",
    "Cleanlab.Props.C63_confident_joint"
   ],
   "note": "Refuted as stated by C63_not_one_class, C63_not_rank_classes, C63_not_health_summary: `rank_classes_by_label_quality` with only a confident joint raises, and so does `health_summary` with a joint or only a confident joint. With labels of a single class `overall_label_health_score` and `health_summary` raise while the other two functions answer. The other theorems hold for all inputs; what the _partial ones leave out is said in their docstrings."
  },
  {
   "property": "C64",
   "status": "partial",
   "theorems": [
    "Cleanlab.Props.C64_batched_partial",
    "Cleanlab.Props.C64_batch_size_partial",
    "Cleanlab.Props.C64_not_sorted",
    "Cleanlab.Props.C64_not_batch_size_zero"
   ],
   "note": "Refuted as stated by C64_not_sorted, C64_not_batch_size_zero: Indices are in data order and not sorted by quality; `batch_size=0` never ends. The other theorems hold for all inputs; what the _partial ones leave out is said in their docstrings."
  },
  {
   "property": "C65",
   "status": "proved",
   "theorems": [
    "Cleanlab.Props.C65_pixel_scores",
    "Cleanlab.Props.C65_softmin_image",
    "Cleanlab.Props.C65_num_pixel_issues"
   ],
   "note": "Holds for all inputs of the model."
  },
  {
   "property": "C66",
   "status": "partial",
   "theorems": [
    "Cleanlab.Props.C66_swaps_partial",
    "Cleanlab.Props.C66_default_partial",
    "Cleanlab.Props.C66_not_exclude",
    "Cleanlab.Props.C66_filter_by_class"
   ],
   "note": "Refuted as stated by C66_not_exclude: `exclude` is only checked against the predicted class. The other theorems hold for all inputs; what the _partial ones leave out is said in their docstrings."
  },
  {
   "property": "C67",
   "status": "partial",
   "theorems": [
    "Cleanlab.Props.C67_token_scores",
    "Cleanlab.Props.C67_self_confidence",
    "Cleanlab.Props.C67_min",
    "Cleanlab.Props.C67_not_empty_sentence",
    "Cleanlab.Props.C67_softmin"
   ],
   "note": "Refuted as stated by C67_not_empty_sentence: An empty sentence makes the call raise. The other theorems hold for all inputs; what the _partial ones leave out is said in their docstrings."
  },
  {
   "property": "C68",
   "status": "partial",
   "theorems": [
    "Cleanlab.Props.C68_merge",
    "Cleanlab.Props.C68_not_ignored_mass"
   ],
   "note": "Refuted as stated by C68_not_ignored_mass: A token with all its mass on ignored classes gets nan. The other theorems hold for all inputs; what the _partial ones leave out is said in their docstrings."
  },
  {
   "property": "C69",
   "status": "proved",
   "theorems": [
    "Cleanlab.Props.C69_words",
    "Cleanlab.Props.C69_swaps",
    "Cleanlab.Props.C69_filter_by_token"
   ],
   "note": "Holds for all inputs of the model."
  },
  {
   "property": "C70",
   "status": "proved",
   "theorems": [
    "Cleanlab.Props.C70_scores"
   ],
   "note": "Holds for all inputs of the model."
  },
  {
   "property": "C71",
   "status": "partial",
   "theorems": [
    "Cleanlab.Props.C71_fit_then_score",
    "Cleanlab.Props.C71_unfitted",
    "Cleanlab.Props.C71_range_partial",
    "Cleanlab.Props.C71_thresholds",
    "Cleanlab.Props.C71_not_one_class",
    "Cleanlab.Props.C71_certain_iff",
    "Cleanlab.Props.C71_uniform_is_zero",
    "Cleanlab.Props.C71_adjust_needs_labels",
    "Cleanlab.Props.C71_gen"
   ],
   "note": "Refuted as stated by C71_not_one_class: With `adjust_pred_probs` and labels of a single class fitting raises. The other theorems hold for all inputs; what the _partial ones leave out is said in their docstrings."
  },
  {
   "property": "C72",
   "status": "partial",
   "theorems": [
    "Cleanlab.Props.C72_counts",
    "Cleanlab.Props.C72_average_partial",
    "Cleanlab.Props.C72_not_average",
    "Cleanlab.Props.C72_thresholds",
    "Cleanlab.Props.C72_metrics_range",
    "Cleanlab.Props.C72_metrics_formula"
   ],
   "note": "Refuted as stated by C72_not_average: Average counts are divided by the number of thresholds times the number of classes. The other theorems hold for all inputs; what the _partial ones leave out is said in their docstrings."
  },
  {
   "property": "C73",
   "status": "proved",
   "theorems": [
    "Cleanlab.Props.C73_box_scores",
    "Cleanlab.Props.C73_pooling",
    "Cleanlab.Props.C73_range",
    "Cleanlab.Props.C73_empty_image",
    "Cleanlab.Props.C73_weights_refused",
    "Cleanlab.Props.C73_geometric_mean",
    "Cleanlab.Props.C73_between"
   ],
   "note": "Holds for all inputs of the model."
  },
  {
   "property": "C74",
   "status": "proved",
   "theorems": [
    "Cleanlab.Props.C74_indices",
    "Cleanlab.Props.C74_flagged_has_bad_box"
   ],
   "note": "Holds for all inputs of the model."
  },
  {
   "property": "C75",
   "status": "proved",
   "theorems": [
    "Cleanlab.Props.C75_out_of_sample"
   ],
   "note": "Holds for all inputs of the model."
  },
  {
   "property": "C76",
   "status": "partial",
   "theorems": [
    "Cleanlab.Props.C76_not_kwargs_used",
    "Cleanlab.Props.C76_no_kwargs_partial"
   ],
   "note": "Refuted as stated by C76_not_kwargs_used: `model_kwargs` are not passed to the cross-validations that choose the fraction. The other theorems hold for all inputs; what the _partial ones leave out is said in their docstrings."
  },
  {
   "property": "C77",
   "status": "proved",
   "theorems": [
    "Cleanlab.Props.C77_rand_probs",
    "Cleanlab.Props.C77_infeasible"
   ],
   "note": "Holds for all inputs of the model."
  },
  {
   "property": "C78",
   "status": "proved",
   "theorems": [
    "Cleanlab.Props.C78_balls",
    "Cleanlab.Props.C78_infeasible_reduced"
   ],
   "note": "Holds for all inputs of the model."
  },
  {
   "property": "C79",
   "status": "partial",
   "theorems": [
    "Cleanlab.Props.C79_from_trace",
    "Cleanlab.Props.C79_two_classes",
    "Cleanlab.Props.C79_not_two_class_bounds",
    "Cleanlab.Props.C79_refused"
   ],
   "note": "Refuted as stated by C79_not_two_class_bounds: For two classes the bounds on the trace probabilities and noise rates are ignored. The other theorems hold for all inputs; what the _partial ones leave out is said in their docstrings."
  },
  {
   "property": "C80",
   "status": "proved",
   "theorems": [
    "Cleanlab.Props.C80_residual",
    "Cleanlab.Props.C80_accepts",
    "Cleanlab.Props.C80_refuses"
   ],
   "note": "Holds for all inputs of the model."
  },
  {
   "property": "C81",
   "status": "partial",
   "theorems": [
    "Cleanlab.Props.C81_no_mixture_partial",
    "Cleanlab.Props.C81_not_atomic",
    "Cleanlab.Props.C81_not_retry"
   ],
   "note": "Refuted as stated by C81_not_atomic, C81_not_retry: Overwriting is not atomic: a crash while the pickle file is written loses the old lab. Repeating an interrupted save needs `force=True`. The other theorems hold for all inputs; what the _partial ones leave out is said in their docstrings."
  },
  {
   "property": "C82",
   "status": "proved",
   "theorems": [
    "Cleanlab.Props.C82_distribution",
    "Cleanlab.Props.C82_order",
    "Cleanlab.Props.C82_identity",
    "Cleanlab.Props.C82_smoothing"
   ],
   "note": "Holds for all inputs of the model."
  },
  {
   "property": "C83",
   "status": "partial",
   "theorems": [
    "Cleanlab.Props.C83_best_temperature_partial",
    "Cleanlab.Props.C83_fine_search",
    "Cleanlab.Props.C83_not_coarse_optimal",
    "Cleanlab.Props.C83_not_float_labels"
   ],
   "note": "Refuted as stated by C83_not_coarse_optimal, C83_not_float_labels: If the last coarse temperature (8) is the best, the fine search leaves it out and a worse one is returned. With float labels (every data frame, every array with missing labels) the votes are counted for the wrong classes, so a model that agrees with the annotators can be flattened instead of sharpened. The other theorems hold for all inputs; what the _partial ones leave out is said in their docstrings."
  },
  {
   "property": "C84",
   "status": "proved",
   "theorems": [
    "Cleanlab.Props.C84_range",
    "Cleanlab.Props.C84_single_label",
    "Cleanlab.Props.C84_only_unlabeled",
    "Cleanlab.Props.C84_unlabeled_order",
    "Cleanlab.Props.C84_refused"
   ],
   "note": "Holds for all inputs of the model."
  },
  {
   "property": "C85",
   "status": "partial",
   "theorems": [
    "Cleanlab.Props.C85_posterior_is_distribution",
    "Cleanlab.Props.C85_scores_in_range",
    "Cleanlab.Props.C85_one_model",
    "Cleanlab.Props.C85_model_order",
    "Cleanlab.Props.C85_active_range",
    "Cleanlab.Props.C85_single_label",
    "Cleanlab.Props.C85_active_unlabeled_range",
    "Cleanlab.Props.C85_unlabeled_score",
    "Cleanlab.Props.C85_agreeing_models",
    "Cleanlab.Props.C85_not_one_model",
    "Cleanlab.Props.C85_not_disagreeing_models"
   ],
   "note": "Refuted as stated by C85_not_one_model, C85_not_disagreeing_models: Unlabelled examples: an ensemble of one model is refused, and models with opposite opinions can end in the exception of `np.random.choice`. The other theorems hold for all inputs; what the _partial ones leave out is said in their docstrings."
  },
  {
   "property": "C86",
   "status": "partial",
   "theorems": [
    "Cleanlab.Props.C86_unchanged_partial",
    "Cleanlab.Props.C86_unlabeled_partial",
    "Cleanlab.Props.C86_fitted_temperatures",
    "Cleanlab.Props.C86_not_unchanged",
    "Cleanlab.Props.C86_not_unchanged_active"
   ],
   "note": "Refuted as stated by C86_not_unchanged, C86_not_unchanged_active: Calibration writes into the caller's `pred_probs` and `pred_probs_unlabeled`. The other theorems hold for all inputs; what the _partial ones leave out is said in their docstrings."
  },
  {
   "property": "C87",
   "status": "proved",
   "theorems": [
    "Cleanlab.Props.C87_rule",
    "Cleanlab.Props.C87_at_most_quarter",
    "Cleanlab.Props.C87_flags_follow_scores",
    "Cleanlab.Props.C87_monotone",
    "Cleanlab.Props.C87_equal_distances",
    "Cleanlab.Props.C87_scale",
    "Cleanlab.Props.C87_refused",
    "Cleanlab.Props.C87_pred_probs"
   ],
   "note": "Holds for all inputs of the model."
  },
  {
   "property": "C88",
   "status": "partial",
   "theorems": [
    "Cleanlab.Props.C88_out_of_sample_partial",
    "Cleanlab.Props.C88_own_label_unused_partial",
    "Cleanlab.Props.C88_sums_to_one",
    "Cleanlab.Props.C88_accepted_partial",
    "Cleanlab.Props.C88_not_probabilities"
   ],
   "note": "Refuted as stated by C88_not_probabilities: Assumes that every example is among its own k + 1 neighbours. With more than k + 1 exact duplicates it need not be: the prediction then contains -1/k and the check raises. The other theorems hold for all inputs; what the _partial ones leave out is said in their docstrings."
  },
  {
   "property": "C89",
   "status": "partial",
   "theorems": [
    "Cleanlab.Props.C89_score_range",
    "Cleanlab.Props.C89_flags",
    "Cleanlab.Props.C89_background_area",
    "Cleanlab.Props.C89_background_cdf",
    "Cleanlab.Props.C89_stat_reversed_partial",
    "Cleanlab.Props.C89_normalizer_partial",
    "Cleanlab.Props.C89_not_reversible",
    "Cleanlab.Props.C89_stat",
    "Cleanlab.Props.C89_not_ks",
    "Cleanlab.Props.C89_statistic_partial"
   ],
   "note": "Refuted as stated by C89_not_reversible, C89_not_ks: The statistic compares the background with the empirical distribution function *before* the jump at each gap, so it is not the Kolmogorov-Smirnov distance (2/3 instead of 1/3 for three chained examples). The normaliser is N - d instead of the documented N - d - 1 in the first half, so scores change when the data are reversed. The other theorems hold for all inputs; what the _partial ones leave out is said in their docstrings."
  },
  {
   "property": "C90",
   "status": "partial",
   "theorems": [
    "Cleanlab.Props.C90_requested_rows_partial",
    "Cleanlab.Props.C90_others_kept",
    "Cleanlab.Props.C90_columns_partial",
    "Cleanlab.Props.C90_first_call_partial",
    "Cleanlab.Props.C90_not_one_row",
    "Cleanlab.Props.C90_not_consistent"
   ],
   "note": "Refuted as stated by C90_not_one_row, C90_not_consistent: The whole imagelab summary is appended on every call, so types of earlier calls get a second row. Columns of a type that is dropped for exceeding the maximal prevalence are not removed: old flags stay in the table while the summary shows another count. The other theorems hold for all inputs; what the _partial ones leave out is said in their docstrings."
  },
  {
   "property": "C91",
   "status": "partial",
   "theorems": [
    "Cleanlab.Props.C91_common_issues",
    "Cleanlab.Props.C91_rank_partial",
    "Cleanlab.Props.C91_health",
    "Cleanlab.Props.C91_not_confident_joint",
    "Cleanlab.Props.C91_not_count",
    "Cleanlab.Props.C91_count_partial"
   ],
   "note": "Refuted as stated by C91_not_confident_joint, C91_not_count: `confident_joint=joint` is passed on: the argument `confident_joint` is ignored. Counts are recomputed as `int(p * n)`, which is one too small for many counts (29 of 100 is shown as 28). The other theorems hold for all inputs; what the _partial ones leave out is said in their docstrings."
  },
  {
   "property": "C92",
   "status": "partial",
   "theorems": [
    "Cleanlab.Props.C92_counts",
    "Cleanlab.Props.C92_sorted_counts",
    "Cleanlab.Props.C92_sorted_images",
    "Cleanlab.Props.C92_sizes",
    "Cleanlab.Props.C92_unnamed",
    "Cleanlab.Props.C92_distribution_partial",
    "Cleanlab.Props.C92_not_rare",
    "Cleanlab.Props.C92_not_sum"
   ],
   "note": "Refuted as stated by C92_not_rare, C92_not_sum: Frequencies are rounded to two decimals: classes with less than half a percent of the boxes get 0, 201 equally frequent classes all get 0, three get 0.99 in total. `class_names` without a class in the data raises KeyError here, while the size distribution leaves the class out. The other theorems hold for all inputs; what the _partial ones leave out is said in their docstrings."
  },
  {
   "property": "C93",
   "status": "partial",
   "theorems": [
    "Cleanlab.Props.C93_kind",
    "Cleanlab.Props.C93_complete",
    "Cleanlab.Props.C93_verbosity",
    "Cleanlab.Props.C93_not_identifier",
    "Cleanlab.Props.C93_not_missing",
    "Cleanlab.Props.C93_builtin",
    "Cleanlab.Props.C93_not_all_information"
   ],
   "note": "Refuted as stated by C93_not_identifier, C93_not_missing, C93_not_all_information: Identifier columns and partly missing rows flag no example, so the report is `No issues found in the data. Good job!`. Verbosity 4, the documented way to print all information of the label check, raises as soon as near duplicates (levels 0 to 2) are reported, and no lower level prints it. The other theorems hold for all inputs; what the _partial ones leave out is said in their docstrings."
  },
  {
   "property": "C94",
   "status": "partial",
   "theorems": [
    "Cleanlab.Props.C94_characters",
    "Cleanlab.Props.C94_tokens",
    "Cleanlab.Props.C94_colour_partial",
    "Cleanlab.Props.C94_not_colour",
    "Cleanlab.Props.C94_entry",
    "Cleanlab.Props.C94_display_partial",
    "Cleanlab.Props.C94_not_display"
   ],
   "note": "Refuted as stated by C94_not_colour, C94_not_display: The coloured token is passed to `re.subn` as a replacement template, so backslashes in it are interpreted: a token like `\\\\cite` raises `bad escape`, `\\\\n` is printed as a line break. `display_issues` raises for an empty list of issues and shows all issues for `top=0`. The other theorems hold for all inputs; what the _partial ones leave out is said in their docstrings."
  },
  {
   "property": "C95",
   "status": "partial",
   "theorems": [
    "Cleanlab.Props.C95_replace_partial",
    "Cleanlab.Props.C95_one_character",
    "Cleanlab.Props.C95_not_no_rules",
    "Cleanlab.Props.C95_filter",
    "Cleanlab.Props.C95_filter_default"
   ],
   "note": "Refuted as stated by C95_not_no_rules: With an empty list of rules the pattern is empty and the lookup of the empty match raises KeyError. The other theorems hold for all inputs; what the _partial ones leave out is said in their docstrings."
  },
  {
   "property": "C96",
   "status": "partial",
   "theorems": [
    "Cleanlab.Props.C96_clean_learning",
    "Cleanlab.Props.C96_labels",
    "Cleanlab.Props.C96_features",
    "Cleanlab.Props.C96_probs_partial",
    "Cleanlab.Props.C96_multilabel_partial",
    "Cleanlab.Props.C96_model_outputs",
    "Cleanlab.Props.C96_not_nan",
    "Cleanlab.Props.C96_not_multilabel",
    "Cleanlab.Props.C96_not_validated"
   ],
   "note": "Refuted as stated by C96_not_nan, C96_not_multilabel, C96_not_validated: One nan among the probabilities disables the range check (comparisons with nan are false), whatever the other entries are. In multi-label data negative labels pass and data without any label are refused. Datalab builds model-output objects but never calls their `validate`. The other theorems hold for all inputs; what the _partial ones leave out is said in their docstrings."
  },
  {
   "property": "C97",
   "status": "partial",
   "theorems": [
    "Cleanlab.Props.C97_well_formed",
    "Cleanlab.Props.C97_rows",
    "Cleanlab.Props.C97_append_sparse",
    "Cleanlab.Props.C97_append_partial",
    "Cleanlab.Props.C97_not_append",
    "Cleanlab.Props.C97_not_vector"
   ],
   "note": "Refuted as stated by C97_not_append, C97_not_vector: `np.vstack` is used for every array: a 1-D array (texts) or an image array raises when a fold lacks a class. The other theorems hold for all inputs; what the _partial ones leave out is said in their docstrings."
  },
  {
   "property": "C98",
   "status": "partial",
   "theorems": [
    "Cleanlab.Props.C98_loss_partial",
    "Cleanlab.Props.C98_not_mean",
    "Cleanlab.Props.C98_nothing_remembered",
    "Cleanlab.Props.C98_learning_rate",
    "Cleanlab.Props.C98_schedule_partial",
    "Cleanlab.Props.C98_not_schedule"
   ],
   "note": "Refuted as stated by C98_not_mean, C98_not_schedule: The mean loss is divided by the number of remembered examples a second time; with nothing remembered it is nan. With an exponent below 1 the schedule ends its gradual phase at `forget_rate**exponent`, above the requested rate, and drops afterwards; a gradual phase longer than the training raises. The other theorems hold for all inputs; what the _partial ones leave out is said in their docstrings."
  },
  {
   "property": "C99",
   "status": "partial",
   "theorems": [
    "Cleanlab.Props.C99_wide",
    "Cleanlab.Props.C99_duplicate",
    "Cleanlab.Props.C99_format",
    "Cleanlab.Props.C99_format_float_partial",
    "Cleanlab.Props.C99_not_float"
   ],
   "note": "Refuted as stated by C99_not_float: Distinct float labels are truncated to integers before the map is built: labels such as 0.5 are left in the table as they are, and the map names a class that does not occur. The other theorems hold for all inputs; what the _partial ones leave out is said in their docstrings."
  },
  {
   "property": "C100",
   "status": "partial",
   "theorems": [
    "Cleanlab.Props.C100_predicted_neq_given",
    "Cleanlab.Props.C100_multilabel_partial",
    "Cleanlab.Props.C100_not_multilabel",
    "Cleanlab.Props.C100_confusion",
    "Cleanlab.Props.C100_argmax_partial",
    "Cleanlab.Props.C100_not_argmax",
    "Cleanlab.Props.C100_one_each"
   ],
   "note": "Refuted as stated by C100_not_multilabel, C100_not_argmax: For multi-label data `find_predicted_neq_given` raises as soon as one class is given to no example or to every example (the single-label validation inside asks for two classes). `confusion_matrix` has one row per distinct label and one column per distinct prediction, so the argmax baseline raises with the pruning filters (the default) if a class is never given or never predicted. The other theorems hold for all inputs; what the _partial ones leave out is said in their docstrings."
  },
  {
   "property": "C101",
   "status": "partial",
   "theorems": [
    "Cleanlab.Props.C101_calibrated",
    "Cleanlab.Props.C101_thresholds",
    "Cleanlab.Props.C101_counts",
    "Cleanlab.Props.C101_not_documented_order",
    "Cleanlab.Props.C101_indices",
    "Cleanlab.Props.C101_joint",
    "Cleanlab.Props.C101_joint_given",
    "Cleanlab.Props.C101_joint_short",
    "Cleanlab.Props.C101_calibrate_partial",
    "Cleanlab.Props.C101_not_calibrate",
    "Cleanlab.Props.C101_num_issues",
    "Cleanlab.Props.C101_not_method"
   ],
   "note": "Refuted as stated by C101_not_documented_order, C101_not_calibrate, C101_not_method: `_calibrate_confident_joint_multilabel` counts the distinct labels instead of the given matrices, so if a class does not occur, fewer matrices come back and the largest classes are lost. Entry (c, 0, 0) counts the examples without the class in which it is found missing, the documentation says those with the class in which it is found (and the reverse for (c, 1, 1)). `num_label_issues` ignores `estimation_method` for multi-label data, whatever its value. The other theorems hold for all inputs; what the _partial ones leave out is said in their docstrings."
  },
  {
   "property": "C102",
   "status": "partial",
   "theorems": [
    "Cleanlab.Props.C102_vector",
    "Cleanlab.Props.C102_not_column",
    "Cleanlab.Props.C102_not_column_square",
    "Cleanlab.Props.C102_not_multilabel",
    "Cleanlab.Props.C102_not_multilabel_two"
   ],
   "note": "Refuted as stated by C102_not_column, C102_not_column_square, C102_not_multilabel, C102_not_multilabel_two: A column of thresholds (documented) is broadcast along the examples: it raises, or, with as many examples as classes, is taken for one threshold per example. For multi-label data the thresholds are passed on to the binary problems: with three or more classes this raises, with two classes they are taken for absence and presence of each class. The other theorems hold for all inputs; what the _partial ones leave out is said in their docstrings."
  },
  {
   "property": "C103",
   "status": "partial",
   "theorems": [
    "Cleanlab.Props.C103_class_labels",
    "Cleanlab.Props.C103_class_succeeds",
    "Cleanlab.Props.C103_named_labels",
    "Cleanlab.Props.C103_not_sorted",
    "Cleanlab.Props.C103_multi_labels_partial",
    "Cleanlab.Props.C103_not_multi_labels",
    "Cleanlab.Props.C103_copy_partial",
    "Cleanlab.Props.C103_assigned",
    "Cleanlab.Props.C103_refuses",
    "Cleanlab.Props.C103_not_copy",
    "Cleanlab.Props.C103_not_deep"
   ],
   "note": "Refuted as stated by C103_not_sorted, C103_not_multi_labels, C103_not_copy, C103_not_deep: For a `ClassLabel` column the columns of `pred_probs` are taken in the order of the names in the data set, not in the documented lexicographic order. Multi-label data accept more columns than classes and then report `None` as a predicted label. `get_info()` hands out the internal dictionary, and `get_info(name)` a shallow copy whose arrays are the internal ones, so changes by the caller change what Datalab reports. The other theorems hold for all inputs; what the _partial ones leave out is said in their docstrings."
  },
  {
   "property": "C104",
   "status": "partial",
   "theorems": [
    "Cleanlab.Props.C104_range",
    "Cleanlab.Props.C104_order",
    "Cleanlab.Props.C104_same",
    "Cleanlab.Props.C104_shift",
    "Cleanlab.Props.C104_half",
    "Cleanlab.Props.C104_not_two",
    "Cleanlab.Props.C104_not_residual"
   ],
   "note": "Refuted as stated by C104_not_two, C104_not_residual: The residuals are centred, so a constant error of all predictions is invisible, and a label that equals its prediction gets the lowest score when the other predictions share an error. Each example is its own nearest neighbour and half of the examples are neighbours, so when half of the examples coincide (in particular for two examples) they get the perfect score 1 however wrong they are. The other theorems hold for all inputs; what the _partial ones leave out is said in their docstrings."
  },
  {
   "property": "C105",
   "status": "proved",
   "theorems": [
    "Cleanlab.Props.C105_predictions",
    "Cleanlab.Props.C105_succeeds",
    "Cleanlab.Props.C105_flags",
    "Cleanlab.Props.C105_features"
   ],
   "note": "Holds for all inputs of the model."
  },
  {
   "property": "C106",
   "status": "partial",
   "theorems": [
    "Cleanlab.Props.C106_possible",
    "Cleanlab.Props.C106_register",
    "Cleanlab.Props.C106_refuses",
    "Cleanlab.Props.C106_history",
    "Cleanlab.Props.C106_requested",
    "Cleanlab.Props.C106_defaults",
    "Cleanlab.Props.C106_not_identifier_column",
    "Cleanlab.Props.C106_documented_partial",
    "Cleanlab.Props.C106_not_listed",
    "Cleanlab.Props.C106_not_only_possible",
    "Cleanlab.Props.C106_possible_images",
    "Cleanlab.Props.C106_builtin"
   ],
   "note": "Refuted as stated by C106_not_identifier_column, C106_not_listed, C106_not_only_possible: The documented check `identifier_column` is registered for no task, so asking for it raises. `data_valuation` is missing from the documented list for regression and multi-label data. For image data `spurious_correlations` is accepted although it is not among the possible types, and listed types such as `dark` are refused as keys of `issue_types`. The other theorems hold for all inputs; what the _partial ones leave out is said in their docstrings."
  },
  {
   "property": "C107",
   "status": "proved",
   "theorems": [
    "Cleanlab.Props.C107_rows",
    "Cleanlab.Props.C107_succeeds",
    "Cleanlab.Props.C107_reported",
    "Cleanlab.Props.C107_runs"
   ],
   "note": "Holds for all inputs of the model."
  },
  {
   "property": "C108",
   "status": "partial",
   "theorems": [
    "Cleanlab.Props.C108_rows",
    "Cleanlab.Props.C108_duplicates",
    "Cleanlab.Props.C108_exact",
    "Cleanlab.Props.C108_order_partial",
    "Cleanlab.Props.C108_neighbours",
    "Cleanlab.Props.C108_not_zero",
    "Cleanlab.Props.C108_metric",
    "Cleanlab.Props.C108_create",
    "Cleanlab.Props.C108_order_needs_stable",
    "Cleanlab.Props.C108_not_ragged",
    "Cleanlab.Props.C108_not_docstring",
    "Cleanlab.Props.C108_closed_form_partial",
    "Cleanlab.Props.C108_prefix_partial"
   ],
   "note": "Refuted as stated by C108_not_zero, C108_not_ragged, C108_not_docstring: `n_neighbors=0` is taken as the default (`k or ...`) instead of being refused. `correct_knn_graph` regroups the entries of a graph with rows of different lengths, so a row can end up listing its own point. The docstring example of `correct_knn_distances_and_indices` shows a neighbour the code does not produce. Moving the other neighbours to the back relies on `np.argsort` of a boolean mask being stable, which numpy does not promise (rows of at most 16 entries are sorted by insertion). The other theorems hold for all inputs; what the _partial ones leave out is said in their docstrings."
  },
  {
   "property": "C109",
   "status": "partial",
   "theorems": [
    "Cleanlab.Props.C109_loads_partial",
    "Cleanlab.Props.C109_only",
    "Cleanlab.Props.C109_unsupported",
    "Cleanlab.Props.C109_unreadable",
    "Cleanlab.Props.C109_not_hub",
    "Cleanlab.Props.C109_not_subclass",
    "Cleanlab.Props.C109_not_missing_column",
    "Cleanlab.Props.C109_has_labels",
    "Cleanlab.Props.C109_one_label_per_row"
   ],
   "note": "Refuted as stated by C109_not_hub, C109_not_subclass, C109_not_missing_column: A documented identifier of a data set on the Hub never works: `load_dataset` without a split returns a dictionary of splits, which cannot be hashed (`TypeError`). Instances of subclasses of the supported types pass the type check and then raise `KeyError`. A label column that does not exist raises `KeyError`, because it is read before the check that would raise the `ValueError` naming it. The other theorems hold for all inputs; what the _partial ones leave out is said in their docstrings."
  },
  {
   "property": "C110",
   "status": "partial",
   "theorems": [
    "Cleanlab.Props.C110_trains_unflagged_partial",
    "Cleanlab.Props.C110_same_as_given",
    "Cleanlab.Props.C110_succeeds_partial",
    "Cleanlab.Props.C110_not_column",
    "Cleanlab.Props.C110_not_zero_one",
    "Cleanlab.Props.C110_not_zero_one_list",
    "Cleanlab.Props.C110_not_zero_one_two",
    "Cleanlab.Props.C110_refused",
    "Cleanlab.Props.C110_reports_found",
    "Cleanlab.Props.C110_save_space",
    "Cleanlab.Props.C110_failed_search",
    "Cleanlab.Props.C110_one_data_set",
    "Cleanlab.Props.C110_not_fraction",
    "Cleanlab.Props.C110_not_unchanged",
    "Cleanlab.Props.C110_not_predicted"
   ],
   "note": "Refuted as stated by C110_not_column, C110_not_zero_one, C110_not_zero_one_list, C110_not_zero_one_two, C110_not_fraction, C110_not_unchanged, C110_not_predicted: A data frame whose column `is_label_issue` holds 0 and 1 is accepted, but `np.invert` turns it into positions -1 and -2: the model is trained on copies of the last two rows, and for labels in a list rows and labels no longer match. Labels of shape `(n, 1)` are accepted by `find_label_issues` but make `fit` raise after the cross-validation. `k` is not updated by given label issues, and is changed by a search that raises. For integer labels `predicted_label` is cut off, not rounded. The other theorems hold for all inputs; what the _partial ones leave out is said in their docstrings."
  },
  {
   "property": "C111",
   "status": "partial",
   "theorems": [
    "Cleanlab.Props.C111_exists",
    "Cleanlab.Props.C111_epistemic",
    "Cleanlab.Props.C111_aleatoric",
    "Cleanlab.Props.C111_not_error_spread",
    "Cleanlab.Props.C111_not_kwargs",
    "Cleanlab.Props.C111_uniform",
    "Cleanlab.Props.C111_number"
   ],
   "note": "Refuted as stated by C111_not_error_spread, C111_not_kwargs: The aleatoric uncertainty is the spread of the predicted residuals, not of the residuals: it can be 0 for any amount of noise. `model_kwargs` are not passed to the trainings for the uncertainties. The other theorems hold for all inputs; what the _partial ones leave out is said in their docstrings."
  },
  {
   "property": "C112",
   "status": "partial",
   "theorems": [
    "Cleanlab.Props.C112_reproducible_partial",
    "Cleanlab.Props.C112_not_same_seed",
    "Cleanlab.Props.C112_not_repeatable",
    "Cleanlab.Props.C112_not_local"
   ],
   "note": "Refuted as stated by C112_not_same_seed, C112_not_repeatable, C112_not_local: `self.seed` is never used; the seed only sets the global random state of NumPy when the object is made. Two objects with the same seed, or two calls on one object, give different results, and the random numbers of the caller are reset. The other theorems hold for all inputs; what the _partial ones leave out is said in their docstrings."
  },
  {
   "property": "C113",
   "status": "partial",
   "theorems": [
    "Cleanlab.Props.C113_same_as_cleanlearning",
    "Cleanlab.Props.C113_same_as_dataset",
    "Cleanlab.Props.C113_succeeds_partial",
    "Cleanlab.Props.C113_not_absent_class",
    "Cleanlab.Props.C113_not_health_parameters",
    "Cleanlab.Props.C113_not_thresholds",
    "Cleanlab.Props.C113_small_classes",
    "Cleanlab.Props.C113_not_consistent"
   ],
   "note": "Refuted as stated by C113_not_absent_class, C113_not_health_parameters, C113_not_thresholds, C113_not_consistent: The check always fails if the predictions have a column for a class that no example has (the class names come from the labels of the data, CleanLearning accepts such predictions), and if `health_summary_parameters` (documented as keyword arguments of `dataset.health_summary`) lacks `class_names` or contains a confident joint, or a joint with the number of examples. The reported `confident_thresholds` ignore the option `thresholds`. The score counts the issues of `filter_by='confident_learning'`, while the flags use another filter and skip classes with at most 10 examples: a score of 0.8 can go with no flagged example. The other theorems hold for all inputs; what the _partial ones leave out is said in their docstrings."
  },
  {
   "property": "C114",
   "status": "partial",
   "theorems": [
    "Cleanlab.Props.C114_trains_on_given_partial",
    "Cleanlab.Props.C114_fit_iff",
    "Cleanlab.Props.C114_own_labels",
    "Cleanlab.Props.C114_weights_partial",
    "Cleanlab.Props.C114_not_weights",
    "Cleanlab.Props.C114_not_missing_class",
    "Cleanlab.Props.C114_not_repeated",
    "Cleanlab.Props.C114_predicts_given_partial",
    "Cleanlab.Props.C114_predicts_loader_partial",
    "Cleanlab.Props.C114_images",
    "Cleanlab.Props.C114_not_full_length",
    "Cleanlab.Props.C114_not_training_images",
    "Cleanlab.Props.C114_clone",
    "Cleanlab.Props.C114_not_clone",
    "Cleanlab.Props.C114_not_fresh"
   ],
   "note": "Refuted as stated by C114_not_weights, C114_not_missing_class, C114_not_repeated, C114_not_full_length, C114_not_training_images, C114_not_clone, C114_not_fresh: With as many indices as the data set has images the indices are ignored and the rows are in the order of the data set. For the indices `0 .. test_size - 1` the test images are predicted although the training images were trained on. Clones lose `seed` and `loader`. The weight of an example is that of the first example of its class, and training with weights fails if a class is missing. All occurrences of a repeated index get the label of the last one. A second `fit` continues the training of the first. The other theorems hold for all inputs; what the _partial ones leave out is said in their docstrings."
  },
  {
   "property": "C115",
   "status": "partial",
   "theorems": [
    "Cleanlab.Props.C115_find_iff",
    "Cleanlab.Props.C115_accepts_partial",
    "Cleanlab.Props.C115_scores",
    "Cleanlab.Props.C115_refuses",
    "Cleanlab.Props.C115_not_one_class",
    "Cleanlab.Props.C115_not_multilabel",
    "Cleanlab.Props.C115_multilabel_partial"
   ],
   "note": "Refuted as stated by C115_not_one_class, C115_not_multilabel: Labels of a single class are accepted only if it is class 0, and then the filters `predicted_neq_given`, `low_normalized_margin` and `low_self_confidence` and `num_label_issues` still refuse. In multi-label data a class given to every example makes the search raise with every filter, and a class given to nobody makes it raise with `predicted_neq_given`. The other theorems hold for all inputs; what the _partial ones leave out is said in their docstrings."
  },
  {
   "property": "C116",
   "status": "partial",
   "theorems": [
    "Cleanlab.Props.C116_arrays_partial",
    "Cleanlab.Props.C116_other_arrays",
    "Cleanlab.Props.C116_not_arrays",
    "Cleanlab.Props.C116_values",
    "Cleanlab.Props.C116_columns_partial",
    "Cleanlab.Props.C116_frame_partial",
    "Cleanlab.Props.C116_weight_column",
    "Cleanlab.Props.C116_not_frame",
    "Cleanlab.Props.C116_not_second_fit"
   ],
   "note": "Refuted as stated by C116_not_arrays, C116_not_frame, C116_not_second_fit: With `pulearning` and two classes the noise matrices given by the caller and the confident joint in the given dictionary are overwritten in place. `fit` adds the columns `label_quality` and `sample_weight` to the caller's data frame `label_issues`; if the same frame is used for a second call with other probabilities, the scores of the first call are kept. The other theorems hold for all inputs; what the _partial ones leave out is said in their docstrings."
  },
  {
   "property": "C117",
   "status": "partial",
   "theorems": [
    "Cleanlab.Props.C117_latent_partial",
    "Cleanlab.Props.C117_consistent_partial",
    "Cleanlab.Props.C117_diagonal_partial",
    "Cleanlab.Props.C117_probabilities_partial",
    "Cleanlab.Props.C117_cross_validation",
    "Cleanlab.Props.C117_cv_probabilities",
    "Cleanlab.Props.C117_defaults",
    "Cleanlab.Props.C117_not_zero_diagonal"
   ],
   "note": "Refuted as stated by C117_not_zero_diagonal: If the joint has no correctly labelled example of a class, the default `py_method=\"cnt\"` divides zero by zero (clipped) and the prior of the class becomes the lower bound 1e-6 although the joint counts examples in it. Noise rates above 0.9999 and priors below 1e-5 are clipped too, so for more than 10000 examples the estimates can differ from the frequencies. The other theorems hold for all inputs; what the _partial ones leave out is said in their docstrings."
  },
  {
   "property": "C118",
   "status": "partial",
   "theorems": [
    "Cleanlab.Props.C118_auxiliary",
    "Cleanlab.Props.C118_range",
    "Cleanlab.Props.C118_image_scores",
    "Cleanlab.Props.C118_not_lengths",
    "Cleanlab.Props.C118_not_swap_from_label",
    "Cleanlab.Props.C118_pooling",
    "Cleanlab.Props.C118_one_image",
    "Cleanlab.Props.C118_auxiliary_first",
    "Cleanlab.Props.C118_separated_first",
    "Cleanlab.Props.C118_not_same_minimum"
   ],
   "note": "Refuted as stated by C118_not_lengths, C118_not_swap_from_label, C118_not_same_minimum: Lists of labels and predictions of different length are cut to the shorter one instead of being refused. `_compute_swap_box_scores_for_image` takes `lab_bboxes` from its argument and not from the completed dictionary, so for dictionaries with `label` and `prediction` the other two scores can be computed but the swap scores raise a `TypeError`. From such dictionaries without `min_possible_similarity` the least similarity is taken over each image alone, so the scores differ from those for the whole data set (`C118_not_same_minimum`). The other theorems hold for all inputs; what the _partial ones leave out is said in their docstrings."
  },
  {
   "property": "C119",
   "status": "partial",
   "theorems": [
    "Cleanlab.Props.C119_columns",
    "Cleanlab.Props.C119_weights_partial",
    "Cleanlab.Props.C119_flags_partial",
    "Cleanlab.Props.C119_annotators",
    "Cleanlab.Props.C119_range",
    "Cleanlab.Props.C119_agreement_partial",
    "Cleanlab.Props.C119_not_agreement",
    "Cleanlab.Props.C119_not_weights",
    "Cleanlab.Props.C119_not_flags",
    "Cleanlab.Props.C119_crowdlab",
    "Cleanlab.Props.C119_refused",
    "Cleanlab.Props.C119_succeeds_partial"
   ],
   "note": "Refuted as stated by C119_not_agreement, C119_not_weights, C119_not_flags: With several consensus methods the returned weights are those of the last method, while the main columns and tables belong to the first. Without `return_detailed_quality` the annotator qualities are computed from default label quality scores even when `label_quality_score_kwargs` asks for other ones, so asking for the detailed table changes the annotator table. With `quality_method=\"agreement\"` and labels stored as floats (always so for a DataFrame or when a label is missing) `value_counts` puts the counts of the classes that occur at the first positions, so the default consensus can be a class that nobody chose, with quality 0. The other theorems hold for all inputs; what the _partial ones leave out is said in their docstrings."
  },
  {
   "property": "C120",
   "status": "partial",
   "theorems": [
    "Cleanlab.Props.C120_thresholds",
    "Cleanlab.Props.C120_joint",
    "Cleanlab.Props.C120_num_issues",
    "Cleanlab.Props.C120_scores",
    "Cleanlab.Props.C120_top_issues",
    "Cleanlab.Props.C120_find_partial",
    "Cleanlab.Props.C120_ranked_partial",
    "Cleanlab.Props.C120_number",
    "Cleanlab.Props.C120_not_ties",
    "Cleanlab.Props.C120_estimates",
    "Cleanlab.Props.C120_tables",
    "Cleanlab.Props.C120_health"
   ],
   "note": "Refuted as stated by C120_not_ties: the filters that sort (`low_self_confidence`, `low_normalized_margin`, `prune_by_class`, `prune_by_noise_rate`, `both`) cut a sorted list at a fixed number; of several examples with the value at the cut the position in the list decides. Two examples with the same self-confidence, one mislabelled and one not: in one order the first is flagged, after exchanging them the other (`C120_not_ties`, for every sort). Without ties the flagged examples are the same (`C120_find_partial`). The other theorems hold for all inputs; what the _partial ones leave out is said in their docstrings."
  },
  {
   "property": "C121",
   "status": "partial",
   "theorems": [
    "Cleanlab.Props.C121_thresholds",
    "Cleanlab.Props.C121_scores",
    "Cleanlab.Props.C121_num_issues_partial",
    "Cleanlab.Props.C121_find_partial",
    "Cleanlab.Props.C121_joint_partial",
    "Cleanlab.Props.C121_not_ties",
    "Cleanlab.Props.C121_not_one_class",
    "Cleanlab.Props.C121_classes",
    "Cleanlab.Props.C121_health_partial",
    "Cleanlab.Props.C121_calibrated_partial",
    "Cleanlab.Props.C121_find_estimated_partial"
   ],
   "note": "Refuted as stated by C121_not_ties, C121_not_one_class: an example with several most probable classes counts for the one with the lowest number in the confident joint. For two classes with two examples each and probabilities of 1/2 everywhere, the joint has mislabelled examples among those of the class numbered 1 and none in the class numbered 0 (`C121_not_ties`), so the noise of a class depends on its number. Labels of one class only are accepted if that class has number 0 and refused otherwise (`C121_not_one_class`). Without such cases the flagged examples are the same (`C121_find_partial`); calibrated counts can differ by one only where two fractions to be rounded are equal (`C121_calibrated_partial`, `C121_find_estimated_partial`). The other theorems hold for all inputs; what the _partial ones leave out is said in their docstrings."
  },
  {
   "property": "C122",
   "status": "proved",
   "theorems": [
    "Cleanlab.Props.C122_checks",
    "Cleanlab.Props.C122_majority_vote",
    "Cleanlab.Props.C122_label_quality",
    "Cleanlab.Props.C122_annotator_stats",
    "Cleanlab.Props.C122_active_scores",
    "Cleanlab.Props.C122_active_learning"
   ],
   "note": "Holds for all inputs of the model."
  },
  {
   "property": "C123",
   "status": "partial",
   "theorems": [
    "Cleanlab.Props.C123_images",
    "Cleanlab.Props.C123_boxes",
    "Cleanlab.Props.C123_metrics",
    "Cleanlab.Props.C123_sizes",
    "Cleanlab.Props.C123_distribution",
    "Cleanlab.Props.C123_not_box_metrics",
    "Cleanlab.Props.C123_issues_partial",
    "Cleanlab.Props.C123_not_issue_ties"
   ],
   "note": "Refuted as stated by C123_not_box_metrics, C123_not_issue_ties: the average precision that sets the thresholds of `find_label_issues` sorts all predictions of a class by probability; among equal probabilities the order of the images decides. With a correct and a spurious prediction of probability 0.9, a third image is found to have an issue if the correct one comes first and not otherwise (`C123_not_issue_ties`). A prediction is matched with the first of the annotated boxes that it overlaps most, so precision and recall depend on the order of the annotated boxes (`C123_not_box_metrics`). The other theorems hold for all inputs; what the _partial ones leave out is said in their docstrings."
  },
  {
   "property": "C124",
   "status": "partial",
   "theorems": [
    "Cleanlab.Props.C124_duplicates",
    "Cleanlab.Props.C124_data_valuation",
    "Cleanlab.Props.C124_outliers",
    "Cleanlab.Props.C124_outliers_pred_probs",
    "Cleanlab.Props.C124_knn_predictions",
    "Cleanlab.Props.C124_underperforming_group",
    "Cleanlab.Props.C124_class_imbalance",
    "Cleanlab.Props.C124_identifier_column",
    "Cleanlab.Props.C124_null",
    "Cleanlab.Props.C124_null_pattern_partial",
    "Cleanlab.Props.C124_not_null_pattern",
    "Cleanlab.Props.C124_not_twins"
   ],
   "note": "Refuted as stated by C124_not_null_pattern, C124_not_twins: of several equally frequent patterns of missing values the first one in the order of the rows is reported (`C124_not_null_pattern`). Exact duplicates are listed as each other's neighbours in the order of the rows, and of more than `k` duplicates only the first are listed, so identical rows with identical labels get different Shapley values: of four identical rows labelled 0, 1, 0, 0 the first has the value 5/8 and the third 1/2 (`C124_not_twins`). For a given neighbour graph nothing depends on the order. The other theorems hold for all inputs; what the _partial ones leave out is said in their docstrings."
  },
  {
   "property": "C125",
   "status": "partial",
   "theorems": [
    "Cleanlab.Props.C125_classes_per_class",
    "Cleanlab.Props.C125_classes_scores",
    "Cleanlab.Props.C125_classes_find",
    "Cleanlab.Props.C125_classes_ranked",
    "Cleanlab.Props.C125_classes_health",
    "Cleanlab.Props.C125_classes_issues",
    "Cleanlab.Props.C125_classes_ranking",
    "Cleanlab.Props.C125_examples_per_class_partial",
    "Cleanlab.Props.C125_examples_number",
    "Cleanlab.Props.C125_examples_scores",
    "Cleanlab.Props.C125_examples_find_partial",
    "Cleanlab.Props.C125_examples_health_partial",
    "Cleanlab.Props.C125_examples_tables_partial",
    "Cleanlab.Props.C125_not_ties"
   ],
   "note": "Refuted as stated by C125_not_ties: the filters that sort cut a sorted list at a fixed number. With `low_self_confidence` two examples with the same labels and the same probabilities are treated differently, one is flagged and the other is not, for every sort (`C125_not_ties`). Without ties the order of the examples does not matter (`C125_examples_find_partial`); the order of the classes never matters. The other theorems hold for all inputs; what the _partial ones leave out is said in their docstrings."
  },
  {
   "property": "C126",
   "status": "partial",
   "theorems": [
    "Cleanlab.Props.C126_graph_partial",
    "Cleanlab.Props.C126_threshold_partial",
    "Cleanlab.Props.C126_not_parameters",
    "Cleanlab.Props.C126_not_datalab",
    "Cleanlab.Props.C126_direct_partial",
    "Cleanlab.Props.C126_not_ood_kwargs",
    "Cleanlab.Props.C126_not_unchanged"
   ],
   "note": "Refuted as stated by C126_not_parameters, C126_not_datalab, C126_not_ood_kwargs, C126_not_unchanged: `Datalab` passes the parameters of a check to its constructor and again to `find_issues`, and the outlier check passes what it does not know itself on to `OutOfDistribution.fit_score`. On predicted probabilities every parameter except `threshold` (and `verbose`) therefore ends in a `TypeError`, which is printed and the check is skipped: `method`, `adjust_pred_probs` and `confident_thresholds`, documented for exactly this case, can never be used (`C126_not_parameters`, `C126_not_datalab`). Whatever the caller writes into `ood_kwargs['params']` is overwritten, because the new dictionary always has the key `k` (`C126_not_ood_kwargs`), and the caller's dictionary is changed (`C126_not_unchanged`). With features or a graph all parameters are used (`C126_graph_partial`). The other theorems hold for all inputs; what the _partial ones leave out is said in their docstrings."
  },
  {
   "property": "C127",
   "status": "partial",
   "theorems": [
    "Cleanlab.Props.C127_own_graph_partial",
    "Cleanlab.Props.C127_data_valuation",
    "Cleanlab.Props.C127_stored_graph_partial",
    "Cleanlab.Props.C127_not_k",
    "Cleanlab.Props.C127_not_metric",
    "Cleanlab.Props.C127_nearest",
    "Cleanlab.Props.C127_nearest_stored",
    "Cleanlab.Props.C127_clustering_partial",
    "Cleanlab.Props.C127_not_clustering",
    "Cleanlab.Props.C127_rarest_class"
   ],
   "note": "Refuted as stated by C127_not_k, C127_not_metric, C127_not_clustering: the stored `k` is the parameter, not the number of neighbours used: a graph that is passed or stored with another number of columns is used as it is (`C127_not_k`). The stored metric is `None` for every check that takes the graph of an earlier check (`C127_not_metric`). The stored parameters of the clustering are always `{'metric': 'precomputed'}`; those the caller gave are used and not stored (`C127_not_clustering`). The other theorems hold for all inputs; what the _partial ones leave out is said in their docstrings."
  },
  {
   "property": "C128",
   "status": "partial",
   "theorems": [
    "Cleanlab.Props.C128_containers_partial",
    "Cleanlab.Props.C128_integer_array_partial",
    "Cleanlab.Props.C128_reported_partial",
    "Cleanlab.Props.C128_not_array",
    "Cleanlab.Props.C128_not_mixed_array",
    "Cleanlab.Props.C128_not_rows",
    "Cleanlab.Props.C128_not_truth_values",
    "Cleanlab.Props.C128_refused",
    "Cleanlab.Props.C128_not_vector"
   ],
   "note": "Refuted as stated by C128_not_array, C128_not_mixed_array, C128_not_rows, C128_not_truth_values, C128_not_vector: an array has one type for all columns: next to a single column of floats no identifier column of an array is ever reported, although the same table as a DataFrame or dictionary has it reported (`C128_not_array`, `C128_not_mixed_array`). A list of rows is read as a list of columns (`C128_not_rows`). A column of truth values and integers counts as integers in a dictionary and not in a DataFrame (`C128_not_truth_values`). A one-dimensional array is taken for many columns of one row: nothing is reported and the issue table has one row (`C128_not_vector`). Otherwise the containers agree (`C128_containers_partial`, `C128_integer_array_partial`). The other theorems hold for all inputs; what the _partial ones leave out is said in their docstrings."
  },
  {
   "property": "C129",
   "status": "partial",
   "theorems": [
    "Cleanlab.Props.C129_check_partial",
    "Cleanlab.Props.C129_frame_partial",
    "Cleanlab.Props.C129_array",
    "Cleanlab.Props.C129_other",
    "Cleanlab.Props.C129_input_partial",
    "Cleanlab.Props.C129_not_strings",
    "Cleanlab.Props.C129_not_probabilities",
    "Cleanlab.Props.C129_model",
    "Cleanlab.Props.C129_counts_partial",
    "Cleanlab.Props.C129_verbose",
    "Cleanlab.Props.C129_not_verbose",
    "Cleanlab.Props.C129_pred_probs_partial",
    "Cleanlab.Props.C129_omitted"
   ],
   "note": "Refuted as stated by C129_not_strings, C129_not_probabilities, C129_not_verbose: The values of the predicted probabilities are never checked: any values are accepted with a good shape (`C129_not_probabilities`), whereas the single-annotator functions check the range. Texts are refused in an array but silently converted to numbers in a data frame (`C129_not_strings`). `get_majority_vote_label(verbose=False)` skips all checks: the label -1 is counted as the last class and 1/2 as class 0 (`C129_not_verbose`). The exact condition for acceptance is `C129_check_partial`, `C129_frame_partial`, `C129_array`; on checked tables the counts are right (`C129_counts_partial`). The other theorems hold for all inputs; what the _partial ones leave out is said in their docstrings."
  },
  {
   "property": "C130",
   "status": "partial",
   "theorems": [
    "Cleanlab.Props.C130_graph_partial",
    "Cleanlab.Props.C130_same_partial",
    "Cleanlab.Props.C130_data_valuation_partial",
    "Cleanlab.Props.C130_near_duplicates_partial",
    "Cleanlab.Props.C130_builds",
    "Cleanlab.Props.C130_prefixes_partial",
    "Cleanlab.Props.C130_exact_partial",
    "Cleanlab.Props.C130_not_number_of_neighbours",
    "Cleanlab.Props.C130_not_features",
    "Cleanlab.Props.C130_not_metric",
    "Cleanlab.Props.C130_not_given_graph"
   ],
   "note": "Refuted as stated by C130_not_number_of_neighbours, C130_not_features, C130_not_metric, C130_not_given_graph: What a check works with depends on the checks before it. (1) A second check with *other features* silently reuses the stored graph of the first features if it has enough neighbours (`C130_not_features`), although `Datalab.find_issues` documents that without `knn_graph` the graph is constructed from the provided `features`. (2) A check without a metric reuses a graph built with the metric of an earlier check instead of the default one (`C130_not_metric`). (3) A given `knn_graph` is used on a new Datalab, but after a check with another metric it is ignored in favour of a graph built from the features, or the check fails for lack of features, if a metric is given too (`C130_not_given_graph`); documented is that `knn_graph` takes precedence. (4) A check for k neighbours uses a stored graph with more; near-duplicate sets then contain examples that are not among the k nearest (`C130_not_number_of_neighbours`). Proved: with the same features and metric argument and no given graph, the graph is the same unless an earlier check asked for more neighbours (`C130_same_partial`, `C130_graph_partial`), and even then the data-valuation scores and the near-duplicate flags and scores are the same (`C130_data_valuation_partial`, `C130_near_duplicates_partial`). The other theorems hold for all inputs; what the _partial ones leave out is said in their docstrings."
  },
  {
   "property": "C131",
   "status": "partial",
   "theorems": [
    "Cleanlab.Props.C131_accepted",
    "Cleanlab.Props.C131_scores_partial",
    "Cleanlab.Props.C131_predicted_neq_given_partial",
    "Cleanlab.Props.C131_refused",
    "Cleanlab.Props.C131_not_list",
    "Cleanlab.Props.C131_not_float",
    "Cleanlab.Props.C131_not_frame",
    "Cleanlab.Props.C131_not_bool",
    "Cleanlab.Props.C131_not_bool_wrong"
   ],
   "note": "Refuted as stated by C131_not_list, C131_not_float, C131_not_frame, C131_not_bool, C131_not_bool_wrong: `get_label_quality_scores` validates labels in every container and number type, but then uses the original object as an index: a list fails for lack of `shape` (`C131_not_list`), integer-valued floats fail as indices (`C131_not_float`), a one-column frame silently gives an n \u00d7 n matrix, also in `find_predicted_neq_given` (`C131_not_frame`), and a Boolean array is taken as a mask of the columns: it fails unless there are as many examples as classes (`C131_not_bool`), and then can silently return the probability of the wrong class (`C131_not_bool_wrong`). `num_label_issues` and `compute_confident_joint` convert with `labels_to_array` first. The other theorems hold for all inputs; what the _partial ones leave out is said in their docstrings."
  },
  {
   "property": "C132",
   "status": "partial",
   "theorems": [
    "Cleanlab.Props.C132_thresholds",
    "Cleanlab.Props.C132_scores",
    "Cleanlab.Props.C132_num_issues",
    "Cleanlab.Props.C132_find_partial",
    "Cleanlab.Props.C132_raw_joint",
    "Cleanlab.Props.C132_joint_partial",
    "Cleanlab.Props.C132_estimate_partial",
    "Cleanlab.Props.C132_not_joint",
    "Cleanlab.Props.C132_not_copies"
   ],
   "note": "Refuted as stated by C132_not_joint, C132_not_copies: the calibrated counts are rounded to integers per class, and with more copies less is rounded away: the estimated joint of four examples has 1/4 or 1/2 where that of the same examples twice has 3/8 (`C132_not_joint`, for every sort). The filters by counts cut a sorted list, so one of two copies of the same example can be flagged and the other not (`C132_not_copies`, for every sort). Thresholds, scores and numbers of issues never change; the flags do not with the other filters and different scores (`C132_find_partial`), the joint not if nothing is rounded (`C132_estimate_partial`). The other theorems hold for all inputs; what the _partial ones leave out is said in their docstrings."
  },
  {
   "property": "C133",
   "status": "partial",
   "theorems": [
    "Cleanlab.Props.C133_thresholds",
    "Cleanlab.Props.C133_scores",
    "Cleanlab.Props.C133_num_issues",
    "Cleanlab.Props.C133_raw_joint",
    "Cleanlab.Props.C133_joint_partial",
    "Cleanlab.Props.C133_find_partial",
    "Cleanlab.Props.C133_adjusted_order",
    "Cleanlab.Props.C133_not_adjusted",
    "Cleanlab.Props.C133_not_one_class",
    "Cleanlab.Props.C133_not_entropy"
   ],
   "note": "Refuted as stated by C133_not_adjusted, C133_not_one_class, C133_not_entropy: `adjust_pred_probs=True` shifts all probabilities by the largest threshold, and the threshold of a class without examples is 2 (no probability reaches it): a further class without examples changes a score from 3/4 to 4/7, though never the order of self-confidences (`C133_not_adjusted`, `C133_adjusted_order`). The entropy of `confidence_weighted_entropy` is divided by the logarithm of the number of classes, so the scores depend on the number of columns: below 0.56 for two classes with 1/2 each, above 0.57 with a third of probability 0 (`C133_not_entropy`). With a single class `normalized_margin` raises, with a second one nobody uses it does not (`C133_not_one_class`). Everything else is unaffected up to ties of the rounding (`C133_find_partial`, `C133_joint_partial`). The other theorems hold for all inputs; what the _partial ones leave out is said in their docstrings."
  },
  {
   "property": "C134",
   "status": "partial",
   "theorems": [
    "Cleanlab.Props.C134_correction",
    "Cleanlab.Props.C134_near_duplicates_partial",
    "Cleanlab.Props.C134_not_near_duplicates",
    "Cleanlab.Props.C134_outlier_flags",
    "Cleanlab.Props.C134_outlier_scores_partial",
    "Cleanlab.Props.C134_not_outlier_scores"
   ],
   "note": "Refuted as stated by C134_not_near_duplicates, C134_not_outlier_scores: constants are compared with distances: the median distance is taken to be at least 1e-6, distances up to 1e-8 count as 0 and average Euclidean distances below 1.5e-7 as well. Two points at distance 1 are no near duplicates; in a unit ten million times as large both are flagged (`C134_not_near_duplicates`), and the outlier score changes from exp(-1) to 1 (`C134_not_outlier_scores`). The flags of the outlier check and the corrected graph never change (`C134_outlier_flags`, `C134_correction`); the rest does not for distances above these constants (`C134_near_duplicates_partial`, `C134_outlier_scores_partial`). The other theorems hold for all inputs; what the _partial ones leave out is said in their docstrings."
  },
  {
   "property": "C135",
   "status": "proved",
   "theorems": [
    "Cleanlab.Props.C135_residual",
    "Cleanlab.Props.C135_outre",
    "Cleanlab.Props.C135_check",
    "Cleanlab.Props.C135_unit_order"
   ],
   "note": "Holds for all inputs of the model."
  },
  {
   "property": "C136",
   "status": "partial",
   "theorems": [
    "Cleanlab.Props.C136_own_score",
    "Cleanlab.Props.C136_scores",
    "Cleanlab.Props.C136_two_parts",
    "Cleanlab.Props.C136_not_adjusted",
    "Cleanlab.Props.C136_entropy",
    "Cleanlab.Props.C136_ensemble_partial",
    "Cleanlab.Props.C136_not_ensemble_one_class",
    "Cleanlab.Props.C136_not_ensemble_weights",
    "Cleanlab.Props.C136_multilabel_partial",
    "Cleanlab.Props.C136_not_multilabel",
    "Cleanlab.Props.C136_tokens",
    "Cleanlab.Props.C136_sentences",
    "Cleanlab.Props.C136_segmentation",
    "Cleanlab.Props.C136_residual",
    "Cleanlab.Props.C136_not_residual",
    "Cleanlab.Props.C136_detection_partial",
    "Cleanlab.Props.C136_not_detection"
   ],
   "note": "Refuted as stated by C136_not_adjusted, C136_not_ensemble_one_class, C136_not_ensemble_weights, C136_not_multilabel, C136_not_residual, C136_not_detection: Several scores do depend on the rest of the data. `adjust_pred_probs=True` subtracts thresholds computed from all examples: 2/3 or 8/9 for the same example (`C136_not_adjusted`). An ensemble with the default weights by accuracy or log loss weighs the models by the whole data: 9/10 or 7/8 (`C136_not_ensemble_weights`), and a part with only one class is refused (`C136_not_ensemble_one_class`). A part of multi-label data in which a class is missing is treated differently (`C136_not_multilabel`); a single regression example is refused (`C136_not_residual`); the similarity of objects is normalised by the smallest similarity in the data set (`C136_not_detection`). Proved: the unadjusted scores of classification data (`C136_own_score`, `C136_scores`, `C136_two_parts`, `C136_entropy`), ensembles with uniform or given weights (`C136_ensemble_partial`), tokens, sentences, segmentation with softmin, residuals, and the rest under the stated conditions. The other theorems hold for all inputs; what the _partial ones leave out is said in their docstrings."
  },
  {
   "property": "C137",
   "status": "partial",
   "theorems": [
    "Cleanlab.Props.C137_clean_class_partial",
    "Cleanlab.Props.C137_matrices",
    "Cleanlab.Props.C137_not_prune_by_class",
    "Cleanlab.Props.C137_not_predicted",
    "Cleanlab.Props.C137_not_confident_learning",
    "Cleanlab.Props.C137_not_low_memory",
    "Cleanlab.Props.C137_not_other_class"
   ],
   "note": "Refuted as stated by C137_not_prune_by_class, C137_not_predicted, C137_not_confident_learning, C137_not_low_memory, C137_not_other_class: (1) Only the counts are changed: with `filter_by=\"prune_by_class\"` the number of issues of a class is the number of its examples minus the diagonal entry, and the examples taken from the off-diagonal entry are not added to the diagonal, so an example of the class declared to be clean is reported (`C137_not_prune_by_class`). (2) `predicted_neq_given` and `confident_learning` do not use the counts and report such examples too (`C137_not_predicted`, `C137_not_confident_learning`), and with `low_memory` the declaration is ignored (`C137_not_low_memory`). (3) `confident_joint[1-p][1-p] = 1` overwrites a *count* by a noise rate: the other class is taken to have a single right example, and `min_examples_per_class` then removes its label errors from the report: an issue found without the declaration is missed with it (`C137_not_other_class`). Proved: no example of the declared class is reported with the default filter or `both` (`C137_clean_class_partial`), and the stored matrices (`C137_matrices`). The other theorems hold for all inputs; what the _partial ones leave out is said in their docstrings."
  },
  {
   "property": "C138",
   "status": "partial",
   "theorems": [
    "Cleanlab.Props.C138_find",
    "Cleanlab.Props.C138_number",
    "Cleanlab.Props.C138_scores",
    "Cleanlab.Props.C138_low_scores_partial",
    "Cleanlab.Props.C138_counts_partial",
    "Cleanlab.Props.C138_not_estimated",
    "Cleanlab.Props.C138_not_number_calibrated",
    "Cleanlab.Props.C138_not_entropy",
    "Cleanlab.Props.C138_not_adjusted",
    "Cleanlab.Props.C138_entropy_partial"
   ],
   "note": "Refuted as stated by C138_not_estimated, C138_not_number_calibrated, C138_not_entropy, C138_not_adjusted: A better prediction raises the threshold of the class, so that other examples of the class may no longer count as confidently right, and the calibration then takes a larger part of the class to be wrong: raising the probability of the given label of one of seven examples from 0.30 to 0.33 makes this example an issue with `prune_by_noise_rate` (the default), `prune_by_class` and `both` (`C138_not_estimated`), and raises the calibrated number of issues from 2 to 3 (`C138_not_number_calibrated`). `confidence_weighted_entropy` falls to 0 when the prediction becomes certain (`C138_not_entropy`, cf. C57), and `adjust_pred_probs=True` can lower the score from 19/22 to 5/6 (`C138_not_adjusted`). Proved: `confident_learning` and `predicted_neq_given` for simultaneous improvements of any number of examples (`C138_find`), the number of issues (`C138_number`), self-confidence and normalized margin (`C138_scores`), the filters by lowest scores (`C138_low_scores_partial`) and the filters by counts with a given confident joint (`C138_counts_partial`), the last two up to ties. `C138_entropy_partial` shows that nothing but the lower bound `1e-6` is to blame for the entropy score: above it the score never falls. The other theorems hold for all inputs; what the _partial ones leave out is said in their docstrings."
  },
  {
   "property": "C139",
   "status": "partial",
   "theorems": [
    "Cleanlab.Props.C139_accepted",
    "Cleanlab.Props.C139_split",
    "Cleanlab.Props.C139_final_partial",
    "Cleanlab.Props.C139_not_integers",
    "Cleanlab.Props.C139_not_integers_lengths",
    "Cleanlab.Props.C139_not_refused",
    "Cleanlab.Props.C139_not_checked",
    "Cleanlab.Props.C139_not_frame_labels"
   ],
   "note": "Refuted as stated by C139_not_integers, C139_not_integers_lengths, C139_not_refused, C139_not_checked, C139_not_frame_labels: (1) `assert_indexing_works` tests `X[index_list]` only, but the final training uses `X[mask]` with an array of booleans. An object whose rows are looked up one by one (`[self.rows[i] for i in index]`) takes `True` and `False` for 1 and 0: if no label is flagged, the final model is trained on n copies of the second row with the labels of all rows, without an error (`C139_not_integers`); otherwise it is given more rows than labels (`C139_not_integers_lengths`). An object that refuses masks makes `fit` raise after all of cross-validation (`C139_not_refused`). (2) With given `pred_probs` nothing about X is checked: a list of rows, None or data of another length pass and `fit` raises at the end (`C139_not_checked`). (3) Labels in a data frame with one column are accepted, but the weights are then two-dimensional and `fit` raises (`C139_not_frame_labels`). Splits are right for every accepted data set (`C139_split`), and the final training for arrays, frames, torch data sets and objects that understand masks (`C139_final_partial`). The other theorems hold for all inputs; what the _partial ones leave out is said in their docstrings."
  },
  {
   "property": "C140",
   "status": "partial",
   "theorems": [
    "Cleanlab.Props.C140_shown_partial",
    "Cleanlab.Props.C140_legend",
    "Cleanlab.Props.C140_not_excluded",
    "Cleanlab.Props.C140_not_only_issues",
    "Cleanlab.Props.C140_not_names"
   ],
   "note": "Refuted as stated by C140_not_excluded, C140_not_only_issues, C140_not_names: (1) `exclude` hides pixels only after the images have been chosen: an image all of whose issues belong to an excluded class is shown without a red pixel in place of one with other issues (`C140_not_excluded`). (2) Images without any issue are shown whenever there are at most `top` images (`C140_not_only_issues`). (3) Without `pred_probs` there are colours for the classes up to the largest label only, and `class_names` of all classes raises an IndexError if the last class does not occur (`C140_not_names`). The choice by all flagged pixels, the figures and the legend are right (`C140_shown_partial`, `C140_legend`). The other theorems hold for all inputs; what the _partial ones leave out is said in their docstrings."
  },
  {
   "property": "C141",
   "status": "partial",
   "theorems": [
    "Cleanlab.Props.C141_boxes_partial",
    "Cleanlab.Props.C141_labels",
    "Cleanlab.Props.C141_not_sides",
    "Cleanlab.Props.C141_not_threshold",
    "Cleanlab.Props.C141_not_three_classes",
    "Cleanlab.Props.C141_not_three_classes_raises",
    "Cleanlab.Props.C141_not_three_classes_threshold",
    "Cleanlab.Props.C141_legend",
    "Cleanlab.Props.C141_sizes_partial",
    "Cleanlab.Props.C141_not_unpredicted",
    "Cleanlab.Props.C141_not_none"
   ],
   "note": "Refuted as stated by C141_not_sides, C141_not_threshold, C141_not_three_classes, C141_not_three_classes_raises, C141_not_three_classes_threshold, C141_not_unpredicted, C141_not_none: (1) Predictions of a model with three classes are taken for (boxes, classes, probabilities) if the first class has five boxes and the others equally many: with none of the others nothing is drawn, otherwise `visualize` raises (`C141_not_three_classes`, `C141_not_three_classes_raises`). (2) With `overlay=False` the labels are on the left and the predictions on the right; the documentation says the opposite (`C141_not_sides`). (3) A box exactly at the threshold is omitted though only boxes below it should be, and `_prune_by_threshold` keeps it (`C141_not_threshold`). (4) `plot_class_size_distributions` raises a KeyError when it comes to an annotated class that is never predicted, since sorting turns the `defaultdict` into a `dict` (`C141_not_unpredicted`), and a TypeError for `class_to_show=None` (`C141_not_none`). The rest holds (`C141_boxes_partial`, `C141_labels`, `C141_legend`, `C141_sizes_partial`). The other theorems hold for all inputs; what the _partial ones leave out is said in their docstrings."
  },
  {
   "property": "C142",
   "status": "partial",
   "theorems": [
    "Cleanlab.Props.C142_no_argument",
    "Cleanlab.Props.C142_requested_partial",
    "Cleanlab.Props.C142_unnamed",
    "Cleanlab.Props.C142_raises_iff",
    "Cleanlab.Props.C142_not_defaults",
    "Cleanlab.Props.C142_correlations",
    "Cleanlab.Props.C142_nothing",
    "Cleanlab.Props.C142_created"
   ],
   "note": "Refuted as stated by C142_not_defaults: An image check outside the seven defaults that is named without parameters, such as `{\"image_issue_types\": {\"near_duplicates\": {}}}`, raises a `KeyError` from `find_issues`, outside of the `try` that guards the image checks, after the ordinary checks have run; with any parameter the same check is passed to the image library (`C142_raises_iff`, `C142_not_defaults`). The other theorems hold for all inputs; what the _partial ones leave out is said in their docstrings."
  },
  {
   "property": "C143",
   "status": "partial",
   "theorems": [
    "Cleanlab.Props.C143_flattened",
    "Cleanlab.Props.C143_unchanged",
    "Cleanlab.Props.C143_same_prediction",
    "Cleanlab.Props.C143_given_model",
    "Cleanlab.Props.C143_default_model_partial",
    "Cleanlab.Props.C143_not_list",
    "Cleanlab.Props.C143_score_partial",
    "Cleanlab.Props.C143_not_weights",
    "Cleanlab.Props.C143_accuracy",
    "Cleanlab.Props.C143_accuracy_unweighted",
    "Cleanlab.Props.C143_r2"
   ],
   "note": "Refuted as stated by C143_not_list, C143_not_weights: (1) With the default model a list of examples is refused for lack of `shape`, although scikit-learn's model accepts it (`C143_not_list`). (2) `sample_weight` is silently ignored if the `score` method of the model has no parameter of exactly this name: with weights 0 and 1 the score is 1/2 where the weighted accuracy is 0 (`C143_not_weights`). The other theorems hold for all inputs; what the _partial ones leave out is said in their docstrings."
  },
  {
   "property": "C144",
   "status": "partial",
   "theorems": [
    "Cleanlab.Props.C144_agrees",
    "Cleanlab.Props.C144_other_examples_partial",
    "Cleanlab.Props.C144_not_only_its_example",
    "Cleanlab.Props.C144_not_two_classes",
    "Cleanlab.Props.C144_not_listed_first"
   ],
   "note": "Refuted as stated by C144_not_only_its_example, C144_not_two_classes, C144_not_listed_first: `nan` passes the check of the range. One `nan` in the column of the example's own label makes the threshold of that class `nan`, and then no example of the data set reaches the class (`C144_not_only_its_example`): with two classes not a single label error towards this class is counted (`C144_not_two_classes`). The example itself has no score, and sorting by score puts it last, behind all good ones (`C144_not_listed_first`). Only missing values in other columns stay without effect on other examples (`C144_other_examples_partial`). The other theorems hold for all inputs; what the _partial ones leave out is said in their docstrings."
  },
  {
   "property": "C145",
   "status": "partial",
   "theorems": [
    "Cleanlab.Props.C145_boundaries",
    "Cleanlab.Props.C145_boundaries_low_memory",
    "Cleanlab.Props.C145_boundaries_scores",
    "Cleanlab.Props.C145_scores",
    "Cleanlab.Props.C145_sentence_scores",
    "Cleanlab.Props.C145_order_partial",
    "Cleanlab.Props.C145_not_ties"
   ],
   "note": "Refuted as stated by C145_not_ties: With a filter that flags a given number of lowest scores, tokens of equal score are told apart by their position: of two one-token sentences with the same self-confidence the mislabelled one is flagged in one order and the correctly labelled one in the other, whichever sort is used (`C145_not_ties`). Proved: the division into sentences has no influence at all (`C145_boundaries`, `C145_boundaries_low_memory`, `C145_boundaries_scores`), scores move with their sentence (`C145_scores`, `C145_sentence_scores`), and the same tokens are returned with the same sequence of scores for filters that do not sort and for data without ties (`C145_order_partial`). The other theorems hold for all inputs; what the _partial ones leave out is said in their docstrings."
  },
  {
   "property": "C146",
   "status": "partial",
   "theorems": [
    "Cleanlab.Props.C146_epoch",
    "Cleanlab.Props.C146_small_batch",
    "Cleanlab.Props.C146_symmetric",
    "Cleanlab.Props.C146_not_small_data",
    "Cleanlab.Props.C146_not_share",
    "Cleanlab.Props.C146_evaluate"
   ],
   "note": "Refuted as stated by C146_not_small_data, C146_not_share: The number of batches is counted, not the number of examples: a last batch of 16 wrong examples weighs as much as a batch of 48 right ones, and 50 percent are returned instead of 75 (`C146_not_share`). If the only batch has fewer than 16 examples it is skipped and the epoch ends with a division by zero (`C146_not_small_data`). Proved: which examples each network learns from and the accuracies as means over batches (`C146_epoch`), no influence of a small last batch (`C146_small_batch`), symmetry (`C146_symmetric`), the evaluation (`C146_evaluate`). The other theorems hold for all inputs; what the _partial ones leave out is said in their docstrings."
  },
  {
   "property": "C147",
   "status": "partial",
   "theorems": [
    "Cleanlab.Props.C147_digits",
    "Cleanlab.Props.C147_not_one_row",
    "Cleanlab.Props.C147_cifar",
    "Cleanlab.Props.C147_cifar_small",
    "Cleanlab.Props.C147_not_wide",
    "Cleanlab.Props.C147_not_top_bn",
    "Cleanlab.Props.C147_digits_deterministic",
    "Cleanlab.Props.C147_not_deterministic",
    "Cleanlab.Props.C147_cifar_random"
   ],
   "note": "Refuted as stated by C147_not_one_row, C147_not_wide, C147_not_top_bn, C147_not_deterministic: (1) `F.dropout2d` is called without `training=self.training` and its default is True: the random layers of the CIFAR network stay active in evaluation mode, and the same image has different outputs each time (`C147_not_deterministic`). (2) `SimpleNet` cuts the features into rows of 320: images of 44 by 44 pixels are accepted and give four rows per image (`C147_not_one_row`). (3) With `top_bn=True` every evaluation fails for lack of the layer `bn_c1` (`C147_not_top_bn`). (4) Some images that are not square are accepted and the right part of their features is ignored (`C147_not_wide`). Proved: the rest of the statement (`C147_digits`, `C147_cifar`, `C147_cifar_small`, `C147_digits_deterministic`). The other theorems hold for all inputs; what the _partial ones leave out is said in their docstrings."
  },
  {
   "property": "C148",
   "status": "proved",
   "theorems": [
    "Cleanlab.Props.C148_outliers",
    "Cleanlab.Props.C148_prediction_outliers",
    "Cleanlab.Props.C148_near_duplicates",
    "Cleanlab.Props.C148_imbalance",
    "Cleanlab.Props.C148_underperforming",
    "Cleanlab.Props.C148_data_valuation",
    "Cleanlab.Props.C148_non_iid",
    "Cleanlab.Props.C148_spurious"
   ],
   "note": "Holds for all inputs of the model."
  },
  {
   "property": "C149",
   "status": "proved",
   "theorems": [
    "Cleanlab.Props.C149_integers",
    "Cleanlab.Props.C149_table"
   ],
   "note": "Holds for all inputs of the model."
  },
  {
   "property": "C150",
   "status": "proved",
   "theorems": [
    "Cleanlab.Props.C150_classification",
    "Cleanlab.Props.C150_accepted",
    "Cleanlab.Props.C150_regression"
   ],
   "note": "Holds for all inputs of the model."
  },
  {
   "property": "C151",
   "status": "proved",
   "theorems": [
    "Cleanlab.Props.C151_confident_joint",
    "Cleanlab.Props.C151_joint",
    "Cleanlab.Props.C151_noise",
    "Cleanlab.Props.C151_count",
    "Cleanlab.Props.C151_filters",
    "Cleanlab.Props.C151_sound",
    "Cleanlab.Props.C151_normalized_margin",
    "Cleanlab.Props.C151_by_class",
    "Cleanlab.Props.C151_certain",
    "Cleanlab.Props.C151_certain_all",
    "Cleanlab.Props.C151_ideal",
    "Cleanlab.Props.C151_accepted",
    "Cleanlab.Props.C151_health"
   ],
   "note": "Holds for all inputs of the model."
  },
  {
   "property": "C152",
   "status": "partial",
   "theorems": [
    "Cleanlab.Props.C152_by_noise_rate_partial",
    "Cleanlab.Props.C152_both_partial",
    "Cleanlab.Props.C152_self_confidence_partial",
    "Cleanlab.Props.C152_two_classes_partial",
    "Cleanlab.Props.C152_not_default",
    "Cleanlab.Props.C152_not_self_confidence"
   ],
   "note": "Refuted as stated by C152_not_default, C152_not_self_confidence: prune_by_noise_rate, the default, takes for every pair of classes (s, y) as many examples given s as the confident joint counts, namely those with the largest p(y) - p(s). An example of a third class can have a larger difference than those of class y and take the place of one of them. In the data of `C152_not_default` (14 examples, 3 classes, ideal probabilities, exact confident joint) one of six wrong labels is missed. low_self_confidence compares probabilities of different classes: in `C152_not_self_confidence` (17 examples) it flags three correct labels and misses three wrong ones. The other theorems hold for all inputs; what the _partial ones leave out is said in their docstrings."
  },
  {
   "property": "C153",
   "status": "proved",
   "theorems": [
    "Cleanlab.Props.C153_batched",
    "Cleanlab.Props.C153_segmentation",
    "Cleanlab.Props.C153_token",
    "Cleanlab.Props.C153_token_low_memory",
    "Cleanlab.Props.C153_multilabel_per_class",
    "Cleanlab.Props.C153_multilabel",
    "Cleanlab.Props.C153_training",
    "Cleanlab.Props.C153_training_returns"
   ],
   "note": "Holds for all inputs of the model."
  },
  {
   "property": "C154",
   "status": "proved",
   "theorems": [
    "Cleanlab.Props.C154_regression",
    "Cleanlab.Props.C154_detection",
    "Cleanlab.Props.C154_detection_score",
    "Cleanlab.Props.C154_annotators"
   ],
   "note": "Holds for all inputs of the model."
  },
  {
   "property": "C155",
   "status": "proved",
   "theorems": [
    "Cleanlab.Props.C155_found",
    "Cleanlab.Props.C155_noise",
    "Cleanlab.Props.C155_exact"
   ],
   "note": "Holds for all inputs of the model."
  },
  {
   "property": "C156",
   "status": "proved",
   "theorems": [
    "Cleanlab.Props.C156_predicted",
    "Cleanlab.Props.C156_two_confident",
    "Cleanlab.Props.C156_two_prune"
   ],
   "note": "Holds for all inputs of the model."
  },
  {
   "property": "C157",
   "status": "partial",
   "theorems": [
    "Cleanlab.Props.C157_confident_partial",
    "Cleanlab.Props.C157_not_default",
    "Cleanlab.Props.C157_not_by_class",
    "Cleanlab.Props.C157_not_both",
    "Cleanlab.Props.C157_not_confident",
    "Cleanlab.Props.C157_not_self_confidence",
    "Cleanlab.Props.C157_not_normalized_margin"
   ],
   "note": "Refuted as stated by C157_not_default, C157_not_by_class, C157_not_both, C157_not_confident, C157_not_self_confidence, C157_not_normalized_margin: The thresholds of the second call are class averages over what remains. A removed example can have been above the average of its class, so that a threshold falls and a new example becomes a confident member of another class (`C157_not_confident`, three classes). The pruning filters decide how many examples to remove by counting, and which ones by sorting: two removals can fall on the same example, or on others than the counted ones, and what was counted is counted again (`C157_not_default`, `C157_not_by_class`, `C157_not_both`). low_self_confidence and low_normalized_margin flag as many examples as are counted, not the examples that are counted, so those may remain (`C157_not_self_confidence`, `C157_not_normalized_margin`, two classes). Proved: predicted_neq_given, two classes (C156), and confident_learning if no flagged example is above the average of its class (`C157_confident_partial`). The other theorems hold for all inputs; what the _partial ones leave out is said in their docstrings."
  },
  {
   "property": "C158",
   "status": "proved",
   "theorems": [
    "Cleanlab.Props.C158_weights",
    "Cleanlab.Props.C158_trust"
   ],
   "note": "Holds for all inputs of the model."
  },
  {
   "property": "C159",
   "status": "proved",
   "theorems": [
    "Cleanlab.Props.C159_confirming_vote"
   ],
   "note": "Holds for all inputs of the model."
  },
  {
   "property": "C160",
   "status": "partial",
   "theorems": [
    "Cleanlab.Props.C160_more_votes_partial",
    "Cleanlab.Props.C160_model_surer",
    "Cleanlab.Props.C160_not_monotone"
   ],
   "note": "Refuted as stated by C160_not_monotone: The posterior is a weighted mean in which every agreeing label counts q, the mean agreement in the data. If the model gives the label a probability above q, each further agreeing label pulls the mean down (`C160_model_surer`): with q = 8/9 and a prediction of 0.99 an example labelled by two agreeing annotators has a smaller consensus quality than the same example labelled by one of them (`C160_not_monotone`). Proved: the expected order if the model's probability is at most q and q is at least (1-q)/(K-1) (`C160_more_votes_partial`). The other theorems hold for all inputs; what the _partial ones leave out is said in their docstrings."
  },
  {
   "property": "C161",
   "status": "proved",
   "theorems": [
    "Cleanlab.Props.C161_zero_point_and_sign",
    "Cleanlab.Props.C161_unit"
   ],
   "note": "Holds for all inputs of the model."
  },
  {
   "property": "C162",
   "status": "partial",
   "theorems": [
    "Cleanlab.Props.C162_finer_unit_partial",
    "Cleanlab.Props.C162_not_unit"
   ],
   "note": "Refuted as stated by C162_not_unit: The residual score is exp(-|residual|), with the residual in the unit of the target, and the threshold is a fraction of the median score: with most examples predicted perfectly an error of 1 (kilometre) is not flagged, the same error of 1000 (metres) is (`C162_not_unit`). Proved: a finer unit only adds issues (`C162_finer_unit_partial`). The other theorems hold for all inputs; what the _partial ones leave out is said in their docstrings."
  },
  {
   "property": "C163",
   "status": "proved",
   "theorems": [
    "Cleanlab.Props.C163_metrics",
    "Cleanlab.Props.C163_scores",
    "Cleanlab.Props.C163_issues",
    "Cleanlab.Props.C163_boxes",
    "Cleanlab.Props.C163_sizes"
   ],
   "note": "Holds for all inputs of the model."
  },
  {
   "property": "C164",
   "status": "partial",
   "theorems": [
    "Cleanlab.Props.C164_metrics_partial",
    "Cleanlab.Props.C164_similarity_partial",
    "Cleanlab.Props.C164_not_resolution"
   ],
   "note": "Refuted as stated by C164_not_resolution: The distance of two boxes enters their similarity as exp(-distance / 10) with the distance in pixels, so scores depend on the resolution: an image with a badly located box is found, at a tenth of the resolution it is not (`C164_not_resolution`). In coordinates relative to the image size the distance has almost no effect. Proved: overlaps, and with them confusion counts, precision, recall and F1, do not depend on the resolution unless boxes are smaller than 1e-6 (`C164_metrics_partial`); a finer resolution makes boxes less similar, down to 0.9 times their overlap (`C164_similarity_partial`). The other theorems hold for all inputs; what the _partial ones leave out is said in their docstrings."
  },
  {
   "property": "C165",
   "status": "proved",
   "theorems": [
    "Cleanlab.Props.C165_issues",
    "Cleanlab.Props.C165_softmin",
    "Cleanlab.Props.C165_num_pixel_issues"
   ],
   "note": "Holds for all inputs of the model."
  },
  {
   "property": "C166",
   "status": "partial",
   "theorems": [
    "Cleanlab.Props.C166_not_numbering",
    "Cleanlab.Props.C166_numbering_partial"
   ],
   "note": "Refuted as stated by C166_not_numbering: With downsample > 1 the label of a block is the rounded mean of the numbers of its classes: a block half of class 0 and half of class 2 is labelled 1, although no pixel of it has that label. Whether a wrong label in the block is found depends on how the classes are numbered (`C166_not_numbering`). Proved: if every block has one label, the numbering does not matter (`C166_numbering_partial`); without down-sampling it never does (C165). The other theorems hold for all inputs; what the _partial ones leave out is said in their docstrings."
  },
  {
   "property": "C167",
   "status": "proved",
   "theorems": [
    "Cleanlab.Props.C167_geometry",
    "Cleanlab.Props.C167_columns",
    "Cleanlab.Props.C167_signs",
    "Cleanlab.Props.C167_shift",
    "Cleanlab.Props.C167_lengths",
    "Cleanlab.Props.C167_unit"
   ],
   "note": "Holds for all inputs of the model."
  },
  {
   "property": "C168",
   "status": "partial",
   "theorems": [
    "Cleanlab.Props.C168_not_zero_feature",
    "Cleanlab.Props.C168_not_constant_feature",
    "Cleanlab.Props.C168_constant_partial"
   ],
   "note": "Refuted as stated by C168_not_zero_feature, C168_not_constant_feature: The default metric is chosen by the number of columns alone, so a fourth feature that is 0 for all examples switches from euclidean to cosine distances and changes the nearest neighbour (`C168_not_zero_feature`); with more than 3 features a constant other than 0 moves the origin, which cosine distances depend on (`C168_not_constant_feature`). Proved: no effect with a euclidean metric, by default with at most 3 features, and none of a zero feature with the cosine metric, by default with more than 3 (`C168_constant_partial`). The other theorems hold for all inputs; what the _partial ones leave out is said in their docstrings."
  },
  {
   "property": "C169",
   "status": "partial",
   "theorems": [
    "Cleanlab.Props.C169_define",
    "Cleanlab.Props.C169_name_required",
    "Cleanlab.Props.C169_default",
    "Cleanlab.Props.C169_levels_checked",
    "Cleanlab.Props.C169_not_levels_checked",
    "Cleanlab.Props.C169_not_levels",
    "Cleanlab.Props.C169_not_negative_level",
    "Cleanlab.Props.C169_levels_partial"
   ],
   "note": "Refuted as stated by C169_not_levels_checked, C169_not_levels, C169_not_negative_level: (1) The levels shown at verbosity v are the first v + 1 of the dictionary in the order in which it is written, not those with numbers up to v: levels written out of order or not beginning with 0 are shown at the wrong verbosity; a check with an empty dictionary can be defined but every report of it raises (`C169_not_levels`). (2) Levels that come from an abstract class in between are not checked: a string passes for a list and the report looks for its letters (`C169_not_levels_checked`). Proved: the conditions for a class statement (`C169_define`), checked levels without abstract classes (`C169_levels_checked`), and the reports for levels 0, 1, ..., m in this order (`C169_levels_partial`). The other theorems hold for all inputs; what the _partial ones leave out is said in their docstrings."
  },
  {
   "property": "C170",
   "status": "proved",
   "theorems": [
    "Cleanlab.Props.C170_differences",
    "Cleanlab.Props.C170_approximates",
    "Cleanlab.Props.C170_all_neighbors",
    "Cleanlab.Props.C170_documented_example"
   ],
   "note": "Holds for all inputs of the model."
  },
  {
   "property": "C171",
   "status": "partial",
   "theorems": [
    "Cleanlab.Props.C171_not_least_valuable",
    "Cleanlab.Props.C171_flagged_partial"
   ],
   "note": "Refuted as stated by C171_not_least_valuable: Each row starts at 0 for the k-th neighbour instead of at its Shapley value, so that the values of all k neighbours of a point are shifted by an amount that depends on the point. Of four points in the plane the only flagged one has the largest Shapley value. What remains: a flagged point is among the k nearest neighbours of a point with another label. The other theorems hold for all inputs; what the _partial ones leave out is said in their docstrings."
  },
  {
   "property": "C172",
   "status": "proved",
   "theorems": [
    "Cleanlab.Props.C172_predicted",
    "Cleanlab.Props.C172_two_confident"
   ],
   "note": "Holds for all inputs of the model."
  },
  {
   "property": "C173",
   "status": "partial",
   "theorems": [
    "Cleanlab.Props.C173_confident_partial",
    "Cleanlab.Props.C173_not_confident",
    "Cleanlab.Props.C173_not_millionth",
    "Cleanlab.Props.C173_not_default"
   ],
   "note": "Refuted as stated by C173_not_confident, C173_not_millionth, C173_not_default: Default filter and `prune_by_class`: the only example of a class is never flagged, but it is once another label has been corrected to its class; two classes and three examples suffice (`C173_not_default`). `confident_learning`: with three classes a corrected example can lower the threshold of its new class (`C173_not_confident`), with two only if it was below the threshold by at most the tolerance of a millionth (`C173_not_millionth`). What remains: corrected examples that were at most average in the old class and reach the threshold of the new one (`C173_confident_partial`). The other theorems hold for all inputs; what the _partial ones leave out is said in their docstrings."
  },
  {
   "property": "C174",
   "status": "proved",
   "theorems": [
    "Cleanlab.Props.C174_orders",
    "Cleanlab.Props.C174_formula",
    "Cleanlab.Props.C174_range",
    "Cleanlab.Props.C174_extreme",
    "Cleanlab.Props.C174_monotone"
   ],
   "note": "Holds for all inputs of the model."
  },
  {
   "property": "C175",
   "status": "partial",
   "theorems": [
    "Cleanlab.Props.C175_result_partial",
    "Cleanlab.Props.C175_not_all_neighbors",
    "Cleanlab.Props.C175_not_default",
    "Cleanlab.Props.C175_not_single"
   ],
   "note": "Refuted as stated by C175_not_all_neighbors, C175_not_default, C175_not_single: `gaussian_kde` refuses values without variance. Where every example is a neighbour of every other one, as for 11 examples and the default k = 10, the statistic is the same in every order and the check fails (`C175_not_default`; in floating point a rounding error in the mean can give 1/2 instead, for 11 examples there is none). It also fails with `num_permutations=1` (`C175_not_single`). What remains: there is a result exactly if two drawn orders have different statistics. The other theorems hold for all inputs; what the _partial ones leave out is said in their docstrings."
  },
  {
   "property": "C176",
   "status": "proved",
   "theorems": [
    "Cleanlab.Props.C176_certain",
    "Cleanlab.Props.C176_good_model",
    "Cleanlab.Props.C176_score"
   ],
   "note": "Holds for all inputs of the model."
  },
  {
   "property": "C177",
   "status": "partial",
   "theorems": [
    "Cleanlab.Props.C177_found_partial",
    "Cleanlab.Props.C177_not_one_object",
    "Cleanlab.Props.C177_not_found"
   ],
   "note": "Refuted as stated by C177_not_one_object, C177_not_found: The score of a swapped label is at least the smallest similarity of an annotated and a predicted box in the data set. If each image shows one object and the model localises it exactly, this is 1: every image then has label quality 1 and none is reported, whatever the classes (`C177_not_one_object`, `C177_not_found`). What remains: a swapped label is found if the smallest similarity is at most 4/5 of the scaled average precision of the class. The other theorems hold for all inputs; what the _partial ones leave out is said in their docstrings."
  },
  {
   "property": "C178",
   "status": "proved",
   "theorems": [
    "Cleanlab.Props.C178_thresholds",
    "Cleanlab.Props.C178_selfConfidence",
    "Cleanlab.Props.C178_normalizedMargin",
    "Cleanlab.Props.C178_ranked",
    "Cleanlab.Props.C178_joint",
    "Cleanlab.Props.C178_number",
    "Cleanlab.Props.C178_find",
    "Cleanlab.Props.C178_margin"
   ],
   "note": "Holds for all inputs of the model."
  },
  {
   "property": "C179",
   "status": "proved",
   "theorems": [
    "Cleanlab.Props.C179_euclidean",
    "Cleanlab.Props.C179_cosine",
    "Cleanlab.Props.C179_neighbours",
    "Cleanlab.Props.C179_neighbours_cosine",
    "Cleanlab.Props.C179_average",
    "Cleanlab.Props.C179_flags",
    "Cleanlab.Props.C179_scores"
   ],
   "note": "Holds for all inputs of the model."
  },
  {
   "property": "C180",
   "status": "proved",
   "theorems": [
    "Cleanlab.Props.C180_find",
    "Cleanlab.Props.C180_nearly_ideal"
   ],
   "note": "Holds for all inputs of the model."
  },
  {
   "property": "C181",
   "status": "partial",
   "theorems": [
    "Cleanlab.Props.C181_confident_partial",
    "Cleanlab.Props.C181_predicted_partial",
    "Cleanlab.Props.C181_not_confident"
   ],
   "note": "Refuted as stated by C181_not_confident: The threshold of a class is the average self-confidence of the examples given this class. If none of them is wrong and the model is surer of them than of a wrongly labelled example of the same class, that example does not reach the threshold and is not found. Three examples, two classes: the model is certain of two rightly labelled examples and predicts the true class of the third with any p < 1 - 1e-6; every filter except `predicted_neq_given` returns no issue (`C181_not_confident`). Confident learning finds every error if p (1 + w) >= 1, with w the fraction of wrong labels among those of the true class (`C181_confident_partial`). The other theorems hold for all inputs; what the _partial ones leave out is said in their docstrings."
  },
  {
   "property": "C182",
   "status": "proved",
   "theorems": [
    "Cleanlab.Props.C182_number",
    "Cleanlab.Props.C182_find",
    "Cleanlab.Props.C182_uniform",
    "Cleanlab.Props.C182_returns"
   ],
   "note": "Holds for all inputs of the model."
  },
  {
   "property": "C183",
   "status": "partial",
   "theorems": [
    "Cleanlab.Props.C183_not_prior",
    "Cleanlab.Props.C183_not_default",
    "Cleanlab.Props.C183_flat_partial"
   ],
   "note": "Refuted as stated by C183_not_prior, C183_not_default: The threshold of a class is the average probability of the class, which every example reaches if all are predicted alike. If one class c is more probable than the others, `confident_learning` and `predicted_neq_given` flag exactly the examples with another label (`C183_not_prior`), and with two classes the default filter flags all of these but at most one (`C183_not_default`): a model that has learned the class frequencies only has the whole minority class flagged. What remains: nothing is flagged if no class is more probable than another by 1e-6 or more. The other theorems hold for all inputs; what the _partial ones leave out is said in their docstrings."
  },
  {
   "property": "C184",
   "status": "proved",
   "theorems": [
    "Cleanlab.Props.C184_other_thresholds",
    "Cleanlab.Props.C184_thresholds",
    "Cleanlab.Props.C184_predicted",
    "Cleanlab.Props.C184_flags",
    "Cleanlab.Props.C184_number"
   ],
   "note": "Holds for all inputs of the model."
  },
  {
   "property": "C185",
   "status": "proved",
   "theorems": [
    "Cleanlab.Props.C185_confident",
    "Cleanlab.Props.C185_predicted"
   ],
   "note": "Holds for all inputs of the model."
  },
  {
   "property": "C186",
   "status": "partial",
   "theorems": [
    "Cleanlab.Props.C186_not_alone",
    "Cleanlab.Props.C186_two_classes_partial"
   ],
   "note": "Refuted as stated by C186_not_alone: The three pruning filters skip classes with at most one (or `min_examples_per_class`) examples, so a label changed to a class that no other example has is never flagged, even if the model is certain of the old label (`C186_not_alone`); `confident_learning` flags it. What remains: with two classes it is flagged if some other example of the new class is not predicted otherwise. The other theorems hold for all inputs; what the _partial ones leave out is said in their docstrings."
  },
  {
   "property": "C187",
   "status": "proved",
   "theorems": [
    "Cleanlab.Props.C187_repeated",
    "Cleanlab.Props.C187_order",
    "Cleanlab.Props.C187_single",
    "Cleanlab.Props.C187_copies",
    "Cleanlab.Props.C187_useless"
   ],
   "note": "Holds for all inputs of the model."
  },
  {
   "property": "C188",
   "status": "proved",
   "theorems": [
    "Cleanlab.Props.C188_majority_vote",
    "Cleanlab.Props.C188_settled",
    "Cleanlab.Props.C188_label_quality",
    "Cleanlab.Props.C188_label_quality_settled",
    "Cleanlab.Props.C188_annotators",
    "Cleanlab.Props.C188_active_learning"
   ],
   "note": "Holds for all inputs of the model."
  },
  {
   "property": "C189",
   "status": "partial",
   "theorems": [
    "Cleanlab.Props.C189_not_undecided",
    "Cleanlab.Props.C189_majority_vote_partial"
   ],
   "note": "Refuted as stated by C189_not_undecided: The accuracy of the model, which gives its weight, is that of `np.argmax`, which takes the first of equally probable classes. One example, a model undecided between two classes, four annotators who agree: if they agree on the first class the model counts as always right and the quality of the consensus is 5/6, if on the second the model counts as always wrong, has a millionth of the weight and the quality is almost 1 (`C189_not_undecided`). What remains: consensus labels, agreements and annotator weights by majority vote (`C189_majority_vote_partial`). The other theorems hold for all inputs; what the _partial ones leave out is said in their docstrings."
  },
  {
   "property": "C190",
   "status": "partial",
   "theorems": [
    "Cleanlab.Props.C190_not_elsewhere",
    "Cleanlab.Props.C190_not_partly_right",
    "Cleanlab.Props.C190_found_partial",
    "Cleanlab.Props.C190_elsewhere_partial"
   ],
   "note": "Refuted as stated by C190_not_elsewhere, C190_not_partly_right: An image is reported if the badly-located score of a box is below 0.8 \u00d7 0.25 \u00d7 (average precision of its class), if a prediction of at least 95 % is far from all boxes, or if boxes of two classes coincide. A box that meets no prediction of its class has no badly-located score, so an image all of whose boxes lie elsewhere, with predictions below 95 %, is not reported and has label quality 1 (`C190_not_elsewhere`); boxes whose overlap with a prediction of their class is 2/9 or more are never reported (`C190_not_partly_right`), although no annotator would call such a box right. What remains: displaced boxes with similarity at most a fifth of the average precision of the class (`C190_found_partial`), and boxes drawn away from a prediction of 95 % (`C190_elsewhere_partial`). The other theorems hold for all inputs; what the _partial ones leave out is said in their docstrings."
  },
  {
   "property": "C191",
   "status": "proved",
   "theorems": [
    "Cleanlab.Props.C191_counts",
    "Cleanlab.Props.C191_metrics",
    "Cleanlab.Props.C191_average_precision",
    "Cleanlab.Props.C191_improbable"
   ],
   "note": "Holds for all inputs of the model."
  },
  {
   "property": "C192",
   "status": "proved",
   "theorems": [
    "Cleanlab.Props.C192_counts",
    "Cleanlab.Props.C192_metrics",
    "Cleanlab.Props.C192_average_precision"
   ],
   "note": "Holds for all inputs of the model."
  },
  {
   "property": "C193",
   "status": "partial",
   "theorems": [
    "Cleanlab.Props.C193_found_partial",
    "Cleanlab.Props.C193_not_group",
    "Cleanlab.Props.C193_not_direction",
    "Cleanlab.Props.C193_not_copies"
   ],
   "note": "Refuted as stated by C193_not_group, C193_not_direction, C193_not_copies: An example that has as many others nearby as neighbours are searched (10 by default) is never flagged, however far this group is from the rest, if more than a quarter of the examples have nobody as near (`C193_not_group`, for a pair of copies at any distance `C193_not_copies`). With more than three features the default metric is the cosine distance, so an example in the direction of others is never flagged, however large it is (`C193_not_direction`). What remains: at most (N - 1)/4 examples, each further from all others than the diameter of the rest divided by the threshold, are all found (`C193_found_partial`). The other theorems hold for all inputs; what the _partial ones leave out is said in their docstrings."
  },
  {
   "property": "C194",
   "status": "proved",
   "theorems": [
    "Cleanlab.Props.C194_flagged"
   ],
   "note": "Holds for all inputs of the model."
  },
  {
   "property": "C195",
   "status": "partial",
   "theorems": [
    "Cleanlab.Props.C195_up_to_partial",
    "Cleanlab.Props.C195_not_all"
   ],
   "note": "Refuted as stated by C195_not_all: The sets are those of the neighbours within the radius, and an example has at most k neighbours (10 by default). If there are k + 2 or more copies of an example, all copies from the (k + 1)-th on list the first k ones, so no two of these are in each other's sets (`C195_not_all`), for every index, sorting routine and threshold: a caller who removes an example and its set keeps duplicates. All copies are flagged all the same (C194). What remains: up to k + 1 copies are all in each other's sets (`C195_up_to_partial`). The other theorems hold for all inputs; what the _partial ones leave out is said in their docstrings."
  },
  {
   "property": "C196",
   "status": "proved",
   "theorems": [
    "Cleanlab.Props.C196_rated"
   ],
   "note": "Holds for all inputs of the model."
  },
  {
   "property": "C197",
   "status": "partial",
   "theorems": [
    "Cleanlab.Props.C197_agreement_partial",
    "Cleanlab.Props.C197_not_rated",
    "Cleanlab.Props.C197_not_rated_majority"
   ],
   "note": "Refuted as stated by C197_not_rated, C197_not_rated_majority: The quality of an annotator mixes the agreement with the consensus with the mean posterior score of the labels, and the consensus label may have a low posterior score. With the default consensus: where two classes have the same largest posterior the consensus falls back to the majority label, which may have the smallest posterior; of two annotators who differ on such an example only, the one who gave the consensus label is rated 0.05 and the other 0.22 (`C197_not_rated`). With the majority vote: where the model disagrees with the majority and weighs more (`C197_not_rated_majority`). What remains: the agreement with the consensus, which is the quality for quality_method=\"agreement\" (`C197_agreement_partial`), and the quality where the consensus label also has the larger score (C196). The other theorems hold for all inputs; what the _partial ones leave out is said in their docstrings."
  },
  {
   "property": "C198",
   "status": "proved",
   "theorems": [
    "Cleanlab.Props.C198_confident",
    "Cleanlab.Props.C198_predicted"
   ],
   "note": "Holds for all inputs of the model."
  },
  {
   "property": "C199",
   "status": "partial",
   "theorems": [
    "Cleanlab.Props.C199_clean_partial",
    "Cleanlab.Props.C199_not_right"
   ],
   "note": "Refuted as stated by C199_not_right: The threshold of a class is its mean self-confidence, so an example of which the model is certain raises it, and examples that are only just right no longer count as confidently right, while those that are wrong still count: the estimated share of wrong labels grows and examples that were not flagged before are flagged (`C199_not_right`, two classes, seven examples and one more, all three pruning filters). What remains: with two classes, if nothing is flagged, then nothing is flagged after such an example is added (`C199_clean_partial`); confident_learning has no such effect (C198). The other theorems hold for all inputs; what the _partial ones leave out is said in their docstrings."
  },
  {
   "property": "C200",
   "status": "proved",
   "theorems": [
    "Cleanlab.Props.C200_found"
   ],
   "note": "Holds for all inputs of the model."
  },
  {
   "property": "C201",
   "status": "partial",
   "theorems": [
    "Cleanlab.Props.C201_single_partial",
    "Cleanlab.Props.C201_not_found"
   ],
   "note": "Refuted as stated by C201_not_found: The residuals are divided by their standard deviation, which one very large error dominates: the residual of a smaller one then hardly counts beside the differences of the labels. Of twenty targets one is wrong by 1 and reported; if another one is wrong by 1000, for example because digits are missing, the first is no longer reported (`C201_not_found`). What remains: a single wrong target is found however wrong it is (`C201_single_partial`), and several wrong by about the same amount (C200). The other theorems hold for all inputs; what the _partial ones leave out is said in their docstrings."
  },
  {
   "property": "C202",
   "status": "proved",
   "theorems": [
    "Cleanlab.Props.C202_values",
    "Cleanlab.Props.C202_found"
   ],
   "note": "Holds for all inputs of the model."
  },
  {
   "property": "C203",
   "status": "partial",
   "theorems": [
    "Cleanlab.Props.C203_not_listed",
    "Cleanlab.Props.C203_not_wrong",
    "Cleanlab.Props.C203_reported_partial"
   ],
   "note": "Refuted as stated by C203_not_listed, C203_not_wrong: The contribution of a neighbour is compared with that of the k-th neighbour only, and an example that is nobody's neighbour has no contribution at all. A distant wrongly labelled example is therefore never reported (`C203_not_listed`: eleven examples of one class and a distant one, default k). If the k-th neighbour is itself wrong, errors are turned around: of six examples of one class, two of them labelled wrongly, the check reports a rightly labelled one and neither of the wrong ones (`C203_not_wrong`). What remains: if the k-th neighbours are right, only wrongly labelled examples are reported (`C203_reported_partial`), and those that have more right than wrong listers (C202). The other theorems hold for all inputs; what the _partial ones leave out is said in their docstrings."
  },
  {
   "property": "C204",
   "status": "partial",
   "theorems": [
    "Cleanlab.Props.C204_not_image",
    "Cleanlab.Props.C204_not_sentence",
    "Cleanlab.Props.C204_not_classes",
    "Cleanlab.Props.C204_not_boxes",
    "Cleanlab.Props.C204_ema_partial",
    "Cleanlab.Props.C204_boxes_partial"
   ],
   "note": "Refuted as stated by C204_not_image, C204_not_sentence, C204_not_classes, C204_not_boxes: The weight of a part in softmin grows as its score falls. For a part whose score is more than the temperature (0.1 by default, 0.05 for sentences) above the score of the whole, this outweighs the fall: the score of an image with a wrong and a right pixel rises when the predicted probability of the label of the right one falls from 1 to 0.8 (`C204_not_image`; the same for sentences, the classes of an example and the boxes of an image: `C204_not_sentence`, `C204_not_classes`, `C204_not_boxes`). So of two images the one whose remaining pixels are all worse may be ranked as the better one. What remains: the exponential moving average, the default of multi-label classification, never does this (`C204_ema_partial`), and a worse worst part never improves the score (`C204_boxes_partial`, C205). The other theorems hold for all inputs; what the _partial ones leave out is said in their docstrings."
  },
  {
   "property": "C205",
   "status": "proved",
   "theorems": [
    "Cleanlab.Props.C205_worst",
    "Cleanlab.Props.C205_warm",
    "Cleanlab.Props.C205_image",
    "Cleanlab.Props.C205_sentence",
    "Cleanlab.Props.C205_sentence_worst"
   ],
   "note": "Holds for all inputs of the model."
  },
  {
   "property": "C206",
   "status": "proved",
   "theorems": [
    "Cleanlab.Props.C206_order",
    "Cleanlab.Props.C206_strict",
    "Cleanlab.Props.C206_lowest"
   ],
   "note": "Holds for all inputs of the model."
  },
  {
   "property": "C207",
   "status": "partial",
   "theorems": [
    "Cleanlab.Props.C207_not_accuracy",
    "Cleanlab.Props.C207_fixed_partial",
    "Cleanlab.Props.C207_accuracy_partial"
   ],
   "note": "Refuted as stated by C207_not_accuracy: With weights by accuracy, the default, a better prediction of a label that is now predicted raises the weight of the model, also for this example. Two models, the first gives a label the probability 0.9; when the second raises it from 0.4 to 0.6, the score falls from 0.9 to 0.75 (`C207_not_accuracy`). What remains: uniform and custom weights (`C207_fixed_partial`), and weights by accuracy as long as the predicted labels agree with the given ones for the same examples as before (`C207_accuracy_partial`). The other theorems hold for all inputs; what the _partial ones leave out is said in their docstrings."
  },
  {
   "property": "C208",
   "status": "proved",
   "theorems": [
    "Cleanlab.Props.C208_adjusted",
    "Cleanlab.Props.C208_scores",
    "Cleanlab.Props.C208_find",
    "Cleanlab.Props.C208_ranked",
    "Cleanlab.Props.C208_smoothing"
   ],
   "note": "Holds for all inputs of the model."
  },
  {
   "property": "C209",
   "status": "partial",
   "theorems": [
    "Cleanlab.Props.C209_not_temperature",
    "Cleanlab.Props.C209_not_confident",
    "Cleanlab.Props.C209_predicted_partial"
   ],
   "note": "Refuted as stated by C209_not_temperature, C209_not_confident: The thresholds are averages of probabilities over a class, and a lower temperature changes large and medium probabilities by different amounts. Six examples of two classes, one of which is flagged: with half the temperature the threshold of the other class rises from 0.5625 to 0.675, the probability only from 0.571 to 0.64, and the example is no longer flagged, by the default filter, `prune_by_class`, `both` and `confident_learning` (`C209_not_temperature`, `C209_not_confident`). What remains: `predicted_neq_given` depends on the order of the classes only (`C209_predicted_partial`), and linear changes have no effect on any filter (C208). The other theorems hold for all inputs; what the _partial ones leave out is said in their docstrings."
  },
  {
   "property": "C210",
   "status": "proved",
   "theorems": [
    "Cleanlab.Props.C210_scores",
    "Cleanlab.Props.C210_refused",
    "Cleanlab.Props.C210_works",
    "Cleanlab.Props.C210_default"
   ],
   "note": "Holds for all inputs of the model."
  },
  {
   "property": "C211",
   "status": "partial",
   "theorems": [
    "Cleanlab.Props.C211_never_lower_partial",
    "Cleanlab.Props.C211_pred_probs_partial",
    "Cleanlab.Props.C211_not_repeatable"
   ],
   "note": "Refuted as stated by C211_not_repeatable: The first call of `fit_score` with features asks the index for the neighbours of its own examples and leaves out the example itself. The second call finds the stored index, skips the fitting and scores the features like new data: now every example is its own nearest neighbour at distance 0. With one neighbour every example then has the score 1, whatever it had before (`C211_not_repeatable`). For distinct examples the second call never lowers a score (`C211_never_lower_partial`), and scores from predicted probabilities are repeatable (`C211_pred_probs_partial`). The other theorems hold for all inputs; what the _partial ones leave out is said in their docstrings."
  },
  {
   "property": "C212",
   "status": "proved",
   "theorems": [
    "Cleanlab.Props.C212_confidence",
    "Cleanlab.Props.C212_margin",
    "Cleanlab.Props.C212_unflagged",
    "Cleanlab.Props.C212_tokens"
   ],
   "note": "Holds for all inputs of the model."
  },
  {
   "property": "C213",
   "status": "partial",
   "theorems": [
    "Cleanlab.Props.C213_confidence_partial",
    "Cleanlab.Props.C213_not_fewer"
   ],
   "note": "Refuted as stated by C213_not_fewer: An example with probabilities 0.4, 0.3 and 0.3 whose given class is the first one is predicted to have its label. After the other two classes are merged their total of 0.6 exceeds 0.4, so the example is flagged by `predicted_neq_given` and its normalized margin falls from 0.55 to 0.4 (`C213_not_fewer`). The self-confidence of a label whose class is not merged stays the same (`C213_confidence_partial`); merging into the given class is harmless (C212). The other theorems hold for all inputs; what the _partial ones leave out is said in their docstrings."
  },
  {
   "property": "C214",
   "status": "proved",
   "theorems": [
    "Cleanlab.Props.C214_selected",
    "Cleanlab.Props.C214_refused",
    "Cleanlab.Props.C214_ranking"
   ],
   "note": "Holds for all inputs of the model."
  },
  {
   "property": "C215",
   "status": "proved",
   "theorems": [
    "Cleanlab.Props.C215_same",
    "Cleanlab.Props.C215_checked"
   ],
   "note": "Holds for all inputs of the model."
  },
  {
   "property": "C216",
   "status": "partial",
   "theorems": [
    "Cleanlab.Props.C216_count_partial",
    "Cleanlab.Props.C216_not_low_scores"
   ],
   "note": "Refuted as stated by C216_not_low_scores: The filters `low_self_confidence` and `low_normalized_margin` flag as many examples as there are estimated issues, taking the lowest scores of all. With an example of a third class, predicted as labelled with probability 0.36, the wrongly labelled example of the other data set with self-confidence 0.4 is no longer flagged, and the new example is flagged instead (`C216_not_low_scores`). The estimated numbers of issues add up (`C216_count_partial`), and the other filters treat the parts separately (C215). The other theorems hold for all inputs; what the _partial ones leave out is said in their docstrings."
  },
  {
   "property": "C217",
   "status": "proved",
   "theorems": [
    "Cleanlab.Props.C217_scores",
    "Cleanlab.Props.C217_tokens",
    "Cleanlab.Props.C217_batched",
    "Cleanlab.Props.C217_low_memory"
   ],
   "note": "Holds for all inputs of the model."
  },
  {
   "property": "C218",
   "status": "proved",
   "theorems": [
    "Cleanlab.Props.C218_farther",
    "Cleanlab.Props.C218_moved"
   ],
   "note": "Holds for all inputs of the model."
  },
  {
   "property": "C219",
   "status": "proved",
   "theorems": [
    "Cleanlab.Props.C219_pred_probs",
    "Cleanlab.Props.C219_duplicates"
   ],
   "note": "Holds for all inputs of the model."
  },
  {
   "property": "C220",
   "status": "proved",
   "theorems": [
    "Cleanlab.Props.C220_per_class",
    "Cleanlab.Props.C220_scores",
    "Cleanlab.Props.C220_find",
    "Cleanlab.Props.C220_ranked",
    "Cleanlab.Props.C220_tokens"
   ],
   "note": "Holds for all inputs of the model."
  },
  {
   "property": "C221",
   "status": "proved",
   "theorems": [
    "Cleanlab.Props.C221_others"
   ],
   "note": "Holds for all inputs of the model."
  },
  {
   "property": "C222",
   "status": "partial",
   "theorems": [
    "Cleanlab.Props.C222_not_other_class",
    "Cleanlab.Props.C222_rarest_partial"
   ],
   "note": "Refuted as stated by C222_not_other_class: Only the rarest class is reported, and of several equally rare classes only the one with the smallest number. With one example of class 0, one of class 1 and 98 of class 2, class 0 is reported; after a second example of class 0 was collected, class 1 is reported instead (`C222_not_other_class`). As long as the class remains strictly the rarest, no other is reported (`C222_rarest_partial`). The other theorems hold for all inputs; what the _partial ones leave out is said in their docstrings."
  },
  {
   "property": "C223",
   "status": "proved",
   "theorems": [
    "Cleanlab.Props.C223_filled"
   ],
   "note": "Holds for all inputs of the model."
  },
  {
   "property": "C224",
   "status": "proved",
   "theorems": [
    "Cleanlab.Props.C224_worse"
   ],
   "note": "Holds for all inputs of the model."
  },
  {
   "property": "C225",
   "status": "partial",
   "theorems": [
    "Cleanlab.Props.C225_multiples",
    "Cleanlab.Props.C225_not_exact",
    "Cleanlab.Props.C225_close_partial",
    "Cleanlab.Props.C225_whole_partial"
   ],
   "note": "Refuted as stated by C225_not_exact: Documented: a score of 0 indicates that an example has an exact duplicate. With more than three features the default distance is the cosine distance, so an example of which another is a positive multiple is flagged and gets score 0; with fewer features, so does one with another example within 1e-8. The other theorems hold for all inputs; what the _partial ones leave out is said in their docstrings."
  },
  {
   "property": "C226",
   "status": "proved",
   "theorems": [
    "Cleanlab.Props.C226_closer"
   ],
   "note": "Holds for all inputs of the model."
  },
  {
   "property": "C227",
   "status": "proved",
   "theorems": [
    "Cleanlab.Props.C227_per_class",
    "Cleanlab.Props.C227_examples",
    "Cleanlab.Props.C227_tokens"
   ],
   "note": "Holds for all inputs of the model."
  },
  {
   "property": "C228",
   "status": "partial",
   "theorems": [
    "Cleanlab.Props.C228_told_partial",
    "Cleanlab.Props.C228_not_small",
    "Cleanlab.Props.C228_large_partial"
   ],
   "note": "Refuted as stated by C228_not_small: The managers of Datalab ask for k = 10 neighbours by default, which the neighbour search refuses for ten or fewer examples; OutOfDistribution passes no k and gets min(10, N - 1). So for every data set of two to ten examples OutOfDistribution returns scores and the outlier check of Datalab fails unless k is given. The other theorems hold for all inputs; what the _partial ones leave out is said in their docstrings."
  },
  {
   "property": "C229",
   "status": "partial",
   "theorems": [
    "Cleanlab.Props.C229_found_partial",
    "Cleanlab.Props.C229_only_partial",
    "Cleanlab.Props.C229_half_partial",
    "Cleanlab.Props.C229_not_pairs"
   ],
   "note": "Refuted as stated by C229_not_pairs: The cut-off is a fraction of the median distance to the nearest neighbour. Where half of the examples or more come in close pairs, the median is the distance within the pairs and none of them is reported (unless they are within 1e-6): of two pairs at distance 0.001 and a single example nothing is reported, however far apart they are. At most half of the examples can be reported. The other theorems hold for all inputs; what the _partial ones leave out is said in their docstrings."
  },
  {
   "property": "C230",
   "status": "partial",
   "theorems": [
    "Cleanlab.Props.C230_same_rivals_partial",
    "Cleanlab.Props.C230_pixels_partial",
    "Cleanlab.Props.C230_not_other_rival"
   ],
   "note": "Refuted as stated by C230_not_other_rival: Only the most probable class is compared with its threshold, not all classes as in find_label_issues. If a better prediction takes probability from a class that does not reach its threshold, another class that does can become the most probable one, and the example is reported. The property holds if the order of the other classes remains and no other example has the same score. The other theorems hold for all inputs; what the _partial ones leave out is said in their docstrings."
  },
  {
   "property": "C231",
   "status": "partial",
   "theorems": [
    "Cleanlab.Props.C231_at_most_partial",
    "Cleanlab.Props.C231_two_partial",
    "Cleanlab.Props.C231_not_equal"
   ],
   "note": "Refuted as stated by C231_not_equal: A comment says that the faster computation empirically matches num_label_issues. It compares only the most probable class with its threshold: an example predicted to be of class 1 below the threshold of class 1, for which class 2 reaches its threshold, is counted by num_label_issues and not by LabelInspector. The number found in batches is never larger (for data in which every class is given and no two probabilities nearly coincide), and the numbers agree for two classes. The other theorems hold for all inputs; what the _partial ones leave out is said in their docstrings."
  },
  {
   "property": "C232",
   "status": "proved",
   "theorems": [
    "Cleanlab.Props.C232_renamed"
   ],
   "note": "Holds for all inputs of the model."
  },
  {
   "property": "C233",
   "status": "proved",
   "theorems": [
    "Cleanlab.Props.C233_part",
    "Cleanlab.Props.C233_accepted"
   ],
   "note": "Holds for all inputs of the model."
  },
  {
   "property": "C234",
   "status": "partial",
   "theorems": [
    "Cleanlab.Props.C234_surer_partial",
    "Cleanlab.Props.C234_not_gen"
   ],
   "note": "Refuted as stated by C234_not_gen: The method gen applies softmax to pred_probs, which are probabilities already, and keeps the M = 100 largest values. With 1000 classes or more all values are so small that each uncertainty grows with its value: an example predicted with probability 1 gets a lower score than one for which all classes are equally likely (C234_not_gen). With M at least the number of classes the score behaves as expected (C234_surer_partial). The other theorems hold for all inputs; what the _partial ones leave out is said in their docstrings."
  },
  {
   "property": "C235",
   "status": "proved",
   "theorems": [
    "Cleanlab.Props.C235_adjusted",
    "Cleanlab.Props.C235_scores",
    "Cleanlab.Props.C235_low_scores",
    "Cleanlab.Props.C235_prune"
   ],
   "note": "Holds for all inputs of the model."
  },
  {
   "property": "C236",
   "status": "partial",
   "theorems": [
    "Cleanlab.Props.C236_order_partial",
    "Cleanlab.Props.C236_not_certain"
   ],
   "note": "Refuted as stated by C236_not_certain: The score divides by the clipped ratio of entropy and self-confidence while the logarithm above it is not clipped, so a prediction with probability 1 gets the score 0, below that of an undecided prediction (C236_not_certain, cf. C57). Away from the bounds of a millionth the order is that of self_confidence (C236_order_partial). The other theorems hold for all inputs; what the _partial ones leave out is said in their docstrings."
  },
  {
   "property": "C237",
   "status": "proved",
   "theorems": [
    "Cleanlab.Props.C237_subset",
    "Cleanlab.Props.C237_two"
   ],
   "note": "Holds for all inputs of the model."
  },
  {
   "property": "C238",
   "status": "proved",
   "theorems": [
    "Cleanlab.Props.C238_per_class",
    "Cleanlab.Props.C238_mask",
    "Cleanlab.Props.C238_ranked",
    "Cleanlab.Props.C238_scores",
    "Cleanlab.Props.C238_low_scores"
   ],
   "note": "Holds for all inputs of the model."
  },
  {
   "property": "C239",
   "status": "proved",
   "theorems": [
    "Cleanlab.Props.C239_two",
    "Cleanlab.Props.C239_accepted"
   ],
   "note": "Holds for all inputs of the model."
  },
  {
   "property": "C240",
   "status": "partial",
   "theorems": [
    "Cleanlab.Props.C240_least_partial",
    "Cleanlab.Props.C240_two_partial",
    "Cleanlab.Props.C240_not_entropy"
   ],
   "note": "Refuted as stated by C240_not_entropy: The entropies of two predictions over three classes can change their order under smoothing: (1/2, 1/2, 0) has less entropy than (3/4, 1/8, 1/8), but more once both are mixed half and half with the uniform distribution (C240_not_entropy). The order is kept by least_confidence, if every class is given and no average self-confidence is below the lower bound of the thresholds (C240_least_partial), and by every method with two classes (C240_two_partial). gen with three or more classes is not covered. The other theorems hold for all inputs; what the _partial ones leave out is said in their docstrings."
  },
  {
   "property": "C241",
   "status": "proved",
   "theorems": [
    "Cleanlab.Props.C241_calibrated",
    "Cleanlab.Props.C241_number",
    "Cleanlab.Props.C241_dataset"
   ],
   "note": "Holds for all inputs of the model."
  },
  {
   "property": "C242",
   "status": "partial",
   "theorems": [
    "Cleanlab.Props.C242_others_partial",
    "Cleanlab.Props.C242_own_partial",
    "Cleanlab.Props.C242_not_units"
   ],
   "note": "Refuted as stated by C242_not_units: A given confident joint is used as the number of examples to remove without being calibrated to the labels, unlike in num_label_issues, estimate_joint and the functions of dataset.py (C241). Given the joint distribution, or counts of another data set, the pruning filters flag other examples: the witness has one wrong label, which is flagged given the counts and not given the same matrix divided by the number of examples (C242_not_units). The other filters ignore the argument (C242_others_partial), and the calibrated counts of the data give the default result (C242_own_partial). The other theorems hold for all inputs; what the _partial ones leave out is said in their docstrings."
  },
  {
   "property": "C243",
   "status": "proved",
   "theorems": [
    "Cleanlab.Props.C243_checks",
    "Cleanlab.Props.C243_majority_vote",
    "Cleanlab.Props.C243_root",
    "Cleanlab.Props.C243_label_quality",
    "Cleanlab.Props.C243_annotator_stats",
    "Cleanlab.Props.C243_active_scores"
   ],
   "note": "Holds for all inputs of the model."
  },
  {
   "property": "C244",
   "status": "proved",
   "theorems": [
    "Cleanlab.Props.C244_checks",
    "Cleanlab.Props.C244_majority_vote",
    "Cleanlab.Props.C244_agreement",
    "Cleanlab.Props.C244_weights",
    "Cleanlab.Props.C244_stats_agreement",
    "Cleanlab.Props.C244_worst_class"
   ],
   "note": "Holds for all inputs of the model."
  },
  {
   "property": "C245",
   "status": "partial",
   "theorems": [
    "Cleanlab.Props.C245_lower_partial",
    "Cleanlab.Props.C245_not_quality"
   ],
   "note": "Refuted as stated by C245_not_quality: The probability that an annotator is wrong is divided evenly among all other classes (non_consensus_likelihood), also those that no annotator ever chose and the model gives probability 0. One such class more lowers the quality of a consensus label that three of four annotators chose (C245_not_quality). The quality is never raised, and it is unchanged where all annotators of the example chose the consensus label (C245_lower_partial). The other theorems hold for all inputs; what the _partial ones leave out is said in their docstrings."
  },
  {
   "property": "C246",
   "status": "proved",
   "theorems": [
    "Cleanlab.Props.C246_scores",
    "Cleanlab.Props.C246_imbalance"
   ],
   "note": "Holds for all inputs of the model."
  },
  {
   "property": "C247",
   "status": "proved",
   "theorems": [
    "Cleanlab.Props.C247_least",
    "Cleanlab.Props.C247_entropy",
    "Cleanlab.Props.C247_adjusted"
   ],
   "note": "Holds for all inputs of the model."
  },
  {
   "property": "C248",
   "status": "partial",
   "theorems": [
    "Cleanlab.Props.C248_rise_partial",
    "Cleanlab.Props.C248_not_order"
   ],
   "note": "Refuted as stated by C248_not_order: The average starts with the highest class score, so a class that is certainly right lifts all examples, but by different amounts: an example with class scores 1 and 0.5 is rated above one with 0.6 and 0.59 (0.6 and 0.592), and below it once there is a third class that neither has nor is predicted to have (0.6 and 0.608; C248_not_order). The score rises by 0.2 to the power of the number of classes, times what the best class lacks to 1, so examples farther apart keep their order (C248_rise_partial). The other theorems hold for all inputs; what the _partial ones leave out is said in their docstrings."
  },
  {
   "property": "C249",
   "status": "partial",
   "theorems": [
    "Cleanlab.Props.C249_per_class_partial",
    "Cleanlab.Props.C249_flags_partial",
    "Cleanlab.Props.C249_number_partial",
    "Cleanlab.Props.C249_not_predicted",
    "Cleanlab.Props.C249_not_low"
   ],
   "note": "Refuted as stated by C249_not_predicted, C249_not_low: With `predicted_neq_given` the search raises as soon as one class is given to no example, because the labels of every class are checked a second time and must then have two values (C249_not_predicted). With the filters by scores the number of flagged examples remains the same (C249_number_partial), but they are taken from a ranking that can change (C248), so that another example is flagged (C249_not_low). With the other four filters the result is the same (C249_per_class_partial, C249_flags_partial). The other theorems hold for all inputs; what the _partial ones leave out is said in their docstrings."
  }
 ]
}