{"id": "C01", "title": "Calibrated confident joint is a contingency table of the given labels", "statement": "compute_confident_joint with calibrate=True returns a K x K matrix of non-negative integers whose k-th row sums exactly to the number of examples given label k, so that all entries sum to the number of examples.", "quantifier": "every number of classes, every labels array, every pred_probs matrix and every thresholds vector accepted by the function", "why_tests_cant": "The row sums depend on rounding of arbitrary real numbers; a finite test set cannot visit every tie pattern of the rounding step.", "anchors": ["cleanlab/count.py:compute_confident_joint", "cleanlab/count.py:calibrate_confident_joint", "cleanlab/internal/util.py:round_preserving_row_totals"]}
{"id": "C02", "title": "Rounding keeps the total and moves no entry by one or more", "statement": "Rounding a row of counts to integers for calibration keeps the (rounded) total, changes every entry by strictly less than 1, keeps entries that already were integers, and never turns a non-negative count negative.", "quantifier": "every list of rational numbers", "why_tests_cant": "The corrective loop picks entries by argmax of rounding differences; which entries are hit depends on ties between arbitrary fractions.", "anchors": ["cleanlab/internal/util.py:round_preserving_sum"]}
{"id": "C03", "title": "Confident joint counts exactly the confidently predicted examples", "statement": "The uncalibrated confident joint has at row i, column j (i != j) the number of examples with given label i whose confident class is j, where the confident class of an example is the most probable among the classes whose probability reaches the class threshold; an example reaching no threshold is not counted; diagonal entries are that count clipped to at least 1. The returned off-diagonal indices are exactly the examples counted off the diagonal, in increasing order.", "quantifier": "every labels, pred_probs and thresholds", "why_tests_cant": "The tie rules (several classes above threshold, no class above threshold, tolerance at the threshold) interact; tests fix a handful of matrices.", "anchors": ["cleanlab/count.py:compute_confident_joint", "cleanlab/internal/util.py:confusion_matrix"]}
{"id": "C04", "title": "Confident thresholds are average self-confidences", "statement": "The threshold of each class with at least one example is the mean predicted probability of that class over the examples given that label, raised to at least 2e-6; a class without examples gets a threshold no probability can reach, so no example can be confidently assigned to it.", "quantifier": "every labels array and pred_probs matrix", "why_tests_cant": "Absent classes and degenerate probabilities are combinatorially many.", "anchors": ["cleanlab/count.py:get_confident_thresholds", "cleanlab/count.py:compute_confident_joint"]}
{"id": "C05", "title": "Estimated joint is a probability distribution with the observed label marginal", "statement": "estimate_joint returns a non-negative matrix summing to 1 whose row sums equal the observed frequencies of the given labels.", "quantifier": "every labels, pred_probs; and every user supplied non-negative confident_joint", "why_tests_cant": "Exact marginals must hold for any matrix; zero rows and missing classes are corner cases that a sample does not exhaust.", "anchors": ["cleanlab/count.py:estimate_joint"]}
{"id": "C06", "title": "Issue count agrees with the issue list", "statement": "num_label_issues with estimation_method 'off_diagonal' equals the number of examples returned by find_label_issues with filter_by='confident_learning' on the same inputs.", "quantifier": "every labels and pred_probs accepted by both functions", "why_tests_cant": "It relates two separately coded functions on all inputs.", "anchors": ["cleanlab/count.py:num_label_issues", "cleanlab/filter.py:find_label_issues"]}
{"id": "C07", "title": "No correctly predicted example is flagged", "statement": "For filter_by in prune_by_class, prune_by_noise_rate, both, confident_learning and predicted_neq_given, find_label_issues flags an example only if another class has a predicted probability of at least that of the given label plus 1e-6; in particular it never flags an example whose given label has the largest predicted probability. With predicted_neq_given it flags exactly these examples.", "quantifier": "every labels, pred_probs, confident_joint, frac_noise, num_to_remove_per_class and min_examples_per_class", "why_tests_cant": "User supplied confident joints and removal counts make the reachable masks unbounded.", "anchors": ["cleanlab/filter.py:find_label_issues", "cleanlab/count.py:_reduce_issues"]}
{"id": "C08", "title": "min_examples_per_class is respected", "statement": "When find_label_issues removes examples by class or noise rate, at least min_examples_per_class examples of every class that had that many are left unflagged.", "quantifier": "every labels, pred_probs, counts matrix, frac_noise, and min_examples_per_class", "why_tests_cant": "It is a bound over all count matrices after a redistribution step that truncates to integers.", "anchors": ["cleanlab/filter.py:_prune_by_class", "cleanlab/filter.py:_prune_by_count", "cleanlab/filter.py:_keep_at_least_n_per_class"]}
{"id": "C09", "title": "filter_by='both' is the intersection", "statement": "The mask for 'both' flags an example iff prune_by_class and prune_by_noise_rate, run with the same arguments, both flag it.", "quantifier": "every input of find_label_issues", "why_tests_cant": "Relates three runs over all inputs, including the shared final removal step.", "anchors": ["cleanlab/filter.py:find_label_issues"]}
{"id": "C10", "title": "Ranked indices are exactly the flagged examples in severity order", "statement": "With return_indices_ranked_by set, find_label_issues returns each flagged index exactly once, ordered by increasing label quality score.", "quantifier": "every mask, every score array, every sorting permutation the library sort may choose on ties", "why_tests_cant": "Sorting ties are implementation defined; the claim must hold for every tie order.", "anchors": ["cleanlab/filter.py:find_label_issues", "cleanlab/rank.py:order_label_issues"]}
{"id": "C11", "title": "Result does not depend on the number of worker processes or task order", "statement": "The mask of find_label_issues is the same for every n_jobs and for every order in which the per-class tasks complete.", "quantifier": "every permutation of the per-class tasks and every input", "why_tests_cant": "Schedules cannot be enumerated by tests.", "anchors": ["cleanlab/filter.py:find_label_issues", "cleanlab/filter.py:_prune_by_class", "cleanlab/filter.py:_prune_by_count"]}
{"id": "C12", "title": "num_to_remove_per_class is honoured", "statement": "With filter_by='prune_by_noise_rate', num_to_remove_per_class[k] bounds the number of flagged examples whose given label is k (docstring: the number of mislabeled examples you want to remove from each class).", "quantifier": "every removal vector and data set", "why_tests_cant": "Requires reasoning about how the removal vector is redistributed over an arbitrary joint matrix.", "anchors": ["cleanlab/filter.py:find_label_issues"]}
{"id": "C13", "title": "frac_noise scales removals monotonically", "statement": "Reducing frac_noise never increases the number of examples scheduled for removal for any (given, predicted) pair, frac_noise=1 keeps the counts, and frac_noise=0 schedules none for removal by noise rate; the total count per column of the count matrix is preserved before truncation.", "quantifier": "every count matrix and every frac_noise in [0,1]", "why_tests_cant": "Truncation to int makes equality fragile; monotonicity must hold for all reals.", "anchors": ["cleanlab/filter.py:_reduce_prune_counts"]}
{"id": "C14", "title": "Label quality scores are calibrated to [0,1]", "statement": "For valid pred_probs, self_confidence, normalized_margin and confidence_weighted_entropy scores lie in [0,1]; the normalized margin is at least 1/2 iff no class has larger probability than the given label.", "quantifier": "every labels and row-stochastic pred_probs", "why_tests_cant": "Bounds over a continuous domain.", "anchors": ["cleanlab/rank.py:get_label_quality_scores", "cleanlab/rank.py:get_self_confidence_for_each_label", "cleanlab/rank.py:get_normalized_margin_for_each_label", "cleanlab/rank.py:get_confidence_weighted_entropy_for_each_label"]}
{"id": "C15", "title": "Top-issue selection returns the lowest scores", "statement": "find_top_issues(scores, top) returns min(top, n) distinct indices such that no omitted example has a lower score than a returned one, and order is by increasing score.", "quantifier": "every score list and top", "why_tests_cant": "Ties and top > n; must hold for each possible sort.", "anchors": ["cleanlab/rank.py:find_top_issues"]}
{"id": "C16", "title": "Ensemble score lies between the individual model scores", "statement": "get_label_quality_ensemble_scores returns for each example a value between the smallest and largest of the per-model scores, for weights 'uniform', 'accuracy' and 'custom' that are non-negative with positive sum.", "quantifier": "every number of models, weights and score matrices", "why_tests_cant": "Continuous domain and arbitrary number of models.", "anchors": ["cleanlab/rank.py:get_label_quality_ensemble_scores"]}
{"id": "C17", "title": "Cross-validated predictions are out of sample", "statement": "In cross-validation every example's predicted probabilities come from the one model whose training fold excludes it, and every row is filled, except for examples duplicated into training because their class was missing, whose row is the one-hot of the given label.", "quantifier": "every fold partition and labels", "why_tests_cant": "Holds for each partition and each missing-class pattern.", "anchors": ["cleanlab/count.py:estimate_confident_joint_and_cv_pred_proba"]}
{"id": "C18", "title": "Class counting places each count at its class", "statement": "The class count vector used for annotator statistics has at index k the number of labels equal to k for every label dtype (including float arrays that arise from missing annotations).", "quantifier": "every labels array over classes 0..K-1", "why_tests_cant": "The failing dtype path is exercised only with absent classes.", "anchors": ["cleanlab/internal/util.py:value_counts", "cleanlab/multiannotator.py:_get_post_pred_probs_and_weights"]}
{"id": "C19", "title": "Majority vote returns a mode", "statement": "get_majority_vote_label returns for each example a class with the maximal number of annotations for this example, whatever tie-break fires and whatever random choice is made; and it terminates with a result for every valid annotation matrix.", "quantifier": "every annotation matrix with at least one label per row, every pred_probs, every random choice", "why_tests_cant": "Random tie-breaks and all-tied data sets are not enumerable.", "anchors": ["cleanlab/multiannotator.py:get_majority_vote_label"]}
{"id": "C20", "title": "CROWDLAB posteriors are distributions", "statement": "The consensus posterior computed from annotators and model is a non-negative row vector summing to 1, hence consensus and annotator-label quality scores lie in [0,1] and the best-quality consensus label maximises its own quality.", "quantifier": "every label matrix, pred_probs and non-negative weights not all zero", "why_tests_cant": "Continuous domain.", "anchors": ["cleanlab/multiannotator.py:_get_post_pred_probs_and_weights", "cleanlab/multiannotator.py:_get_consensus_quality_score", "cleanlab/multiannotator.py:_get_annotator_label_quality_score"]}
{"id": "C21", "title": "Annotator agreement is a rate", "statement": "Every per-annotator agreement lies in [0,1], is 1 for an annotator who always agrees with everybody, and an example's agreement equals the fraction of its annotators who gave the consensus label.", "quantifier": "every annotation matrix", "why_tests_cant": "Ranges over all patterns of missing annotations.", "anchors": ["cleanlab/multiannotator.py:_get_annotator_agreement_with_consensus", "cleanlab/multiannotator.py:_get_annotator_agreement_with_annotators"]}
{"id": "C22", "title": "Active-learning scores are comparable", "statement": "The active-learning score of a labelled example lies between its consensus quality and 1/K, that of an unlabelled example between 1/K and its largest predicted probability; of two labelled examples with equal quality at least 1/K the one labelled by more annotators scores at least as high.", "quantifier": "every labelled/unlabelled pool, qualities and positive weights", "why_tests_cant": "Continuous domain.", "anchors": ["cleanlab/multiannotator.py:get_active_learning_scores"]}
{"id": "C23", "title": "Multilabel aggregation stays within the class scores", "statement": "exponential_moving_average and softmin aggregate a row of per-class scores into a value between the row minimum and maximum, do not depend on class order, and EMA with alpha=1 gives the minimum and alpha=0 the maximum.", "quantifier": "every non-empty row of scores and alpha in [0,1] (temperature > 0)", "why_tests_cant": "Unbounded row lengths and real parameters.", "anchors": ["cleanlab/internal/multilabel_scorer.py:exponential_moving_average", "cleanlab/internal/multilabel_scorer.py:softmin"]}
{"id": "C24", "title": "Multilabel issues are the union of per-class issues", "statement": "Multi-label find_label_issues flags an example iff some class's one-vs-rest problem flags it; and with ranked output every flagged example appears exactly once in severity order for every filter_by.", "quantifier": "every multi-label data set and filter_by", "why_tests_cant": "Relates K binary runs to a combined one over all inputs.", "anchors": ["cleanlab/filter.py:_find_label_issues_multilabel", "cleanlab/multilabel_classification/filter.py:find_multilabel_issues_per_class"]}
{"id": "C25", "title": "One-hot conversion round-trips", "statement": "Converting integer multi-labels to one-hot and back yields the sorted distinct label sets, and converting one-hot to integer lists and back is the identity.", "quantifier": "every label list with entries below K; every 0/1 matrix", "why_tests_cant": "Unbounded lengths, empty label lists.", "anchors": ["cleanlab/internal/multilabel_utils.py:int2onehot", "cleanlab/internal/multilabel_utils.py:onehot2int"]}
{"id": "C26", "title": "Noise and inverse noise matrices are Bayes-consistent", "statement": "compute_inv_noise_matrix followed by compute_noise_matrix_from_inverse recovers the noise matrix, both have columns summing to 1, and the joint they imply has the given marginals, whenever class priors are strictly positive.", "quantifier": "every column-stochastic noise matrix and positive prior", "why_tests_cant": "Algebraic identity over reals.", "anchors": ["cleanlab/internal/latent_algebra.py:compute_inv_noise_matrix", "cleanlab/internal/latent_algebra.py:compute_noise_matrix_from_inverse"]}
{"id": "C27", "title": "Clipping of noise rates keeps distributions", "statement": "clip_noise_rates and remove_noise_from_class return matrices whose columns sum to 1, and clip_values with a target sum returns non-negative values with exactly this sum.", "quantifier": "every non-negative matrix with K >= 2 / every positive vector", "why_tests_cant": "Algebraic identity over reals with clipping branches.", "anchors": ["cleanlab/internal/util.py:clip_noise_rates", "cleanlab/internal/util.py:clip_values", "cleanlab/internal/util.py:remove_noise_from_class"]}
{"id": "C28", "title": "Overall label health and overlapping classes account for the joint", "statement": "The overall label health score is 1 minus the estimated number of label errors per example, and the joint probabilities listed by find_overlapping_classes sum to the off-diagonal mass of the joint, each unordered pair appearing exactly once.", "quantifier": "every joint matrix", "why_tests_cant": "Sum over all pairs for all K.", "anchors": ["cleanlab/dataset.py:find_overlapping_classes", "cleanlab/dataset.py:overall_label_health_score"]}
{"id": "C29", "title": "Segmentation flags only disagreeing pixels", "statement": "Every pixel flagged by semantic-segmentation find_label_issues has a predicted class different from the given one, independent of batch size and with down-sampling every pixel of a flagged block that agrees with its prediction is left unflagged.", "quantifier": "every image stack, downsample factor and batch size", "why_tests_cant": "Image sizes and batchings are unbounded.", "anchors": ["cleanlab/segmentation/filter.py:find_label_issues"]}
{"id": "C30", "title": "Threshold selection returns exactly the images below threshold", "statement": "segmentation.rank.issues_from_scores without pixel scores returns exactly the images with score below the threshold.", "quantifier": "every score list and threshold in [0,1]", "why_tests_cant": "Off-by-one errors at the cut depend on the data.", "anchors": ["cleanlab/segmentation/rank.py:issues_from_scores"]}
{"id": "C31", "title": "Token issues map back to the right sentence and token", "statement": "token_classification.find_label_issues returns (sentence, token) pairs that correspond one-to-one with the flagged positions of the flattened data, each pair within range, ordered by label quality score.", "quantifier": "every list of sentence lengths (including empty sentences) and every flat index", "why_tests_cant": "Index arithmetic over unbounded ragged lists.", "anchors": ["cleanlab/token_classification/filter.py:find_label_issues"]}
{"id": "C32", "title": "Token threshold selection", "statement": "token_classification.rank.issues_from_scores without token scores returns exactly the sentences with score below the threshold in increasing score order, and for every score array it returns normally.", "quantifier": "every score array", "why_tests_cant": "The failing boundary (all below threshold) is missed by typical fixtures.", "anchors": ["cleanlab/token_classification/rank.py:issues_from_scores"]}
{"id": "C33", "title": "Streaming thresholds do not depend on the batching", "statement": "The confident thresholds accumulated by LabelInspector over batches equal those of the whole data set for every way of splitting the data set into batches.", "quantifier": "every batching of every data set", "why_tests_cant": "Number of batchings is exponential.", "anchors": ["cleanlab/experimental/label_issues_batched.py:LabelInspector.update_confident_thresholds"]}
{"id": "C34", "title": "Batched issue count does not depend on worker count", "statement": "The number of issues LabelInspector estimates is the same for n_jobs=1 and n_jobs>1, and independent of batch boundaries, given the same thresholds.", "quantifier": "every data set, batching and chunk size", "why_tests_cant": "Parallel path is only taken for large batches.", "anchors": ["cleanlab/experimental/label_issues_batched.py:LabelInspector._update_num_label_issues"]}
{"id": "C35", "title": "KNN-Shapley values are exact and bounded", "statement": "The data-valuation score of each training point follows the KNN-Shapley recursion's closed form, lies in [0,1], and equals 1/2 for points that are never a neighbour.", "quantifier": "every kNN graph and labels", "why_tests_cant": "Recursion over arbitrary k and n.", "anchors": ["cleanlab/data_valuation.py:_knn_shapley_score", "cleanlab/data_valuation.py:data_shapley_knn"]}
{"id": "C36", "title": "Duplicate correction makes exact duplicates each other's nearest neighbours", "statement": "After correction of a kNN graph, the row of every point in a duplicate set starts with min(k, size-1) other members of its set at distance 0, contains no self edge and no repeated neighbour.", "quantifier": "every graph with distinct non-self neighbours per row and every family of disjoint duplicate sets", "why_tests_cant": "Sets may be larger or smaller than k, rows arbitrary.", "anchors": ["cleanlab/internal/neighbor/knn_graph.py:correct_knn_distances_and_indices_with_exact_duplicate_sets_inplace"]}
{"id": "C37", "title": "Near-duplicate sets are symmetric", "statement": "In the near-duplicate report j is in i's set iff i is in j's set; i is flagged iff its set is non-empty; no point is its own near duplicate.", "quantifier": "every kNN graph and radius", "why_tests_cant": "kNN relations are asymmetric in general; all graphs must be covered.", "anchors": ["cleanlab/datalab/internal/issue_manager/duplicate.py:NearDuplicateIssueManager"]}
{"id": "C38", "title": "Outlier score is a decreasing function of neighbour distance in (0,1]", "statement": "OOD scores computed from features lie in (0,1], larger average neighbour distance never gives a larger score, and the fitted estimator and scaling are never refitted by scoring.", "quantifier": "every distance array, t > 0, scaling factor and history of fit/score calls", "why_tests_cant": "Continuous domain and call histories.", "anchors": ["cleanlab/internal/outlier.py:transform_distances_to_scores", "cleanlab/outlier.py:OutOfDistribution"]}
{"id": "C39", "title": "IoU is a symmetric similarity in [0,1]", "statement": "The box overlap score is symmetric, lies in [0,1] for valid boxes, is 1 iff the boxes are equal (for non-degenerate boxes) and 0 for disjoint ones.", "quantifier": "every pair of boxes with x1<=x2, y1<=y2", "why_tests_cant": "Continuous domain.", "anchors": ["cleanlab/object_detection/rank.py:_get_iou", "cleanlab/internal/object_detection_utils.py:bbox_xyxy_to_xywh"]}
{"id": "C40", "title": "Detection matching is one-to-one", "statement": "When counting true and false positives, every prediction is exactly one of TP or FP, every ground-truth box is matched by at most one prediction, and matched pairs reach the IoU threshold; hence TP <= number of ground-truth boxes and recall <= 1.", "quantifier": "every set of predictions, ground truths and IoU matrix", "why_tests_cant": "Greedy matching over arbitrary matrices.", "anchors": ["cleanlab/object_detection/filter.py:_calculate_true_positives_false_positives"]}
{"id": "C41", "title": "Average precision is in [0,1]", "statement": "The average precision computed from any sequence of recalls and precisions with non-decreasing recall in [0,1] lies in [0,1].", "quantifier": "every recall/precision sequence", "why_tests_cant": "Sequences unbounded.", "anchors": ["cleanlab/object_detection/filter.py:_calculate_average_precision"]}
{"id": "C42", "title": "Identifier column check finds exactly identifier columns", "statement": "A column is reported as an identifier column iff it contains consecutive integers c, c+1, ..., c+n where n is the number of rows (documented criterion).", "quantifier": "every column", "why_tests_cant": "All integer columns.", "anchors": ["cleanlab/datalab/internal/issue_manager/identifier_column.py:IdentifierColumnIssueManager"]}
{"id": "C43", "title": "Underperforming group report picks the worst cluster", "statement": "The cluster reported as underperforming has the lowest ratio of its mean label quality to the overall mean, and it is flagged iff that ratio is below the threshold.", "quantifier": "every clustering, label quality vector and threshold", "why_tests_cant": "The error depends on the iteration order and the overall mean.", "anchors": ["cleanlab/datalab/internal/issue_manager/underperforming_group.py:UnderperformingGroupIssueManager"]}
{"id": "C44", "title": "Spurious-correlation baseline is the majority class accuracy", "statement": "The baseline against which an image property's predictive accuracy is compared is the accuracy of always predicting the most frequent class, so it lies in [0,1] and the resulting score lies in [0,1].", "quantifier": "every label array and accuracy", "why_tests_cant": "The wrong value is invisible in balanced two-class fixtures.", "anchors": ["cleanlab/datalab/internal/spurious_correlation.py"]}
{"id": "C45", "title": "find_issues does not remember arguments of earlier calls", "statement": "Calling Datalab.find_issues with an issue_types dict uses exactly the arguments in this dict plus the features/pred_probs passed in this call; it leaves the caller's dict unchanged.", "quantifier": "every history of find_issues calls sharing one dict", "why_tests_cant": "Only call histories with reused dicts show it.", "anchors": ["cleanlab/datalab/internal/issue_finder.py:IssueFinder.find_issues"]}
{"id": "C46", "title": "Datalab issue tables stay consistent over any history", "statement": "After any sequence of find_issues runs (some checks failing), the summary has exactly one row per check that ever succeeded, holding the score and count of its latest success, and the issue table's columns for this check are those of its latest success.", "quantifier": "every sequence of successful/failing check runs", "why_tests_cant": "Histories are unbounded.", "anchors": ["cleanlab/datalab/internal/data_issues.py:DataIssues", "cleanlab/datalab/internal/issue_finder.py:IssueFinder.find_issues"]}
{"id": "C47", "title": "get_issues returns only the requested check's columns", "statement": "Datalab.get_issues(name) returns the is_<name>_issue and <name>_score columns plus this check's extra columns, never another check's columns.", "quantifier": "every set of check names", "why_tests_cant": "Depends on names of custom checks.", "anchors": ["cleanlab/datalab/internal/data_issues.py:DataIssues.get_issues"]}
{"id": "C48", "title": "Stored kNN metric describes the stored kNN graph", "statement": "After any sequence of checks, the metric recorded in Datalab statistics is the metric the recorded kNN graph was built with.", "quantifier": "every history of checks with user graphs, metrics and features", "why_tests_cant": "Histories are unbounded.", "anchors": ["cleanlab/datalab/internal/issue_manager/knn_graph_helpers.py", "cleanlab/datalab/internal/issue_manager/outlier.py", "cleanlab/datalab/internal/issue_manager/duplicate.py"]}
{"id": "C49", "title": "Class imbalance flags exactly the rarest class when rare enough", "statement": "All and only examples of the rarest class are flagged, iff its share is below threshold/K.", "quantifier": "every labels array and threshold", "why_tests_cant": "All label distributions.", "anchors": ["cleanlab/datalab/internal/issue_manager/imbalance.py:ClassImbalanceIssueManager"]}
{"id": "C50", "title": "Null check scores are the fraction of present features", "statement": "An example's null score is the fraction of its features that are not null, and it is flagged iff all its features are null.", "quantifier": "every feature matrix", "why_tests_cant": "All null patterns.", "anchors": ["cleanlab/datalab/internal/issue_manager/null.py:NullIssueManager"]}
{"id": "C51", "title": "Regression cleaning removes the estimated fraction with the lowest scores", "statement": "regression.CleanLearning flags exactly ceil(k*n) examples, those with the lowest label quality scores, and none if no candidate fraction improves the cross-validated score. The fraction k lies between the two given fractions next to the best one of them.", "quantifier": "every n, score vector, k grid and cross-validation scores", "why_tests_cant": "Rounding and ties.", "anchors": ["cleanlab/regression/learn.py:CleanLearning.find_label_issues", "cleanlab/regression/learn.py:CleanLearning._find_best_k"]}
{"id": "C52", "title": "Synthetic noise has the requested counts", "statement": "generate_noisy_labels flips exactly floor(noise[j][k]*count_k) labels from k to j for every j != k and leaves all other labels unchanged.", "quantifier": "every label array in which all classes occur (as documented), column-stochastic noise matrix and every random selection", "why_tests_cant": "Random choices.", "anchors": ["cleanlab/benchmarking/noise_generation.py:generate_noisy_labels"]}
{"id": "C53", "title": "Datalab label encoding is a bijection", "statement": "Integer labels produced by Datalab map back through the published label map to the original labels, codes follow the sorted order of the classes that occur and use exactly 0..K-1; a ClassLabel column keeps its own numbering.", "quantifier": "every label list or list of label lists over any ordered type", "why_tests_cant": "All label alphabets.", "anchors": ["cleanlab/datalab/internal/data.py:MultiClass", "cleanlab/datalab/internal/data.py:MultiLabel"]}
{"id": "C54", "title": "Loading restores what was saved, for every task", "statement": "Datalab.load(path, data) succeeds with the data set the lab was saved with, whether or not the lab has labels, and a save without force never overwrites.", "quantifier": "every lab and target directory state", "why_tests_cant": "Needs coverage of unlabeled labs and file system states.", "anchors": ["cleanlab/datalab/internal/serialize.py:_Serializer"]}
{"id": "C55", "title": "Refitting CleanLearning uses only the new data", "statement": "Calling find_label_issues (or fit) a second time on the same CleanLearning object with other data gives the same result as calling it on a fresh object.", "quantifier": "every history of calls", "why_tests_cant": "Only call histories show state leakage.", "anchors": ["cleanlab/classification.py:CleanLearning.find_label_issues", "cleanlab/classification.py:CleanLearning._process_label_issues_kwargs"]}
{"id": "C56", "title": "CleanLearning trains on exactly the unflagged examples with matching weights", "statement": "fit passes to the wrapped classifier exactly the examples not flagged, in order, with the weight 1/max(noise[k][k],1e-3) of their class, and records weight 0 for flagged examples.", "quantifier": "every label_issues argument format, labels and noise matrix", "why_tests_cant": "All masks and formats.", "anchors": ["cleanlab/classification.py:CleanLearning.fit", "cleanlab/classification.py:CleanLearning._process_label_issues_arg"]}
{"id": "C57", "title": "confidence_weighted_entropy ranks a perfectly predicted label best", "statement": "Under confidence_weighted_entropy a lower score means a more likely label error, so an example whose given label is predicted with probability 1 gets a score at least as high as an example whose given label is predicted with probability below 1/2.", "quantifier": "every labels and valid pred_probs with at least two classes", "why_tests_cant": "The score divides by a clipped quantity near zero entropy, a boundary a sample of generic probabilities never reaches.", "anchors": ["cleanlab/rank.py:get_confidence_weighted_entropy_for_each_label", "cleanlab/internal/label_quality_utils.py:get_normalized_entropy"]}
{"id": "C58", "title": "Latent estimates are distributions", "statement": "estimate_latent returns for every py_method a prior over true classes that is a distribution with positive entries, and noise and inverse noise matrices whose columns are distributions.", "quantifier": "every confident joint and labels, every py_method", "why_tests_cant": "Zero columns, negative solutions of the linear system and clipping interact.", "anchors": ["cleanlab/count.py:estimate_latent", "cleanlab/internal/latent_algebra.py:compute_py", "cleanlab/internal/latent_algebra.py:compute_pyx"]}
{"id": "C59", "title": "Majority vote ties are broken in the documented order", "statement": "Among tied majority labels get_majority_vote_label first prefers the highest predicted probability, then the class with the highest frequency in the dataset as documented, then the annotators' agreement.", "quantifier": "every annotation matrix and pred_probs", "why_tests_cant": "Needs ties that survive the first rule.", "anchors": ["cleanlab/multiannotator.py:get_majority_vote_label"]}
{"id": "C60", "title": "worst_class is the class an annotator gets wrong most often", "statement": "The worst_class reported for an annotator with labels is a class they used; no class they used agrees less often with the consensus, and among those that agree equally rarely none was used more often.", "quantifier": "every annotation matrix, consensus and quality scores", "why_tests_cant": "Ranges over all tie patterns.", "anchors": ["cleanlab/multiannotator.py:_get_single_annotator_worst_class"]}
{"id": "C61", "title": "Multi-label label quality scores are defined for every data set", "statement": "multilabel_classification.get_label_quality_scores gives every multi-label data set one score in [0,1] per example, and 1 when the model is certain of every given decision.", "quantifier": "every list of label sets, every matrix of predicted probabilities", "why_tests_cant": "The failing inputs are data sets whose examples all have every class or no class.", "anchors": ["cleanlab/internal/multilabel_scorer.py:MultilabelScorer", "cleanlab/multilabel_classification/rank.py:get_label_quality_scores"]}
{"id": "C62", "title": "Class quality ranking", "statement": "rank_classes_by_label_quality lists every class exactly once from lowest to highest quality; the quality lies in [0,1], is P(true = k | given = k) for a class given with probability at least 1e-6, and is 1 for a class never given; the issue counts are the expected numbers of examples rounded to the nearest integer.", "quantifier": "every joint distribution", "why_tests_cant": "Ranges over all joints, including empty classes.", "anchors": ["cleanlab/dataset.py:rank_classes_by_label_quality"]}
{"id": "C63", "title": "Dataset functions accept each documented input", "statement": "rank_classes_by_label_quality, find_overlapping_classes, overall_label_health_score and health_summary return a result for each of the three documented inputs: labels with pred_probs, joint with num_examples, or confident_joint.", "quantifier": "every data set, joint and confident joint", "why_tests_cant": "Tests call the functions with labels and pred_probs.", "anchors": ["cleanlab/dataset.py:rank_classes_by_label_quality", "cleanlab/dataset.py:health_summary", "cleanlab/dataset.py:overall_label_health_score", "cleanlab/dataset.py:find_overlapping_classes"]}
{"id": "C64", "title": "Batched issue search", "statement": "find_label_issues_batched returns for every batch size and number of workers, flags only examples with a more probable class than the given one, prefers low label quality, does not depend on the batch size, and with return_mask=False returns the flagged indices sorted by label quality.", "quantifier": "every data set, batch size, worker count and completion order", "why_tests_cant": "Batch sizes, schedules and data are unbounded.", "anchors": ["cleanlab/experimental/label_issues_batched.py:find_label_issues_batched"]}
{"id": "C65", "title": "Segmentation label quality scores", "statement": "segmentation.rank.get_label_quality_scores gives every pixel the predicted probability of its given label; the softmin image score lies between the lowest and the mean pixel score, and the num_pixel_issues image score is one minus the fraction of flagged pixels.", "quantifier": "every image stack and temperature", "why_tests_cant": "Ranges over all image sizes and real temperatures.", "anchors": ["cleanlab/segmentation/rank.py:get_label_quality_scores"]}
{"id": "C66", "title": "Segmentation summary of swapped classes", "statement": "segmentation.summary.common_label_issues lists every swap of a given and a predicted class once, with the number of flagged pixels showing it, most frequent first, up to top rows; classes in exclude do not appear; filter_by_class keeps exactly the flagged pixels whose given or predicted class is the requested one.", "quantifier": "every image stack, mask, exclude list and top", "why_tests_cant": "Ranges over all masks and exclude lists.", "anchors": ["cleanlab/segmentation/summary.py:common_label_issues", "cleanlab/segmentation/summary.py:filter_by_class"]}
{"id": "C67", "title": "Token label quality scores", "statement": "token_classification.get_label_quality_scores gives each token the score of its own label and prediction, in the shape of labels; a sentence score is the lowest token score (min) or lies between the lowest and the mean token score (softmin).", "quantifier": "every nested list of labels and predictions and every temperature", "why_tests_cant": "Index arithmetic over unbounded ragged lists.", "anchors": ["cleanlab/token_classification/rank.py:get_label_quality_scores"]}
{"id": "C68", "title": "Merging classes keeps distributions", "statement": "merge_probs maps each row of probabilities to a distribution over the new classes in which every new class gets the total of its old classes, renormalised when classes are ignored.", "quantifier": "every row of probabilities and every map of classes", "why_tests_cant": "Ranges over all probability vectors and maps.", "anchors": ["cleanlab/internal/token_classification_utils.py:merge_probs"]}
{"id": "C69", "title": "Token issue summaries", "statement": "common_label_issues lists every word (or word and label swap that is not excluded) once with its exact number of issues, most frequent first; filter_by_token keeps exactly the issues at the requested token, ignoring case, in order.", "quantifier": "every list of issues, tokens, labels and predictions", "why_tests_cant": "Ranges over all lists.", "anchors": ["cleanlab/token_classification/summary.py:common_label_issues", "cleanlab/token_classification/summary.py:filter_by_token"]}
{"id": "C70", "title": "Near-duplicate score", "statement": "The near-duplicate score of every example lies in [0, 1), does not decrease when the distance to its nearest neighbour grows, and is 0 exactly when that distance is at most the numerical tolerance.", "quantifier": "every vector of nearest-neighbour distances", "why_tests_cant": "Ranges over all real distances.", "anchors": ["cleanlab/datalab/internal/issue_manager/duplicate.py:_compute_scores_with_exp_transform"]}
{"id": "C71", "title": "Out-of-distribution scores from predictions", "statement": "OutOfDistribution.fit_score/score with pred_probs gives every example a score in [0, 1] for each method, with or without adjustment; entropy and least_confidence give 1 exactly to examples with a class of probability 1, entropy gives 0 to uniform predictions, and adjusting with neither labels nor fitted thresholds is refused. After a fit to predictions and labels, score uses the thresholds of that fit, whatever is called in between.", "quantifier": "every matrix of predicted distributions, stored thresholds and parameters M, gamma", "why_tests_cant": "Ranges over all real probability matrices.", "anchors": ["cleanlab/outlier.py:_get_ood_predictions_scores"]}
{"id": "C72", "title": "Per-class detection confusion counts and metrics", "statement": "get_average_per_class_confusion_matrix reports for each class the average over the IoU thresholds 0.5, 0.55, ..., 0.95 of the numbers of true positives, false positives and false negatives, so that TP + FP is the number of predicted boxes and TP + FN the number of annotated boxes of the class; precision, recall and F1 of calculate_per_class_metrics lie in [0, 1].", "quantifier": "every list of images, annotations and predictions", "why_tests_cant": "Ranges over all sets of boxes; the existing tests compare two fixed datasets.", "anchors": ["cleanlab/object_detection/summary.py:get_average_per_class_confusion_matrix", "cleanlab/object_detection/summary.py:calculate_per_class_metrics"]}
{"id": "C73", "title": "Object detection label quality scores", "statement": "object_detection.rank.get_label_quality_scores returns one score in (0, 1] per image; all per-box scores lie in [0, 1], the score of an image for one kind of error lies between the lowest and the highest score of its boxes, an image without boxes scores 1, and weights that are negative or do not sum to 1 are refused.", "quantifier": "every list of images and every triple of weights", "why_tests_cant": "Ranges over all real boxes, probabilities and weights.", "anchors": ["cleanlab/object_detection/rank.py:get_label_quality_scores", "cleanlab/object_detection/rank.py:pool_box_scores_per_image"]}
{"id": "C74", "title": "Object detection issues: mask and ranked indices agree", "statement": "object_detection.filter.find_label_issues with return_indices_ranked_by_score=True returns exactly the images flagged by the mask, each once, with the lowest label quality scores first; every flagged image has a box whose score is at most 0.2.", "quantifier": "every list of images", "why_tests_cant": "Ranges over all sets of boxes.", "anchors": ["cleanlab/object_detection/filter.py:find_label_issues", "cleanlab/object_detection/rank.py:issues_from_scores"]}
{"id": "C75", "title": "Regression cross-validation is out of sample", "statement": "In regression.CleanLearning every kept example is predicted by the model of its own fold, trained on exactly the kept examples of the other folds, and every removed example gets the mean prediction of all fold models, none of which saw a removed example.", "quantifier": "every fold assignment, order of the examples and fraction removed", "why_tests_cant": "Ranges over all partitions and models; leakage changes the numbers only slightly and no test compares them.", "anchors": ["cleanlab/regression/learn.py:_get_cv_predictions"]}
{"id": "C76", "title": "Regression model arguments are used in every training", "statement": "The result of regression.CleanLearning.find_label_issues(model_kwargs=...) depends only on how the wrapped model behaves with these arguments.", "quantifier": "every model and every model_kwargs", "why_tests_cant": "Quantifies over pairs of models; tests use models without extra arguments.", "anchors": ["cleanlab/regression/learn.py:find_label_issues", "cleanlab/regression/learn.py:_find_best_k"]}
{"id": "C77", "title": "Random probabilities have the requested sum and bounds", "statement": "generate_n_rand_probabilities_that_sum_to_m terminates for every random outcome when min_prob <= m/n <= max_prob, and returns n numbers with sum m between min_prob and max_prob (up to 1e-6), non-negative if m is; infeasible bounds are refused.", "quantifier": "every n, m, bounds, Dirichlet draw and sequence of uniform draws", "why_tests_cant": "The correction loops depend on unboundedly many random draws; termination and exact sum cannot be sampled.", "anchors": ["cleanlab/benchmarking/noise_generation.py:generate_n_rand_probabilities_that_sum_to_m"]}
{"id": "C78", "title": "Balls are distributed completely and within bounds", "statement": "randomly_distribute_N_balls_into_K_bins returns for every feasible request of fewer than 500000 balls integer counts with sum N, each between min_balls_per_bin and max_balls_per_bin; if the bins hold fewer than N balls (max_balls_per_bin positive and at least min_balls_per_bin, fewer than 500000 balls in all), every bin gets max_balls_per_bin.", "quantifier": "every N, K, bounds and random draws", "why_tests_cant": "Rounding and correction depend on all random draws.", "anchors": ["cleanlab/benchmarking/noise_generation.py:randomly_distribute_N_balls_into_K_bins"]}
{"id": "C79", "title": "Generated noise matrices are as requested", "statement": "A matrix returned by generate_noise_matrix_from_trace (2 to 707 classes, min_noise_rate=0, max_noise_rate>=1/2) has the requested trace, columns summing to 1, diagonal and noise rates within the requested bounds (up to 1e-6), and with valid_noise_matrix=True it satisfies the learnability condition for every class.", "quantifier": "every feasible argument and every random draw", "why_tests_cant": "Random matrices; the tests draw a few seeds.", "anchors": ["cleanlab/benchmarking/noise_generation.py:generate_noise_matrix_from_trace", "cleanlab/benchmarking/noise_generation.py:noise_matrix_is_valid"]}
{"id": "C80", "title": "Residual scores of regression labels", "statement": "regression.rank.get_label_quality_scores(method='residual') returns one score in (0, 1] per example, equal to 1 exactly when prediction and label agree, and strictly lower the further the prediction is from the label; arrays of different lengths, empty arrays and missing values are refused.", "quantifier": "every labels and predictions of at least two examples (a single example is refused)", "why_tests_cant": "Ranges over all real vectors.", "anchors": ["cleanlab/regression/rank.py:get_label_quality_scores"]}
{"id": "C81", "title": "An interrupted save loses nothing", "statement": "If Datalab.save is interrupted at any point, a later load returns either the lab that was saved at the path before or the new lab, and never a mixture; repeating the save then works.", "quantifier": "every crash point, previous folder content and lab", "why_tests_cant": "Crash points between file writes are not reachable from tests.", "anchors": ["cleanlab/datalab/internal/serialize.py:_Serializer.serialize", "cleanlab/datalab/internal/serialize.py:_Serializer.deserialize"]}
{"id": "C82", "title": "Temperature scaling calibrates without reordering", "statement": "temp_scale_pred_probs turns every row into a distribution with positive entries, keeps the order of the classes (probabilities below 1e-30 count as 1e-30), leaves distributions with entries of at least 1e-30 unchanged at temperature 1, and never increases the probability of the predicted class when the temperature rises.", "quantifier": "every row of numbers and every temperature", "why_tests_cant": "Continuous domain in two parameters.", "anchors": ["cleanlab/internal/multiannotator_utils.py:temp_scale_pred_probs", "cleanlab/internal/numerics.py:softmax"]}
{"id": "C83", "title": "The calibration temperature is the best one tried", "statement": "find_best_temp_scaler returns a temperature between 0.1 and 8 whose mean cross entropy between the distribution of the annotators' labels and the scaled predictions is at most that of each temperature of its coarse search.", "quantifier": "every label matrix with a label for each example, of integer or float type, and every non-negative pred_probs with at least two classes", "why_tests_cant": "The optimum of a transcendental function over all data sets; tests only check that calibration runs.", "anchors": ["cleanlab/internal/multiannotator_utils.py:find_best_temp_scaler", "cleanlab/internal/multiannotator_utils.py:_set_fine_search_range", "cleanlab/internal/multiannotator_utils.py:compute_soft_cross_entropy"]}
{"id": "C84", "title": "Active learning end to end", "statement": "For annotations accepted by the multi-annotator functions (some example with a unique most frequent label, at least two classes) get_active_learning_scores returns scores in [0,1] for labelled and in [1/K,1] for unlabelled examples; if every example has exactly one label k the score is (2 p_k + 1/K)/3; without labels an unlabelled example with probabilities of at least 1e-30 scores (max p + 1/K)/2; of two unlabelled examples the one with the larger largest calibrated probability scores higher; calls without probabilities, or with probabilities but no labels, are refused.", "quantifier": "every label matrix, pred_probs, pred_probs_unlabeled and random tie-break", "why_tests_cant": "Composition of calibration, majority vote and CROWDLAB over continuous inputs.", "anchors": ["cleanlab/multiannotator.py:get_active_learning_scores"]}
{"id": "C85", "title": "Ensembles generalise single models", "statement": "With an ensemble of models CROWDLAB posteriors are distributions, weights are positive, qualities and active learning scores lie in [0,1]; an ensemble of one model gives the results of the functions for one model, and the order of the models is irrelevant; if every example has exactly one label k, the score with R models is ((R+1) p + 1/K)/(R+2), where p is their mean probability of k; the ensemble functions return whenever the functions for one model do.", "quantifier": "every label matrix, every non-empty ensemble and every permutation of the models", "why_tests_cant": "Relational property over all ensembles.", "anchors": ["cleanlab/multiannotator.py:get_label_quality_multiannotator_ensemble", "cleanlab/multiannotator.py:_get_post_pred_probs_and_weights_ensemble", "cleanlab/multiannotator.py:get_active_learning_scores_ensemble"]}
{"id": "C86", "title": "Scoring leaves the caller's arrays alone", "statement": "The ensemble functions for several annotators do not change the arrays of probabilities passed to them, so that a repeated call sees the same data.", "quantifier": "every ensemble and label matrix, with and without calibration", "why_tests_cant": "Tests look at return values, not at their own inputs after the call.", "anchors": ["cleanlab/multiannotator.py:get_label_quality_multiannotator_ensemble", "cleanlab/multiannotator.py:get_active_learning_scores_ensemble"]}
{"id": "C87", "title": "Outlier check flags", "statement": "The outlier check flags an example exactly if its average distance exceeds the upper quartile plus (1/threshold - 1) times the interquartile range: at most (n+2)/4 examples, never for equal distances or threshold 0, more for a larger threshold, independently of the unit of distance; flagged examples have scores at most those of unflagged ones; thresholds outside [0,1] are refused. Without features an example is flagged exactly if its score is below threshold times the median score, with a threshold of at most 1 at most half of the examples.", "quantifier": "every list of distances or scores, threshold, metric and sorting order of ties", "why_tests_cant": "Relates order statistics of arbitrary data; tests fix one data set.", "anchors": ["cleanlab/datalab/internal/issue_manager/outlier.py:OutlierIssueManager.find_issues", "cleanlab/datalab/internal/issue_manager/outlier.py:OutlierIssueManager._compute_threshold_and_issue_column_from_distances"]}
{"id": "C88", "title": "Label check predictions from features", "statement": "Given features instead of pred_probs, the label check predicts for each example the distribution of the labels of its k nearest other examples: entries in [0,1] that sum to 1 and do not depend on the example's own label.", "quantifier": "every neighbour structure, labels and k", "why_tests_cant": "Depends on ties between duplicates that test data do not contain.", "anchors": ["cleanlab/datalab/internal/issue_manager/label.py:LabelIssueManager.find_issues"]}
{"id": "C89", "title": "Non-IID check", "statement": "Non-IID scores lie in (0,1]; if the p-value is below the threshold exactly one example, the one with the lowest score, is flagged, otherwise none; the background curves are the distribution functions of the index distance to a random other example and of a random pair; the data-set statistic is the Kolmogorov-Smirnov distance between neighbour distances and background; reversing the order of the data reverses the scores.", "quantifier": "every neighbour graph, p-value and threshold", "why_tests_cant": "Closed forms with three regimes for each position and N.", "anchors": ["cleanlab/datalab/internal/issue_manager/noniid.py:NonIIDIssueManager._score_dataset", "cleanlab/datalab/internal/issue_manager/noniid.py:NonIIDIssueManager._get_statistics", "cleanlab/datalab/internal/issue_manager/noniid.py:NonIIDIssueManager.find_issues"]}
{"id": "C90", "title": "Image check bookkeeping", "statement": "After every call the image summary of Datalab has one row per image issue type that was kept, whose count is the number of flagged rows in the issue table; the requested types get the columns of the new run, the columns of other types are kept; types found in more than the maximal share of the images (10 percent) have neither a row nor columns.", "quantifier": "every sequence of calls, thresholds and image data", "why_tests_cant": "Depends on the history of earlier calls with other parameters.", "anchors": ["cleanlab/datalab/internal/adapter/imagelab.py:ImagelabDataIssuesAdapter.collect_issues_from_imagelab", "cleanlab/datalab/internal/adapter/imagelab.py:ImagelabDataIssuesAdapter._update_issues_imagelab", "cleanlab/datalab/internal/adapter/imagelab.py:ImagelabDataIssuesAdapter.filter_based_on_max_prevalence"]}
{"id": "C91", "title": "Multi-label data-set summaries", "statement": "common_multilabel_issues has one row per class and kind of issue, counting the examples flagged for this class, sorted by decreasing probability; rank_classes_by_multilabel_quality has one row per class with the same counts for the given confident_joint, quality 1 minus label noise, increasing; the overall health score is the fraction of examples flagged for no class, hence between 1 minus the sum of the issue probabilities and 1 minus the issues of any class.", "quantifier": "every label matrix, probabilities, confident joint and rounding of floats", "why_tests_cant": "Counts are recomputed from rounded probabilities, wrong only for some counts and sizes.", "anchors": ["cleanlab/multilabel_classification/dataset.py:common_multilabel_issues", "cleanlab/multilabel_classification/dataset.py:rank_classes_by_multilabel_quality", "cleanlab/multilabel_classification/dataset.py:overall_multilabel_health_score"]}
{"id": "C92", "title": "Object detection summaries", "statement": "object_counts_per_image returns the number of annotated and predicted boxes of each image; get_sorted_bbox_count_idxs lists every image once by decreasing count; bounding_box_size_distribution maps each (named) class with boxes to the sizes of all its boxes; class_label_distribution maps each class to its share of the boxes, so that the values sum to 1.", "quantifier": "every list of images, classes and class names", "why_tests_cant": "Rounding matters only for many or rare classes; dictionaries depend on the order of the data.", "anchors": ["cleanlab/object_detection/summary.py:object_counts_per_image", "cleanlab/object_detection/summary.py:bounding_box_size_distribution", "cleanlab/object_detection/summary.py:class_label_distribution", "cleanlab/object_detection/summary.py:get_sorted_bbox_count_idxs"]}
{"id": "C93", "title": "Datalab report", "statement": "After any history of checks the report shows exactly the checks that found a problem (or all, if asked), most flagged examples first, each with the number of flagged examples, the score and the lowest-scoring examples of its latest run; it says that no issues were found only if no check found a problem; a higher verbosity shows more information and some verbosity shows everything.", "quantifier": "every history of find_issues calls, registry, verbosity and number of examples", "why_tests_cant": "Combines histories of calls, several checks and verbosity levels.", "anchors": ["cleanlab/datalab/internal/report.py:Reporter.get_report", "cleanlab/datalab/internal/report.py:Reporter._get_issue_types", "cleanlab/datalab/internal/issue_manager/issue_manager.py:IssueManager.report", "cleanlab/datalab/datalab.py:Datalab.report"]}
{"id": "C94", "title": "Displayed token issues", "statement": "display_issues shows, for every list of issues, the first `top` issues whose swap is not excluded, each with its sentence and the token in it coloured. The sentence consists of the tokens in order; removing the colour gives the sentence back; every standalone occurrence of the token is coloured, and a token that occurs is coloured at least once.", "quantifier": "every list of sentences, tokens (any characters), issues, labels, predictions, exclusions and `top`", "why_tests_cant": "Tokens are arbitrary text; the regular expression, its replacement template and the fallback interact in ways that appear only for special characters.", "anchors": ["cleanlab/token_classification/summary.py:display_issues", "cleanlab/internal/token_classification_utils.py:get_sentence", "cleanlab/internal/token_classification_utils.py:color_sentence", "cleanlab/internal/token_classification_utils.py:_replace_sentence"]}
{"id": "C95", "title": "Token replacement rules and sentence filters", "statement": "process_token replaces all occurrences of the given texts in the original token, simultaneously (replaced text is not replaced again), and leaves the rest alone, for every list of rules including none; filter_sentence returns exactly the sentences that fulfil the condition, in order, with a matching mask.", "quantifier": "every token, list of rules, list of sentences and condition", "why_tests_cant": "Rules with common prefixes, repeated keys and special characters of regular expressions have infinitely many combinations.", "anchors": ["cleanlab/internal/token_classification_utils.py:process_token", "cleanlab/internal/token_classification_utils.py:filter_sentence"]}
{"id": "C96", "title": "Input validation", "statement": "assert_valid_inputs and Datalab's own input checks accept exactly the inputs the documentation allows: class labels 0, 1, ... with at least two classes (unless one is allowed) and no gaps (unless allowed), one row of features or probabilities per label, a column for every label, probabilities between 0 and 1; everything else is refused with an exception, and accepted data is not changed.", "quantifier": "every list of labels (numbers, text, nested), features, probabilities including nan, and multi-label lists", "why_tests_cant": "Both directions (nothing invalid passes, nothing valid is refused) range over all malformed inputs.", "anchors": ["cleanlab/internal/validation.py:assert_valid_inputs", "cleanlab/internal/validation.py:assert_valid_class_labels", "cleanlab/datalab/internal/model_outputs.py:MultiClassPredProbs", "cleanlab/datalab/internal/issue_finder.py:IssueFinder"]}
{"id": "C97", "title": "Appending missing-class examples to a fold", "statement": "When a cross-validation fold lacks a class, one example of it is appended to the fold: the result has the rows of the fold unchanged, followed by the requested row, for every type of data that CleanLearning accepts, including sparse matrices (whose stacking keeps every row).", "quantifier": "every fold, example and data type (dense, sparse, data frame, 1-D, images)", "why_tests_cant": "Sparse index arithmetic must be right for all shapes; the append happens only in rare folds.", "anchors": ["cleanlab/internal/util.py:csr_vstack", "cleanlab/internal/util.py:append_extra_datapoint", "cleanlab/count.py:estimate_confident_joint_and_cv_pred_proba"]}
{"id": "C98", "title": "Co-teaching", "statement": "In co-teaching each network is updated with the examples of smallest loss under the other network, as many as the remember rate allows, and its loss is their mean loss; the learning rate stays constant until the decay starts and then decreases, staying positive; the forget rate starts at 0, never decreases, never exceeds the requested rate and equals it after the gradual phase.", "quantifier": "every batch of losses, forget rate, learning rate, number of epochs, gradual phase and exponent", "why_tests_cant": "Schedules depend on real exponents and arbitrary lengths.", "anchors": ["cleanlab/experimental/coteaching.py:loss_coteaching", "cleanlab/experimental/coteaching.py:initialize_lr_scheduler", "cleanlab/experimental/coteaching.py:forget_rate_scheduler"]}
{"id": "C99", "title": "Preparing multi-annotator labels", "statement": "convert_long_to_wide_dataset gives one row per task and one column per annotator, whose filled cells are exactly the recorded labels, and refuses contradictory duplicates; format_multiannotator_labels replaces every label by its class index 0, ..., K-1, keeps missing labels missing, and its map turns the indices back into the labels.", "quantifier": "every list of records and every table of labels with missing entries", "why_tests_cant": "Ranges over all tables with missing entries and types of labels.", "anchors": ["cleanlab/multiannotator.py:convert_long_to_wide_dataset", "cleanlab/internal/multiannotator_utils.py:format_multiannotator_labels"]}
{"id": "C100", "title": "Baseline filters", "statement": "find_predicted_neq_given flags exactly the examples whose predicted class differs from the given one (for multi-label data: in some class), confusion_matrix counts the examples of every pair of classes, and find_label_issues_using_argmax_confusion_matrix is find_label_issues with that matrix as confident joint, for every valid data set whether or not all classes occur among labels and predictions.", "quantifier": "every data set of labels and predicted probabilities, single- and multi-label", "why_tests_cant": "Data sets in which a class is missing from labels or predictions are rare in tests and change the shape of the matrix.", "anchors": ["cleanlab/filter.py:find_predicted_neq_given", "cleanlab/filter.py:find_label_issues_using_argmax_confusion_matrix", "cleanlab/internal/util.py:confusion_matrix"]}
{"id": "C101", "title": "Counting for multi-label data", "statement": "For multi-label data, compute_confident_joint gives for every class a 2x2 matrix whose entries count the examples by whether they have the class and whether it is confidently found, as documented; after calibration the rows sum to the numbers of examples without and with the class; calibrate_confident_joint does this for a given joint of all K classes; estimate_joint gives a distribution per class; get_confident_thresholds gives the mean confidences; num_label_issues is the number of examples flagged by find_label_issues with confident learning, and refuses unknown estimation methods.", "quantifier": "every list of label lists and matrix of probabilities, including classes that no or every example has", "why_tests_cant": "Missing classes and one-vs-rest index conventions are easily wrong in cases tests do not list.", "anchors": ["cleanlab/count.py:_compute_confident_joint_multi_label", "cleanlab/count.py:_calibrate_confident_joint_multilabel", "cleanlab/count.py:_estimate_joint_multilabel", "cleanlab/count.py:_get_confident_thresholds_multilabel", "cleanlab/count.py:_num_label_issues_multilabel"]}
{"id": "C102", "title": "Custom thresholds for the confident joint", "statement": "compute_confident_joint with thresholds of shape (K,) or (K, 1) uses the k-th threshold for class k of every example, for single- and multi-label data.", "quantifier": "every number of examples and classes, thresholds and probabilities", "why_tests_cant": "Broadcasting rules depend on the numbers of examples and classes; coincidences of shapes go unnoticed.", "anchors": ["cleanlab/count.py:compute_confident_joint", "cleanlab/count.py:_compute_confident_joint_multi_label"]}
{"id": "C103", "title": "Labels and information reported by Datalab", "statement": "After a label check, get_issues('label') and get_info('label') report the labels of the data set as given labels and, as predicted labels, the classes (in the documented sorted order of the columns) that the probabilities stand for; get_info refuses checks that were not computed; reading information changes nothing, and changing what was handed out does not change what Datalab reports later.", "quantifier": "every data set of labels over any ordered type, every matrix of probabilities and every memory state of the stored information", "why_tests_cant": "Label alphabets, missing classes and aliasing between results and internal state show only in unusual histories.", "anchors": ["cleanlab/datalab/internal/data_issues.py:_ClassificationInfoStrategy", "cleanlab/datalab/internal/data_issues.py:_MultilabelInfoStrategy", "cleanlab/datalab/internal/data_issues.py:_InfoStrategy._get_info_helper", "cleanlab/datalab/internal/issue_manager/multilabel/label.py:MultilabelIssueManager"]}
{"id": "C104", "title": "OUTRE label quality scores", "statement": "The default regression label quality score is one number in (0, 1] per example, does not depend on the order of the examples, is equal for examples with equal label and prediction, and never rates a label that equals its prediction below one that is far from it.", "quantifier": "every number of examples, labels and predictions (real numbers)", "why_tests_cant": "Standardisation and neighbour counts behave differently for small, biased and constant data.", "anchors": ["cleanlab/regression/rank.py:_get_outre_score_for_each_label", "cleanlab/internal/neighbor/knn_graph.py:_configure_num_neighbors"]}
{"id": "C105", "title": "Datalab label check for regression", "statement": "With predictions and no custom model, the check scores with get_label_quality_scores, flags exactly the examples below threshold times the median score (at most half of them for thresholds up to 1; more for larger thresholds; closed under lower scores; none for thresholds up to 0), and reports given labels, predictions and the mean score; with features only or a custom model it reports what CleanLearning finds; without usable inputs it raises.", "quantifier": "every label and prediction vector, threshold, scoring function and combination of inputs", "why_tests_cant": "The flag set depends on the median of all scores and on which inputs are combined.", "anchors": ["cleanlab/datalab/internal/issue_manager/regression/label.py:RegressionLabelIssueManager", "cleanlab/datalab/internal/issue_manager/regression/label.py:find_issues_with_predictions"]}
{"id": "C106", "title": "Registering checks", "statement": "register returns the class it was given; afterwards the name of the class stands for it in that task and nothing else changes; it raises for classes that are not issue managers and for unknown tasks. After any history of calls a name stands for the class registered last. list_possible_issue_types lists exactly the types find_issues accepts, including every documented type. A registered check with a new name runs when asked for, with exactly the given arguments, and never by default; default calls never fail because of an unknown type.", "quantifier": "every registry, history of register calls, task and find_issues call", "why_tests_cant": "The registry is global mutable state, so what a name means depends on everything registered before.", "anchors": ["cleanlab/datalab/internal/issue_manager_factory.py:register", "cleanlab/datalab/internal/issue_manager_factory.py:_IssueManagerFactory.from_str", "cleanlab/datalab/internal/issue_manager_factory.py:list_possible_issue_types", "cleanlab/datalab/internal/task.py:Task.from_str", "cleanlab/datalab/datalab.py:Datalab.list_possible_issue_types"]}
{"id": "C107", "title": "When spurious correlations are computed and reported", "statement": "The stored table has one row per image property with the score of that property; a call that asks for other checks, has no labels or comes before any image property was computed leaves the stored table alone, every other call replaces it using the given threshold or 0.3; the report names exactly the properties with a score below the threshold.", "quantifier": "every label list, accuracy per property, stored state and kind of request", "why_tests_cant": "The outcome depends on the history of find_issues calls and their issue_types.", "anchors": ["cleanlab/datalab/internal/adapter/imagelab.py:ImagelabIssueFinderAdapter.find_issues", "cleanlab/datalab/internal/adapter/imagelab.py:handle_spurious_correlations", "cleanlab/datalab/internal/adapter/imagelab.py:CorrelationReporter", "cleanlab/datalab/internal/spurious_correlation.py:SpuriousCorrelations.calculate_correlations"]}
{"id": "C108", "title": "The graph of nearest neighbours built from features", "statement": "create_knn_graph_and_index builds a graph with the requested number of neighbours (the smaller of 10 and N - 1 if none is requested, an error for N or more or none), using the given metric or the documented default. If the search index is exact, the graph lists for every point its nearest other points with their distances, with or without the correction of exact duplicates. For any index, after the correction every exact duplicate is listed at distance 0 (only duplicates if there are at least k of them), all other entries come from the index, and rows ordered by distance stay so.", "quantifier": "every feature array, search index, number of neighbours, metric and sorting routine", "why_tests_cant": "The correction rewrites the flat arrays of the whole graph; which neighbours are lost depends on ties, set sizes and the sort.", "anchors": ["cleanlab/internal/neighbor/knn_graph.py:create_knn_graph_and_index", "cleanlab/internal/neighbor/knn_graph.py:construct_knn_graph_from_index", "cleanlab/internal/neighbor/knn_graph.py:correct_knn_graph", "cleanlab/internal/neighbor/knn_graph.py:_configure_num_neighbors", "cleanlab/internal/neighbor/metric.py:decide_default_metric"]}
{"id": "C109", "title": "Creating a Datalab from data", "statement": "Every documented kind of data (a Dataset, DataFrame, dict, list of dicts, path to a .txt, .csv or .json file, identifier on the Hugging Face Hub) is loaded with the matching function; other kinds raise DataFormatError, a DatasetDict raises DatasetDictError. The lab has one label per row taken from the named column, a missing column raises ValueError, and has_labels says whether classes are known.", "quantifier": "every argument, behaviour of the loading functions, task and label column", "why_tests_cant": "Dispatch is by exact type, and what the external loaders return decides whether the rest of the constructor can work.", "anchors": ["cleanlab/datalab/internal/data.py:Data", "cleanlab/datalab/internal/data.py:Label", "cleanlab/datalab/internal/data.py:MultiClass", "cleanlab/datalab/internal/data.py:MultiLabel", "cleanlab/datalab/datalab.py:Datalab.has_labels"]}
{"id": "C110", "title": "Training a regression model on cleaned data", "statement": "Whatever calls came before: if fit succeeds, the model was trained on exactly the examples that get_label_issues then reports as unflagged, each once, in order and with its own label and weight; fit without label issues is find_label_issues followed by fit with its result; fit accepts what find_label_issues accepts; the reported issues belong to one call, k is the fraction of them that is flagged, save_space forgets everything, and a call that raises changes nothing.", "quantifier": "every history of find_label_issues, fit and save_space on one object, data, wrapped model, folds, label issues argument and weights", "why_tests_cant": "The array used to select rows depends on the column type of the given label issues and on how labels are stored; state depends on the history.", "anchors": ["cleanlab/regression/learn.py:CleanLearning.fit", "cleanlab/regression/learn.py:CleanLearning.find_label_issues", "cleanlab/regression/learn.py:CleanLearning.get_label_issues", "cleanlab/regression/learn.py:CleanLearning.save_space", "cleanlab/internal/util.py:subset_X_y", "cleanlab/internal/regression_utils.py:assert_valid_regression_inputs"]}
{"id": "C111", "title": "Estimated uncertainties of a regression model", "statement": "Estimating the uncertainties never fails on data that can be cross-validated. The epistemic uncertainty is not negative and is zero exactly for the examples on which the repeated trainings agree; the aleatoric uncertainty is the standard deviation of the regression error; all trainings use the given model arguments. If all examples have the same uncertainty, the examples with the largest residuals are flagged, and its size does not matter.", "quantifier": "every wrapped model, data, folds, number of repetitions and given uncertainty", "why_tests_cant": "Claims about all models and residuals; ties and scaling by the median cannot be covered by samples.", "anchors": ["cleanlab/regression/learn.py:CleanLearning.get_epistemic_uncertainty", "cleanlab/regression/learn.py:CleanLearning.get_aleatoric_uncertainty", "cleanlab/regression/learn.py:CleanLearning.find_label_issues"]}
{"id": "C112", "title": "A seed makes regression cleaning reproducible", "statement": "With a seed given to CleanLearning the results are determined by the seed, the settings and the data: a search gives the same result in every program, for every object with that seed, and when repeated; the random numbers of the caller are not affected.", "quantifier": "every program that makes objects, searches with them and draws random numbers", "why_tests_cant": "Needs interleavings of several objects and other users of the global random state.", "anchors": ["cleanlab/regression/learn.py:CleanLearning.__init__", "cleanlab/regression/learn.py:CleanLearning._get_cv_predictions"]}
{"id": "C113", "title": "Datalab's label check agrees with CleanLearning and the dataset summary", "statement": "Datalab's label check reports, for every example and all options, exactly the flags and scores that a new CleanLearning object reports, the given and the most probable labels and the number of flagged examples; its overall score and its tables of classes are those of cleanlab.dataset on the same data; every documented option works, the score agrees with the number of flagged examples, and the reported thresholds are the ones used.", "quantifier": "all labels, predictions, options and statistics", "why_tests_cant": "The results are assembled from several functions with options passed through several dictionaries; tests use the default options on one data set.", "anchors": ["cleanlab/datalab/internal/issue_manager/label.py:LabelIssueManager.find_issues", "cleanlab/datalab/internal/issue_manager/label.py:LabelIssueManager._get_summary_parameters", "cleanlab/datalab/internal/issue_manager/label.py:LabelIssueManager.collect_info"]}
{"id": "C114", "title": "The MNIST network is a classifier over indices", "statement": "The network in experimental/mnist_pytorch.py behaves as a scikit-learn classifier whose examples are indices: fit trains a new network, in every epoch on every given index once with its given label and weight; predict_proba(idx) returns in row r the prediction for image idx[r] of the data set it was trained on; a clone has the parameters of the original.", "quantifier": "all index lists, labels, weights, sampling orders and networks", "why_tests_cant": "Predictions of a network cannot be compared by value; which images and labels were used only shows in a model of the data flow.", "anchors": ["cleanlab/experimental/mnist_pytorch.py:CNN.fit", "cleanlab/experimental/mnist_pytorch.py:CNN.predict_proba", "cleanlab/experimental/mnist_pytorch.py:CNN.get_params"]}
{"id": "C115", "title": "Label issue search accepts every valid data set", "statement": "find_label_issues, get_label_quality_scores and num_label_issues return a result for every non-empty data set whose labels are in 0..K-1 and whose predicted probabilities are in [0,1], whichever classes occur in the labels; likewise the multi-label find_label_issues for every set of given classes; all other data sets are refused.", "quantifier": "all labels, predicted probabilities and settings", "why_tests_cant": "Whether a call is refused depends on which classes occur and on the combination of settings; tests use data in which every class occurs.", "anchors": ["cleanlab/filter.py:find_label_issues", "cleanlab/internal/validation.py:assert_valid_inputs", "cleanlab/internal/validation.py:assert_valid_class_labels", "cleanlab/rank.py:get_label_quality_scores", "cleanlab/count.py:num_label_issues", "cleanlab/multilabel_classification/filter.py:find_multilabel_issues_per_class"]}
{"id": "C116", "title": "Calls of CleanLearning leave the caller's objects alone", "statement": "CleanLearning.find_label_issues and fit do not change the objects given to them: the noise matrices, the confident joint and the data frame of label issues have the same content after the call as before, whether it raises or not; and the results depend on the content of these objects only.", "quantifier": "all objects, settings, arguments and earlier calls", "why_tests_cant": "Aliasing: tests pass new arrays and frames to each call and do not compare them afterwards.", "anchors": ["cleanlab/classification.py:CleanLearning.find_label_issues", "cleanlab/classification.py:CleanLearning.fit", "cleanlab/classification.py:CleanLearning._process_label_issues_arg"]}
{"id": "C117", "title": "Noise estimates are the frequencies in the confident joint", "statement": "The prior, noise matrix and inverse noise matrix that estimate_latent and estimate_py_and_noise_matrices_from_probabilities return are the frequencies in the calibrated confident joint J: py[y] = sum_s J[s][y]/n, noise[s][y] = J[s][y]/sum_s J[s][y], inverse[y][s] = J[s][y]/(number of examples given s). So they agree with one another, whatever py_method is chosen, and converge_latent_estimates changes nothing. The cross-validating functions return the same for the out-of-sample probabilities, and estimate_cv_predicted_probabilities returns these probabilities.", "quantifier": "for all data sets, predicted probabilities, thresholds, classifiers, splits, methods and settings of converge_latent_estimates", "why_tests_cant": "Tests check that estimates on one data set are close to known noise rates; they do not compare them with the joint, and the defaults of converge_latent_estimates differ between the functions.", "anchors": ["cleanlab/count.py:estimate_latent", "cleanlab/count.py:estimate_py_and_noise_matrices_from_probabilities", "cleanlab/count.py:estimate_confident_joint_and_cv_pred_proba", "cleanlab/count.py:estimate_py_noise_matrices_and_cv_pred_proba", "cleanlab/count.py:estimate_cv_predicted_probabilities", "cleanlab/count.py:estimate_noise_matrices", "cleanlab/count.py:_converge_estimates"]}
{"id": "C118", "title": "Published box scores explain the image scores", "statement": "compute_overlooked_box_scores, compute_badloc_box_scores and compute_swap_box_scores return one array per image, with one score per predicted (overlooked) or annotated box, each between 0 and 1 or nan for predicted boxes that are not considered, for every alpha in [0, 1] and every threshold. Pooled with pool_box_scores_per_image and combined with the aggregation weights they give exactly the scores of get_label_quality_scores. Scores from auxiliary inputs equal those from the labels and predictions the inputs describe, and lists of different length are refused.", "quantifier": "for all images, boxes, valid probabilities, weights, thresholds, values of alpha and auxiliary inputs", "why_tests_cant": "Tests compute box scores for a few stored images; they never recombine them, pass other values of alpha or compare auxiliary inputs with labels and predictions.", "anchors": ["cleanlab/object_detection/rank.py:compute_overlooked_box_scores", "cleanlab/object_detection/rank.py:compute_badloc_box_scores", "cleanlab/object_detection/rank.py:compute_swap_box_scores", "cleanlab/object_detection/rank.py:pool_box_scores_per_image", "cleanlab/object_detection/rank.py:get_label_quality_scores", "cleanlab/object_detection/rank.py:_get_valid_inputs_for_compute_scores_per_image"]}
{"id": "C119", "title": "The multi-annotator report", "statement": "A successful call of get_label_quality_multiannotator with a list of consensus methods reports, without suffix, the labels, qualities and agreements of the first method, and under the name of each further method what a call with only that method reports, for every combination of options and every random tie-break. Asking for or leaving out the detailed label qualities, the annotator statistics or the weights changes nothing else in the report, and the weights are those behind the main columns. The annotator table has one row per annotator, sorted by quality and then by agreement with missing values last, and each row counts the examples the annotator labelled and the share that has the consensus label. With probabilities that are distributions every score lies between 0 and 1, a label quality exists for exactly the labels given, and an annotator's quality is missing exactly when all of their examples have no other label. With quality_method=\"agreement\" the consensus is a label that most annotators gave and its quality is the share of annotators who gave it.", "quantifier": "for all annotations, predicted probabilities, scoring functions, calibrations, option combinations and random tie-breaks", "why_tests_cant": "The options interact (five switches, two consensus methods in any order, two quality methods, arbitrary scoring arguments); tests call the function with a handful of combinations and never compare two calls that differ in one option.", "anchors": ["cleanlab/multiannotator.py:get_label_quality_multiannotator", "cleanlab/multiannotator.py:_get_consensus_stats", "cleanlab/multiannotator.py:_get_annotator_stats", "cleanlab/multiannotator.py:_get_annotator_quality", "cleanlab/multiannotator.py:_get_annotator_label_quality_score"]}
{"id": "C120", "title": "The order of the examples does not matter", "statement": "Putting the rows of a data set in another order (labels and predicted probabilities alike) changes no estimate about the data set: thresholds, confident joint, joint, noise estimates, number of issues, ranking of classes, overlapping classes and label health stay the same. Every example keeps its label quality score, and `find_label_issues` flags the same examples; with a ranking the same examples come back with the same scores from first to last.", "quantifier": "for every data set, every permutation of its examples, every filter with every value of its options and every sort that numpy may use", "why_tests_cant": "Tests use one fixed order of their fixture; shuffling a fixture tries a few of n! orders and seldom produces the ties in which results depend on the order.", "anchors": ["cleanlab/filter.py:find_label_issues", "cleanlab/count.py:compute_confident_joint", "cleanlab/count.py:num_label_issues", "cleanlab/rank.py:get_label_quality_scores", "cleanlab/rank.py:find_top_issues", "cleanlab/dataset.py:health_summary"]}
{"id": "C121", "title": "The numbering of the classes does not matter", "statement": "Classes are names: giving them other numbers (labels, columns of the predicted probabilities and a given confident joint alike) changes no label quality score, no estimate of the number of issues, no threshold, no health score and no flagged example; the confident joint and the table of classes are the old ones with the new numbers.", "quantifier": "for every data set, every permutation of the class numbers, every filter and every sort that numpy may use", "why_tests_cant": "Class numbers come from an arbitrary (often alphabetical) encoding. Tests keep the encoding of their fixture, and the cases in which it matters (ties, a single class, rounding) do not occur in it.", "anchors": ["cleanlab/filter.py:find_label_issues", "cleanlab/count.py:compute_confident_joint", "cleanlab/count.py:get_confident_thresholds", "cleanlab/count.py:num_label_issues", "cleanlab/rank.py:get_label_quality_scores", "cleanlab/dataset.py:rank_classes_by_label_quality", "cleanlab/dataset.py:overall_label_health_score"]}
{"id": "C122", "title": "The order of annotators and examples does not matter to the multi-annotator functions", "statement": "Putting the columns (annotators) or the rows (examples) of the multi-annotator labels in another order changes nothing but the order of the results: every example keeps its majority vote label, consensus label, quality score, agreement and active learning score, every annotator keeps their weight, quality, agreement with the consensus and worst class, and unlabelled examples keep their active learning scores. An input refused in one order is refused in every other. (Random choices that break the last ties are taken to be the same for each example.)", "quantifier": "for all annotations with any pattern of missing labels, all predicted probabilities, all permutations of annotators and examples, both consensus methods and all random tie-breaks", "why_tests_cant": "Sums and tie-breaks run over annotators in array order; tests use one order, and n! * m! orders cannot be tried. Ties between annotators are where an order-dependent rule would show, and fixtures seldom contain them.", "anchors": ["cleanlab/multiannotator.py:get_majority_vote_label", "cleanlab/multiannotator.py:get_label_quality_multiannotator", "cleanlab/multiannotator.py:get_active_learning_scores", "cleanlab/multiannotator.py:_get_annotator_quality", "cleanlab/multiannotator.py:_get_annotator_worst_class", "cleanlab/internal/multiannotator_utils.py:find_best_temp_scaler"]}
{"id": "C123", "title": "The order of images and boxes does not matter in object detection", "statement": "If the images are given in another order, or the annotated or predicted boxes of an image in another order, then every image gets the same quality score, the same images are found to have label issues, and the counts, precision, recall and F1 of every class, the sizes of the boxes and the frequencies of the classes are the same.", "quantifier": "every list of images, every permutation of the images and of the boxes of each image, every setting and every sorting algorithm", "why_tests_cant": "Tests use one order; permutations of all images and boxes, ties of probabilities and of overlaps cannot be enumerated.", "anchors": ["cleanlab/object_detection/rank.py:get_label_quality_scores", "cleanlab/object_detection/filter.py:find_label_issues", "cleanlab/object_detection/summary.py:calculate_per_class_metrics", "cleanlab/object_detection/summary.py:class_label_distribution", "cleanlab/object_detection/summary.py:bounding_box_size_distribution"]}
{"id": "C124", "title": "The order of the rows does not matter to the checks of Datalab", "statement": "Datalab's checks do not depend on the order of the rows. If the rows of the data are reordered, with the neighbour graph renamed accordingly, the checks for near duplicates, outliers, underperforming groups, class imbalance, null values and identifier columns and the data valuation report the same summary, and the flag, the score and the near duplicates of a row move with it.", "quantifier": "For every neighbour graph, all distances, labels, clusters, null masks and thresholds, and every permutation of the rows.", "why_tests_cant": "Tests run each check on one fixed order of the rows.", "anchors": ["cleanlab/datalab/internal/issue_manager/duplicate.py:find_issues", "cleanlab/datalab/internal/issue_manager/outlier.py:find_issues", "cleanlab/data_valuation.py:data_shapley_knn", "cleanlab/datalab/internal/issue_manager/underperforming_group.py:find_issues", "cleanlab/datalab/internal/issue_manager/imbalance.py:find_issues", "cleanlab/datalab/internal/issue_manager/null.py:find_issues"]}
{"id": "C125", "title": "The order of the examples and of the classes does not matter for multi-label data", "statement": "For multi-label data, find_label_issues, find_multilabel_issues_per_class, get_label_quality_scores, common_multilabel_issues, rank_classes_by_multilabel_quality and overall_multilabel_health_score do not depend on how the examples or the classes are ordered: renumbering the classes leaves every example's flag, rank and score as they are and moves the entries of the tables with the classes; reordering the examples moves flags and scores with them and leaves the tables as they are.", "quantifier": "For all labels and predicted probabilities, every filter, every scorer of the single classes, every permutation of the classes and every permutation of the examples.", "why_tests_cant": "Tests use one order of the examples and one numbering of the classes.", "anchors": ["cleanlab/filter.py:_find_label_issues_multilabel", "cleanlab/multilabel_classification/filter.py:find_multilabel_issues_per_class", "cleanlab/internal/multilabel_scorer.py:MultilabelScorer", "cleanlab/multilabel_classification/dataset.py:common_multilabel_issues"]}
{"id": "C126", "title": "Every parameter documented for the outlier check has its effect", "statement": "The parameters given for the outlier check in `issue_types` control it: `k`, `t`, `metric`, `scaling_factor` and `threshold` are used as given, and so are `method`, `adjust_pred_probs` and `confident_thresholds` when the check works on predicted probabilities, whether they are given inside `ood_kwargs` or outside. Parameters that are not given have their documented defaults, no parameter makes the check fail, and the caller's dictionaries are not changed.", "quantifier": "for every combination of parameters and every value, with features, a neighbour graph or predicted probabilities, through Datalab and with the issue manager used directly", "why_tests_cant": "Failures of a check are printed and swallowed, and tests pass parameters only together with features. No test gives a parameter for predicted probabilities.", "anchors": ["cleanlab/datalab/internal/issue_manager/outlier.py:__init__", "cleanlab/datalab/internal/issue_manager/outlier.py:find_issues", "cleanlab/datalab/internal/issue_manager/outlier.py:_score_with_pred_probs", "cleanlab/outlier.py:__init__", "cleanlab/datalab/internal/issue_finder.py:find_issues"]}
{"id": "C127", "title": "The information stored by a check describes the computation", "statement": "What `Datalab.get_info` returns for a check describes how its result was computed: `k` is the number of neighbours used, `metric` the metric of the graph, the parameters of the clustering are those used, the nearest neighbour of an example is a nearest one, and the name of the rarest class is given if and only if an imbalance is reported.", "quantifier": "for every check that uses neighbours, every number of neighbours, all graphs (given, stored or computed), metrics and clustering parameters", "why_tests_cant": "Tests compare single entries after one check with default parameters; reuse of graphs and combinations of parameters are not covered.", "anchors": ["cleanlab/datalab/internal/issue_manager/outlier.py:collect_info", "cleanlab/datalab/internal/issue_manager/duplicate.py:collect_info", "cleanlab/datalab/internal/issue_manager/noniid.py:collect_info", "cleanlab/datalab/internal/issue_manager/data_valuation.py:collect_info", "cleanlab/datalab/internal/issue_manager/underperforming_group.py:collect_info", "cleanlab/datalab/internal/issue_manager/imbalance.py:collect_info"]}
{"id": "C128", "title": "The identifier column check looks at the data, not at its container", "statement": "The identifier column check gives the same result for the same table whether it is passed as an array, a DataFrame, a dictionary or a list of columns: a column of integers whose values form an interval is reported under its number, and every row gets a row in the issue table.", "quantifier": "for all tables, with any number of rows and columns and any mixture of integers, floats, strings, truth values and missing values", "why_tests_cant": "Type promotion of numpy and pandas depends on all entries together; tests use one small table per container.", "anchors": ["cleanlab/datalab/internal/issue_manager/identifier_column.py:_prepare_features", "cleanlab/datalab/internal/issue_manager/identifier_column.py:find_issues"]}
{"id": "C129", "title": "Unusable multi-annotator input is refused", "statement": "get_label_quality_multiannotator, its ensemble version and get_majority_vote_label accept a table of labels exactly if it is two-dimensional, every entry is missing or a class index 0, 1, ..., every example and every annotator has at least one label and some example has two; predicted probabilities are accepted exactly if they are an array of the right dimension with a row for every example, a column for every class that occurs, and entries that are probabilities. Text labels are refused, whatever the container. The flag verbose only controls what is printed. The warning about missing agreement is given exactly if no two annotators agree anywhere, and the note about omitted classes lists exactly the classes that were given and are no consensus label.", "quantifier": "all tables, containers, dtypes, shapes and values of the probabilities", "why_tests_cant": "the tests pass one bad input per error message; that nothing else is refused and nothing else slips through is a statement about all tables", "anchors": ["cleanlab/internal/multiannotator_utils.py:assert_valid_inputs_multiannotator", "cleanlab/internal/multiannotator_utils.py:assert_valid_pred_probs", "cleanlab/internal/multiannotator_utils.py:check_consensus_label_classes", "cleanlab/multiannotator.py:get_majority_vote_label"]}
{"id": "C130", "title": "A Datalab check reports the same whatever was checked before", "statement": "What a kNN-based check of Datalab (outliers, near duplicates, non-iid, data valuation, underperforming group) reports depends only on the arguments it is given: after any history of other checks on the same Datalab, including failed ones, it works with the same neighbour graph (or fails in the same way) as on a new Datalab. In particular the graph is that of the provided features and metric unless a graph is given, and a given graph takes precedence. Where a stored graph with more neighbours is reused, the extra neighbours do not change the reported scores and flags.", "quantifier": "for every finite history of checks with arbitrary numbers of neighbours, every feature array, metric and number of examples, and every construction of graphs that lists k neighbours", "why_tests_cant": "tests run a handful of fixed sequences of find_issues calls; the property quantifies over all histories and numbers of neighbours", "anchors": ["cleanlab/datalab/internal/issue_manager/knn_graph_helpers.py:set_knn_graph", "cleanlab/datalab/internal/issue_manager/knn_graph_helpers.py:_process_knn_graph_from_inputs", "cleanlab/datalab/internal/issue_manager/duplicate.py:find_issues", "cleanlab/datalab/internal/issue_manager/data_valuation.py:find_issues", "cleanlab/internal/neighbor/knn_graph.py:create_knn_graph_and_index"]}
{"id": "C131", "title": "Labels give the same result in every accepted container and number type", "statement": "assert_valid_inputs accepts labels as a list, array, Series or one-column DataFrame, and as integers, integer-valued floats or Booleans, judging them by their values alone. For all of them get_label_quality_scores and find_predicted_neq_given return one value per example, the same as for an integer array with these values.", "quantifier": "for every number of examples and classes, all labels, all probabilities, every container and every number type", "why_tests_cant": "tests use integer arrays; the combinations of container, number type, number of examples and number of classes are unbounded", "anchors": ["cleanlab/rank.py:get_label_quality_scores", "cleanlab/rank.py:get_self_confidence_for_each_label", "cleanlab/filter.py:find_predicted_neq_given", "cleanlab/internal/validation.py:assert_valid_inputs", "cleanlab/internal/validation.py:labels_to_array"]}
{"id": "C132", "title": "Repeating the data does not matter", "statement": "If every example occurs m times in the data instead of once, in any order, then the confident thresholds and every label quality score are the same, the number of label issues is m times as large, find_label_issues flags exactly the copies of the examples it flags in the original data, the confident joint is m times as large and the estimated joint distribution of given and true labels is the same.", "quantifier": "for all data sets, all m > 0, every order of the copies, every filter and every sort", "why_tests_cant": "a metamorphic property over pairs of runs on unbounded data; tests compare outputs with stored numbers for one data set", "anchors": ["cleanlab/count.py:get_confident_thresholds", "cleanlab/count.py:num_label_issues", "cleanlab/count.py:compute_confident_joint", "cleanlab/count.py:estimate_joint", "cleanlab/filter.py:find_label_issues", "cleanlab/rank.py:get_label_quality_scores"]}
{"id": "C133", "title": "A class nobody uses does not matter", "statement": "If the model knows one more class that no example is labelled with and to which it gives probability 0 everywhere (a further column of zeros), then the thresholds of the other classes, every label quality score, the number of label issues, the examples flagged by find_label_issues, and the entries of the confident joint and of the estimated joint for the other classes are the same; the entries of the new class are 0.", "quantifier": "for all data sets, numbers of classes, filters, score methods, adjusted or not, and every sort", "why_tests_cant": "a metamorphic property over pairs of runs with different numbers of classes; tests have one fixture with a missing class and check that nothing raises", "anchors": ["cleanlab/count.py:get_confident_thresholds", "cleanlab/count.py:num_label_issues", "cleanlab/count.py:compute_confident_joint", "cleanlab/filter.py:find_label_issues", "cleanlab/rank.py:get_label_quality_scores", "cleanlab/internal/label_quality_utils.py:_subtract_confident_thresholds", "cleanlab/internal/label_quality_utils.py:get_normalized_entropy"]}
{"id": "C134", "title": "The unit of the features does not matter", "statement": "If all features are given in another unit, so that all distances are multiplied by the same positive number, the corrected neighbour graph lists the same neighbours, the outlier check flags the same examples with the same scores, and the near-duplicate check reports the same sets, flags and scores.", "quantifier": "for all neighbour graphs, thresholds, metrics and positive factors, and every sort", "why_tests_cant": "a metamorphic property over pairs of runs; tests use features of one magnitude", "anchors": ["cleanlab/datalab/internal/issue_manager/duplicate.py:find_issues", "cleanlab/datalab/internal/issue_manager/outlier.py:find_issues", "cleanlab/internal/outlier.py:transform_distances_to_scores", "cleanlab/internal/outlier.py:correct_precision_errors", "cleanlab/internal/neighbor/knn_graph.py:correct_knn_distances_and_indices_with_exact_duplicate_sets_inplace"]}
{"id": "C135", "title": "The zero point of a regression target does not matter", "statement": "If the same constant is added to all targets and all predictions (Kelvin instead of degrees Celsius), the residual scores and the OUTRE scores are the same, and Datalab's label check for regression on predictions gives the same flags, scores and summary. Another unit of the target does not change the order of the residual scores.", "quantifier": "for all targets, predictions, constants, positive factors, thresholds and every sort", "why_tests_cant": "a metamorphic property over pairs of runs on real numbers", "anchors": ["cleanlab/regression/rank.py:_get_residual_score_for_each_label", "cleanlab/regression/rank.py:_get_outre_score_for_each_label", "cleanlab/datalab/internal/issue_manager/regression/label.py:find_issues_with_predictions"]}
{"id": "C136", "title": "Scores do not depend on the other examples, so data can be scored in parts", "statement": "The label quality score of an example depends on its own label and predictions only: the scores of data given in two parts, or one example at a time, are those of the whole data. This holds for every score method of classification data, with an ensemble of models, for multi-label data, tokens and sentences, images for segmentation, numbers (regression) and objects in images.", "quantifier": "for all data sets and all ways to split them, every score method and every number of classes, annotators or models", "why_tests_cant": "a metamorphic property over pairs of runs on unbounded data; tests compare outputs for one data set", "anchors": ["cleanlab/rank.py:get_label_quality_scores", "cleanlab/rank.py:get_label_quality_ensemble_scores", "cleanlab/multilabel_classification/rank.py:get_label_quality_scores", "cleanlab/token_classification/rank.py:get_label_quality_scores", "cleanlab/segmentation/rank.py:get_label_quality_scores", "cleanlab/regression/rank.py:get_label_quality_scores", "cleanlab/object_detection/rank.py:get_label_quality_scores"]}
{"id": "C137", "title": "A class declared to be perfectly labelled is never reported", "statement": "CleanLearning(pulearning=p) says that of two classes the class p has no label errors. Then find_label_issues reports no example with the label p, the stored matrices say that no such example belongs to the other class, and the label errors of the other class are reported as without the declaration.", "quantifier": "for all data sets with two classes, all settings of find_label_issues and every history of the object", "why_tests_cant": "the branch is excluded from coverage (pragma: no cover); the histories and data are unbounded", "anchors": ["cleanlab/classification.py:find_label_issues"]}
{"id": "C138", "title": "A better prediction never makes an example an issue", "statement": "If the model becomes more confident in the given label of an example (the given label at least as probable, every other class at most as probable, nothing else changed), then an example that was not flagged is not flagged now, with every filter of find_label_issues, the estimated number of issues does not rise and the label quality score of the example does not fall.", "quantifier": "for all data sets, all changes of this kind, every filter, score method and sort", "why_tests_cant": "a monotonicity statement over pairs of runs on unbounded data; tests compare outputs for single data sets", "anchors": ["cleanlab/filter.py:find_label_issues", "cleanlab/count.py:num_label_issues", "cleanlab/count.py:get_confident_thresholds", "cleanlab/rank.py:get_label_quality_scores"]}
{"id": "C139", "title": "Accepted data sets are used correctly, whatever their type", "statement": "CleanLearning accepts features as arrays, sparse matrices, data frames, torch data sets and any object that supports X[index_list]. Of every accepted data set, each cross-validation fold trains on exactly the requested rows with their labels and predicts exactly the held-out rows, and the final model is trained on exactly the rows whose labels are not flagged, in order, with their own labels and weights. A data set that cannot be used this way is refused before any model is trained.", "quantifier": "for every type of data set and of labels, every number of examples, every split into training and held-out positions, every flagged set and every noise matrix", "why_tests_cant": "tests use arrays, one data frame and one torch data set; an object for which X[mask] means something else than for an array trains the final model on wrong rows without any error", "anchors": ["cleanlab/internal/validation.py:assert_indexing_works", "cleanlab/internal/util.py:train_val_split", "cleanlab/internal/util.py:subset_data", "cleanlab/classification.py:CleanLearning.fit"]}
{"id": "C140", "title": "The images displayed for segmentation data are those with the most errors", "statement": "display_issues shows at most `top` images, those with the most flagged pixels of classes that are not excluded, most first, and no image without such pixels. Each figure shows the labels, predicted classes and flagged pixels of its own image, without the pixels of excluded classes, and the legend gives each class its own name.", "quantifier": "for all masks, labels, predictions, names, excluded classes, limits and every sort", "why_tests_cant": "plots are not compared by tests, and which image is missing can only be seen from the whole data", "anchors": ["cleanlab/segmentation/summary.py:display_issues", "cleanlab/internal/segmentation_utils.py:_get_summary_optional_params"]}
{"id": "C141", "title": "Plots of object detection data show the boxes they should", "statement": "visualize draws exactly the annotated boxes (red) and the predicted boxes whose probability is not below the threshold (blue), at their coordinates and with their classes; side by side the predictions are on the left and the labels on the right. plot_class_size_distributions shows the most frequent annotated classes, at most as many as asked for, with the sizes of all their annotated and predicted boxes.", "quantifier": "for all images, boxes, numbers of classes, thresholds, class names and limits", "why_tests_cant": "plots are not compared by tests; the number of classes and boxes is unbounded and a failure needs special counts", "anchors": ["cleanlab/object_detection/summary.py:visualize", "cleanlab/object_detection/summary.py:plot_class_size_distributions", "cleanlab/object_detection/rank.py:_get_prediction_type", "cleanlab/internal/object_detection_utils.py:bbox_xyxy_to_xywh"]}
{"id": "C142", "title": "Which image checks a call of find_issues runs", "statement": "For a Datalab with images, `find_issues()` without `issue_types` runs the ordinary default checks, then the seven documented image checks with the default parameters of Datalab (`low_information` with threshold 0.15), then the search for spurious correlations with threshold 0.3. With `issue_types` exactly the named ordinary checks and exactly the image checks named in `image_issue_types` run, every one with the parameters given for it or with its defaults where none are given. The spurious correlations are searched if and only if they are named and scores of image properties exist. An empty `issue_types` runs nothing. A Datalab has image checks exactly if a non-empty image key is given for a Hugging Face data set; the key is refused for any other data set.", "quantifier": "Every task, registry, label state, history of scores, argument and parameter value.", "why_tests_cant": "The combinations of arguments and earlier calls are unbounded; tests name a few of the default checks only and never an image check outside of the defaults without parameters.", "anchors": ["cleanlab/datalab/internal/adapter/imagelab.py:ImagelabIssueFinderAdapter.find_issues", "cleanlab/datalab/internal/adapter/imagelab.py:create_imagelab"]}
{"id": "C143", "title": "Predicting and scoring with a trained CleanLearning", "statement": "`predict` and `predict_proba` return what the trained model returns for the caller's arguments; `predict(X)` and `predict(X=X)` agree. If CleanLearning uses its default model, features of any number of dimensions are passed with one row per example that holds every value of the example exactly once, in the same order as in training, and flattened features give the same predictions; any features that the model itself accepts are accepted. `score` is the model's own score, or accuracy (classification) or R squared (regression) of its predictions if it has none, and uses the weights that are given. The accuracy lies between 0 and 1 and is 1 exactly if every example of positive weight is right; R squared is at most 1, is 1 exactly if every prediction of positive weight is exact, and 0 for predicting the mean.", "quantifier": "Every wrapped model, array shape, list of arguments, label vector and weight vector.", "why_tests_cant": "Arguments are forwarded to arbitrary models; tests use scikit-learn models with two-dimensional arrays whose score method takes weights.", "anchors": ["cleanlab/classification.py:CleanLearning.predict", "cleanlab/classification.py:CleanLearning.predict_proba", "cleanlab/classification.py:CleanLearning.score", "cleanlab/regression/learn.py:CleanLearning.score", "cleanlab/internal/util.py:force_two_dimensions"]}
{"id": "C144", "title": "Missing values among predicted probabilities", "statement": "A `nan` among the predicted probabilities is refused or concerns its own example only: the confident thresholds and the classes for which the other examples count do not change, and an example without a score is not hidden behind those with good scores.", "quantifier": "Every data set, number of classes and position of missing values.", "why_tests_cant": "One missing value in millions of numbers disables the detection of a whole kind of label errors without any message; tests do not contain missing values.", "anchors": ["cleanlab/count.py:get_confident_thresholds", "cleanlab/count.py:compute_confident_joint", "cleanlab/rank.py:get_self_confidence_for_each_label", "cleanlab/internal/validation.py:assert_valid_inputs"]}
{"id": "C145", "title": "Neither the order of the sentences nor their boundaries change which tokens are flagged", "statement": "For token classification data, token_classification.find_label_issues and get_label_quality_scores treat the data as a collection of tokens. If the same tokens in the same order are divided into sentences differently, the same tokens are returned in the same order and all token scores are the same. If the sentences are given in another order, token j of a sentence is returned if and only if it was returned before, the scores of the returned tokens are the same from first to last, and token and sentence scores move with their sentence.", "quantifier": "For all nested labels and predicted probabilities of matching shape, all divisions into sentences, all permutations of the sentences, all filters, and all sorting routines.", "why_tests_cant": "A test fixes one division into sentences and one order; an invariance over all permutations and all divisions cannot be enumerated, and ties only show up for particular data.", "anchors": ["cleanlab/token_classification/filter.py:15-101", "cleanlab/token_classification/rank.py:30-160", "cleanlab/filter.py:207-450"]}
{"id": "C146", "title": "An epoch of co-teaching learns from every batch what the other network finds easy", "statement": "One call of coteaching.train goes through the batches of the loader once, in order. From each batch, each of the two networks learns only from the floor((1 - forget rate) * size) examples with the smallest losses under the other network, both selections being made before either network changes; the examples of a leftover last batch of fewer than 16 examples have no influence. It returns the training accuracy of each network, exchanging the networks exchanges the results, and it works for data sets of any size. coteaching.evaluate returns the percentage of the test examples each network classifies correctly, however they are batched, without changing the networks.", "quantifier": "For all networks, losses, optimizers, loaders, forget rates and sorting routines.", "why_tests_cant": "Training is random and slow, so tests only check that accuracy exceeds some bound after a few epochs; which examples each network was updated with is not observable from outside.", "anchors": ["cleanlab/experimental/coteaching.py:102-199", "cleanlab/experimental/coteaching.py:203-229", "cleanlab/experimental/coteaching.py:23-71"]}
{"id": "C147", "title": "Evaluating an included network is deterministic and gives one row of outputs per image", "statement": "The networks that come with the package (`SimpleNet` for digits, `CNN` for CIFAR images) give exactly one row of outputs for every image they accept: ten for images of 28 by 28 pixels and one channel, and `n_outputs` for square images of at least 28 by 28 pixels with `input_channel` channels; images of other sizes are refused. In evaluation mode the outputs are a function of the weights and the images, and every documented option of the constructor gives a network that can be used.", "quantifier": "Every number of images, image size, number of channels and outputs, all weights and random numbers.", "why_tests_cant": "Tests evaluate 28 by 28 digits and 32 by 32 images once with the default options; random layers that stay active or rows that are cut differently show only when two evaluations or other sizes are compared.", "anchors": ["cleanlab/experimental/mnist_pytorch.py:95-114", "cleanlab/experimental/cifar_cnn.py:34-108"]}
{"id": "C148", "title": "Raising the threshold of a check only adds issues", "statement": "Every check of Datalab with a threshold (outliers among features and among predictions, near duplicates, class imbalance, underperforming groups, data valuation, non-IID, spurious correlations) flags for a larger threshold at least the examples it flags for a smaller one on the same data. The scores of the examples do not depend on the threshold, and the near-duplicate sets grow.", "quantifier": "Every data set, neighbour graph, clustering, p-value and pair of accepted thresholds (of at least 0 for spurious correlations).", "why_tests_cant": "Users tune thresholds by trial; tests run each check with one or two thresholds on one data set and compare flags with recorded ones.", "anchors": ["cleanlab/datalab/internal/issue_manager/outlier.py:109-209", "cleanlab/datalab/internal/issue_manager/duplicate.py:65-120", "cleanlab/datalab/internal/issue_manager/imbalance.py:41-69", "cleanlab/datalab/internal/issue_manager/underperforming_group.py:182-227", "cleanlab/datalab/internal/issue_manager/data_valuation.py:100-147", "cleanlab/datalab/internal/issue_manager/noniid.py:197-208", "cleanlab/datalab/internal/adapter/imagelab.py:248-290"]}
{"id": "C149", "title": "The issue table of CleanLearning describes each example", "statement": "The table returned by CleanLearning.find_label_issues has one row per example, in the order of the data: the given label, the most probable class (the first of several), the label quality score and the flag. The labels in the table are the caller's labels for every number of classes, although the columns are stored in a shorter integer type. Unless save_space is given, the flags are the ones the object stores.", "quantifier": "Every data set, number of classes, history of the object and setting.", "why_tests_cant": "Labels above 32767 or 2147483647 occur in no test, and a silently wrapped label looks like another class.", "anchors": ["cleanlab/classification.py:919-947", "cleanlab/internal/util.py:387-398"]}
{"id": "C150", "title": "Finding label issues first and training afterwards is the same as training at once", "statement": "For CleanLearning, both for classification and for regression: if find_label_issues on some data returns a table of label issues, then calling fit on the same object with the same data and this table trains the final model on the same examples with the same labels and weights, and raises the same exception if any, as one call of fit without label issues on the object as it was before. If fit does not raise, the object is left in the same state. This also holds if find_label_issues was told to save space. For classification the table is never refused by fit.", "quantifier": "every data set, label vector, settings of the object, state of the object left by earlier calls, predicted probabilities or cross-validation results, sample weights, noise matrices, outcomes of the calls to the wrapped model", "why_tests_cant": "The equality compares two histories of calls on one mutable object; it depends on every attribute that the first call stores and the second call reads. Tests compare the two on one or two data sets and look at the final accuracy.", "anchors": ["cleanlab/classification.py:478-582", "cleanlab/classification.py:675-947", "cleanlab/classification.py:1023-1062", "cleanlab/regression/learn.py:166-306", "cleanlab/regression/learn.py:362-517", "cleanlab/regression/learn.py:837-871"]}
{"id": "C151", "title": "If the predictions single out the true classes, label errors are found exactly", "statement": "Let the examples have unknown true classes. Suppose the predicted probabilities single these out: the true class is the most probable one (by more than the tolerance 1e-6 of the code), its probability is at least the average over the examples given this class, and every class has a correctly labelled example. This holds in particular for the ideal probabilities of the paper on confident learning (the frequencies of given labels in each true class) whenever each diagonal entry of the noise matrix is the largest of its row and column, and for predictions certain of the true classes. Then the confident joint counts exactly the pairs of given label and true class; the estimated joint, prior, noise matrix and inverse noise matrix are the true ones; num_label_issues is the number of wrong labels and the label health the fraction of correct ones; find_label_issues with confident_learning, predicted_neq_given and low_normalized_margin flags exactly the wrong labels, and so does prune_by_class if every class is less probable for the examples of other true classes than for its own; prune_by_noise_rate and both flag no correct label, whatever the options.", "quantifier": "every data set, assignment of true classes, predicted probabilities with the stated property, sort, option of the filters; noise matrices for at most 10000 examples and ideal probabilities for fewer than a million", "why_tests_cant": "This is the theoretical guarantee the library is built on, for data of every size and any number of classes. Tests generate one random noise matrix and check that estimates come out close.", "anchors": ["cleanlab/count.py:compute_confident_joint", "cleanlab/count.py:estimate_joint", "cleanlab/count.py:num_label_issues", "cleanlab/count.py:estimate_py_and_noise_matrices_from_probabilities", "cleanlab/filter.py:find_label_issues", "cleanlab/dataset.py:overall_label_health_score"]}
{"id": "C152", "title": "With ideal predictions every filter finds every label error", "statement": "If the predicted probabilities are the ideal ones, i.e. the frequencies of given labels in each true class, and each diagonal entry of the noise matrix is the largest of its row and column, then find_label_issues flags exactly the wrong labels with each value of filter_by, in particular with the default prune_by_noise_rate, with both and with low_self_confidence.", "quantifier": "every data set, assignment of true classes that satisfies the condition, filter and sort", "why_tests_cant": "The theorem of the paper is about the confident joint; whether the default filter turns the exact counts into the exact examples depends on a comparison of margins between three classes that no test data set makes.", "anchors": ["cleanlab/filter.py:find_label_issues", "cleanlab/filter.py:_prune_by_count", "cleanlab/filter.py:_prune_by_class"]}
{"id": "C153", "title": "Predictions certain of the truth reveal exactly the wrong labels, in every module", "statement": "If the predicted probabilities are 1 for the true class of each example and 0 for the others, then exactly the wrong labels are reported: by find_label_issues_batched for every batch size and number of workers, by segmentation.filter.find_label_issues for every pixel, by token_classification.filter.find_label_issues for every token, with every filter (if each class has a correctly labelled token) and with low_memory, and by the multi-label functions for every example and class, with every filter (if each class is correctly given and correctly missing somewhere). CleanLearning.fit on a new object then trains on exactly the correctly labelled examples, with every filter, if each class has at least min_examples_per_class of them.", "quantifier": "every data set, assignment of true classes, filter, batch size, number of workers, order of completion of the workers, sort and settings of CleanLearning without PU learning", "why_tests_cant": "Five modules reduce their data to the same algorithm in different ways (flattening, batches, one-vs-rest problems, cross-validation); each reduction can lose or shift examples for particular shapes and sizes of the data, which tests sample only a few of.", "anchors": ["cleanlab/experimental/label_issues_batched.py:181-227", "cleanlab/segmentation/filter.py:104-200", "cleanlab/token_classification/filter.py:15-101", "cleanlab/multilabel_classification/filter.py:156-303", "cleanlab/filter.py:453-536", "cleanlab/classification.py:478-582", "cleanlab/classification.py:800-930"]}
{"id": "C154", "title": "Data on which everybody agrees is reported clean", "statement": "If the wrapped regression model reproduces every label in cross-validation, CleanLearning.find_label_issues for regression removes and flags nothing, rates every label 1 and reports the given labels as predicted, for every search range and uncertainty. If in object detection the predicted boxes of every image are the annotated ones, each predicted in its class with more than even probability, boxes have an area of at least 1e-6 and boxes of different classes overlap by less than 7/9, no image is reported; an image with one class has label quality 1. If all annotators who labelled an example agree, for every example, then get_label_quality_multiannotator returns these labels as consensus (by majority always; by best quality if the model predicts them too), every agreement and annotator weight is 1, no label is rated below the probability the model gives it, and a label the model is certain of is rated 1.", "quantifier": "every data set, search range, uncertainty, assignment to folds, images, boxes and classes, annotators, numbers of annotations per example, random choices and sorts", "why_tests_cant": "False alarms on clean data come from rounding, thresholds, minimal fractions or imputed values in corners of the data (examples with one annotation, annotators who share no example, classes without objects); a test sees a handful of clean data sets.", "anchors": ["cleanlab/regression/learn.py:362-517", "cleanlab/regression/learn.py:728-835", "cleanlab/object_detection/filter.py:104-223", "cleanlab/object_detection/rank.py:591-889", "cleanlab/multiannotator.py:46-348", "cleanlab/multiannotator.py:1450-1506"]}
{"id": "C155", "title": "An oracle solves every benchmark with synthetic label noise", "statement": "If labels are made noisy with generate_noisy_labels(true_labels, noise_matrix) and the predicted probabilities are certain of the true classes, then find_label_issues with default options flags exactly the flipped labels, with every filter; num_label_issues is the number of flips the noise matrix asks for, rounded down for each pair of classes; overall_label_health_score is the fraction of labels kept; and for at most 10000 examples the estimates of estimate_py_and_noise_matrices_from_probabilities are the true class frequencies and the noise matrix asked for, up to the rounding to whole examples: exactly, if the noise matrix asks for whole numbers of examples.", "quantifier": "every assignment of at least two true classes in which all occur, every noise matrix whose columns are probability distributions with positive diagonal, every random choice of the flipped examples and every sort", "why_tests_cant": "Tests generate noise with one seed for one or two noise matrices and compare estimates up to large tolerances, which hides an estimate that is systematically off and a flip that is lost for particular class sizes.", "anchors": ["cleanlab/benchmarking/noise_generation.py:93-149", "cleanlab/count.py:799-886", "cleanlab/filter.py:56-364", "cleanlab/dataset.py:286-373"]}
{"id": "C156", "title": "With two classes, cleaning once is enough", "statement": "If the examples flagged by find_label_issues are removed and find_label_issues is called again for the rest, with the same predicted probabilities and options, it finds nothing more: with filter_by='predicted_neq_given' for any number of classes; and for two classes with filter_by='confident_learning', and, if confident_joint, frac_noise, num_to_remove_per_class and min_examples_per_class are left at their defaults, with filter_by='prune_by_noise_rate' (the default) and 'prune_by_class'.", "quantifier": "every data set, all labels, all predicted probabilities (for two classes: distributions) and every sort", "why_tests_cant": "Removing examples changes the class averages used as thresholds, the confident joint and its rounding; a test repeats the call for one data set with clear noise, where nothing is near a threshold.", "anchors": ["cleanlab/filter.py:56-430", "cleanlab/count.py:1407-1458", "cleanlab/count.py:445-622"]}
{"id": "C157", "title": "Cleaning once is enough", "statement": "If the examples flagged by find_label_issues are removed and find_label_issues is called again for the rest, with the same predicted probabilities and options, it finds nothing more.", "quantifier": "every data set, all labels, all predicted probabilities, every filter, every sort", "why_tests_cant": "In tests with clear noise the second call returns nothing; that the thresholds move and the procedure may go on needs an example near a threshold.", "anchors": ["cleanlab/filter.py:56-430", "cleanlab/count.py:1407-1458", "cleanlab/count.py:445-622"]}
{"id": "C158", "title": "CROWDLAB trusts annotators and model by their track record", "statement": "get_label_quality_multiannotator rates a label by a weighted mean over the model's probability of the label and, for every annotator of the example, q if they chose the label and (1-q)/(K-1) if not, where q is the mean fraction of annotators choosing the consensus label. An annotator weighs 1 - (1 - agreement with the other annotators)/e, the model 1 - (error rate against the consensus)/e times the square root of the mean number of labels, each at least 1e-6 before the root; e is the error of always guessing the most common consensus class. All averages are over the examples with at least two labels. So an annotator who agrees more never weighs less, one who always agrees weighs 1, and one no better than a constant guess weighs 1e-6.", "quantifier": "every valid table of annotations, all predicted probabilities, both consensus methods, every random choice", "why_tests_cant": "The weights are internal to a long computation with imputed values and lower bounds; tests compare a few final scores with stored numbers, which would be stored anew after a change of the weighting.", "anchors": ["cleanlab/multiannotator.py:46-348", "cleanlab/multiannotator.py:1394-1525"]}
{"id": "C159", "title": "A vote for the majority label changes nothing else", "statement": "If an annotator adds the majority-vote label of an example they had not labelled, get_majority_vote_label still returns a result, the example keeps its label, now without any tie, every other example with a unique most frequent label keeps its label, and the fraction of annotators agreeing on the example grows unless it was 1.", "quantifier": "every valid table of annotations, with and without predicted probabilities, all random choices before and after", "why_tests_cant": "Ties are broken by statistics over the whole table (class frequencies, agreement of annotators), so that one more label may change results elsewhere; tests use a fixed table.", "anchors": ["cleanlab/multiannotator.py:897-1060", "cleanlab/multiannotator.py:1276-1301"]}
{"id": "C160", "title": "More agreeing annotators, higher quality", "statement": "Of two examples with the same predicted probabilities and the same consensus label, one of which has all the labels of the other and further labels that agree with the consensus, the one with more agreeing labels has at least the same consensus quality score.", "quantifier": "every valid table of annotations, all predicted probabilities, both consensus methods", "why_tests_cant": "It is what a quality score for crowd labels is for, and tests with uncertain models confirm it; it fails only where the model is surer than the annotators are consistent.", "anchors": ["cleanlab/multiannotator.py:46-348", "cleanlab/multiannotator.py:1394-1525"]}
{"id": "C161", "title": "Zero point, sign and unit of the target do not matter when regression labels are cleaned", "statement": "If the targets are given on another scale and the wrapped model predicts on the scale it was trained with, then regression.learn.CleanLearning.find_label_issues: for a shift or a change of sign removes the same fraction, flags the same labels with the same quality, reports the predictions on the new scale and fails with the same exceptions, whatever the uncertainty (estimated by bootstrap, a number or an array), search range and folds; for another unit it flags the same labels if the uncertainty is a number.", "quantifier": "every data set, every shift and factor, every model that follows the scale, all folds, search ranges and uncertainties, all sorts that compare values", "why_tests_cant": "The search for the best fraction repeats cross-validation many times and compares scores; a hidden dependence on the scale shows only for data far from zero or in units where a fixed constant matters.", "anchors": ["cleanlab/regression/learn.py:362-517", "cleanlab/regression/learn.py:537-606", "cleanlab/regression/learn.py:625-835"]}
{"id": "C162", "title": "The unit of the target does not change which labels Datalab flags", "statement": "If targets and predictions are given in another unit, Datalab's label check for regression with method='residual' flags the same labels.", "quantifier": "every data set, all predictions, every unit", "why_tests_cant": "Test data is in one unit; with residuals of the size that the constants were made for the check looks right.", "anchors": ["cleanlab/datalab/internal/issue_manager/regression/label.py:143-197", "cleanlab/regression/rank.py:90-121"]}
{"id": "C163", "title": "Position and orientation of the images do not matter in object detection", "statement": "If every image is shifted, mirrored or turned by right angles, each in its own way and its annotated and predicted boxes with it, then the quality scores of images and boxes, the images found to have label issues and their order, the confusion counts, precision, recall and F1 of every class and the distribution of box sizes stay the same.", "quantifier": "all images, annotated and predicted boxes, classes and probabilities; all such motions, a different one for every image; all aggregation weights and sorts", "why_tests_cant": "Augmented test images agree in the cases tried; a dependence on the origin or on the axis would show only for boxes in some corner of the image.", "anchors": ["cleanlab/object_detection/rank.py:323-395", "cleanlab/object_detection/rank.py:49-201", "cleanlab/object_detection/rank.py:555-973", "cleanlab/object_detection/filter.py:32-180", "cleanlab/object_detection/filter.py:264-405", "cleanlab/object_detection/summary.py:104-160", "cleanlab/object_detection/summary.py:522-650"]}
{"id": "C164", "title": "The resolution of the images does not matter in object detection", "statement": "If every image is given at another resolution, its annotated and predicted boxes with it, then the same images have label issues and the precision, recall and F1 of every class stay the same.", "quantifier": "all images, boxes and probabilities; all resolutions", "why_tests_cant": "Test images have one resolution; a constant that measures distances in pixels has an effect of at most a tenth of a score, which decides only about boxes near a threshold.", "anchors": ["cleanlab/object_detection/rank.py:323-425", "cleanlab/object_detection/filter.py:32-180", "cleanlab/object_detection/summary.py:522-650"]}
{"id": "C165", "title": "Arrangement of pixels and numbering of classes do not matter in semantic segmentation", "statement": "If the images are given in another order, mirrored, turned or cut into other sizes, and the classes renumbered, then segmentation.filter.find_label_issues without down-sampling flags the same pixels, whatever batch size and number of workers, and the scores of segmentation.rank.get_label_quality_scores of corresponding pixels and images are the same: provided every given label has predicted probability at least 2e-6 and every pixel has one most probable class, for every pixel that no other pixel ties with in the probability of its label.", "quantifier": "all stacks of images, labels and predicted probabilities; every bijection of the pixels and permutation of the classes; all batch sizes, numbers of workers and orders of completion, all sorts", "why_tests_cant": "Tests run one arrangement; the code flattens the images, works in batches and converts ranks back to coordinates, where a mistake for non-square images or the last batch leaves square test images unaffected.", "anchors": ["cleanlab/segmentation/filter.py:14-218", "cleanlab/segmentation/rank.py:20-131", "cleanlab/segmentation/rank.py:189-231", "cleanlab/experimental/label_issues_batched.py:313-640"]}
{"id": "C166", "title": "With down-sampling, the numbering of the classes does not matter in semantic segmentation", "statement": "If the classes are renumbered, segmentation.filter.find_label_issues with downsample > 1 flags the same pixels.", "quantifier": "all stacks of images, labels and predicted probabilities, all permutations of the classes", "why_tests_cant": "For blocks of one class the result is right; that the label of a mixed block is the mean of class numbers shows only in blocks at the border of regions whose class numbers are not adjacent or tie.", "anchors": ["cleanlab/segmentation/filter.py:80-122", "cleanlab/segmentation/filter.py:186-208"]}
{"id": "C167", "title": "The coordinates of the feature space do not matter for nearest neighbours", "statement": "The neighbours found by create_knn_graph_and_index and used by Datalab's checks, their order and their distances do not change if the features are given in another order or with other signs, or if the feature space is turned or reflected; with at most 3 features by default, if a constant is added to each feature; with more than 3, if each example's features are multiplied by a positive factor of its own. Another unit common to all features leaves the neighbours and their order and multiplies all distances by the same factor.", "quantifier": "all features, numbers of neighbours, the default metric and the three metrics it is chosen from; all orthogonal maps, shifts and factors; all sorts", "why_tests_cant": "Tests compute neighbours for one set of features and compare with another implementation on the same coordinates.", "anchors": ["cleanlab/internal/neighbor/metric.py:38-105", "cleanlab/internal/neighbor/knn_graph.py:26-70", "cleanlab/internal/neighbor/search.py:40-75"]}
{"id": "C168", "title": "A feature that is the same for all examples has no effect", "statement": "Adding a feature with the same value for all examples does not change the nearest neighbours found by create_knn_graph_and_index with default arguments.", "quantifier": "all features, constants and numbers of neighbours", "why_tests_cant": "It holds for the data sets tests use, with two features; the change of metric at the fourth feature and the origin's role in cosine distances are invisible in tests with a fixed number of features.", "anchors": ["cleanlab/internal/neighbor/metric.py:73-105", "cleanlab/internal/neighbor/knn_graph.py:26-70"]}
{"id": "C169", "title": "A custom check can be defined only if it can be reported", "statement": "A subclass of IssueManager can be created only if it has a name and its verbosity_levels are lists of strings; its score column is the name followed by _score. A report of the check at verbosity v shows the collected information listed for the levels up to v, at the verbosity above the highest level all of it, and is refused for any other verbosity.", "quantifier": "all class statements with and without ABC among the bases, chains of subclasses, names, levels, collected information and verbosities", "why_tests_cant": "Tests define one or two checks with levels written in order from 0; nothing exercises other dictionaries or abstract classes in between.", "anchors": ["cleanlab/datalab/internal/issue_manager/issue_manager.py:34-64", "cleanlab/datalab/internal/issue_manager/issue_manager.py:139-146", "cleanlab/datalab/internal/issue_manager/issue_manager.py:255-330"]}
{"id": "C170", "title": "Data values approximate Shapley values", "statement": "Take the game in which a set of training points is worth the mean, over all points, of the share of right labels among the k nearest members of the set. For each point, two of its k nearest neighbours differ in the computed row exactly as their exact Shapley values differ, and every data-valuation score is within 1/(2k) of the score of the exact Shapley value.", "quantifier": "every ranking of the points by distance, every labels and k", "why_tests_cant": "Exact Shapley values average over all n! orders of arrival; tests compare with recorded numbers.", "anchors": ["cleanlab/data_valuation.py:_knn_shapley_score", "cleanlab/data_valuation.py:data_shapley_knn"]}
{"id": "C171", "title": "Examples with the lowest data value contribute least", "statement": "As documented, the examples that the data-valuation check flags are those that contribute least to a k-nearest-neighbour model, measured by their exact Shapley values.", "quantifier": "every kNN graph, labels and k", "why_tests_cant": "Whether a flagged example is harmful needs the exact Shapley values, which the tests do not compute.", "anchors": ["cleanlab/data_valuation.py:data_shapley_knn", "cleanlab/datalab/internal/issue_manager/data_valuation.py:DataValuationIssueManager.find_issues"]}
{"id": "C172", "title": "With two classes, correcting the labels once is enough", "statement": "If every label flagged by find_label_issues is replaced by the most probable class, as the column predicted_label of CleanLearning suggests, and find_label_issues is called again with the same predicted probabilities and options, it finds nothing: with filter_by='predicted_neq_given' for any number of classes, and with filter_by='confident_learning' for two classes unless a probability is below the threshold of its class by at most a millionth, the tolerance of the code.", "quantifier": "every data set, all labels, all predicted probabilities and every sort", "why_tests_cant": "Correcting labels moves examples between classes and changes the class averages used as thresholds; tests do not call the search again.", "anchors": ["cleanlab/filter.py:56-430", "cleanlab/count.py:1407-1458", "cleanlab/classification.py:CleanLearning.find_label_issues"]}
{"id": "C173", "title": "Correcting the labels once is enough", "statement": "If every label flagged by find_label_issues is replaced by the most probable class and find_label_issues is called again with the same predicted probabilities and options, it finds nothing more.", "quantifier": "every data set, all labels, all predicted probabilities, every filter, every sort", "why_tests_cant": "With clear noise the second call returns nothing; the exceptions need small classes or averages near a threshold.", "anchors": ["cleanlab/filter.py:56-430", "cleanlab/count.py:1407-1458", "cleanlab/count.py:445-622"]}
{"id": "C174", "title": "The permutation test compares the data with itself in other orders", "statement": "The statistics behind the p-value of the non-IID check are the statistics of the same data in each of the drawn orders. The p-value is the mean probability of values above the statistic of the data set (up to 100) under normal distributions around them with Scott's bandwidth. It lies between 0 and 1; it is at most 1/2 if no drawn order has a larger statistic, and of two orders of the same data compared with the same orders the one with the larger statistic has the smaller p-value.", "quantifier": "every neighbour graph and every list of drawn permutations", "why_tests_cant": "The test is random; tests check the p-value of a few seeds on one data set.", "anchors": ["cleanlab/datalab/internal/issue_manager/noniid.py:267-299", "cleanlab/datalab/internal/issue_manager/noniid.py:417-446"]}
{"id": "C175", "title": "The non-IID check has a result", "statement": "The non-IID check of Datalab gives a p-value, flags and scores for every data set with enough examples for the k-nearest-neighbour graph.", "quantifier": "every neighbour graph, number and choice of permutations, and threshold", "why_tests_cant": "Tests use data sets that are much larger than k and the default number of permutations.", "anchors": ["cleanlab/datalab/internal/issue_manager/noniid.py:163-211", "cleanlab/datalab/internal/issue_manager/noniid.py:267-299"]}
{"id": "C176", "title": "Overlooked objects are found", "statement": "If the model predicts, with at least 95 % probability, an object where the annotations of the image have none, then object_detection.filter.find_label_issues reports the image if the mean average precision of the class is at least 1/2; for a prediction with probability 1 of a class that is not annotated in the image, always. If all such predictions of the image are of this kind, its label quality score is at most 1e-33.", "quantifier": "every data set, all boxes, classes and probabilities, every sort", "why_tests_cant": "Tests check the flags of one stored data set; that no combination of the other images, classes and boxes hides an overlooked object needs a proof.", "anchors": ["cleanlab/object_detection/filter.py:113-223", "cleanlab/object_detection/rank.py:562-608"]}
{"id": "C177", "title": "Objects annotated with the wrong class are found", "statement": "If the model predicts exactly the box of an annotated object, with more than 95 % probability, but of another class, object_detection.filter.find_label_issues reports the image and its label quality score is below 1.", "quantifier": "every data set, all boxes, classes and probabilities, every sort", "why_tests_cant": "Swapped labels of the test data are found because some boxes in the data set are far from each other; a data set with one object per image is not tested.", "anchors": ["cleanlab/object_detection/rank.py:407-425", "cleanlab/object_detection/rank.py:835-889", "cleanlab/object_detection/filter.py:113-223"]}
{"id": "C178", "title": "Small changes of the predicted probabilities do not change which examples are flagged", "statement": "If no predicted probability changes by more than \u03b5, no confident threshold, self-confidence or normalized margin changes by more than \u03b5. If moreover no decision is closer to its edge than such a change can carry it (no probability within 2\u03b5 of the confidence limit threshold - 1e-6 of its class; one class more probable than the others by more than 2\u03b5; no class above the given label by 1e-6 up to 2\u03b5; and, for the filters that rank examples, scores or margins of the ranked examples more than 2\u03b5 or 4\u03b5 apart), then compute_confident_joint, num_label_issues with every estimation_method and find_label_issues with every filter_by and any further arguments return exactly the same, and the ranked list is the same if the ranking scores lie more than 2\u03b5 apart. If no decision is exactly on its edge there is such an \u03b5 > 0. Values equal to their threshold are not on the edge: they are 1e-6 away from it.", "quantifier": "every data set, every number of classes, every perturbation of all predictions at once within \u03b5, every filter_by, frac_noise, min_examples_per_class, num_to_remove_per_class and confident_joint", "why_tests_cant": "The perturbations within \u03b5 are a continuum in n*K dimensions, and a test can only sample a few; it also hides whether a flag survives because of the margin or by luck.", "anchors": ["cleanlab/filter.py:57-450", "cleanlab/count.py:445-622", "cleanlab/count.py:50-173", "cleanlab/count.py:1407-1458", "cleanlab/rank.py:464-542"]}
{"id": "C179", "title": "Small changes of the features change neighbour distances, outlier scores and outlier flags little", "statement": "If no example's feature vector moves by more than \u03b5, then for every example and every rank r the distance to its r-th nearest neighbour changes by at most 2\u03b5 with up to 3 features (Euclidean distance) and by at most 4\u03b5/L with more features (cosine distance) if all rows are at least L > 0 long; so does the average distance to the k nearest neighbours. If average distances change by at most \u03b4, the cut-off of Datalab's outlier check with threshold v changes by at most (2/v - 1)\u03b4, every example whose average distance is more than 2\u03b4/v away from the cut-off keeps its flag, and for a given scaling factor s \u2265 1e-6 the score of an example (before scores of exact duplicates are set to 1) changes by at most t\u03b4/s.", "quantifier": "every number of examples, features and neighbours, every perturbation within the bound, every sort of tied distances, every threshold in (0, 1]", "why_tests_cant": "The perturbations form a continuum and neighbours change places under them; a test sees a few perturbed data sets only.", "anchors": ["cleanlab/internal/neighbor/knn_graph.py:26-70", "cleanlab/internal/neighbor/search.py:39-75", "cleanlab/datalab/internal/issue_manager/outlier.py:190-209", "cleanlab/internal/outlier.py:11-57"]}
{"id": "C180", "title": "Label errors are found exactly if the predictions are right and not too uneven", "statement": "Let the predicted class of every example be its true class (by more than the tolerance 1e-6). For every class b let lo(b) and hi(b) bound the predicted probability of b for the examples of this class, and let q(b) bound it for the other examples. If for every class b that is the true class of a wrongly labelled example some example is given b, and the average of hi(b), weighted by the number of examples rightly given b, and q(b), weighted by the number wrongly given b, is at most lo(b), then find_label_issues with confident_learning flags exactly the wrong labels; predicted_neq_given does so too. In particular this holds if no probability differs by more than e from the ideal ones, i.e. the rates of given labels in each true class, where each diagonal entry of this noise matrix exceeds the others of its column by more than 2 e and those of its row by at least g, and at least a fraction 2 e / g of the labels of each class is wrong.", "quantifier": "every data set, assignment of true classes, predicted probabilities with the stated property, noise matrix, errors e and gaps g", "why_tests_cant": "The condition involves true classes that are unknown in practice, and how uneven the predictions may be depends on the fraction of wrong labels; a benchmark has one such fraction and one model.", "anchors": ["cleanlab/filter.py:find_label_issues", "cleanlab/count.py:get_confident_thresholds", "cleanlab/count.py:compute_confident_joint"]}
{"id": "C181", "title": "A model that is confident of every true class finds every label error", "statement": "If the model predicts the true class of every example with a probability of at least 90 % (or any other p below 1 - 1e-6), find_label_issues flags every wrong label, with each value of filter_by.", "quantifier": "every data set, assignment of true classes, predicted probabilities that give the true classes at least p, filter", "why_tests_cant": "It takes a class in which the model is more confident of the rightly labelled examples than of the wrongly labelled one; on benchmark data some errors are missed anyway and nobody asks why.", "anchors": ["cleanlab/filter.py:find_label_issues", "cleanlab/count.py:get_confident_thresholds", "cleanlab/count.py:num_label_issues"]}
{"id": "C182", "title": "Nothing is flagged where no class is more probable than the given label", "statement": "If for every example no class is predicted with a higher probability than its given label (in particular if the model gives all classes the same probability), then num_label_issues is 0 and find_label_issues flags nothing, with every filter_by and all further arguments; with the default arguments it returns such a result for every filter_by if there are two classes or more.", "quantifier": "every data set of this kind, every filter_by, frac_noise, num_to_remove_per_class, min_examples_per_class and confident_joint, every order of ties", "why_tests_cant": "The estimated joint may well have off-diagonal entries, e.g. if all classes are equally probable every example reaches every threshold; that no argument turns them into flags is a statement about all of them.", "anchors": ["cleanlab/filter.py:57-450", "cleanlab/count.py:50-173", "cleanlab/count.py:211-224"]}
{"id": "C183", "title": "A model that makes no difference between the examples has nothing flagged", "statement": "If the predicted probabilities are the same for every example, find_label_issues flags nothing, with every filter_by.", "quantifier": "every assignment of labels, every distribution p that is predicted for all examples, every filter_by", "why_tests_cant": "Tests use trained models; a model that has only learned the frequencies of the classes is what one gets from too little training, and the effect shows for every number of examples.", "anchors": ["cleanlab/filter.py:57-450", "cleanlab/count.py:1407-1458"]}
{"id": "C184", "title": "What a single example can change", "statement": "If label and predicted probabilities of one example s change and everything else stays, the confident thresholds of the classes that s neither had nor has as label do not change, and the threshold of a class given in both data sets changes by at most 1/m, where m is the larger of the two numbers of its examples. With predicted_neq_given every other example keeps its flag; with confident_learning every other example keeps its flag unless its probability of the old or new label of s (not its own label) lies within 1/m of the confidence limit of this class, or one of the two classes is not given in both data sets. num_label_issues changes by at most 1 plus the number of such examples.", "quantifier": "every data set with probabilities in [0, 1], every example s, every new label and new probabilities of s, every order of ties", "why_tests_cant": "It is a statement about pairs of data sets with a bound that shrinks with the size of the class; a test that changes one example sees one pair.", "anchors": ["cleanlab/filter.py:57-450", "cleanlab/count.py:50-173", "cleanlab/count.py:1407-1458"]}
{"id": "C185", "title": "A label that is flipped is noticed by confident learning", "statement": "If an example's label is changed to a class that the model thinks less probable by more than 1e-6, find_label_issues with predicted_neq_given flags the example. With confident_learning it does so if the model gives the old label at least the average self-confidence of its class, and other examples have this label too.", "quantifier": "every data set, every example, every old and new label with the stated property, every order of ties", "why_tests_cant": "The change moves the thresholds of both classes; that it never hides the example holds for all data sets, of which a test has one.", "anchors": ["cleanlab/filter.py:57-450", "cleanlab/count.py:1407-1458"]}
{"id": "C186", "title": "A label that is flipped is noticed by the default filter", "statement": "If an example's label is changed to another class that the model thinks less probable by more than 1e-6, the model gives the old label at least the average self-confidence of its class, and other examples have this label too, then find_label_issues with the default arguments flags the example.", "quantifier": "every data set, every example, every old and new label with the stated property, every order of ties", "why_tests_cant": "It takes a class that no other example is given, as after a typing error in a label; tests flip labels within the classes of the data set.", "anchors": ["cleanlab/filter.py:343-420", "cleanlab/filter.py:867-928"]}
{"id": "C187", "title": "An ensemble is the models it contains, in any order", "statement": "get_label_quality_ensemble_scores gives the same scores, or the same refusal, if the models are listed in another order (custom weights with them) or if every model is listed r times (weights uniform, accuracy or log_loss_search). One model, or several with equal predictions, give the scores of get_label_quality_scores for it (custom weights must sum to 1). With accuracy weights a model that predicts none of the given labels has no influence.", "quantifier": "every data set, every number of models and their predictions, every weighting, every scoring method", "why_tests_cant": "Tests compare a few ensembles with stored numbers; the order and multiplicity of models are relations between calls.", "anchors": ["cleanlab/rank.py:158-366"]}
{"id": "C188", "title": "The numbering of the classes does not matter to the multi-annotator functions", "statement": "If the classes are renumbered by any permutation, in the annotators' labels and in the columns of pred_probs, then get_majority_vote_label renumbers its labels (for a suitable state of the random generator where the last tie is broken by chance, for every state where no tie is left), and get_label_quality_multiannotator renumbers consensus labels and posterior and leaves all qualities, agreements, weights and annotator statistics and active learning scores as they are, provided the model prefers one class for each example that several annotators labelled.", "quantifier": "every table of annotations with any missing entries, every pred_probs, every permutation of the classes, both consensus methods", "why_tests_cant": "Ties are broken in four stages and all of them must treat the classes alike; tests have a few tables with sorted classes.", "anchors": ["cleanlab/multiannotator.py:46-348", "cleanlab/multiannotator.py:897-1060", "cleanlab/multiannotator.py:1394-1520"]}
{"id": "C189", "title": "The numbering of the classes does not matter to the multi-annotator functions where the model is undecided", "statement": "If the classes are renumbered, in the annotators' labels and in the columns of pred_probs, get_label_quality_multiannotator gives the same qualities, also if the model gives several classes of an example the same highest probability.", "quantifier": "every table of annotations, every pred_probs, every permutation of the classes", "why_tests_cant": "It takes equal probabilities, as they are produced by tree ensembles, label smoothing or rounded values; tests use continuous random numbers.", "anchors": ["cleanlab/multiannotator.py:1394-1520"]}
{"id": "C190", "title": "Boxes drawn in the wrong place are reported", "statement": "An image of an object-detection data set in which an annotator drew boxes in the wrong place is reported by `find_label_issues`: whether the boxes lie away from all objects that the model finds or cover these only in part.", "quantifier": "All images with boxes that no prediction of their class meets, or that predictions of their class overlap only in part; all predictions; any number of classes and images.", "why_tests_cant": "Whether a displaced box is noticed depends on the product of fixed thresholds with the average precision of the class over all images and on whether other predictions are confident; tests displace a box of one picture by one distance.", "anchors": ["cleanlab/object_detection/rank.py:690-746", "cleanlab/object_detection/filter.py:121-223"]}
{"id": "C191", "title": "False detections never improve the metrics of an object detector", "statement": "A detection that overlaps no box of its class by half counts as one false positive and changes nothing else in the counts of its class: without it precision, F1 and average precision are at least as high and recall is the same, and if it is less probable than all detections that overlap a box by half then the average precision does not depend on it.", "quantifier": "All images, boxes, classes and sets of detections with distinct probabilities; every overlap threshold of at least one half.", "why_tests_cant": "A change of the matching order or of the interpolation could let a useless detection raise a score for some arrangement of ranks; tests compute metrics for a few fixed pictures.", "anchors": ["cleanlab/object_detection/filter.py:264-405", "cleanlab/object_detection/summary.py:481-650"]}
{"id": "C192", "title": "Finding another object never worsens the metrics of an object detector", "statement": "If a detector also finds an object that it overlooked before (its box overlaps the object's by 95 % and no other box more, and no other detection of the class overlaps the object by half), then there is one true positive more and one false negative less, as many false positives, and precision, recall, F1 and average precision of the class are at least as high, wherever the new detection ranks among the others.", "quantifier": "All images, boxes, classes, probabilities of the new detection and sets of detections with distinct probabilities; every overlap threshold from 50 % to 95 %.", "why_tests_cant": "The new detection moves all later points of the precision-recall curve and may take boxes from other detections; tests compute metrics for a few fixed pictures.", "anchors": ["cleanlab/object_detection/filter.py:264-405", "cleanlab/object_detection/summary.py:481-650"]}
{"id": "C193", "title": "Examples far from all others are reported as outliers", "statement": "An example whose features lie far away from the rest of the data is flagged by Datalab's outlier check: whether it is alone or has companions, and whatever the direction in which it lies.", "quantifier": "Every number of examples, features and neighbours, every arrangement of the features, every sort of tied distances, every threshold in [0, 1].", "why_tests_cant": "Whether an example is found depends on the number of neighbours searched, the quartiles of all average distances and the default metric for the number of features; tests place single outliers in two dimensions.", "anchors": ["cleanlab/datalab/internal/issue_manager/outlier.py:97-209", "cleanlab/internal/neighbor/metric.py:1-60", "cleanlab/internal/neighbor/knn_graph.py:26-70"]}
{"id": "C194", "title": "Identical examples are reported as near duplicates", "statement": "With a positive threshold, Datalab's near-duplicate check flags every example of which the data contain an identical copy and gives it the score 0, and the near-duplicate set of the example contains a copy, whose set contains the example: whatever neighbours the search index returned, and however many copies there are.", "quantifier": "Every feature array with any number of copies, every number of neighbours from 1, every search index with non-negative distances, every sorting routine and every positive threshold.", "why_tests_cant": "An index may return anything among equally near points, and the number of copies may exceed the number of neighbours or lower the median distance to 0; tests use a few copies in small data sets.", "anchors": ["cleanlab/datalab/internal/issue_manager/duplicate.py:52-120", "cleanlab/internal/neighbor/knn_graph.py:191-460"]}
{"id": "C195", "title": "The near-duplicate set of an example contains all its copies", "statement": "`near_duplicate_sets` lists for every example all examples that are identical to it.", "quantifier": "Every feature array with any number of copies, every number of neighbours, every search index, sorting routine and positive threshold.", "why_tests_cant": "The sets are taken from a graph with a fixed number of neighbours, so they are incomplete only if there are more copies than neighbours; tests use a few copies.", "anchors": ["cleanlab/datalab/internal/issue_manager/duplicate.py:88-120", "cleanlab/internal/neighbor/knn_graph.py:293-460"]}
{"id": "C196", "title": "An annotator who is right more often is rated higher", "statement": "If two annotators labelled the same examples and, wherever their labels differ, the first one gave the consensus label and this label has at least the label quality score of the other's, then `get_label_quality_multiannotator` knows the quality of the first exactly if it knows that of the second, rates the first one at least as high, and strictly higher if they differ at all.", "quantifier": "Every valid table of annotations, all predicted probabilities, both consensus methods, every random choice.", "why_tests_cant": "The quality mixes a mean of posterior scores over all examples with an agreement over the shared examples only, with data-dependent weights; tests compare the numbers of one fixed table.", "anchors": ["cleanlab/multiannotator.py:1722-1836", "cleanlab/multiannotator.py:1181-1273"]}
{"id": "C197", "title": "An annotator who agrees more with the consensus is rated higher", "statement": "If two annotators labelled the same examples and, wherever their labels differ, the first one gave the consensus label, then the quality of the first annotator is at least that of the second.", "quantifier": "Every valid table of annotations, all predicted probabilities that are distributions, both consensus methods, every random choice.", "why_tests_cant": "The two parts of the quality follow different opinions, that of the consensus and that of the posterior scores, and they part only for some tables; tests compare the numbers of one fixed table.", "anchors": ["cleanlab/multiannotator.py:1722-1836", "cleanlab/multiannotator.py:218-262"]}
{"id": "C198", "title": "A right example does not cast doubt on the others, with confident learning", "statement": "If an example is added to a class that has examples, its label is its most probable class and the model is at least as sure of it as of the examples of the class on average, then find_label_issues with filter_by=\"confident_learning\" does not flag the new example and flags no other example that it did not flag before; with \"predicted_neq_given\" the flags of the other examples do not change, whatever example is added.", "quantifier": "Every number of classes and examples, all labels and predicted probabilities, every added example and every sorting routine.", "why_tests_cant": "The new example moves the threshold of its class and with it the counts of the confident joint; tests compare the flags of fixed data sets.", "anchors": ["cleanlab/filter.py:57-450", "cleanlab/count.py:445-622", "cleanlab/count.py:1407-1458"]}
{"id": "C199", "title": "A right example does not cast doubt on the others", "statement": "If an example is added of whose label the model is certain, find_label_issues with its default filter, \"prune_by_class\" or \"both\" flags no other example that it did not flag before.", "quantifier": "Every number of classes and examples, all labels and predicted probabilities and every sorting routine.", "why_tests_cant": "Whether the higher threshold of a class increases the estimated share of wrong labels depends on how many examples lie between the old and the new threshold; tests compare the flags of fixed data sets.", "anchors": ["cleanlab/filter.py:57-450", "cleanlab/count.py:445-622", "cleanlab/count.py:1407-1458"]}
{"id": "C200", "title": "Wrong targets of similar size are found in regression", "statement": "Let at most a twentieth of at least twenty numeric targets be wrong, all by about the same amount (between D and 1.1 D, in either direction), and let the predictions of all other examples be right up to D/110 (up to a constant bias common to all predictions). Then Datalab's label check for regression with predictions, with the default score and the default or a larger threshold, reports every wrong target - whatever the distribution of the targets.", "quantifier": "all targets and predictions, all sets of wrong targets of at most a twentieth, all error sizes from 1e-90 on, all biases, all thresholds from 0.05 on", "why_tests_cant": "the score depends on the standard deviations of labels and residuals and on medians over all examples; tests plant a few errors into one data set", "anchors": ["cleanlab/datalab/internal/issue_manager/regression/label.py:143-197", "cleanlab/regression/rank.py:122-173", "cleanlab/internal/outlier.py:11-112"]}
{"id": "C201", "title": "A clearly wrong target is found in regression whatever else is wrong", "statement": "A target that Datalab's label check for regression reports as an issue when all other targets are exactly right is still reported when one more target is wrong.", "quantifier": "all targets and predictions of at least twenty examples, all pairs of wrong targets", "why_tests_cant": "tests have errors of one size only; the masking of an error by a much larger one needs two errors of different size", "anchors": ["cleanlab/datalab/internal/issue_manager/regression/label.py:143-197", "cleanlab/regression/rank.py:122-173"]}
{"id": "C202", "title": "The data value of a wrongly labelled example among right ones is low", "statement": "Let the k nearest neighbours of every example have its true class, and let the k-th one be rightly labelled. Then the data valuation check gives every rightly labelled example the score 1/2 and does not report it. A wrongly labelled example has the score 1/2 + (w - r)/(2kN), where r is the number of rightly labelled examples that have it among their k nearest neighbours and w the number of those with the same wrong label, and it is reported exactly if w < r. If no example has one with its own wrong label among its neighbours, the reported examples are exactly the wrongly labelled ones that a rightly labelled example has as a neighbour.", "quantifier": "all graphs of nearest neighbours, all true and given labels, all k and N", "why_tests_cant": "the score of an example is a sum over all examples that have it as a neighbour; tests only compare scores of a few random examples", "anchors": ["cleanlab/data_valuation.py:14-127", "cleanlab/datalab/internal/issue_manager/data_valuation.py:127-147"]}
{"id": "C203", "title": "Data valuation reports the wrongly labelled examples of separated classes", "statement": "If the nearest neighbours of every example have its true class, the data valuation check of Datalab reports wrongly labelled examples and only these.", "quantifier": "all graphs of nearest neighbours whose classes are apart, all given labels", "why_tests_cant": "which examples are reported depends on the label of the last neighbour of each example; tests have no separated classes with planted errors", "anchors": ["cleanlab/data_valuation.py:14-127", "cleanlab/datalab/internal/issue_manager/data_valuation.py:127-147"]}
{"id": "C204", "title": "A worse part never improves the score of the whole", "statement": "If the label quality score of a pixel, token, class or box falls and those of the other parts stay the same, then the label quality score of the image, sentence or example does not rise.", "quantifier": "all numbers of parts, all scores, the pooling methods softmin, min and exponential moving average with their default parameters", "why_tests_cant": "the weight of a part changes together with its score; tests check single values and bounds of the pooled score", "anchors": ["cleanlab/internal/multilabel_scorer.py:134-233", "cleanlab/segmentation/rank.py:189-231", "cleanlab/token_classification/rank.py:121-126", "cleanlab/internal/object_detection_utils.py:25-29"]}
{"id": "C205", "title": "A worse worst part never improves the score of the whole", "statement": "With softmin of any temperature, if the score of the part with the lowest score falls, the score of the image, sentence or example does not rise. If no score exceeds the temperature, for example for temperature 1, this holds for every part. With min, and with softmin of a sentence at temperature 0 or infinity, it holds for every part as well.", "quantifier": "all numbers of parts, all scores, all temperatures", "why_tests_cant": "the weight of a part changes together with its score; tests check single values and bounds of the pooled score", "anchors": ["cleanlab/internal/multilabel_scorer.py:206-233", "cleanlab/segmentation/rank.py:189-231", "cleanlab/token_classification/rank.py:121-126", "cleanlab/token_classification/rank.py:231-274"]}
{"id": "C206", "title": "What all members of an ensemble agree on, the ensemble says", "statement": "If no model of an ensemble rates example i higher than example j, get_label_quality_ensemble_scores does not either; if every model rates i lower than j, so does the ensemble; an example that every model rates lowest is rated lowest. This holds for every score, and for weights uniform, accuracy, log_loss_search and custom ones that are not negative and not all 0.", "quantifier": "all ensembles, data sets, scores, weightings and temperatures of the search", "why_tests_cant": "the order of two examples under every combination of models and weights cannot be sampled", "anchors": ["cleanlab/rank.py:158-366"]}
{"id": "C207", "title": "A better prediction of one member never lowers the score of an ensemble", "statement": "If one model of an ensemble raises the probability of the given label of an example and nothing else changes, then get_label_quality_ensemble_scores gives this example no lower score.", "quantifier": "all ensembles, data sets and weightings", "why_tests_cant": "the weights depend on the predictions too; tests compare no two calls with different predictions", "anchors": ["cleanlab/rank.py:158-366"]}
{"id": "C208", "title": "Mixing the predictions with the uniform distribution changes nothing", "statement": "If the predicted probabilities P are replaced by (1 - e) P + e/K, as label smoothing does, or by any c P + d with 0 < c <= 1 that stays within [0, 1], then find_label_issues flags the same examples with every filter and all other arguments, self-confidence changes by the same map and the normalized margin by a scaling about 1/2, and the ranking by self-confidence is the same. Required: no probability falls short of a confident threshold, and no class exceeds the given label, by no more than 1e-6/c.", "quantifier": "all data sets, all c and d, all filters and arguments, all sorting routines that only compare values", "why_tests_cant": "the thresholds, the counts and the two orderings all depend on the probabilities; tests do not transform them", "anchors": ["cleanlab/filter.py:60-454", "cleanlab/count.py:445-622", "cleanlab/rank.py:369-480"]}
{"id": "C209", "title": "The temperature of the model does not change which examples are flagged", "statement": "If the predictions are replaced by those of the same model with another temperature, so that the classes of every example remain in the same order of probability, find_label_issues flags the same examples.", "quantifier": "all data sets, all transformations that keep the order of the classes of every example", "why_tests_cant": "calibration is not varied in tests", "anchors": ["cleanlab/filter.py:60-454", "cleanlab/count.py:445-622"]}
{"id": "C210", "title": "Datalab and OutOfDistribution agree on outlier scores", "statement": "For features, the scores that the outlier check of a new Datalab reports are exactly those of OutOfDistribution().fit_score(features) with the same k, t and scaling factor, and with the default parameters if there are more than ten examples. Both refuse the same features with the same error, and with a threshold between 0 and 1 the check works whenever the neighbours can be computed.", "quantifier": "all features, numbers of neighbours, t, scaling factors, thresholds; every search index listing k distinct other examples per example; features with and without exact duplicates", "why_tests_cant": "The two computations go through different code (a sparse graph against arrays of distances). Their agreement for every data set, in particular with duplicates, is not a matter of examples.", "anchors": ["cleanlab/outlier.py:OutOfDistribution.fit_score", "cleanlab/datalab/internal/issue_manager/outlier.py:OutlierIssueManager.find_issues", "cleanlab/internal/neighbor/knn_graph.py:create_knn_graph_and_index"]}
{"id": "C211", "title": "Scoring the same data again gives the same scores", "statement": "Calling OutOfDistribution.fit_score a second time with the same data returns the same scores as the first time, for features and for predicted probabilities.", "quantifier": "all data sets, parameters and search indices", "why_tests_cant": "A test of one call says nothing about the second one, which takes another path through the code.", "anchors": ["cleanlab/outlier.py:OutOfDistribution.fit_score", "cleanlab/outlier.py:OutOfDistribution.score"]}
{"id": "C212", "title": "Merging classes that are confused removes the confusion", "statement": "If the labels are mapped to fewer classes and the probabilities merged with merge_probs, no label loses self-confidence. If only classes merged with the given class of an example are merged, its normalized margin does not fall, and if its most probable class is among them, find_label_issues does not flag the example on the merged data, whatever the options (filters other than the two low-score ones); the same holds for tokens.", "quantifier": "all data sets with non-negative probabilities, all maps of classes, sorting orders and options", "why_tests_cant": "The probabilities of the merged class are sums, and the statement ranges over all data sets and maps; the thresholds of the merged data are different ones.", "anchors": ["cleanlab/internal/token_classification_utils.py:merge_probs", "cleanlab/filter.py:find_label_issues", "cleanlab/token_classification/filter.py:find_label_issues"]}
{"id": "C213", "title": "Merging classes only removes issues", "statement": "If labels and probabilities of some classes are merged, an example that was not flagged is not flagged afterwards, and no label quality score falls.", "quantifier": "all data sets and maps of classes", "why_tests_cant": "It seems obvious that a coarser distinction leaves fewer errors, so nobody tests it.", "anchors": ["cleanlab/internal/token_classification_utils.py:merge_probs", "cleanlab/filter.py:find_label_issues", "cleanlab/rank.py:get_label_quality_scores"]}
{"id": "C214", "title": "Object detection threshold selection", "statement": "object_detection.rank.issues_from_scores returns exactly the images whose score is at most the threshold, each once, the lowest scores first; a threshold above 1 is refused, and the threshold 1 returns all images with the scores of get_label_quality_scores.", "quantifier": "all lists of scores, thresholds and ways of sorting; all valid images for the last part", "why_tests_cant": "The two similar functions for segmentation and tokens (C30, C32) fail on particular scores only; that this one has no such case cannot be seen from examples.", "anchors": ["cleanlab/object_detection/rank.py:issues_from_scores", "cleanlab/object_detection/rank.py:get_label_quality_scores"]}
{"id": "C215", "title": "Examples of other classes do not matter where these classes are excluded", "statement": "Let the labels of a part of a data set belong to a group of classes, let the other examples have labels outside the group, and let the model give the examples of the part no probability outside the group. Then find_label_issues flags the same examples of the part whether it is given the whole data set or only the part, with every filter but the two that take the lowest scores, whatever the other examples and the remaining options (without num_to_remove_per_class).", "quantifier": "all data sets and parts at any places of them, groups of classes, ways of sorting and options", "why_tests_cant": "The thresholds, the calibration and the rounding of the confident joint run over the whole data set; that nothing leaks from one group of classes into another cannot be tested for all of them.", "anchors": ["cleanlab/filter.py:find_label_issues", "cleanlab/count.py:compute_confident_joint", "cleanlab/count.py:calibrate_confident_joint"]}
{"id": "C216", "title": "Unrelated data sets can be searched together with every filter", "statement": "If two data sets have no classes in common and the model never confuses their classes, searching them together flags the examples flagged in the two separate searches, with every filter.", "quantifier": "all pairs of data sets and all filters", "why_tests_cant": "The filters that take the lowest scores compare examples of all classes, which shows only if the scores of the two data sets differ in level.", "anchors": ["cleanlab/filter.py:find_label_issues", "cleanlab/count.py:num_label_issues"]}
{"id": "C217", "title": "Tags of tokens are names: their numbering does not matter without ties", "statement": "Entity recognition data give their tags numbers; another numbering (of the labels, of the columns of the predicted probabilities and of a given confident joint alike) changes no token score and not the list of tokens that find_label_issues returns, with low_memory=False or True, and the search in batches finds the same examples; provided that no class is exactly one millionth more probable than the label and, where the estimated confident joint or the batched search is used, that every token has one most probable class and no counts of the joint tie when rounded.", "quantifier": "for every list of sentences with tokens of at least two classes, every permutation of the tags, every filter and batch size, every order in which workers finish and every sort that numpy may use", "why_tests_cant": "Tests use one numbering, the one of their fixture.", "anchors": ["cleanlab/token_classification/filter.py:find_label_issues", "cleanlab/token_classification/rank.py:get_label_quality_scores", "cleanlab/experimental/label_issues_batched.py:find_label_issues_batched"]}
{"id": "C218", "title": "An outlier that lies even farther away hides no other outlier and makes no new one", "statement": "If the examples that Datalab's outlier check reports are moved farther away, so that their average distances to their neighbours grow while those of the examples not reported stay as they are, then the check reports exactly the same examples. This is the case if the reported examples move away from all others and none of them is a neighbour of an example that is not reported.", "quantifier": "every number of examples, features and neighbours, every default metric, every threshold, every sort of tied distances", "why_tests_cant": "The cut-off is computed from quartiles that may be interpolated between reported and unreported examples; tests move no outliers.", "anchors": ["cleanlab/datalab/internal/issue_manager/outlier.py:OutlierIssueManager.find_issues", "cleanlab/datalab/internal/issue_manager/outlier.py:OutlierIssueManager._compute_threshold_and_issue_column_from_distances"]}
{"id": "C219", "title": "Near duplicates that get even closer, and predictions that get even more atypical, change no report", "statement": "If examples that Datalab reports as near duplicates move even closer to their nearest neighbours, while the nearest neighbours of all other examples stay as far away as they are, then Datalab reports exactly the same examples as near duplicates (for thresholds of at most 1). In the same way, if the outlier scores that Datalab computes from predicted probabilities get lower for examples that it reports, and stay as they are for all others, it reports exactly the same examples as outliers.", "quantifier": "every number of examples, every symmetric distance, every kNN graph whose rows begin with a nearest neighbour, every threshold of at most 1, every sort of tied values", "why_tests_cant": "Both rules compare with a fraction of the median, and for an even number of examples the median may be the mean of a reported and an unreported value; tests do not change the values they report.", "anchors": ["cleanlab/datalab/internal/issue_manager/duplicate.py:NearDuplicateIssueManager.find_issues", "cleanlab/datalab/internal/issue_manager/duplicate.py:NearDuplicateIssueManager._neighbors_within_radius", "cleanlab/datalab/internal/issue_manager/outlier.py:OutlierIssueManager._compute_threshold_and_issue_column_from_distances", "cleanlab/datalab/internal/issue_manager/outlier.py:OutlierIssueManager.find_issues"]}
{"id": "C220", "title": "Smoothing the predictions changes nothing in multi-label and token classification", "statement": "Mixing the predicted probabilities of a multi-label model with one half (p becomes (1-e)p + e/2 with e below 1), or those for the tokens of a sentence with the uniform distribution, changes neither which labels, examples or tokens find_label_issues flags nor the order in which it lists them by self-confidence, as long as nothing is decided by less than the tolerance of one millionth; and the multi-label score of every example changes by the same increasing map, so that the ranking by score stays as it is.", "quantifier": "every number of examples, classes, sentences and tokens, all predictions in range, every filter and every other argument, every sort by order", "why_tests_cant": "Tests evaluate fixed predictions; no test compares two runs on smoothed predictions in these tasks.", "anchors": ["cleanlab/multilabel_classification/filter.py:find_label_issues", "cleanlab/multilabel_classification/filter.py:find_multilabel_issues_per_class", "cleanlab/multilabel_classification/rank.py:get_label_quality_scores", "cleanlab/token_classification/filter.py:find_label_issues"]}
{"id": "C221", "title": "Collecting more examples of other classes never hides a class imbalance", "statement": "If more examples of other classes are added to a data set, Datalab's class imbalance check still names the same class as the rarest, every example that was flagged is still flagged, no example of another class is flagged, and no score rises.", "quantifier": "every list of labels in which all classes occur, every threshold, every list of added labels of other classes", "why_tests_cant": "Tests check fixed label lists and never compare a data set with a larger one.", "anchors": ["cleanlab/datalab/internal/issue_manager/imbalance.py:ClassImbalanceIssueManager.find_issues"]}
{"id": "C222", "title": "Collecting more examples of the rare class never gets another class reported", "statement": "If Datalab's class imbalance check reports a class as rare, then after more examples of this class were collected no example of another class is reported that was not reported before.", "quantifier": "every list of labels in which all classes occur, every threshold, every number of added examples", "why_tests_cant": "Tests check fixed label lists and never compare a data set with a larger one.", "anchors": ["cleanlab/datalab/internal/issue_manager/imbalance.py:ClassImbalanceIssueManager.find_issues"]}
{"id": "C223", "title": "Filling in missing values never makes an issue", "statement": "If some missing values of a data set are filled in, Datalab's check for null values flags no row that it did not flag before and lowers no score; a row in which a value was filled in is not flagged and its score rises, and all other rows keep flag and score.", "quantifier": "every pattern of missing values, every number of rows and of columns (at least one)", "why_tests_cant": "Tests check fixed patterns and never compare two of them.", "anchors": ["cleanlab/datalab/internal/issue_manager/null.py:NullIssueManager._calculate_null_issues", "cleanlab/datalab/internal/issue_manager/null.py:NullIssueManager.find_issues"]}
{"id": "C224", "title": "A group reported as underperforming that does even worse is still reported", "statement": "If the examples of the group that Datalab reports as underperforming get lower self-confidences while all other examples keep theirs, then Datalab still reports exactly this group, and with a score that is not higher.", "quantifier": "every number of examples, every clustering and every order in which its clusters are visited, all self-confidences in [0,1], every threshold of at most 1, every minimum size of a cluster", "why_tests_cant": "Lowering the confidences of one group lowers the overall mean with which every other group is compared, and the search compares performances with ratios; tests evaluate fixed groups.", "anchors": ["cleanlab/datalab/internal/issue_manager/underperforming_group.py:UnderperformingGroupIssueManager.find_issues", "cleanlab/datalab/internal/issue_manager/underperforming_group.py:UnderperformingGroupIssueManager.get_underperforming_clusters"]}
{"id": "C225", "title": "A near-duplicate score of 0 means an exact duplicate", "statement": "When Datalab searches the features for near duplicates, an example has a score of 0 exactly if some other example has the same features, as documented.", "quantifier": "every number of examples and of features, every threshold", "why_tests_cant": "The default distance for more than three features compares directions only; tests of scores of 0 use data with exact duplicates.", "anchors": ["cleanlab/datalab/internal/issue_manager/duplicate.py:NearDuplicateIssueManager.find_issues", "cleanlab/datalab/internal/issue_manager/duplicate.py:_compute_scores_with_exp_transform", "cleanlab/internal/neighbor/metric.py:decide_default_metric"]}
{"id": "C226", "title": "A prediction closer to the target never makes it an issue", "statement": "If a regression model's prediction for one example comes closer to the given target, then with residual scores Datalab's label check does not report this example if it did not do so before, its score does not fall, and all other examples keep their scores and remain reported if they were.", "quantifier": "every number of examples, all targets and predictions, every threshold between 0 and 1, every sort of tied scores", "why_tests_cant": "The check compares with a multiple of the median score, which the better score can raise; tests evaluate fixed predictions.", "anchors": ["cleanlab/datalab/internal/issue_manager/regression/label.py:find_issues_with_predictions", "cleanlab/regression/rank.py:get_label_quality_scores", "cleanlab/regression/rank.py:_get_residual_score_for_each_label"]}
{"id": "C227", "title": "A better prediction never makes an issue in multi-label and token classification", "statement": "If a multi-label model gives every label of an example at least the probability it gave before and every other class at most that, or a token classifier gives the tag of each token at least and all other tags at most the probability they had, then find_label_issues with filter_by 'confident_learning' or 'predicted_neq_given' flags no label, example or token that it did not flag before.", "quantifier": "every number of examples, classes, sentences and tokens, all predictions, every other argument", "why_tests_cant": "Better predictions move the confident thresholds of all classes; tests evaluate fixed predictions and compare no two of them.", "anchors": ["cleanlab/multilabel_classification/filter.py:find_label_issues", "cleanlab/multilabel_classification/filter.py:find_multilabel_issues_per_class", "cleanlab/token_classification/filter.py:find_label_issues", "cleanlab/filter.py:_find_label_issues_multilabel"]}
{"id": "C228", "title": "Datalab looks for outliers in a small data set with its default settings", "statement": "With the default settings the outlier check of Datalab scores the features of every data set with at least two examples, and the scores are those of OutOfDistribution with its default settings.", "quantifier": "every number of examples, all features, every nearest neighbour search, every threshold", "why_tests_cant": "Tests use data sets of one fixed size; whether the two defaults agree depends on the number of examples.", "anchors": ["cleanlab/datalab/internal/issue_manager/outlier.py:find_issues", "cleanlab/internal/neighbor/knn_graph.py:_configure_num_neighbors", "cleanlab/outlier.py:fit_score"]}
{"id": "C229", "title": "Examples that are much closer together than the others are reported as near duplicates", "statement": "If no example has another one at a distance between threshold times D and D, then the near-duplicate check reports every example that has another one at a distance below threshold times D.", "quantifier": "every number of examples, every symmetric distance, every graph of nearest neighbours, every D and threshold", "why_tests_cant": "The cut-off depends on the median over all examples; tests contain a few duplicates among many other examples.", "anchors": ["cleanlab/datalab/internal/issue_manager/duplicate.py:find_issues", "cleanlab/datalab/internal/issue_manager/duplicate.py:_neighbors_within_radius"]}
{"id": "C230", "title": "A better prediction never makes an issue in the search in batches and in semantic segmentation", "statement": "An example (or pixel) that find_label_issues_batched (or the search for semantic segmentation) does not report is not reported either if its prediction gives more probability to the given label and no more to any other class, and everything else remains.", "quantifier": "every number of examples, images, pixels, classes, workers and every batch size, all predictions", "why_tests_cant": "These searches count confident predictions in another way than find_label_issues; tests compare no two predictions.", "anchors": ["cleanlab/experimental/label_issues_batched.py:find_label_issues_batched", "cleanlab/experimental/label_issues_batched.py:_compute_num_issues", "cleanlab/segmentation/filter.py:find_label_issues"]}
{"id": "C231", "title": "The number of issues found in batches is that of num_label_issues", "statement": "After all batches of a data set were processed, LabelInspector.get_num_issues equals count.num_label_issues on the whole data set, both with the estimation method off_diagonal.", "quantifier": "every number of examples, classes and workers, every way of splitting the data into batches, all predictions", "why_tests_cant": "The comment in the code calls the agreement empirical; it depends on which classes of each example reach their thresholds.", "anchors": ["cleanlab/experimental/label_issues_batched.py:get_num_issues", "cleanlab/experimental/label_issues_batched.py:_update_num_label_issues", "cleanlab/count.py:num_label_issues"]}
{"id": "C232", "title": "Neither the order of the examples nor the numbering of the classes matters to the out-of-distribution scores of predictions", "statement": "If the examples are given in another order and the classes renumbered, in the labels, in the columns of pred_probs and in given thresholds, then OutOfDistribution gives every example the same score and every class the same confident threshold, for every method with and without adjustment, and a call that is refused is refused with the same message.", "quantifier": "every number of examples and classes, all labels and predictions, all permutations, every method, M and gamma, every sorting algorithm", "why_tests_cant": "There are factorially many renumberings; thresholds, maxima, softmax and sorted rows all have to move along.", "anchors": ["cleanlab/outlier.py:_get_ood_predictions_scores", "cleanlab/rank.py:_subtract_confident_thresholds", "cleanlab/count.py:get_confident_thresholds"]}
{"id": "C233", "title": "New predictions can be scored for out-of-distribution examples in parts", "statement": "After OutOfDistribution was fitted on pred_probs, score(pred_probs=...) gives an example of any selection of new data (any order, any repetitions) the score it gets among all of the new data, and all of the new data are scored exactly if each example would be scored alone.", "quantifier": "every number of examples and classes, every selection, all predictions and stored thresholds, every method, M and gamma", "why_tests_cant": "A hidden dependence on the batch, such as a batch-wide normalisation, changes production scores only for particular batches.", "anchors": ["cleanlab/outlier.py:score", "cleanlab/outlier.py:_get_ood_predictions_scores"]}
{"id": "C234", "title": "A more certain prediction never makes an example more out-of-distribution", "statement": "If the class that is most likely for an example (after the adjustment by the stored thresholds, if one is made) gets more probability and no other class does, then the score that OutOfDistribution.score gives the example from its predicted probabilities does not fall, whichever method is chosen, with the default M and gamma.", "quantifier": "every number of examples and classes, all predictions, all stored thresholds, every method", "why_tests_cant": "For the method gen it depends on the number of classes: softmax is applied to probabilities, and only the M largest are used.", "anchors": ["cleanlab/outlier.py:_get_ood_predictions_scores", "cleanlab/outlier.py:score"]}
{"id": "C235", "title": "With two classes the ways to score and to prune agree", "statement": "On data with two classes normalized_margin gives every example the score that self_confidence gives it, find_label_issues flags the same examples with low_normalized_margin as with low_self_confidence, and with the default settings it flags the same examples with prune_by_class, prune_by_noise_rate and both.", "quantifier": "every number of examples, all labels, all predicted probabilities that sum to 1, every sorting algorithm that looks at comparisons only", "why_tests_cant": "Agreement of whole code paths on all inputs: one prunes by the diagonal of the count matrix and the label's probability, the other by the entry off the diagonal and the margin.", "anchors": ["cleanlab/filter.py:_prune_by_class", "cleanlab/filter.py:_prune_by_count", "cleanlab/filter.py:find_label_issues", "cleanlab/rank.py:get_normalized_margin_for_each_label", "cleanlab/rank.py:get_self_confidence_for_each_label"]}
{"id": "C236", "title": "With two classes confidence_weighted_entropy ranks like self_confidence", "statement": "On data with two classes, an example whose given label is predicted with a higher probability than that of another example does not get a lower score by confidence_weighted_entropy.", "quantifier": "every number of examples, all labels, all predicted probabilities that sum to 1", "why_tests_cant": "The order of two transcendental scores for all probabilities; it breaks at a boundary where quantities are clipped.", "anchors": ["cleanlab/rank.py:get_confidence_weighted_entropy_for_each_label", "cleanlab/internal/label_quality_utils.py:get_normalized_entropy"]}
{"id": "C237", "title": "The search in batches flags nothing that low_self_confidence does not flag", "statement": "Suppose every class is given to some example, no label is predicted with less than two millionths, and no other class equals or exceeds a given label by a millionth or less. Then every example that find_label_issues_batched flags with its default settings is flagged by find_label_issues(filter_by='low_self_confidence') on the whole data; with two classes and probabilities that sum to 1 both flag the same examples.", "quantifier": "every number of examples and classes, every batch size and number of workers, every sorting algorithm used by both", "why_tests_cant": "Two implementations, one streaming and one not, are compared on all inputs, batch sizes and completion orders.", "anchors": ["cleanlab/experimental/label_issues_batched.py:find_label_issues_batched", "cleanlab/experimental/label_issues_batched.py:get_label_issues", "cleanlab/filter.py:find_label_issues"]}
{"id": "C238", "title": "The ways to score and to prune agree for multi-label data", "statement": "For multi-label data and the default settings, prune_by_class, prune_by_noise_rate and both flag the same examples, in each class and altogether, and list them in the same order; low_normalized_margin flags the same examples as low_self_confidence; and normalized_margin gives the same label quality scores as self_confidence, per class and per example.", "quantifier": "every number of examples and classes, all multi-label data and predictions, every score to rank by, every sorting algorithm that looks at comparisons only", "why_tests_cant": "Each class is a problem with two columns that sum to 1; that different code paths then coincide is a statement about all inputs.", "anchors": ["cleanlab/filter.py:_find_label_issues_multilabel", "cleanlab/multilabel_classification/filter.py:find_multilabel_issues_per_class", "cleanlab/internal/multilabel_scorer.py:MultilabelScorer"]}
{"id": "C239", "title": "With two classes all methods rank out-of-distribution examples alike", "statement": "On predicted probabilities of two classes the methods entropy, least_confidence and gen (with a positive gamma, whatever M) of OutOfDistribution order the examples in the same way, with and without adjust_pred_probs, when fitting and when scoring.", "quantifier": "every number of examples, all distributions of two classes, all labels or stored thresholds, all M, all positive gamma", "why_tests_cant": "Three formulas (an entropy, a maximum, and powers of softmax values) must be monotone in each other on a continuum of inputs.", "anchors": ["cleanlab/outlier.py:_get_ood_predictions_scores", "cleanlab/internal/label_quality_utils.py:get_normalized_entropy", "cleanlab/internal/numerics.py:softmax"]}
{"id": "C240", "title": "Smoothing the predictions does not change which examples are more out-of-distribution", "statement": "If all predicted probabilities, also those the thresholds are fitted to, are mixed with the uniform distribution (as a model trained with label smoothing does), OutOfDistribution orders the examples by their scores as before, with every method.", "quantifier": "every number of examples and classes, all predicted probabilities, every degree of smoothing below 1, every method", "why_tests_cant": "Relates two runs on data that differ everywhere; whether a method is unaffected depends on the shape of its formula.", "anchors": ["cleanlab/outlier.py:_get_ood_predictions_scores", "cleanlab/internal/label_quality_utils.py:_subtract_confident_thresholds", "cleanlab/internal/label_quality_utils.py:get_normalized_entropy"]}
{"id": "C241", "title": "A confident joint given with labels counts by its proportions", "statement": "If the rows of a confident joint (of counts) are given in other units, that is each multiplied by a positive number, then calibrate_confident_joint, estimate_joint, num_label_issues with any estimation method, rank_classes_by_label_quality, find_overlapping_classes, overall_label_health_score and health_summary, called with the labels, return the same.", "quantifier": "every number of examples and classes, all labels, all confident joints whose rows are empty or sum to at least 1, all factors of at least 1e-100", "why_tests_cant": "Relates two runs for a continuum of factors; a single place that uses the matrix uncalibrated breaks it.", "anchors": ["cleanlab/count.py:calibrate_confident_joint", "cleanlab/count.py:estimate_joint", "cleanlab/count.py:num_label_issues", "cleanlab/dataset.py:health_summary", "cleanlab/dataset.py:overall_label_health_score"]}
{"id": "C242", "title": "find_label_issues uses a given confident joint by its proportions", "statement": "If the confident joint given to find_label_issues is multiplied by a positive number, for example to give the joint distribution in place of counts, the same examples are flagged, with every filter; giving the confident joint that compute_confident_joint returns for the data is the same as giving none.", "quantifier": "every number of examples and classes, all labels and predicted probabilities, every filter and the other arguments, all factors", "why_tests_cant": "Relates two runs for a continuum of factors; other functions that take the same argument calibrate it first.", "anchors": ["cleanlab/filter.py:find_label_issues", "cleanlab/filter.py:_keep_at_least_n_per_class"]}
{"id": "C243", "title": "Repeating the data does not matter to the multi-annotator functions", "statement": "If every example (its annotations, its predicted probabilities and the random number that would break its last tie) is repeated equally often, in any order, then get_majority_vote_label and get_label_quality_multiannotator return for every copy what they return for the example, with the same weights, or refuse both; the agreement, quality and worst class of every annotator, and the active learning scores, stay the same and the number of labelled examples is multiplied.", "quantifier": "every number of examples, annotators, classes and copies, every order of the copies, all annotations and predicted probabilities, both consensus methods", "why_tests_cant": "Relates two runs on data of different size; a count that is not divided by the number of examples breaks it only in a weight deep inside.", "anchors": ["cleanlab/multiannotator.py:get_majority_vote_label", "cleanlab/multiannotator.py:get_label_quality_multiannotator", "cleanlab/multiannotator.py:_get_annotator_quality", "cleanlab/multiannotator.py:_get_single_annotator_worst_class"]}
{"id": "C244", "title": "A class nobody uses does not matter to majority votes and weights of annotators", "statement": "If num_classes is increased by a class that no annotator chose and the predicted probabilities get a column of zeros for it, the same inputs are accepted, the majority vote labels (with all tie-breaks), the agreement with the consensus, the weights of the model and of every annotator, and (for the same quality scores) the worst class of every annotator stay the same.", "quantifier": "every number of examples, annotators and classes, all annotations in which every example has a label, all predicted probabilities", "why_tests_cant": "Relates runs with different numbers of classes over all data; tie-breaks and estimated weights all take part.", "anchors": ["cleanlab/multiannotator.py:get_majority_vote_label", "cleanlab/multiannotator.py:_get_post_pred_probs_and_weights", "cleanlab/multiannotator.py:_get_annotator_agreement_with_annotators"]}
{"id": "C245", "title": "A class nobody uses does not matter to the quality of consensus labels", "statement": "If the predicted probabilities get a further column of zeros for a class that no annotator chose, the quality score of every consensus label stays the same.", "quantifier": "every number of examples, annotators and classes, all annotations and predicted probabilities", "why_tests_cant": "Relates runs with different numbers of classes over all data.", "anchors": ["cleanlab/multiannotator.py:get_label_quality_multiannotator", "cleanlab/multiannotator.py:_get_post_pred_probs_and_weights"]}
{"id": "C246", "title": "Repeating the data does not matter to out-of-distribution scores of predictions and to the class imbalance check", "statement": "If every example is repeated equally often, in any order, OutOfDistribution gives every copy the score of the example, with the same thresholds, for every method and with or without adjusted predictions, or refuses both; Datalab's class imbalance check names the same class, with the same share, and gives every copy the flag and the score of the example.", "quantifier": "every number of examples, classes and copies, every order of the copies, all labels, predicted probabilities and settings", "why_tests_cant": "Relates two runs on data of different size, for all settings.", "anchors": ["cleanlab/outlier.py:_get_ood_predictions_scores", "cleanlab/datalab/internal/issue_manager/imbalance.py:ClassImbalanceIssueManager.find_issues", "cleanlab/count.py:get_confident_thresholds"]}
{"id": "C247", "title": "A class nobody uses does not change which predictions are more out-of-distribution", "statement": "If the predicted probabilities get a further column of zeros for a class that no example is labelled with, OutOfDistribution with the method least_confidence orders the examples as before, with predictions adjusted by the labels or not (without adjustment even the scores are the same), and so does the method entropy without adjustment.", "quantifier": "every number of examples and classes (at least two for entropy), all labels, all predicted probabilities that are distributions", "why_tests_cant": "Relates runs with different numbers of classes; the threshold of a class without examples enters the adjustment of all classes.", "anchors": ["cleanlab/outlier.py:_get_ood_predictions_scores", "cleanlab/internal/label_quality_utils.py:_subtract_confident_thresholds", "cleanlab/internal/label_quality_utils.py:get_normalized_entropy"]}
{"id": "C248", "title": "A class that no example has does not change the ranking of multi-label examples", "statement": "If multi-label data get a further class that no example has and to which the model gives probability 0, get_label_quality_scores ranks the examples as before.", "quantifier": "every number of examples and classes, all multi-label data and predicted probabilities", "why_tests_cant": "Relates runs with different numbers of classes over all data; the change of the ranking is small and needs close scores.", "anchors": ["cleanlab/multilabel_classification/rank.py:get_label_quality_scores", "cleanlab/internal/multilabel_scorer.py:exponential_moving_average", "cleanlab/internal/multilabel_scorer.py:MultilabelScorer.__call__"]}
{"id": "C249", "title": "A class that no example has does not change the label issues of multi-label data", "statement": "If multi-label data get a further class that no example has and to which the model gives probability 0, find_label_issues and find_multilabel_issues_per_class (otherwise with default arguments) raise or not as before, flag the same examples with every filter, and flag nothing in the new class.", "quantifier": "every number of examples and classes, all multi-label data and predicted probabilities, every filter", "why_tests_cant": "Relates runs with different numbers of classes over all data; tests use classes that occur.", "anchors": ["cleanlab/multilabel_classification/filter.py:find_label_issues", "cleanlab/multilabel_classification/filter.py:find_multilabel_issues_per_class", "cleanlab/filter.py:_find_label_issues_multilabel"]}
