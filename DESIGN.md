# Formal model of cleanlab: design

Subject: the Python source of cleanlab in /repo, read as text and never run.
Tool: Lean 4.33 with single Mathlib modules. The code lives in `lean/Verif/`.

## Layout

* `Verif/Np/*`: the few numpy operations the code relies on (sum, first argmax, round half to even, bincount, sorting).
* `Verif/Model/*`: one file per modelled source file. Each definition cites the file and lines it mirrors.
* `Verif/Spec/*`: small specifications, independent of the model, used to state the properties.
* `Verif/Lemmas/*`: helper lemmas.
* `Verif/Props/*`: the property theorems only, each followed by an `example` showing its hypotheses can be met.

## Modelling conventions

* Numbers are exact rationals `ℚ` (reals where `exp`, `log` or `sqrt` occur). Floating point rounding is not modelled.
* A data set of `n` examples and `K` classes is a function on `Fin n` or a `List`. Shape checks that the code does at entry are then part of the type; where they are a property of their own they are modelled as `Except`.
* `np.argmax` is the first maximal position. `np.argsort` is modelled by an arbitrary sorting permutation, because numpy's default sort is not stable.
* Randomness is an arbitrary parameter, so theorems hold for every outcome.
* A parallel map over classes is a list of tasks in an arbitrary completion order.
* Exceptions are `Except` or `Option` values.
* An external model (classifier, kNN search) is a function parameter.

## Plan per property

| id | model | proof |
|----|-------|-------|
| C01 | thresholds, confident bins, confusion matrix, calibration, rounding of `count.py` over `ℚ` | row sums through the rounding lemma |
| C02 | `round_preserving_sum` as the loop with fuel, and proof that fuel 1 suffices | exact arithmetic bound on the sum of rounding differences |
| C03 | `compute_confident_joint` before calibration | counting lemma over `Fin n` |
| C04 | `get_confident_thresholds` | case split on class presence |
| C05 | `estimate_joint` | algebra over `ℚ` |
| C06 | `num_label_issues`, `find_label_issues` | both reduce to the same set |
| C07 | final removal step of `find_label_issues` | case split on the filter |
| C08 | `_prune_by_class`, `_prune_by_count`, `_keep_at_least_n_per_class` | counting; a counterexample for the general claim |
| C09 | `find_label_issues` | pointwise and |
| C10 | `order_label_issues` | permutation and sortedness for any valid sort |
| C11 | task list of per-class masks | each task writes its own class only, so the order is irrelevant |
| C12 | removal vector branch of `find_label_issues` | counterexample, and the part that holds |
| C13 | `_reduce_prune_counts` | monotone floor |
| C14 | `rank.py` scores | inequalities, entropy over `ℝ` |
| C15 | `find_top_issues` | sorted prefix |
| C16 | ensemble weighting | convexity |
| C17 | CV loop as a fold over folds | induction over folds |
| C18 | `value_counts` | counterexample for float labels, proof for integer labels |
| C19 | `get_majority_vote_label` | tie-break stages keep a subset of modes; a witness for the crash |
| C20 | CROWDLAB posteriors | convexity |
| C21 | agreement functions | counting |
| C22 | `get_active_learning_scores` | convexity |
| C23 | EMA and softmin | induction over the sorted row; `Real.exp` |
| C24 | multilabel filter | union; a witness for the ordering bug |
| C25 | one-hot conversions | list induction |
| C26 | latent algebra | field algebra |
| C27 | clipping functions | field algebra |
| C28 | `dataset.py` | finite sums |
| C29 | segmentation filter | pointwise mask argument |
| C30 | segmentation ranking cut | witness for the off-by-one, partial theorem |
| C31 | token flat index mapping | list induction |
| C32 | token ranking cut | witness for the error, partial theorem |
| C33 | threshold accumulation | induction over batches |
| C34 | issue counting | induction over batches; witness for the lost increments |
| C35 | KNN-Shapley recursion | induction over neighbours |
| C36 | duplicate correction of rows | list reasoning |
| C37 | near-duplicate sets | symmetric closure |
| C38 | distance to score, estimator state machine | `Real.exp` monotone; induction over calls |
| C39 | IoU | ordered field reasoning |
| C40 | greedy matching | invariant over the loop |
| C41 | average precision | telescoping sum |
| C42 | identifier column test | witness, and exact characterisation |
| C43 | worst cluster loop | witness, and partial theorem |
| C44 | baseline accuracy | witness, and partial theorem |
| C45 | argument merging with a shared dict as a heap | witness, and theorem for fresh dicts |
| C46 | issue table state machine | induction over histories |
| C47 | substring column selection | witness, and partial theorem |
| C48 | statistics state machine | witness, and partial invariant |
| C49 | imbalance check | counting |
| C50 | null check | counting |
| C51 | regression cleaning | floor and ceil arithmetic, sorted prefix |
| C52 | label flipping loop | invariant over classes |
| C53 | label map | sorted distinct list |
| C54 | serializer state machine | witness and partial theorem |
| C55 | CleanLearning state machine | witness and theorem for fresh objects |
| C56 | CleanLearning.fit | pointwise |
| C57 | entropy scores | witness, and the zero set of the entropy |
| C58 | `estimate_latent` | field algebra, witness for an absent class |
| C59 | tie-break stages of the majority vote | stage lemmas, witness |
| C60 | worst class per annotator | argmin lemma |
| C61 | multilabel scorer with its label check | case split on the check |
| C62 | class quality table | sorted permutation |
| C63 | documented input combinations of `dataset.py` | case split on the given arguments |
| C64 | batched search | induction over batches, witnesses |
| C65 | pixel and image scores | softmin bounds |
| C66 | swap counts | list counting |
| C67 | token and sentence scores | minimum and softmin bounds |
| C68 | `merge_probs` | finite sums |
| C69 | word and swap summaries | list counting |
| C70 | near-duplicate scores | `tanh`/`exp` monotone |
| C71 | OOD scores from predictions | entropy bounds |
| C72 | per-class confusion counts | sums over thresholds, witness |
| C73 | detection label quality scores | case split per box, `exp` pooling bounds |
| C74 | detection issue mask and ranking | sorted permutation |
| C75 | regression CV loop | induction over folds |
| C76 | keyword arguments as parameter of the model | two models that agree where they should |
| C77, C78, C79 | noise generation loops with fuel and arbitrary draws | loop invariants |
| C80 | residual scores | `Real.exp` strictly monotone |
| C81 | list of file writes cut at any point | case split on the cut |
| C82 | `tempScale` over ℝ | closed form `c_k^(1/T)` normalised, monotonicity of `exp`/`log` |
| C83 | coarse and fine search as lists, cross entropy through `value_counts` | search returns a minimiser of the fine range; refuted by one example with two classes |
| C84 | `activeLearningScores` composed of calibration, majority vote, CROWDLAB | composition of C19, C20, C22, C82 |
| C85 | ensemble posterior, same helpers as for one model | mixture of models is a model; permutation of a sum |
| C86 | ensemble functions also return the arrays afterwards | refuted: calibration loop assigns into the array |
| C87 | Model/OutlierCheck over ℝ, percentile with an arbitrary sort | lemmas on percentiles (count above, monotone, scaling), then arithmetic |
| C88 | Model/LabelCheck over ℚ with an arbitrary neighbour table | counting; refuted with duplicates: an example missing among its own neighbours |
| C89 | Model/NonIid over ℚ (areas, distribution functions) and ℝ (tanh); p-value is a parameter | induction over the gap for areas and pair counts; refuted: not the KS distance, scores not reversible |
| C90 | Model/Imagelab: frames as association lists, the imagelab run is a parameter | invariants of the update per issue type; refuted by a second call (duplicate summary row) and by a type that is no longer kept (stale columns) |
| C91 | Model/MultilabelDataset on top of the multi-label filter; float rounding is a parameter | permutation of rows, union bound for the health score; refuted: confident_joint ignored, int(p*n) loses one for every binary64 rounding (29 of 100) |
| C92 | Model/DetectionSummary: dictionaries as association lists, exact decimal rounding | invariants of the dictionary update, stability of merge sort; refuted: rounding to two decimals (201 equal classes all get 0, three sum to 0.99) |
| C93 | Model/Report on top of Model/DataIssues | end-to-end statement over histories using the invariants of C46; refuted: identifier columns and partly missing rows are reported as no issues, no verbosity shows everything |
| C94 | Model/TokenText: strings as character lists, one left-to-right scan for re.sub and str.replace, the replacement template, the display loop | scan lemma giving pieces (kept characters and replaced occurrences); white-space deletion relation for get_sentence; refuted: backslashes, empty list, top=0 |
| C95 | Model/TokenText | same scan lemma; last-rule characterisation of the dictionary; refuted: empty rule list |
| C96 | Model/Validation: the checks in order, values as numbers, text or nested lists, nan as none | exact acceptance sets (iff) for labels, features and probabilities; refuted: nan, multi-label, Datalab never validates |
| C97 | Model/Append: CSR triples (indptr, indices, data) and row lists | well-formedness invariant and row decoding of the stacked matrix; refuted: 1-D and image arrays |
| C98 | Model/Coteaching: losses given, argsort arbitrary, schedules over ℚ and ℝ | smallest-k set as specification; monotone schedules; refuted: second division, exponent below 1 |
| C99 | Model/MultiannotatorFormat on top of Model/DatalabData | pivot cells iff records; label-map specification of C53; refuted: non-integer floats |
| C100 | Model/Baselines on top of Model/Filter, Model/Validation | mask iff argmax differs; confusion entries as pair counts; refuted: multi-label with a constant class, argmax baseline with a missing class |
| C101 | Model/MultilabelCount on top of Model/Count, Model/Multilabel | one-vs-rest reductions to C01, C03–C05; refuted: calibration with a missing class, documented order, estimation method |
| C102 | Model/MultilabelCount | broadcasting rules; refuted: columns, multi-label |
| C103 | Model/DatalabInfo | composition of encoding, check and decoding; memory model with addresses; refuted: ClassLabel order, unseen multi-label classes, shallow copies |
| C104 | Model/Outre on top of Model/Outlier | permutation and shift invariance of mean and standard deviation; refuted: exact labels rated lowest, two examples |
| C105 | Model/Outre | median lemmas of Np/Median |
| C106 | Model/Registry with Model/IssueFinder | dictionary assignment lemma, induction over the calls; refuted: identifier_column, listed types |
| C107 | Model/Spurious on top of Model/DatalabChecks | case analysis; scores are C44 |
| C108 | Model/KnnBuild on top of Model/KnnGraph: CSR rows, correction, k and metric | chunk lemma for flattened rows; exactness by counting: if a nearer non-duplicate is dropped, a duplicate was missing, so all distances were 0 |
| C109 | Model/DatalabLoad: dispatch, loading of files, label extraction; the loading functions are parameters | case analysis on kinds, tasks and columns; codes from C53 |
| C110 | Model/RegressionFit: attributes, find, fit with every kind of label issues, selection of rows as NumPy, pandas and lists do it, histories; the folds and the wrapped model are parameters | reduce a search to Model/Regression and use C51; case analysis on the kind of label issues; induction over histories |
| C111 | Model/RegressionFit: repeated cross-validations, standard deviations over ℝ | zero variance means equal values; medians commute with scaling |
| C112 | Model/RegressionFit: a global random state, programs making and using several objects | induction over the calls; concrete program with two assignments of folds |
| C113 | Model/LabelManager: the check as a call of a fresh CleanLearning object followed by the health summary with class names, parameters as records of optional entries | inversion of a successful run; refuted for absent classes, for documented parameters, for custom thresholds and for the score against the flags |
| C114 | Model/MnistCnn: images, network steps and sampling order as parameters, fit as a fold over batches | batches of all epochs are a permutation of copies of the given pairs; refuted for full-length indices, test indices, clones, weights, repeated indices and refitting |
| C115 | Model/FilterChecked: the public functions with assert_valid_inputs first, each with the allow_one_class the code passes | acceptance is equivalent to an explicit condition on ranges and classes; refuted for single-class labels and for multi-label classes given to everyone |
| C116 | Model/CleanLearningArgs: the attributes as references into a store of arrays, the data frame as an object that `fit` extends | without pulearning no existing array changes, otherwise at most the given ones; results agree with the value model for distinct arrays; existing columns are kept; refuted for pulearning and for the frame |
| C117 | Model/CrossValEstimates: the functions that estimate from probabilities or by cross-validation, on top of Model/CrossVal and Model/Latent | for data sets up to 10000 examples with a correctly predicted, confident example in every class the estimates are the frequencies in the joint (fixpoint of the convergence loop), for every py_method; the cross-validating functions equal the ones for given probabilities; refuted for a zero on the diagonal |
| C118 | Model/DetectionBoxes: the public box score functions with their parameters, auxiliary dictionaries as records of optional values | scores from auxiliary inputs equal those from labels and predictions; range for every alpha in [0, 1]; pooled and combined they are the image scores; refuted for lists of different length and for dictionaries with label and prediction |
| C119 | Model/MultiannotatorReport: the loop over consensus methods with all options; scoring function and calibration are parameters | a call with several methods equals calls with one; options do not influence each other (default scores); annotator table complete and sorted; ranges; agreement consensus is a mode for integer arrays; refuted for weights, for other scores and for float labels |
| C120 | existing models of count, filter, rank, dataset | reorder rows by a permutation; estimates equal, scores and masks move with their example; exact criterion for the sorting filters when values differ; refuted for ties at the cut |
| C121 | existing models of count, filter, rank, dataset | renumber the classes by a permutation; thresholds, scores, masks, raw joint and class table equivariant; criterion for confident learning without the argmax; refuted for ties and for one class |
| C122 | existing models of CROWDLAB and active learning | rearrange rows and columns by permutations; sums, counts and means over lists in another order; every result moves with its example and annotator |
| C123 | existing models of object detection | multiset arguments: maxima, minima, sums and weighted means over permuted lists; sorted lists with distinct keys are equal; witnesses with equal probabilities and equal overlaps |
| C124 | existing models of the checks of Datalab | permute the rows and rename the neighbours in the graph; medians and percentiles depend on the sorted values only, the near-duplicate sets are given by C37_sets, Shapley values by the closed form of C35; ties among null patterns and identical rows refute the rest |
| C125 | existing models of multi-label classification | the classes are treated one by one by the same function, and aggregation sorts the scores; the order of the examples is reduced to C120 class by class; two equal examples refute the rest |
| C126 | Model/OutlierManager on top of Model/IssueFinder | parameters as association lists through constructor, find_issues and fit_score; refuted for predicted probabilities | 
| C127 | Model/CheckInfo on top of Model/KnnStats | case analysis on where the graph comes from; refuted for k, metric and clustering parameters |
| C128 | Model/IdentifierFeatures on top of Model/DatalabChecks | promotion rules of numpy and pandas, reduction to C42; refuted for arrays of mixed columns |
| C129 | MultiannotatorInput: cells (number, nan, text, missing) and containers, conversion, checks, counts | exact acceptance condition, equivalence with the typed model, refutations for values, texts, verbose |
| C130 | KnnHistory (refines KnnStats: feature arrays and graphs are kept), KnnBuild, Duplicate, DataValuation | invariant over histories: the stored graph is that of the same features and metric; closed form of corrected rows gives the prefix property; flags depend on the nearest distance only; witnesses on three points |
| C131 | LabelContainer: container × number type × values; numpy indexing with integers, tables and masks | acceptance depends on the values only; closed form for arrays and Series of integers; general failure theorems for the others |
| C132 | existing models of count, filter, rank | a data set with m copies is a reindexing whose fibres have m elements; sums and cardinalities scale; the first t of m copies of a list without ties are copies of the first t; witnesses for rounding and for cut lists |
| C133 | existing models of count, filter, rank, label quality utilities | add a last class with Fin.snoc; each step commutes with the extension; rounding has a unique result without ties; witnesses for the adjusted scores and the entropy |
| C134 | existing models of the duplicate and outlier checks and of the duplicate correction | multiply all distances by c; medians and percentiles scale, comparisons are unchanged; the constants give the counterexamples |
| C135 | existing models of the regression scores and the regression label check | shifts cancel in residuals and in standardised labels |
| C136 | Rank, RankAdjusted, Multilabel, Token, Segmentation, Regression, Detection | the score of every example equals the score computed from it alone; refuted where thresholds, weights or normalisation come from the whole data |
| C137 | CleanLearning | every successful call passes the changed joint to the filter (state invariant of findMask), whose row for the declared class prunes nothing |
| C138 | Filter, Count, Rank, RankAdjusted | an example is flagged by confident_learning iff it is not reduced and another class reaches its threshold; both sides are monotone; refuted where counts are calibrated |
| C139 | Containers | positions stand for rows; each way to select rows gives the list of positions asked for; the masks of objects that support lists only are refuted |
| C140 | SegmentationDisplay | the shown images are a prefix of a sort by the number of flagged pixels; figures are characterised pixel by pixel |
| C141 | DetectionPlot | membership in the list of rectangles is characterised box by box; sizes come from C92; the misread predictions, swapped sides and missing keys are refuted |
| C142 | Model/ImageChecks on top of Model/IssueFinder and Model/Spurious | unfold the choice; exact condition for the exception and for the search for spurious correlations; refuted for checks without default parameters |
| C143 | Model/Predict: arrays as shapes and flat data, arguments as lists, the wrapped model as a parameter | row-major index arithmetic; sums of non-negative terms; refuted for lists and ignored weights |
| C144 | Model/NanProbs: entries are optional numbers, nan above every number when sorting | agreement with Model/Count without nan; thresholds depend on own columns only; refuted for nan in the own column |
| C145 | Token | from any permutation of the sentences build the permutation of the flat positions and apply C120; boundaries only enter through the map from flat positions to pairs; ties refute the rest |
| C146 | Coteaching, CoteachingEpoch | the loop is a fold over the batches used; the states along the fold are a course in which each step uses the easiest examples of the other network |
| C147 | Model/Networks: the shapes of the tensors after every layer, with the refusals of the layers; where random numbers enter the forward pass | step through the layers with one lemma per layer; the digits, square CIFAR images; refutations by images of 44 by 44 pixels and by a channel that is kept or dropped |
| C148 | Model/OutlierCheck, Duplicate, DatalabChecks, DataValuation, NonIid, Spurious | compare two successful runs with different thresholds: everything before the comparison with the threshold is the same | 
| C149 | Model/CompressInts (two's complement), CleanLearning | the chosen type holds all values below the number of classes; unfold the table |
| C150 | CleanLearning.lean and RegressionFit.lean: `findLabelIssues`, `fit`, `processArg`, `finalFit`; `find`, `fit`, `finish` | Both histories end in the same call of the last step with the same mask, and the last step does not read the attributes in which the states differ. |
| C151 | Count.lean, Filter.lean, CrossValEstimates.lean, Dataset.lean as they are | The guess of the true class is the true class, so the raw joint counts pairs and its rows already sum to the label counts; sorted prefixes of the right length are the sets of wrong labels. |
| C152 | the same | Partial theorems with the missing separation as hypothesis; two small data sets refute the statement without it. |
| C153 | Batched.lean, Segmentation.lean, Token.lean, Multilabel.lean, CleanLearning.lean as they are | Thresholds of streaming batches are at most 1, so all certain predictions reach them; the counted errors are the prefix of the sorted scores. The other modules by their reductions (C31, C24, C56) to C151. |
| C154 | RegressionFit.lean, DetectionScore.lean, Multiannotator.lean as they are | Regression: the score of the untouched data is already 1, so the search cannot improve it and the fraction stays 0. Detection: each kind of box score is above 0.2, the largest possible threshold (C41). Annotators: all agreements are 1, so the posterior moves towards the label. |
| C155 | NoiseGeneration.lean, Count.lean, Latent.lean, Filter.lean, Dataset.lean as they are | The flip counts of C52 make every class keep a label, so the conditions of C151 hold; the noise matrix then consists of the flip counts divided by the class sizes, and the rounding is bounded by one example per entry. |
| C156 | Filter.lean, Count.lean as they are | For two classes a flagged example is below one half, so a threshold above one half does not fall; below one half every mispredicted example was confident. Pruning: the calibrated row of a class counts at least the confidently mispredicted examples, which come first in the order, so either all of them are removed or one example of the class remains. |
| C157 | the same | Partial theorem for confident_learning with the missing monotonicity as hypothesis; six small data sets refute the rest, evaluated in the kernel. |
| C158 | Multiannotator.lean as it is | The weights restated with counts over the examples with several labels (filters of the list of rows become finite sets); posterior as a weighted mean. |
| C159 | the same | Adding the vote makes the label the only mode of the example; modes of other examples are untouched; C19 gives existence. |
| C160 | the same | Numerator and denominator of C158 grow by the same weights; the sign depends on whether the mean is below q. One table of four examples refutes the general claim. |
| C161 | RegressionFit.lean as it is | Cross-validated predictions follow the scale (induction over folds); r2 and spreads are invariant, so the search makes the same choices; scores depend on the size of residuals, flags on their order. |
| C162 | Outre.lean as it is | Three examples refute it. A finer unit raises scores to a power: convexity of powers for the median. |
| C163 | Detection*.lean as they are | Overlap and centre distance are invariant under each generator of the motions; every result depends on boxes only through these; matchings are transported along equal lengths. |
| C164 | Detection*.lean as they are | Overlap is homogeneous above the constant 1e-6; the example of C123 at a tenth of the resolution refutes it for issues. |
| C165 | Segmentation.lean, Batched.lean as they are | The lists of pixels are permutations of each other after renumbering; thresholds and number of suspects depend on the list only up to order; a pixel without ties is taken iff fewer pixels are below it than there are suspects. |
| C166 | Segmentation.lean as it is | One block of classes 0 and 2 refutes it; for blocks of one class the rounded mean is that class and C165 applies to the blocks. |
| C167 | New Distance.lean: cosine and euclidean distances on real vectors, the search of scikit-learn | Both distances are functions of scalar products; shift, row lengths and unit by calculation. |
| C168 | Distance.lean | Three points in three dimensions, and three in four, refute it; the distances are computed through scalar products. |
| C169 | New CustomCheck.lean: class statements as functions from the parent's attributes and the body; report levels as a dictionary in order of insertion | Case analysis; the loop over levels accepts exactly lists of strings; slices of numbered levels. |
| C170 | KNN-Shapley recursion, `shapleyValue` over all orders of arrival | exchange two players in every order; first k members of a set with one more point |
| C171 | the same, with `findIssues` | evaluate a game of four points; partial by the closed form of C35 |
| C172 | `findLabelIssues` on corrected labels | the mean of a class does not fall if below-average labels leave and labels at the threshold arrive |
| C173 | the same | evaluate small data sets; partial as for C172 |
| C174 | `permutationTest`, `kdeTail` over ℝ with Mathlib's normal distribution | reorder the list of gaps; monotonicity and symmetry of the normal distribution function |
| C175 | the same, `findIssues` | variance is zero iff all values are equal; complete graph |
| C176 | `issueMask`, `labelQualityScores` | the score of an overlooked box is at most 0.1, and 0 if certain and alone in its class |
| C177 | the same | all similarities are 1, so the floor of the swap score is 1; partial: the score is the floor |
| C178 | Count.lean, Rank.lean, Filter.lean | thresholds are means, so they move by at most ε; every comparison and every argmax keeps its result; sorted lists with the same strict order are equal; for the existence of ε the minimum over finitely many gaps |
| C179 | Distance.lean, OutlierCheck.lean, Outlier.lean | distances are Lipschitz (triangle inequality; directions of vectors that are not short); sorting does not increase the largest change of an entry, by counting; quartiles interpolate sorted entries |
| C180 | Count.lean, Filter.lean | the threshold is a mean over rightly and wrongly labelled examples, bounded by hi and q; the true class of a wrongly labelled example reaches it; rightly labelled ones are removed because their label is the prediction |
| C181 | Count.lean, Filter.lean | C180 with lo = p, hi = 1, q = 1 - p; counterexample with three examples: no class other than the label reaches its threshold, so no pair is counted and no filter takes anything |
| C182 | Count.lean, Filter.lean | the final removal step keeps only examples for which some class exceeds the label by 1e-6; the number of issues is 0, so the low-score filters take nothing |
| C183 | Count.lean, Filter.lean | constant predictions: the threshold of a class is its probability, so every example reaches every threshold; for the default filter the two-class lemma of C172 |
| C184 | Count.lean, Filter.lean | split sum and count of a class into the example and the rest; removing one value moves a mean of values in [0, 1] by at most 1/m; flags through the threshold comparison |
| C185 | Count.lean, Filter.lean | the mean of a class without an example of at least average confidence is not larger, so the example still reaches it |
| C186 | Filter.lean | classes with one example are skipped by the pruning masks; positive part by the two-class lemma of C172 |
| C187 | RankReal.lean | sums over a repetition or permutation of the models; equal models cancel out of the weighted mean |
| C188 | Multiannotator.lean | every stage of the vote maps candidates to a permutation of the renumbered candidates; the rest uses counts and maxima only |
| C189 | Multiannotator.lean | one example with equal probabilities, computed; partial by the lemmas of C188 |
| C190 | ObjectDetection | witnesses for all images by the bounds of the similarity; partials by the definition of the badly-located and overlooked scores |
| C191 | ObjectSummary.lean | the greedy matching skips the detection; the sorted list loses one false flag; the area under the interpolated curve is monotone in the precision |
| C192 | ObjectSummary.lean | the greedy matching gives the box to the new detection only; the sorted list gains one true flag; induction over the list for the area |
| C193 | Distance.lean, OutlierCheck.lean | bounds for percentiles from counts; the neighbours of an example are its nearest others; C87_rule for the cut-off |
| C194 | KnnBuild.lean, Duplicate.lean | the corrected row begins with a copy at distance 0, which is below the radius as the median is at least 1e-6 |
| C195 | KnnBuild.lean, Duplicate.lean | the rows of the copies from position k on, by the branches of the correction; partial by C108_duplicates |
| C196 | Multiannotator.lean | both means over the same examples, C158_weights for the scores and positive weights |
| C197 | Multiannotator.lean | counts of agreeing labels; two tables of four annotators for the refutations |
| C198 | Filter.lean, Count.lean | means of a class with one more example, so thresholds do not fall; confident_flag_iff |
| C199 | Filter.lean, Count.lean | prune_two for the partial theorem, removal_of for the refutation |
| C200 | `outreScores`, `withPredictions` (Model/Outre) | bound the standard deviation of the residuals by the error size, most standardised labels by Chebyshev, hence the average distances of most examples; five times the usual distance is below a twentieth of the median score |
| C201 | same | witness of four groups of five targets with errors 1 and 1000; single errors from C200 |
| C202 | `findIssues` (Model/DataValuation) | closed form of C35; each contribution by cases on whether lister and listed are right |
| C203 | same | points on a line, checked to be nearest neighbours; what remains from C202 |
| C204 | Multilabel, Segmentation, Token, DetectionScore | two parts with scores 0 and 1; the exponential moving average from C23 |
| C205 | same | set one part apart and cross-multiply; x·exp(-x/T) grows up to T |
| C206 | RankReal | the score is a sum with non-negative weights, not all 0, for every weighting |
| C207 | same | two models and two examples; fixed weights from the same sum |
| C208 | Count, Filter, Rank | thresholds change by the same linear map; the sort compares only |
| C209 | same | six examples and their squared, normalised probabilities; order of the classes suffices for predicted_neq_given |
| C210 | Model/OutlierFeatures on top of Model/Outlier, OutlierCheck and KnnBuild | one corrected graph computed by both sides |
| C211 | Model/OutlierFeatures | refuted with three numbers on a line and one neighbour; partial for the direction of the change and for predictions |
| C212 | Model/Token (merge_probs), Filter, Rank | probabilities of merged and of single classes, then C07 and C31 |
| C213 | same | refuted with three examples; partial for self-confidence |
| C214 | Model/DetectionScore | members and order of a sorted filtered list |
| C215 | Model/Filter, Count | rows of the confident joint, columns of the prune counts and class masks depend on the examples of the class only |
| C216 | same | refuted with four examples; partial for the number of issues |
| C217 | Token, Batched, FilterChecked | flat data of renumbered sentences are the renumbered flat data, then C121; thresholds and counts of the batched search carry over |
| C218 | OutlierCheck, Distance | sorted distances split at the cut-off; a quartile that uses the smallest reported distance grows slower than that distance; sorted neighbour distances are monotone |
| C219 | Duplicate, OutlierCheck | sorted values split at the fraction of the median; a median that uses the largest reported value falls slower than that value; with a nearest first neighbour an example is flagged iff its nearest distance is below the radius |
| C220 | Multilabel, Token, FilterChecked | the one-vs-rest problem of each class is smoothed as in C208; a linear map commutes with sorting and the moving average; tokens by flattening |
| C221 | DatalabChecks | counts of the rarest class stay, all others and the total grow; the rarest class is unique |
| C222 | DatalabChecks | refuted: two classes with one example each; partial: the class stays strictly the rarest |
| C223 | DatalabChecks | scores are fractions of present values |
| C224 | DatalabChecks | invariant of the search: the ratio to beat stays above the performance of the group |
| C225 | Duplicate, Distance | witness with multiples; exact meaning of score 0 as partial theorem |
| C226 | Outre | the median moves by at most as much as a value |
| C227 | Multilabel, Token | reduction to C138 |
| C228 | OutlierCheck.freshCheck, Outlier.fitScore, Knn.featuresToKnn | two to ten examples: the default of Datalab is refused (C108), that of OutOfDistribution equals k = N - 1, which Datalab accepts; more than ten by C210 |
| C229 | Duplicate.findIssues | the median is at least D if fewer than half of the examples have a neighbour within D; witness with two close pairs and a single example |
| C230 | Batched, Segmentation | streaming thresholds do not fall, confident disagreements do not become more if the order of the other classes remains; witness with a changed order |
| C231 | Batched, Count.numLabelIssues | streaming thresholds equal those of the data (C33); counted in batches implies counted by num_label_issues, and conversely for two classes; witness with three classes |
| C232 | Model/OutlierPred | thresholds, adjusted rows, entropies and sorted softmax rows commute with the permutations; one equation for all outcomes |
| C233 | Model/OutlierPred | with stored thresholds the call works row by row |
| C234 | Model/OutlierPred | a sum of concave terms does not grow when the largest entry gains from the others; softmax keeps that relation; numeric bounds for gen with 1000 classes |
| C235 | Model/Filter, Model/Rank | with two classes the margin is a function of the label's probability; the removed numbers agree because each column of the count matrix sums to the class size |
| C236 | Model/RankReal | the entropy over the label's probability falls with it; log(1+x)/x falls |
| C237 | Model/Batched, Model/Filter | both take a prefix of the same order; C231 compares the lengths; with two classes the prefix holds mispredicted examples only |
| C238 | Model/Multilabel | apply C235 to the binary problem of each class |
| C239 | Model/OutlierPred | binary entropy falls beyond one half; the product of the two softmax values is a function of cosh |
| C240 | Model/OutlierPred | the adjusted probabilities change by one increasing linear map; with two classes by C239; a numeric witness for three |
| C241 | Model/Count, Model/Dataset | the share of each entry in its row is unaffected by a factor; everything later is a function of these shares and the labels |
| C242 | Model/Filter, Model/FilterChecked | only the pruning filters read the matrix; a witness with four examples |
| C243 | Model/Multiannotator, Model/ActiveLearning | lists of repeated rows are permutations of `t` copies of the list; all ratios and orders are unchanged |
| C244 | Model/Multiannotator | modes and candidates are mapped by Fin.castSucc through every tie-break; argmax of counts with a last zero |
| C245 | Model/Multiannotator | compare the two posteriors term by term; witness with four annotators, whose root is rational |
| C246 | Model/OutlierPred, Model/DatalabChecks | sums and counts over repeated data are multiples; checks by surjectivity |
| C247 | Model/OutlierPred | the thresholds are extended by 2, the adjusted predictions change by one increasing linear map; entropies by a factor |
| C248 | Model/Multilabel | the new class comes first in the sorted list; two runs of the average from different starting values differ by a power of 1 - alpha |
| C249 | Model/Multilabel, Model/FilterChecked | the new class is a binary problem with all labels 0 and certain predictions, in which nothing is flagged (C182); the other classes are searched as before |

## Disagreements found

Properties that the code does not have. Each is proved false of the model with a concrete witness, and the part that holds is kept as a `_partial` theorem.

| id | where | what the code does | theorem |
|----|-------|--------------------|---------|
| C03 | count.py `compute_confident_joint` | When two or more classes reach their thresholds the overall argmax is counted, although that class may miss its own threshold. | `C03_not_most_probable_confident` |
| C04 | count.py `compute_confident_joint` | The threshold of an absent class is out of reach, but an example can still be counted into the absent class through the collision rule of C03. | `C04_absent_class_is_counted` |
| C05 | count.py `calibrate_confident_joint` | A supplied confident joint with a zero row for a class that has examples is not refused: the estimated joint then says that no example is given that class, and the other rows are too large. | `C05_not_zero_row` |
| C08 | filter.py `find_label_issues`, `_keep_at_least_n_per_class` | With `prune_by_noise_rate` and `min_examples_per_class=5` a class of six examples can be left with four. | `C08_not_min_examples_by_noise_rate` |
| C100 | filter.py:672-699, internal/util.py:274-311, filter.py:702-760 | For multi-label data `find_predicted_neq_given` raises as soon as one class is given to no example or to every example (the single-label validation inside asks for two classes). `confusion_matrix` has one row per distinct label and one column per distinct prediction, so the argmax baseline raises with the pruning filters (the default) if a class is never given or never predicted. | `C100_not_multilabel`, `C100_not_argmax` |
| C101 | count.py:294-326, 445-560, 117-122 | `_calibrate_confident_joint_multilabel` counts the distinct labels instead of the given matrices, so if a class does not occur, fewer matrices come back and the largest classes are lost. Entry (c, 0, 0) counts the examples without the class in which it is found missing, the documentation says those with the class in which it is found (and the reverse for (c, 1, 1)). `num_label_issues` ignores `estimation_method` for multi-label data, whatever its value. | `C101_not_documented_order`, `C101_not_calibrate`, `C101_not_method` |
| C102 | count.py:581, 689-706 | A column of thresholds (documented) is broadcast along the examples: it raises, or, with as many examples as classes, is taken for one threshold per example. For multi-label data the thresholds are passed on to the binary problems: with three or more classes this raises, with two classes they are taken for absence and presence of each class. | `C102_not_column`, `C102_not_column_square`, `C102_not_multilabel`, `C102_not_multilabel_two` |
| C103 | datalab/internal/data.py:379-390, data_issues.py:78-79, 139-162 | For a `ClassLabel` column the columns of `pred_probs` are taken in the order of the names in the data set, not in the documented lexicographic order. Multi-label data accept more columns than classes and then report `None` as a predicted label. `get_info()` hands out the internal dictionary, and `get_info(name)` a shallow copy whose arrays are the internal ones, so changes by the caller change what Datalab reports. | `C103_not_sorted`, `C103_not_multi_labels`, `C103_not_copy`, `C103_not_deep` |
| C104 | regression/rank.py:159-172 | The residuals are centred, so a constant error of all predictions is invisible, and a label that equals its prediction gets the lowest score when the other predictions share an error. Each example is its own nearest neighbour and half of the examples are neighbours, so when half of the examples coincide (in particular for two examples) they get the perfect score 1 however wrong they are. | `C104_not_two`, `C104_not_residual` |
| C106 | datalab/internal/issue_manager_factory.py:47-107, datalab.py:554-566 | The documented check `identifier_column` is registered for no task, so asking for it raises. `data_valuation` is missing from the documented list for regression and multi-label data. For image data `spurious_correlations` is accepted although it is not among the possible types, and listed types such as `dark` are refused as keys of `issue_types`. | `C106_not_identifier_column`, `C106_not_listed`, `C106_not_only_possible` |
| C108 | internal/neighbor/knn_graph.py:206-247, 372-397, 492-564, 567-578 | `n_neighbors=0` is taken as the default (`k or ...`) instead of being refused. `correct_knn_graph` regroups the entries of a graph with rows of different lengths, so a row can end up listing its own point. The docstring example of `correct_knn_distances_and_indices` shows a neighbour the code does not produce. Moving the other neighbours to the back relies on `np.argsort` of a boolean mask being stable, which numpy does not promise (rows of at most 16 entries are sorted by insertion). | `C108_not_zero`, `C108_not_ragged`, `C108_not_docstring` |
| C109 | datalab/internal/data.py:148-168, 215-235, 258-311 | A documented identifier of a data set on the Hub never works: `load_dataset` without a split returns a dictionary of splits, which cannot be hashed (`TypeError`). Instances of subclasses of the supported types pass the type check and then raise `KeyError`. A label column that does not exist raises `KeyError`, because it is read before the check that would raise the `ValueError` naming it. | `C109_not_hub`, `C109_not_subclass`, `C109_not_missing_column` |
| C110 | regression/learn.py:282-299, 446-475, 490-492, 837-871 | A data frame whose column `is_label_issue` holds 0 and 1 is accepted, but `np.invert` turns it into positions -1 and -2: the model is trained on copies of the last two rows, and for labels in a list rows and labels no longer match. Labels of shape `(n, 1)` are accepted by `find_label_issues` but make `fit` raise after the cross-validation. `k` is not updated by given label issues, and is changed by a search that raises. For integer labels `predicted_label` is cut off, not rounded. | `C110_not_column`, `C110_not_zero_one`, `C110_not_zero_one_list`, `C110_not_zero_one_two`, `C110_not_fraction`, `C110_not_unchanged`, `C110_not_predicted` |
| C111 | regression/learn.py:568-570, 604-606 | The aleatoric uncertainty is the spread of the predicted residuals, not of the residuals: it can be 0 for any amount of noise. `model_kwargs` are not passed to the trainings for the uncertainties. | `C111_not_error_spread`, `C111_not_kwargs` |
| C112 | regression/learn.py:148-157, 633, 691 | `self.seed` is never used; the seed only sets the global random state of NumPy when the object is made. Two objects with the same seed, or two calls on one object, give different results, and the random numbers of the caller are reset. | `C112_not_same_seed`, `C112_not_repeatable`, `C112_not_local` |
| C113 | datalab/internal/issue_manager/label.py:92-113, 169-184, 197-240 | The check always fails if the predictions have a column for a class that no example has (the class names come from the labels of the data, CleanLearning accepts such predictions), and if `health_summary_parameters` (documented as keyword arguments of `dataset.health_summary`) lacks `class_names` or contains a confident joint, or a joint with the number of examples. The reported `confident_thresholds` ignore the option `thresholds`. The score counts the issues of `filter_by='confident_learning'`, while the flags use another filter and skip classes with at most 10 examples: a score of 0.8 can go with no flagged example. | `C113_not_absent_class`, `C113_not_health_parameters`, `C113_not_thresholds`, `C113_not_consistent` |
| C114 | experimental/mnist_pytorch.py:228-369 | With as many indices as the data set has images the indices are ignored and the rows are in the order of the data set. For the indices `0 .. test_size - 1` the test images are predicted although the training images were trained on. Clones lose `seed` and `loader`. The weight of an example is that of the first example of its class, and training with weights fails if a class is missing. All occurrences of a repeated index get the label of the last one. A second `fit` continues the training of the first. | `C114_not_weights`, `C114_not_missing_class`, `C114_not_repeated`, `C114_not_full_length`, `C114_not_training_images`, `C114_not_clone`, `C114_not_fresh` |
| C115 | filter.py:207-217, internal/validation.py:84-112 | Labels of a single class are accepted only if it is class 0, and then the filters `predicted_neq_given`, `low_normalized_margin` and `low_self_confidence` and `num_label_issues` still refuse. In multi-label data a class given to every example makes the search raise with every filter, and a class given to nobody makes it raise with `predicted_neq_given`. | `C115_not_one_class`, `C115_not_multilabel` |
| C116 | classification.py:497-504, 539, 894-903, 1041 | With `pulearning` and two classes the noise matrices given by the caller and the confident joint in the given dictionary are overwritten in place. `fit` adds the columns `label_quality` and `sample_weight` to the caller's data frame `label_issues`; if the same frame is used for a second call with other probabilities, the scores of the first call are kept. | `C116_not_arrays`, `C116_not_frame`, `C116_not_second_fit` |
| C117 | count.py:770-782, 1331-1404, internal/util.py:49-110, internal/latent_algebra.py:231-256 | If the joint has no correctly labelled example of a class, the default `py_method="cnt"` divides zero by zero (clipped) and the prior of the class becomes the lower bound 1e-6 although the joint counts examples in it. Noise rates above 0.9999 and priors below 1e-5 are clipped too, so for more than 10000 examples the estimates can differ from the frequencies. | `C117_not_zero_diagonal` |
| C118 | object_detection/rank.py:486-509, 676-687, 842-864 | Lists of labels and predictions of different length are cut to the shorter one instead of being refused. `_compute_swap_box_scores_for_image` takes `lab_bboxes` from its argument and not from the completed dictionary, so for dictionaries with `label` and `prediction` the other two scores can be computed but the swap scores raise a `TypeError`. From such dictionaries without `min_possible_similarity` the least similarity is taken over each image alone, so the scores differ from those for the whole data set (`C118_not_same_minimum`). | `C118_not_lengths`, `C118_not_swap_from_label`, `C118_not_same_minimum` |
| C119 | multiannotator.py:217-334, 1508-1514, 1774-1786, internal/util.py:150-166 | With several consensus methods the returned weights are those of the last method, while the main columns and tables belong to the first. Without `return_detailed_quality` the annotator qualities are computed from default label quality scores even when `label_quality_score_kwargs` asks for other ones, so asking for the detailed table changes the annotator table. With `quality_method="agreement"` and labels stored as floats (always so for a DataFrame or when a label is missing) `value_counts` puts the counts of the classes that occur at the first positions, so the default consensus can be a class that nobody chose, with quality 0. | `C119_not_agreement`, `C119_not_weights`, `C119_not_flags` |
| C12 | filter.py `find_label_issues` | With `prune_by_noise_rate`, `num_to_remove_per_class[k]` limits the removals whose *true* class is k, not those of the given class k. | `C12_not_num_to_remove_by_noise_rate` |
| C120 | filter.py:321-333, 849-860, 893-905 | the filters that sort (`low_self_confidence`, `low_normalized_margin`, `prune_by_class`, `prune_by_noise_rate`, `both`) cut a sorted list at a fixed number; of several examples with the value at the cut the position in the list decides. Two examples with the same self-confidence, one mislabelled and one not: in one order the first is flagged, after exchanging them the other (`C120_not_ties`, for every sort). Without ties the flagged examples are the same (`C120_find_partial`). | `C120_not_ties` |
| C121 | count.py:585-595, filter.py:207-210 | an example with several most probable classes counts for the one with the lowest number in the confident joint. For two classes with two examples each and probabilities of 1/2 everywhere, the joint has mislabelled examples among those of the class numbered 1 and none in the class numbered 0 (`C121_not_ties`), so the noise of a class depends on its number. Labels of one class only are accepted if that class has number 0 and refused otherwise (`C121_not_one_class`). Without such cases the flagged examples are the same (`C121_find_partial`); calibrated counts can differ by one only where two fractions to be rounded are equal (`C121_calibrated_partial`, `C121_find_estimated_partial`). | `C121_not_ties`, `C121_not_one_class` |
| C123 | object_detection/filter.py:264-295, 343-351 | the average precision that sets the thresholds of `find_label_issues` sorts all predictions of a class by probability; among equal probabilities the order of the images decides. With a correct and a spurious prediction of probability 0.9, a third image is found to have an issue if the correct one comes first and not otherwise (`C123_not_issue_ties`). A prediction is matched with the first of the annotated boxes that it overlaps most, so precision and recall depend on the order of the annotated boxes (`C123_not_box_metrics`). | `C123_not_box_metrics`, `C123_not_issue_ties` |
| C124 | internal/neighbor/knn_graph.py:357-397, issue_manager/null.py:95-116 | of several equally frequent patterns of missing values the first one in the order of the rows is reported (`C124_not_null_pattern`). Exact duplicates are listed as each other's neighbours in the order of the rows, and of more than `k` duplicates only the first are listed, so identical rows with identical labels get different Shapley values: of four identical rows labelled 0, 1, 0, 0 the first has the value 5/8 and the third 1/2 (`C124_not_twins`). For a given neighbour graph nothing depends on the order. | `C124_not_null_pattern`, `C124_not_twins` |
| C125 | filter.py:472-489 | the filters that sort cut a sorted list at a fixed number. With `low_self_confidence` two examples with the same labels and the same probabilities are treated differently, one is flagged and the other is not, for every sort (`C125_not_ties`). Without ties the order of the examples does not matter (`C125_examples_find_partial`); the order of the classes never matters. | `C125_not_ties` |
| C126 | issue_manager/outlier.py:66-88, 290-302, issue_finder.py:296-313 | `Datalab` passes the parameters of a check to its constructor and again to `find_issues`, and the outlier check passes what it does not know itself on to `OutOfDistribution.fit_score`. On predicted probabilities every parameter except `threshold` (and `verbose`) therefore ends in a `TypeError`, which is printed and the check is skipped: `method`, `adjust_pred_probs` and `confident_thresholds`, documented for exactly this case, can never be used (`C126_not_parameters`, `C126_not_datalab`). Whatever the caller writes into `ood_kwargs['params']` is overwritten, because the new dictionary always has the key `k` (`C126_not_ood_kwargs`), and the caller's dictionary is changed (`C126_not_unchanged`). With features or a graph all parameters are used (`C126_graph_partial`). | `C126_not_parameters`, `C126_not_datalab`, `C126_not_ood_kwargs`, `C126_not_unchanged` |
| C127 | issue_manager/outlier.py:227-237, duplicate.py:128-132, noniid.py:232-235, underperforming_group.py:22,309-325 | the stored `k` is the parameter, not the number of neighbours used: a graph that is passed or stored with another number of columns is used as it is (`C127_not_k`). The stored metric is `None` for every check that takes the graph of an earlier check (`C127_not_metric`). The stored parameters of the clustering are always `{'metric': 'precomputed'}`; those the caller gave are used and not stored (`C127_not_clustering`). | `C127_not_k`, `C127_not_metric`, `C127_not_clustering` |
| C128 | issue_manager/identifier_column.py:47-91, 107 | an array has one type for all columns: next to a single column of floats no identifier column of an array is ever reported, although the same table as a DataFrame or dictionary has it reported (`C128_not_array`, `C128_not_mixed_array`). A list of rows is read as a list of columns (`C128_not_rows`). A column of truth values and integers counts as integers in a dictionary and not in a DataFrame (`C128_not_truth_values`). A one-dimensional array is taken for many columns of one row: nothing is reported and the issue table has one row (`C128_not_vector`). Otherwise the containers agree (`C128_containers_partial`, `C128_integer_array_partial`). | `C128_not_array`, `C128_not_mixed_array`, `C128_not_rows`, `C128_not_truth_values`, `C128_not_vector` |
| C129 | internal/multiannotator_utils.py:19-125, multiannotator.py:158-178, 937-954 | The values of the predicted probabilities are never checked: any values are accepted with a good shape (`C129_not_probabilities`), whereas the single-annotator functions check the range. Texts are refused in an array but silently converted to numbers in a data frame (`C129_not_strings`). `get_majority_vote_label(verbose=False)` skips all checks: the label -1 is counted as the last class and 1/2 as class 0 (`C129_not_verbose`). The exact condition for acceptance is `C129_check_partial`, `C129_frame_partial`, `C129_array`; on checked tables the counts are right (`C129_counts_partial`). | `C129_not_strings`, `C129_not_probabilities`, `C129_not_verbose` |
| C130 | `knn_graph_helpers.py:20-69` | What a check works with depends on the checks before it. (1) A second check with *other features* silently reuses the stored graph of the first features if it has enough neighbours (`C130_not_features`), although `Datalab.find_issues` documents that without `knn_graph` the graph is constructed from the provided `features`. (2) A check without a metric reuses a graph built with the metric of an earlier check instead of the default one (`C130_not_metric`). (3) A given `knn_graph` is used on a new Datalab, but after a check with another metric it is ignored in favour of a graph built from the features, or the check fails for lack of features, if a metric is given too (`C130_not_given_graph`); documented is that `knn_graph` takes precedence. (4) A check for k neighbours uses a stored graph with more; near-duplicate sets then contain examples that are not among the k nearest (`C130_not_number_of_neighbours`). Proved: with the same features and metric argument and no given graph, the graph is the same unless an earlier check asked for more neighbours (`C130_same_partial`, `C130_graph_partial`), and even then the data-valuation scores and the near-duplicate flags and scores are the same (`C130_data_valuation_partial`, `C130_near_duplicates_partial`). | `C130_not_number_of_neighbours`, `C130_not_features`, `C130_not_metric`, `C130_not_given_graph` |
| C131 | `rank.py:496`, `filter.py:669` | `get_label_quality_scores` validates labels in every container and number type, but then uses the original object as an index: a list fails for lack of `shape` (`C131_not_list`), integer-valued floats fail as indices (`C131_not_float`), a one-column frame silently gives an n × n matrix, also in `find_predicted_neq_given` (`C131_not_frame`), and a Boolean array is taken as a mask of the columns: it fails unless there are as many examples as classes (`C131_not_bool`), and then can silently return the probability of the wrong class (`C131_not_bool_wrong`). `num_label_issues` and `compute_confident_joint` convert with `labels_to_array` first. | `C131_not_list`, `C131_not_float`, `C131_not_frame`, `C131_not_bool`, `C131_not_bool_wrong` |
| C132 | count.py:585-619, internal/util.py:274-289, filter.py:849-905 | the calibrated counts are rounded to integers per class, and with more copies less is rounded away: the estimated joint of four examples has 1/4 or 1/2 where that of the same examples twice has 3/8 (`C132_not_joint`, for every sort). The filters by counts cut a sorted list, so one of two copies of the same example can be flagged and the other not (`C132_not_copies`, for every sort). Thresholds, scores and numbers of issues never change; the flags do not with the other filters and different scores (`C132_find_partial`), the joint not if nothing is rounded (`C132_estimate_partial`). | `C132_not_joint`, `C132_not_copies` |
| C133 | internal/label_quality_utils.py:17-50, 70-108, rank.py:496-530 | `adjust_pred_probs=True` shifts all probabilities by the largest threshold, and the threshold of a class without examples is 2 (no probability reaches it): a further class without examples changes a score from 3/4 to 4/7, though never the order of self-confidences (`C133_not_adjusted`, `C133_adjusted_order`). The entropy of `confidence_weighted_entropy` is divided by the logarithm of the number of classes, so the scores depend on the number of columns: below 0.56 for two classes with 1/2 each, above 0.57 with a third of probability 0 (`C133_not_entropy`). With a single class `normalized_margin` raises, with a second one nobody uses it does not (`C133_not_one_class`). Everything else is unaffected up to ties of the rounding (`C133_find_partial`, `C133_joint_partial`). | `C133_not_adjusted`, `C133_not_one_class`, `C133_not_entropy` |
| C134 | issue_manager/duplicate.py:66-83, 189-228, internal/outlier.py:46-57, 99-112 | constants are compared with distances: the median distance is taken to be at least 1e-6, distances up to 1e-8 count as 0 and average Euclidean distances below 1.5e-7 as well. Two points at distance 1 are no near duplicates; in a unit ten million times as large both are flagged (`C134_not_near_duplicates`), and the outlier score changes from exp(-1) to 1 (`C134_not_outlier_scores`). The flags of the outlier check and the corrected graph never change (`C134_outlier_flags`, `C134_correction`); the rest does not for distances above these constants (`C134_near_duplicates_partial`, `C134_outlier_scores_partial`). | `C134_not_near_duplicates`, `C134_not_outlier_scores` |
| C136 | rank.py:496-530, rank.py:300-330, multilabel_classification/rank.py, regression/rank.py, object_detection/rank.py | Several scores do depend on the rest of the data. `adjust_pred_probs=True` subtracts thresholds computed from all examples: 2/3 or 8/9 for the same example (`C136_not_adjusted`). An ensemble with the default weights by accuracy or log loss weighs the models by the whole data: 9/10 or 7/8 (`C136_not_ensemble_weights`), and a part with only one class is refused (`C136_not_ensemble_one_class`). A part of multi-label data in which a class is missing is treated differently (`C136_not_multilabel`); a single regression example is refused (`C136_not_residual`); the similarity of objects is normalised by the smallest similarity in the data set (`C136_not_detection`). Proved: the unadjusted scores of classification data (`C136_own_score`, `C136_scores`, `C136_two_parts`, `C136_entropy`), ensembles with uniform or given weights (`C136_ensemble_partial`), tokens, sentences, segmentation with softmin, residuals, and the rest under the stated conditions. | `C136_not_adjusted`, `C136_not_ensemble_one_class`, `C136_not_ensemble_weights`, `C136_not_multilabel`, `C136_not_residual`, `C136_not_detection` |
| C137 | classification.py:893-909 | (1) Only the counts are changed: with `filter_by="prune_by_class"` the number of issues of a class is the number of its examples minus the diagonal entry, and the examples taken from the off-diagonal entry are not added to the diagonal, so an example of the class declared to be clean is reported (`C137_not_prune_by_class`). (2) `predicted_neq_given` and `confident_learning` do not use the counts and report such examples too (`C137_not_predicted`, `C137_not_confident_learning`), and with `low_memory` the declaration is ignored (`C137_not_low_memory`). (3) `confident_joint[1-p][1-p] = 1` overwrites a *count* by a noise rate: the other class is taken to have a single right example, and `min_examples_per_class` then removes its label errors from the report: an issue found without the declaration is missed with it (`C137_not_other_class`). Proved: no example of the declared class is reported with the default filter or `both` (`C137_clean_class_partial`), and the stored matrices (`C137_matrices`). | `C137_not_prune_by_class`, `C137_not_predicted`, `C137_not_confident_learning`, `C137_not_low_memory`, `C137_not_other_class` |
| C138 | count.py:585-619, filter.py:343-420, rank.py:545-582, internal/label_quality_utils.py:70-108 | A better prediction raises the threshold of the class, so that other examples of the class may no longer count as confidently right, and the calibration then takes a larger part of the class to be wrong: raising the probability of the given label of one of seven examples from 0.30 to 0.33 makes this example an issue with `prune_by_noise_rate` (the default), `prune_by_class` and `both` (`C138_not_estimated`), and raises the calibrated number of issues from 2 to 3 (`C138_not_number_calibrated`). `confidence_weighted_entropy` falls to 0 when the prediction becomes certain (`C138_not_entropy`, cf. C57), and `adjust_pred_probs=True` can lower the score from 19/22 to 5/6 (`C138_not_adjusted`). Proved: `confident_learning` and `predicted_neq_given` for simultaneous improvements of any number of examples (`C138_find`), the number of issues (`C138_number`), self-confidence and normalized margin (`C138_scores`), the filters by lowest scores (`C138_low_scores_partial`) and the filters by counts with a given confident joint (`C138_counts_partial`), the last two up to ties. `C138_entropy_partial` shows that nothing but the lower bound `1e-6` is to blame for the entropy score: above it the score never falls. | `C138_not_estimated`, `C138_not_number_calibrated`, `C138_not_entropy`, `C138_not_adjusted` |
| C139 | internal/validation.py:29-53, 121-161, internal/util.py:455-468, classification.py:506-543 | (1) `assert_indexing_works` tests `X[index_list]` only, but the final training uses `X[mask]` with an array of booleans. An object whose rows are looked up one by one (`[self.rows[i] for i in index]`) takes `True` and `False` for 1 and 0: if no label is flagged, the final model is trained on n copies of the second row with the labels of all rows, without an error (`C139_not_integers`); otherwise it is given more rows than labels (`C139_not_integers_lengths`). An object that refuses masks makes `fit` raise after all of cross-validation (`C139_not_refused`). (2) With given `pred_probs` nothing about X is checked: a list of rows, None or data of another length pass and `fit` raises at the end (`C139_not_checked`). (3) Labels in a data frame with one column are accepted, but the weights are then two-dimensional and `fit` raises (`C139_not_frame_labels`). Splits are right for every accepted data set (`C139_split`), and the final training for arrays, frames, torch data sets and objects that understand masks (`C139_final_partial`). | `C139_not_integers`, `C139_not_integers_lengths`, `C139_not_refused`, `C139_not_checked`, `C139_not_frame_labels` |
| C140 | segmentation/summary.py:83-85, 100-114, 148-151 | (1) `exclude` hides pixels only after the images have been chosen: an image all of whose issues belong to an excluded class is shown without a red pixel in place of one with other issues (`C140_not_excluded`). (2) Images without any issue are shown whenever there are at most `top` images (`C140_not_only_issues`). (3) Without `pred_probs` there are colours for the classes up to the largest label only, and `class_names` of all classes raises an IndexError if the last class does not occur (`C140_not_names`). The choice by all flagged pixels, the figures and the legend are right (`C140_shown_partial`, `C140_legend`). | `C140_not_excluded`, `C140_not_only_issues`, `C140_not_names` |
| C141 | object_detection/summary.py:275-293, 402-440, object_detection/rank.py:277-285 | (1) Predictions of a model with three classes are taken for (boxes, classes, probabilities) if the first class has five boxes and the others equally many: with none of the others nothing is drawn, otherwise `visualize` raises (`C141_not_three_classes`, `C141_not_three_classes_raises`). (2) With `overlay=False` the labels are on the left and the predictions on the right; the documentation says the opposite (`C141_not_sides`). (3) A box exactly at the threshold is omitted though only boxes below it should be, and `_prune_by_threshold` keeps it (`C141_not_threshold`). (4) `plot_class_size_distributions` raises a KeyError when it comes to an annotated class that is never predicted, since sorting turns the `defaultdict` into a `dict` (`C141_not_unpredicted`), and a TypeError for `class_to_show=None` (`C141_not_none`). The rest holds (`C141_boxes_partial`, `C141_labels`, `C141_legend`, `C141_sizes_partial`). | `C141_not_sides`, `C141_not_threshold`, `C141_not_three_classes`, `C141_not_three_classes_raises`, `C141_not_three_classes_threshold`, `C141_not_unpredicted`, `C141_not_none` |
| C142 | datalab/internal/adapter/imagelab.py:316-330, 353 | An image check outside the seven defaults that is named without parameters, such as `{"image_issue_types": {"near_duplicates": {}}}`, raises a `KeyError` from `find_issues`, outside of the `try` that guards the image checks, after the ordinary checks have run; with any parameter the same check is passed to the image library (`C142_raises_iff`, `C142_not_defaults`). | `C142_not_defaults` |
| C143 | classification.py:598-610, 660-667, regression/learn.py:349-353, internal/util.py:614-616 | (1) With the default model a list of examples is refused for lack of `shape`, although scikit-learn's model accepts it (`C143_not_list`). (2) `sample_weight` is silently ignored if the `score` method of the model has no parameter of exactly this name: with weights 0 and 1 the score is 1/2 where the weighted accuracy is 0 (`C143_not_weights`). | `C143_not_list`, `C143_not_weights` |
| C144 | count.py:581-612, 1446-1458, internal/validation.py:75-78 | `nan` passes the check of the range. One `nan` in the column of the example's own label makes the threshold of that class `nan`, and then no example of the data set reaches the class (`C144_not_only_its_example`): with two classes not a single label error towards this class is counted (`C144_not_two_classes`). The example itself has no score, and sorting by score puts it last, behind all good ones (`C144_not_listed_first`). Only missing values in other columns stay without effect on other examples (`C144_other_examples_partial`). | `C144_not_only_its_example`, `C144_not_two_classes`, `C144_not_listed_first` |
| C145 | filter.py:330-345, token_classification/filter.py:80-101 | With a filter that flags a given number of lowest scores, tokens of equal score are told apart by their position: of two one-token sentences with the same self-confidence the mislabelled one is flagged in one order and the correctly labelled one in the other, whichever sort is used (`C145_not_ties`). Proved: the division into sentences has no influence at all (`C145_boundaries`, `C145_boundaries_low_memory`, `C145_boundaries_scores`), scores move with their sentence (`C145_scores`, `C145_sentence_scores`), and the same tokens are returned with the same sequence of scores for filters that do not sort and for data without ties (`C145_order_partial`). | `C145_not_ties` |
| C146 | experimental/coteaching.py:146-154, 162-167, 197-198 | The number of batches is counted, not the number of examples: a last batch of 16 wrong examples weighs as much as a batch of 48 right ones, and 50 percent are returned instead of 75 (`C146_not_share`). If the only batch has fewer than 16 examples it is skipped and the epoch ends with a division by zero (`C146_not_small_data`). Proved: which examples each network learns from and the accuracies as means over batches (`C146_epoch`), no influence of a small last batch (`C146_small_batch`), symmetry (`C146_symmetric`), the evaluation (`C146_evaluate`). | `C146_not_small_data`, `C146_not_share` |
| C147 | experimental/cifar_cnn.py:85, 94, 106-107, experimental/mnist_pytorch.py:109 | (1) `F.dropout2d` is called without `training=self.training` and its default is True: the random layers of the CIFAR network stay active in evaluation mode, and the same image has different outputs each time (`C147_not_deterministic`). (2) `SimpleNet` cuts the features into rows of 320: images of 44 by 44 pixels are accepted and give four rows per image (`C147_not_one_row`). (3) With `top_bn=True` every evaluation fails for lack of the layer `bn_c1` (`C147_not_top_bn`). (4) Some images that are not square are accepted and the right part of their features is ignored (`C147_not_wide`). Proved: the rest of the statement (`C147_digits`, `C147_cifar`, `C147_cifar_small`, `C147_digits_deterministic`). | `C147_not_one_row`, `C147_not_wide`, `C147_not_top_bn`, `C147_not_deterministic` |
| C152 | filter.py:321-333, 898-906 | prune_by_noise_rate, the default, takes for every pair of classes (s, y) as many examples given s as the confident joint counts, namely those with the largest p(y) - p(s). An example of a third class can have a larger difference than those of class y and take the place of one of them. In the data of `C152_not_default` (14 examples, 3 classes, ideal probabilities, exact confident joint) one of six wrong labels is missed. low_self_confidence compares probabilities of different classes: in `C152_not_self_confidence` (17 examples) it flags three correct labels and misses three wrong ones. | `C152_not_default`, `C152_not_self_confidence` |
| C157 | count.py:1452, filter.py:321-430 | The thresholds of the second call are class averages over what remains. A removed example can have been above the average of its class, so that a threshold falls and a new example becomes a confident member of another class (`C157_not_confident`, three classes). The pruning filters decide how many examples to remove by counting, and which ones by sorting: two removals can fall on the same example, or on others than the counted ones, and what was counted is counted again (`C157_not_default`, `C157_not_by_class`, `C157_not_both`). low_self_confidence and low_normalized_margin flag as many examples as are counted, not the examples that are counted, so those may remain (`C157_not_self_confidence`, `C157_not_normalized_margin`, two classes). Proved: predicted_neq_given, two classes (C156), and confident_learning if no flagged example is above the average of its class (`C157_confident_partial`). | `C157_not_default`, `C157_not_by_class`, `C157_not_both`, `C157_not_confident`, `C157_not_self_confidence`, `C157_not_normalized_margin` |
| C16 | rank.py `get_label_quality_ensemble_scores` | Custom weights are not normalised, so the score can leave the range of the models' scores. With `accuracy` and no correct prediction the weights are 0/0. | `C16_not_custom_between` |
| C160 | multiannotator.py:1460-1506 | The posterior is a weighted mean in which every agreeing label counts q, the mean agreement in the data. If the model gives the label a probability above q, each further agreeing label pulls the mean down (`C160_model_surer`): with q = 8/9 and a prediction of 0.99 an example labelled by two agreeing annotators has a smaller consensus quality than the same example labelled by one of them (`C160_not_monotone`). Proved: the expected order if the model's probability is at most q and q is at least (1-q)/(K-1) (`C160_more_votes_partial`). | `C160_not_monotone` |
| C162 | regression/rank.py:118-121, issue_manager/regression/label.py:180-186 | The residual score is exp(-|residual|), with the residual in the unit of the target, and the threshold is a fraction of the median score: with most examples predicted perfectly an error of 1 (kilometre) is not flagged, the same error of 1000 (metres) is (`C162_not_unit`). Proved: a finer unit only adds issues (`C162_finer_unit_partial`). | `C162_not_unit` |
| C164 | object_detection/rank.py:388-395 | The distance of two boxes enters their similarity as exp(-distance / 10) with the distance in pixels, so scores depend on the resolution: an image with a badly located box is found, at a tenth of the resolution it is not (`C164_not_resolution`). In coordinates relative to the image size the distance has almost no effect. Proved: overlaps, and with them confusion counts, precision, recall and F1, do not depend on the resolution unless boxes are smaller than 1e-6 (`C164_metrics_partial`); a finer resolution makes boxes less similar, down to 0.9 times their overlap (`C164_similarity_partial`). | `C164_not_resolution` |
| C166 | segmentation/filter.py:89-91 | With downsample > 1 the label of a block is the rounded mean of the numbers of its classes: a block half of class 0 and half of class 2 is labelled 1, although no pixel of it has that label. Whether a wrong label in the block is found depends on how the classes are numbered (`C166_not_numbering`). Proved: if every block has one label, the numbering does not matter (`C166_numbering_partial`); without down-sampling it never does (C165). | `C166_not_numbering` |
| C168 | internal/neighbor/metric.py:103-105 | The default metric is chosen by the number of columns alone, so a fourth feature that is 0 for all examples switches from euclidean to cosine distances and changes the nearest neighbour (`C168_not_zero_feature`); with more than 3 features a constant other than 0 moves the origin, which cosine distances depend on (`C168_not_constant_feature`). Proved: no effect with a euclidean metric, by default with at most 3 features, and none of a zero feature with the cosine metric, by default with more than 3 (`C168_constant_partial`). | `C168_not_zero_feature`, `C168_not_constant_feature` |
| C169 | issue_manager/issue_manager.py:43-57, 255-288 | (1) The levels shown at verbosity v are the first v + 1 of the dictionary in the order in which it is written, not those with numbers up to v: levels written out of order or not beginning with 0 are shown at the wrong verbosity; a check with an empty dictionary can be defined but every report of it raises (`C169_not_levels`). (2) Levels that come from an abstract class in between are not checked: a string passes for a list and the report looks for its letters (`C169_not_levels_checked`). Proved: the conditions for a class statement (`C169_define`), checked levels without abstract classes (`C169_levels_checked`), and the reports for levels 0, 1, ..., m in this order (`C169_levels_partial`). | `C169_not_levels_checked`, `C169_not_levels`, `C169_not_negative_level` |
| C171 | data_valuation.py:46-50 | Each row starts at 0 for the k-th neighbour instead of at its Shapley value, so that the values of all k neighbours of a point are shifted by an amount that depends on the point. Of four points in the plane the only flagged one has the largest Shapley value. What remains: a flagged point is among the k nearest neighbours of a point with another label. | `C171_not_least_valuable` |
| C173 | filter.py:343-420, count.py:1407-1458 | Default filter and `prune_by_class`: the only example of a class is never flagged, but it is once another label has been corrected to its class; two classes and three examples suffice (`C173_not_default`). `confident_learning`: with three classes a corrected example can lower the threshold of its new class (`C173_not_confident`), with two only if it was below the threshold by at most the tolerance of a millionth (`C173_not_millionth`). What remains: corrected examples that were at most average in the old class and reach the threshold of the new one (`C173_confident_partial`). | `C173_not_confident`, `C173_not_millionth`, `C173_not_default` |
| C175 | noniid.py:295-297 | `gaussian_kde` refuses values without variance. Where every example is a neighbour of every other one, as for 11 examples and the default k = 10, the statistic is the same in every order and the check fails (`C175_not_default`; in floating point a rounding error in the mean can give 1/2 instead, for 11 examples there is none). It also fails with `num_permutations=1` (`C175_not_single`). What remains: there is a result exactly if two drawn orders have different statistics. | `C175_not_all_neighbors`, `C175_not_default`, `C175_not_single` |
| C177 | object_detection/rank.py:407-425, 885-887 | The score of a swapped label is at least the smallest similarity of an annotated and a predicted box in the data set. If each image shows one object and the model localises it exactly, this is 1: every image then has label quality 1 and none is reported, whatever the classes (`C177_not_one_object`, `C177_not_found`). What remains: a swapped label is found if the smallest similarity is at most 4/5 of the scaled average precision of the class. | `C177_not_one_object`, `C177_not_found` |
| C18 | internal/util.py `value_counts` | Counts of a float array are written to positions 0, 1, ... in order of appearance of the values and not to the position of their class. With `quality_method='agreement'` this gives wrong posteriors. | `C18_not_float_labels`, `C18_not_agreement_posterior` |
| C181 | count.py:1407-1458 | The threshold of a class is the average self-confidence of the examples given this class. If none of them is wrong and the model is surer of them than of a wrongly labelled example of the same class, that example does not reach the threshold and is not found. Three examples, two classes: the model is certain of two rightly labelled examples and predicts the true class of the third with any p < 1 - 1e-6; every filter except `predicted_neq_given` returns no issue (`C181_not_confident`). Confident learning finds every error if p (1 + w) >= 1, with w the fraction of wrong labels among those of the true class (`C181_confident_partial`). | `C181_not_confident` |
| C183 | count.py:1407-1458, filter.py:57-450 | The threshold of a class is the average probability of the class, which every example reaches if all are predicted alike. If one class c is more probable than the others, `confident_learning` and `predicted_neq_given` flag exactly the examples with another label (`C183_not_prior`), and with two classes the default filter flags all of these but at most one (`C183_not_default`): a model that has learned the class frequencies only has the whole minority class flagged. What remains: nothing is flagged if no class is more probable than another by 1e-6 or more. | `C183_not_prior`, `C183_not_default` |
| C186 | filter.py:379-420, 867-928 | The three pruning filters skip classes with at most one (or `min_examples_per_class`) examples, so a label changed to a class that no other example has is never flagged, even if the model is certain of the old label (`C186_not_alone`); `confident_learning` flags it. What remains: with two classes it is flagged if some other example of the new class is not predicted otherwise. | `C186_not_alone` |
| C189 | multiannotator.py:1463-1485 | The accuracy of the model, which gives its weight, is that of `np.argmax`, which takes the first of equally probable classes. One example, a model undecided between two classes, four annotators who agree: if they agree on the first class the model counts as always right and the quality of the consensus is 5/6, if on the second the model counts as always wrong, has a millionth of the weight and the quality is almost 1 (`C189_not_undecided`). What remains: consensus labels, agreements and annotator weights by majority vote (`C189_majority_vote_partial`). | `C189_not_undecided` |
| C19 | multiannotator.py `get_majority_vote_label` | Raises when every example is tied and no `pred_probs` are given. | `C19_not_total` |
| C190 | object_detection/rank.py:690-746, filter.py:121-223 | An image is reported if the badly-located score of a box is below 0.8 × 0.25 × (average precision of its class), if a prediction of at least 95 % is far from all boxes, or if boxes of two classes coincide. A box that meets no prediction of its class has no badly-located score, so an image all of whose boxes lie elsewhere, with predictions below 95 %, is not reported and has label quality 1 (`C190_not_elsewhere`); boxes whose overlap with a prediction of their class is 2/9 or more are never reported (`C190_not_partly_right`), although no annotator would call such a box right. What remains: displaced boxes with similarity at most a fifth of the average precision of the class (`C190_found_partial`), and boxes drawn away from a prediction of 95 % (`C190_elsewhere_partial`). | `C190_not_elsewhere`, `C190_not_partly_right` |
| C193 | issue_manager/outlier.py:190-209, internal/neighbor/metric.py | An example that has as many others nearby as neighbours are searched (10 by default) is never flagged, however far this group is from the rest, if more than a quarter of the examples have nobody as near (`C193_not_group`, for a pair of copies at any distance `C193_not_copies`). With more than three features the default metric is the cosine distance, so an example in the direction of others is never flagged, however large it is (`C193_not_direction`). What remains: at most (N - 1)/4 examples, each further from all others than the diameter of the rest divided by the threshold, are all found (`C193_found_partial`). | `C193_not_group`, `C193_not_direction`, `C193_not_copies` |
| C195 | issue_manager/duplicate.py:88-120, knn_graph.py:357-397 | The sets are those of the neighbours within the radius, and an example has at most k neighbours (10 by default). If there are k + 2 or more copies of an example, all copies from the (k + 1)-th on list the first k ones, so no two of these are in each other's sets (`C195_not_all`), for every index, sorting routine and threshold: a caller who removes an example and its set keeps duplicates. All copies are flagged all the same (C194). What remains: up to k + 1 copies are all in each other's sets (`C195_up_to_partial`). | `C195_not_all` |
| C197 | multiannotator.py:228-237, 1722-1836 | The quality of an annotator mixes the agreement with the consensus with the mean posterior score of the labels, and the consensus label may have a low posterior score. With the default consensus: where two classes have the same largest posterior the consensus falls back to the majority label, which may have the smallest posterior; of two annotators who differ on such an example only, the one who gave the consensus label is rated 0.05 and the other 0.22 (`C197_not_rated`). With the majority vote: where the model disagrees with the majority and weighs more (`C197_not_rated_majority`). What remains: the agreement with the consensus, which is the quality for quality_method="agreement" (`C197_agreement_partial`), and the quality where the consensus label also has the larger score (C196). | `C197_not_rated`, `C197_not_rated_majority` |
| C199 | count.py:445-622, 1407-1458, filter.py:317-420 | The threshold of a class is its mean self-confidence, so an example of which the model is certain raises it, and examples that are only just right no longer count as confidently right, while those that are wrong still count: the estimated share of wrong labels grows and examples that were not flagged before are flagged (`C199_not_right`, two classes, seven examples and one more, all three pruning filters). What remains: with two classes, if nothing is flagged, then nothing is flagged after such an example is added (`C199_clean_partial`); confident_learning has no such effect (C198). | `C199_not_right` |
| C20 | multiannotator.py `get_label_quality_multiannotator` | The `best_quality` consensus is chosen with the scores of a first run; the returned scores come from a second run, under which another label can be better. | `C20_not_best_quality` |
| C201 | regression/rank.py:159-171, label.py:143-197 | The residuals are divided by their standard deviation, which one very large error dominates: the residual of a smaller one then hardly counts beside the differences of the labels. Of twenty targets one is wrong by 1 and reported; if another one is wrong by 1000, for example because digits are missing, the first is no longer reported (`C201_not_found`). What remains: a single wrong target is found however wrong it is (`C201_single_partial`), and several wrong by about the same amount (C200). | `C201_not_found` |
| C203 | data_valuation.py:43-50, issue_manager/data_valuation.py:127-147 | The contribution of a neighbour is compared with that of the k-th neighbour only, and an example that is nobody's neighbour has no contribution at all. A distant wrongly labelled example is therefore never reported (`C203_not_listed`: eleven examples of one class and a distant one, default k). If the k-th neighbour is itself wrong, errors are turned around: of six examples of one class, two of them labelled wrongly, the check reports a rightly labelled one and neither of the wrong ones (`C203_not_wrong`). What remains: if the k-th neighbours are right, only wrongly labelled examples are reported (`C203_reported_partial`), and those that have more right than wrong listers (C202). | `C203_not_listed`, `C203_not_wrong` |
| C204 | multilabel_scorer.py:206-233, segmentation/rank.py:189-231, token_classification/rank.py:231-274, object_detection_utils.py:25-29 | The weight of a part in softmin grows as its score falls. For a part whose score is more than the temperature (0.1 by default, 0.05 for sentences) above the score of the whole, this outweighs the fall: the score of an image with a wrong and a right pixel rises when the predicted probability of the label of the right one falls from 1 to 0.8 (`C204_not_image`; the same for sentences, the classes of an example and the boxes of an image: `C204_not_sentence`, `C204_not_classes`, `C204_not_boxes`). So of two images the one whose remaining pixels are all worse may be ranked as the better one. What remains: the exponential moving average, the default of multi-label classification, never does this (`C204_ema_partial`), and a worse worst part never improves the score (`C204_boxes_partial`, C205). | `C204_not_image`, `C204_not_sentence`, `C204_not_classes`, `C204_not_boxes` |
| C207 | rank.py:295-330 | With weights by accuracy, the default, a better prediction of a label that is now predicted raises the weight of the model, also for this example. Two models, the first gives a label the probability 0.9; when the second raises it from 0.4 to 0.6, the score falls from 0.9 to 0.75 (`C207_not_accuracy`). What remains: uniform and custom weights (`C207_fixed_partial`), and weights by accuracy as long as the predicted labels agree with the given ones for the same examples as before (`C207_accuracy_partial`). | `C207_not_accuracy` |
| C209 | count.py:597-622, 1407-1458 | The thresholds are averages of probabilities over a class, and a lower temperature changes large and medium probabilities by different amounts. Six examples of two classes, one of which is flagged: with half the temperature the threshold of the other class rises from 0.5625 to 0.675, the probability only from 0.571 to 0.64, and the example is no longer flagged, by the default filter, `prune_by_class`, `both` and `confident_learning` (`C209_not_temperature`, `C209_not_confident`). What remains: `predicted_neq_given` depends on the order of the classes only (`C209_predicted_partial`), and linear changes have no effect on any filter (C208). | `C209_not_temperature`, `C209_not_confident` |
| C211 | cleanlab/outlier.py:312-369, 408-442 | The first call of `fit_score` with features asks the index for the neighbours of its own examples and leaves out the example itself. The second call finds the stored index, skips the fitting and scores the features like new data: now every example is its own nearest neighbour at distance 0. With one neighbour every example then has the score 1, whatever it had before (`C211_not_repeatable`). For distinct examples the second call never lowers a score (`C211_never_lower_partial`), and scores from predicted probabilities are repeatable (`C211_pred_probs_partial`). | `C211_not_repeatable` |
| C213 | internal/token_classification_utils.py:200-206, rank.py:537-542 | An example with probabilities 0.4, 0.3 and 0.3 whose given class is the first one is predicted to have its label. After the other two classes are merged their total of 0.6 exceeds 0.4, so the example is flagged by `predicted_neq_given` and its normalized margin falls from 0.55 to 0.4 (`C213_not_fewer`). The self-confidence of a label whose class is not merged stays the same (`C213_confidence_partial`); merging into the given class is harmless (C212). | `C213_not_fewer` |
| C216 | filter.py:321-333 | The filters `low_self_confidence` and `low_normalized_margin` flag as many examples as there are estimated issues, taking the lowest scores of all. With an example of a third class, predicted as labelled with probability 0.36, the wrongly labelled example of the other data set with self-confidence 0.4 is no longer flagged, and the new example is flagged instead (`C216_not_low_scores`). The estimated numbers of issues add up (`C216_count_partial`), and the other filters treat the parts separately (C215). | `C216_not_low_scores` |
| C22 | multiannotator.py `get_active_learning_scores` | The score follows the total weight of the annotators, not their number: an example labelled by two annotators of low weight is asked for before one labelled by a single trusted annotator. | `C22_not_more_annotators` |
| C222 | datalab/internal/issue_manager/imbalance.py:52-60 | Only the rarest class is reported, and of several equally rare classes only the one with the smallest number. With one example of class 0, one of class 1 and 98 of class 2, class 0 is reported; after a second example of class 0 was collected, class 1 is reported instead (`C222_not_other_class`). As long as the class remains strictly the rarest, no other is reported (`C222_rarest_partial`). | `C222_not_other_class` |
| C225 | datalab issue_manager/duplicate.py:217 | Documented: a score of 0 indicates that an example has an exact duplicate. With more than three features the default distance is the cosine distance, so an example of which another is a positive multiple is flagged and gets score 0; with fewer features, so does one with another example within 1e-8. | `C225_not_exact` |
| C228 | knn_graph.py:567-578, datalab issue_manager/outlier.py:56 | The managers of Datalab ask for k = 10 neighbours by default, which the neighbour search refuses for ten or fewer examples; OutOfDistribution passes no k and gets min(10, N - 1). So for every data set of two to ten examples OutOfDistribution returns scores and the outlier check of Datalab fails unless k is given. | `C228_not_small` |
| C229 | datalab issue_manager/duplicate.py:66-75 | The cut-off is a fraction of the median distance to the nearest neighbour. Where half of the examples or more come in close pairs, the median is the distance within the pairs and none of them is reported (unless they are within 1e-6): of two pairs at distance 0.001 and a single example nothing is reported, however far apart they are. At most half of the examples can be reported. | `C229_not_pairs` |
| C230 | experimental/label_issues_batched.py:602-612 | Only the most probable class is compared with its threshold, not all classes as in find_label_issues. If a better prediction takes probability from a class that does not reach its threshold, another class that does can become the most probable one, and the example is reported. The property holds if the order of the other classes remains and no other example has the same score. | `C230_not_other_rival` |
| C231 | experimental/label_issues_batched.py:576-612 | A comment says that the faster computation empirically matches num_label_issues. It compares only the most probable class with its threshold: an example predicted to be of class 1 below the threshold of class 1, for which class 2 reaches its threshold, is counted by num_label_issues and not by LabelInspector. The number found in batches is never larger (for data in which every class is given and no two probabilities nearly coincide), and the numbers agree for two classes. | `C231_not_equal` |
| C234 | outlier.py:563-567 | The method gen applies softmax to pred_probs, which are probabilities already, and keeps the M = 100 largest values. With 1000 classes or more all values are so small that each uncertainty grows with its value: an example predicted with probability 1 gets a lower score than one for which all classes are equally likely (C234_not_gen). With M at least the number of classes the score behaves as expected (C234_surer_partial). | `C234_not_gen` |
| C236 | rank.py:570-580 | The score divides by the clipped ratio of entropy and self-confidence while the logarithm above it is not clipped, so a prediction with probability 1 gets the score 0, below that of an undecided prediction (C236_not_certain, cf. C57). Away from the bounds of a millionth the order is that of self_confidence (C236_order_partial). | `C236_not_certain` |
| C24 | multilabel_classification filter | For the `low_*` filters the ranked output is not sorted by quality, and it raises when nothing is flagged. The search also raises if a class is given to every example (C115). | `C24_not_ranked_low`, `C24_not_ranked_low_empty` |
| C240 | internal/label_quality_utils.py:68-118, outlier.py:555-567 | The entropies of two predictions over three classes can change their order under smoothing: (1/2, 1/2, 0) has less entropy than (3/4, 1/8, 1/8), but more once both are mixed half and half with the uniform distribution (C240_not_entropy). The order is kept by least_confidence, if every class is given and no average self-confidence is below the lower bound of the thresholds (C240_least_partial), and by every method with two classes (C240_two_partial). gen with three or more classes is not covered. | `C240_not_entropy` |
| C242 | filter.py:339-346 | A given confident joint is used as the number of examples to remove without being calibrated to the labels, unlike in num_label_issues, estimate_joint and the functions of dataset.py (C241). Given the joint distribution, or counts of another data set, the pruning filters flag other examples: the witness has one wrong label, which is flagged given the counts and not given the same matrix divided by the number of examples (C242_not_units). The other filters ignore the argument (C242_others_partial), and the calibrated counts of the data give the default result (C242_own_partial). | `C242_not_units` |
| C245 | multiannotator.py:1450-1506 | The probability that an annotator is wrong is divided evenly among all other classes (non_consensus_likelihood), also those that no annotator ever chose and the model gives probability 0. One such class more lowers the quality of a consensus label that three of four annotators chose (C245_not_quality). The quality is never raised, and it is unchanged where all annotators of the example chose the consensus label (C245_lower_partial). | `C245_not_quality` |
| C248 | internal/multilabel_scorer.py:134-203 | The average starts with the highest class score, so a class that is certainly right lifts all examples, but by different amounts: an example with class scores 1 and 0.5 is rated above one with 0.6 and 0.59 (0.6 and 0.592), and below it once there is a third class that neither has nor is predicted to have (0.6 and 0.608; C248_not_order). The score rises by 0.2 to the power of the number of classes, times what the best class lacks to 1, so examples farther apart keep their order (C248_rise_partial). | `C248_not_order` |
| C249 | filter.py:207-217, 430, 472-489 | With `predicted_neq_given` the search raises as soon as one class is given to no example, because the labels of every class are checked a second time and must then have two values (C249_not_predicted). With the filters by scores the number of flagged examples remains the same (C249_number_partial), but they are taken from a ranking that can change (C248), so that another example is flagged (C249_not_low). With the other four filters the result is the same (C249_per_class_partial, C249_flags_partial). | `C249_not_predicted`, `C249_not_low` |
| C26 | internal/latent_algebra.py | A class that is never given leads to a zero column of the inverse noise matrix; rates above 0.9999 are clipped, so converting back does not recover them. | `C26_not_columns_sum_to_one`, `C26_not_round_trip` |
| C27 | internal/util.py `clip_noise_rates` | A column of zeros stays a column of zeros instead of summing to 1 (the other columns are normalised). | `C27_not_zero_column` |
| C29 | segmentation/filter.py, experimental/label_issues_batched.py | `batch_size` changes the result when a given label has probability below 2e-6. | `C29_not_batch_size` |
| C30 | segmentation/rank.py `issues_from_scores` | Off by one: one image that is not below the threshold is returned as well. | `C30_not_exact` |
| C31 | token_classification/filter.py | With `low_memory=True` the pairs are not ordered by label quality. | `C31_not_sorted_low_memory` |
| C32 | token_classification/rank.py `issues_from_scores` | IndexError when every sentence is below the threshold and for an empty array. | `C32_not_total` |
| C33 | experimental/label_issues_batched.py | A class without examples gets the threshold 2e-6 instead of an unreachable one. Clipping inside the batches makes thresholds depend on the batching by up to 2e-6. | `C33_not_absent_class`, `C33_not_clipped` |
| C34 | experimental/label_issues_batched.py | With several workers and `off_diagonal_calibrated`, duplicate increments in one `+=` are lost: 10000 issues become 5000. | `C34_not_calibrated` |
| C35 | data_valuation.py, internal/neighbor | The documented example announces 0.55; the code gives 0.5 because the recursion starts at 0. | `C35_not_documented_example` |
| C38 | outlier.py `OutOfDistribution` | With an estimator given in `params`, the scaling factor is fitted by the first `score` call, so scores depend on the call history. | `C38_not_stateless_with_given_knn` |
| C39 | internal/object_detection_utils.py, object_detection/rank.py | The 1e-6 floor of the union makes the overlap of a small box with itself less than 1. | `C39_not_identity` |
| C42 | datalab issue_manager/identifier_column.py | Every integer column whose values form an interval of at least two values is reported, for instance a 0/1 feature; the number of rows plays no role. The summary score is 0 if the issue is present and 1 if not, the documentation says the opposite. | `C42_not_documented`, `C42_not_score` |
| C43 | datalab issue_manager/underperforming_group.py | A raw cluster performance is compared with a ratio while searching, so the worst cluster can be missed and the result depends on the iteration order of a set. | `C43_not_worst` |
| C44 | datalab internal/spurious_correlation.py | The baseline is the *index* of the most frequent class over n; scores can be negative for labels that are not encoded. With labels 0 0 0 1 a property without any information gets 1/4 instead of 1 and is reported; exchanging the two classes changes the score. | `C44_not_majority`, `C44_not_documented`, `C44_not_renumbering` |
| C45 | datalab internal/issue_finder.py | The inner dictionaries of the caller's `issue_types` are changed; a second call with the same dictionary uses the `pred_probs` of the first. | `C45_not_unchanged`, `C45_not_fresh`, `C45_not_fresh_any` |
| C46 | datalab internal/data_issues.py | Extra columns of a custom check survive a later run without them; a run that fails late has already dropped the previous summary row. | `C46_not_latest_columns`, `C46_not_atomic` |
| C47 | datalab internal/data_issues.py `get_issues` | Columns are selected by substring: `get_issues('label')` also returns the columns of a custom check `label_length`. | `C47_not_only_own` |
| C48 | datalab issue managers (outlier) and knn statistics | The outlier fallback stores its metric although no graph was built; a user graph keeps the old metric. A later check then works on a graph of another metric. | `C48_not_outlier_fallback`, `C48_not_user_graph`, `C48_not_requested_metric` |
| C54 | datalab/internal/serialize.py `deserialize` | A lab without labels cannot be loaded with its data (its row count is compared with 0 labels). Data frames, dictionaries and lists accepted by the constructor are unhashable and refused by `load`. | `C54_not_unlabeled`, `C54_not_constructor_data` |
| C55 | classification.py `CleanLearning.find_label_issues` | The first call stores its confident joint in `find_label_issues_kwargs`. Later calls on other data use it, clones carry it, a repeated call raises if a class is absent, and a given `noise_matrix` is ignored. | `C55_not_other_data`, `C55_not_clone`, `C55_not_same_data`, `C55_not_noise_matrix` |
| C56 | classification.py `CleanLearning.fit` | Labels in a Python list give weight 1 everywhere. A `noise_matrix` passed together with `label_issues` is not used for the weights. | `C56_not_list_labels`, `C56_not_noise_matrix_argument` |
| C57 | rank.py `get_confidence_weighted_entropy_for_each_label` | A perfect prediction of the given label gets the lowest score 0. | `C57_not_perfect_prediction_scores_best` |
| C58 | count.py `estimate_latent` | A class that is never counted gets a zero column in the noise matrix. | `C58_not_noise_matrix_stochastic` |
| C59 | multiannotator.py `get_majority_vote_label` | Documented: ties go to the class with the highest frequency. Code: lowest frequency. | `C59_not_most_frequent_class` |
| C61 | multilabel_classification rank, internal/multilabel_scorer.py | A label matrix of only ones or only zeros is refused. | `C61_not_total` |
| C63 | dataset.py | `rank_classes_by_label_quality` with only a confident joint raises, and so does `health_summary` with a joint or only a confident joint. With labels of a single class `overall_label_health_score` and `health_summary` raise while the other two functions answer. | `C63_not_one_class`, `C63_not_rank_classes`, `C63_not_health_summary` |
| C64 | experimental/label_issues_batched.py | Indices are in data order and not sorted by quality; `batch_size=0` never ends. | `C64_not_sorted`, `C64_not_batch_size_zero` |
| C66 | segmentation/summary.py | `exclude` is only checked against the predicted class. | `C66_not_exclude` |
| C67 | token_classification/rank.py | An empty sentence makes the call raise. | `C67_not_empty_sentence` |
| C68 | internal/token_classification_utils.py `merge_probs` | A token with all its mass on ignored classes gets nan. | `C68_not_ignored_mass` |
| C71 | outlier.py:537-560 | With `adjust_pred_probs` and labels of a single class fitting raises. | `C71_not_one_class` |
| C72 | object_detection/summary.py | Average counts are divided by the number of thresholds times the number of classes. | `C72_not_average` |
| C76 | regression/learn.py `_find_best_k` | `model_kwargs` are not passed to the cross-validations that choose the fraction. | `C76_not_kwargs_used` |
| C79 | benchmarking/noise_generation.py | For two classes the bounds on the trace probabilities and noise rates are ignored. | `C79_not_two_class_bounds` |
| C81 | datalab/internal/serialize.py `serialize` | Overwriting is not atomic: a crash while the pickle file is written loses the old lab. Repeating an interrupted save needs `force=True`. | `C81_not_atomic`, `C81_not_retry` |
| C83 | internal/multiannotator_utils.py `find_best_temp_scaler` | If the last coarse temperature (8) is the best, the fine search leaves it out and a worse one is returned. With float labels (every data frame, every array with missing labels) the votes are counted for the wrong classes, so a model that agrees with the annotators can be flattened instead of sharpened. | `C83_not_coarse_optimal`, `C83_not_float_labels` |
| C85 | multiannotator.py `get_active_learning_scores_ensemble` | Unlabelled examples: an ensemble of one model is refused, and models with opposite opinions can end in the exception of `np.random.choice`. | `C85_not_one_model`, `C85_not_disagreeing_models` |
| C86 | multiannotator.py:439, 823, 868 | Calibration writes into the caller's `pred_probs` and `pred_probs_unlabeled`. | `C86_not_unchanged`, `C86_not_unchanged_active` |
| C88 | datalab issue_manager/label.py:139-159 | Assumes that every example is among its own k + 1 neighbours. With more than k + 1 exact duplicates it need not be: the prediction then contains -1/k and the check raises. | `C88_not_probabilities` |
| C89 | datalab issue_manager/noniid.py | The statistic compares the background with the empirical distribution function *before* the jump at each gap, so it is not the Kolmogorov-Smirnov distance (2/3 instead of 1/3 for three chained examples). The normaliser is N - d instead of the documented N - d - 1 in the first half, so scores change when the data are reversed. | `C89_not_reversible`, `C89_not_ks` |
| C90 | datalab/internal/adapter/imagelab.py `collect_issues_from_imagelab` | The whole imagelab summary is appended on every call, so types of earlier calls get a second row. Columns of a type that is dropped for exceeding the maximal prevalence are not removed: old flags stay in the table while the summary shows another count. | `C90_not_one_row`, `C90_not_consistent` |
| C91 | multilabel_classification/dataset.py `rank_classes_by_multilabel_quality` | `confident_joint=joint` is passed on: the argument `confident_joint` is ignored. Counts are recomputed as `int(p * n)`, which is one too small for many counts (29 of 100 is shown as 28). | `C91_not_confident_joint`, `C91_not_count` |
| C92 | object_detection/summary.py `_normalize_by_total` | Frequencies are rounded to two decimals: classes with less than half a percent of the boxes get 0, 201 equally frequent classes all get 0, three get 0.99 in total. `class_names` without a class in the data raises KeyError here, while the size distribution leaves the class out. | `C92_not_rare`, `C92_not_sum` |
| C93 | datalab/internal/report.py, issue_manager.py:255-262 | Identifier columns and partly missing rows flag no example, so the report is `No issues found in the data. Good job!`. Verbosity 4, the documented way to print all information of the label check, raises as soon as near duplicates (levels 0 to 2) are reported, and no lower level prints it. | `C93_not_identifier`, `C93_not_missing`, `C93_not_all_information` |
| C94 | token_classification_utils.py `_replace_sentence`, summary.py `display_issues` | The coloured token is passed to `re.subn` as a replacement template, so backslashes in it are interpreted: a token like `\\cite` raises `bad escape`, `\\n` is printed as a line break. `display_issues` raises for an empty list of issues and shows all issues for `top=0`. | `C94_not_colour`, `C94_not_display` |
| C95 | token_classification_utils.py `process_token` | With an empty list of rules the pattern is empty and the lookup of the empty match raises KeyError. | `C95_not_no_rules` |
| C96 | internal/validation.py, datalab/internal/issue_finder.py:404-423 | One nan among the probabilities disables the range check (comparisons with nan are false), whatever the other entries are. In multi-label data negative labels pass and data without any label are refused. Datalab builds model-output objects but never calls their `validate`. | `C96_not_nan`, `C96_not_multilabel`, `C96_not_validated` |
| C97 | internal/util.py `append_extra_datapoint` | `np.vstack` is used for every array: a 1-D array (texts) or an image array raises when a fold lacks a class. | `C97_not_append`, `C97_not_vector` |
| C98 | experimental/coteaching.py:66-71, 93-98 | The mean loss is divided by the number of remembered examples a second time; with nothing remembered it is nan. With an exponent below 1 the schedule ends its gradual phase at `forget_rate**exponent`, above the requested rate, and drops afterwards; a gradual phase longer than the training raises. | `C98_not_mean`, `C98_not_schedule` |
| C99 | internal/multiannotator_utils.py:221-223 | Distinct float labels are truncated to integers before the map is built: labels such as 0.5 are left in the table as they are, and the map names a class that does not occur. | `C99_not_float` |

Smaller observations, not separate properties:

* C52: a class that does not occur makes `generate_noisy_labels` raise; the precondition is documented, and proved necessary (`C52_absent_class_raises`).
* C77, C79: bounds are tested with a tolerance of 1e-6, so entries may leave the bounds by that much.
* C78: the docstring swaps N and K; an infeasible number of balls is silently reduced. The limit of the retry loop means that for very many balls the bound may be exceeded.
* C80: a single example is refused, because `np.squeeze` turns the array into a scalar.
* C45: `self.task == "classification"` compares an enum with a string and is always false.
* C36: the sort of a boolean mask is not stable, so the order of duplicates is arbitrary (the theorems hold for every order).
* `get_label_quality_multiannotator(return_weights=True)` returns the weights of the last consensus method.
* Multi-label `num_to_remove_per_class[k]` is passed on as `[num[k], 0]`.
* Segmentation down-sampling averages class ids.
* CleanLearning with `pulearning` changes the caller's noise matrix arrays in place.

## Trusted base

* Lean's kernel and the axioms `propext`, `Classical.choice`, `Quot.sound`.
* The reading of the Python source. Every definition cites its source lines.
* The meaning of numpy/pandas operations as given in `Verif/Np`.
* Sorting by numpy, pandas or Python is an arbitrary sorting permutation unless the code asks for a stable sort.
* The iteration order of a Python set is arbitrary (C17, C43).
* Process pools: tasks are pure and complete in an arbitrary order; shared arrays are updated as the code does.
* Parameters with arbitrary behaviour: classifiers, regressors, cross-validation folds, `r2` scores, nearest neighbour search, `np.linalg.inv`, random draws. Loops that wait for a suitable random draw carry fuel and may end as "still running".
* In C174 and C175 `scipy.stats.gaussian_kde`: Scott's bandwidth, the normal distribution function of Mathlib, exceptions for fewer than two values and for zero variance.
* In C167 and C168 the distances and the self-query of scikit-learn's `NearestNeighbors`, on real numbers (`Model/Distance.lean`); elsewhere the search is arbitrary.
* Storage as float32 and addition of tiny constants (`1e-100`) are exact; in the detection scores the constant is only added where the sum is zero.
* The hash of a data set is an arbitrary number; pickling is exact; an incomplete pickle file does not load.
* Not modelled: floating point error, numpy dtype promotion unless named, warnings, printing, plotting, the text of reports.
