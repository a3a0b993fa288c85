import Verif.Model.Outlier
import Verif.Model.Regression

/-!
# Model of the OUTRE label quality scores and of Datalab's label check for regression

`cleanlab/regression/rank.py:122-173` and `cleanlab/datalab/internal/issue_manager/regression/label.py`, over the real
numbers.
-/

namespace Cleanlab.Regression

open Np Cleanlab.Outlier

variable {n : ℕ}

/-- `x.mean()`. -/
noncomputable def mean (x : Fin n → ℝ) : ℝ := (∑ i, x i) / n

/-- `x.std()`. -/
noncomputable def std (x : Fin n → ℝ) : ℝ := Real.sqrt ((∑ i, (x i - mean x) ^ 2) / n)

/-- `(x - x.mean()) / (x.std() + TINY_VALUE)`, `regression/rank.py:160-161`. -/
noncomputable def standardize (x : Fin n → ℝ) (i : Fin n) : ℝ := (x i - mean x) / (std x + tiny)

/-- The Euclidean distance of two examples, `regression/rank.py:159-164`: the two features are the standardised label and
5 times the standardised residual. -/
noncomputable def outreDist (y p : Fin n → ℝ) (i j : Fin n) : ℝ :=
  Real.sqrt ((standardize y i - standardize y j) ^ 2 +
    (5 * standardize (fun r => p r - y r) i - 5 * standardize (fun r => p r - y r) j) ^ 2)

/-- `int(np.ceil(0.5 * n))`, `regression/rank.py:166`. -/
def outreNeighbors (n : ℕ) : ℕ := (n + 1) / 2

/-- The distances to the nearest neighbours among the examples, `outlier.py:442`.  The example itself is one of them, as
the estimator was fitted on the queried examples. -/
noncomputable def outreNearest (A : ArgSort ℝ) (y p : Fin n → ℝ) (i : Fin n) : List ℝ :=
  (sortOn A id (List.ofFn (outreDist y p i))).take (outreNeighbors n)

/-- `distances[:, :k].mean(axis=1)`, `outlier.py:456`. -/
noncomputable def outreAvg (A : ArgSort ℝ) (y p : Fin n → ℝ) (i : Fin n) : ℝ :=
  (outreNearest A y p i).sum / (outreNearest A y p i).length

/-- `_get_outre_score_for_each_label`, `regression/rank.py:122-173`, with `_configure_num_neighbors`,
`internal/neighbor/knn_graph.py:567-578`, and `OutOfDistribution.score`, `outlier.py:224-277`, for a new object with a
given estimator. The metric is called `euclidean` for both implementations, `internal/neighbor/metric.py:37-70`. -/
noncomputable def outreScores (A : ArgSort ℝ) (y p : Fin n → ℝ) : Except String (Fin n → ℝ) :=
  if n ≤ outreNeighbors n then .error "Number of nearest neighbors k cannot exceed the number of examples N"
  else
    match npMedian A (List.ofFn (outreAvg A y p)) with
    | none => .error "nan"
    | some m => .ok (fun i => correctPrecision .euclidean (outreAvg A y p i)
        (transformScore (outreAvg A y p i) 1 (max m (100 * floatEps))))

/-- The result of Datalab's label check for regression. -/
structure CheckResult (n : ℕ) where
  flags : Fin n → Bool
  scores : Fin n → ℝ
  given : Fin n → ℝ
  predicted : Fin n → ℝ
  summary : ℝ

/-- `find_issues_with_predictions`, `issue_manager/regression/label.py:143-197`: flags and scores. -/
noncomputable def withPredictions (A : ArgSort ℝ) (score : (Fin n → ℝ) → (Fin n → ℝ) → Except String (Fin n → ℝ))
    (y p : Fin n → ℝ) (threshold : ℝ) : Except String (CheckResult n) :=
  match score y p with
  | .error e => .error e
  | .ok s =>
    match npMedian A (List.ofFn s) with
    | none => .error "nan"
    | some m => open Classical in .ok
        { flags := fun i => decide (s i < m * threshold)
          scores := s
          given := y
          predicted := p
          summary := mean s }

/-- `make_summary`, `issue_manager.py:166-188`: the mean score must lie between 0 and 1. -/
noncomputable def checkSummary (r : CheckResult n) : Except String (CheckResult n) :=
  open Classical in if 0 ≤ r.summary ∧ r.summary ≤ 1 then .ok r else .error "Score must be between 0 and 1."

/-- `RegressionLabelIssueManager.find_issues`, `issue_manager/regression/label.py:61-120`.  `fromFeatures` is the result
of `CleanLearning.find_label_issues` on the features (with the arguments it accepts), `custom` says whether a model was
given in `clean_learning_kwargs`. -/
noncomputable def labelCheck {X : Type} (A : ArgSort ℝ) (score : (Fin n → ℝ) → (Fin n → ℝ) → Except String (Fin n → ℝ))
    (fromFeatures : X → (Fin n → ℝ) → Except String (CheckResult n)) (custom : Bool) (threshold : ℝ)
    (features : Option X) (predictions : Option (Fin n → ℝ)) (y : Fin n → ℝ) : Except String (CheckResult n) :=
  match features, predictions with
  | none, none => .error "Regression requires numerical features or predictions."
  | none, some p =>
    if custom then .error "Regression requires numerical features when using a custom model."
    else (withPredictions A score y p threshold).bind checkSummary
  | some x, none => (fromFeatures x y).bind checkSummary
  | some x, some p =>
    if custom then (fromFeatures x y).bind checkSummary
    else (withPredictions A score y p threshold).bind checkSummary

end Cleanlab.Regression
