import Verif.Model.KnnBuild
import Verif.Model.OutlierCheck

/-!
# Outlier scores from features, in `OutOfDistribution` and in `Datalab`

Both build the same search index, `features_to_knn`. The index itself is a parameter. Distances are rationals, scores are reals.
-/

namespace Cleanlab.OutlierFeatures

open Np Cleanlab.Outlier Cleanlab.OutlierCheck

/-- A search index over rows of features, and the order of the rows that `np.unique` returns. -/
structure Search (F : Type) where
  /-- the number of columns of the features -/
  cols : ℕ
  /-- `kneighbors(X=None)` of the index fitted on `xs` -/
  among (xs : List F) (k : ℕ) (m : Knn.Metric) : Knn.Graph xs.length
  /-- the distances in `kneighbors(features)` of the index fitted on `xs`, for one row of `features` -/
  ask (xs : List F) (k : ℕ) (m : Knn.Metric) (y : F) : List ℚ
  /-- the distinct rows, `_compute_exact_duplicate_sets`, `knn_graph.py:250-290` -/
  values : List F → List F

/-- The metric by its name, `outlier.py:416-418` and `issue_manager/outlier.py:142-146`. -/
def scoreMetric : Knn.Metric → Metric
  | .cosine => .cosine
  | .euclidean => .euclidean
  | .scipyEuclidean => .euclidean
  | .other _ => .other

/-- A fitted index: the rows it was fitted on, the number of neighbours, the metric, and the corrected distances. -/
structure Fitted (F : Type) where
  xs : List F
  k : ℕ
  metric : Knn.Metric
  train : List (List ℝ)

variable {F : Type} [DecidableEq F]

/-- The index inside `OutOfDistribution`: `features_to_knn(features, n_neighbors=k)` (`outlier.py:412`), the distances corrected for
exact duplicates (442-453) and the distances of other data (442). -/
def searchEnv (S : ∀ N, ArgSort (Fin N)) (B : ArgSort Bool) (idx : Search F) : KnnEnv (Fitted F) (List F) where
  fit xs k := do
    let (k, m) ← Knn.featuresToKnn xs.length idx.cols (k.map (fun k : ℕ => (k : ℤ))) none
    let g ← Knn.correctDuplicates (S _) B k (idx.among xs k m) (Knn.duplicateSets xs.get (idx.values xs))
    return { xs := xs, k := k, metric := m, train := List.ofFn (fun p => (g p).map (fun e => (e.2 : ℝ))) }
  nNeighbors e := e.k
  trainDist e := e.train
  queryDist e ys := .ok (ys.map (fun y => (idx.ask e.xs e.k e.metric y).map (fun d : ℚ => (d : ℝ))))
  metric e := scoreMetric e.metric

/-- `distances.mean(axis=1)` of the rows of the graph, `issue_manager/outlier.py:121-130`. -/
noncomputable def rowMean (rows : ℕ → List ℚ) (i : ℕ) : ℝ := ((rows i).map (fun d : ℚ => (d : ℝ))).sum / (rows i).length

/-- The outlier check of a new `Datalab` given features, `issue_manager/outlier.py:103-146` with `set_knn_graph`
(`knn_graph_helpers.py:48-69`): nothing is stored, so the graph is built with `k` neighbours and the default metric. -/
noncomputable def freshCheck (A : ArgSort ℝ) (S : ∀ N, ArgSort (Fin N)) (B : ArgSort Bool) (idx : Search F) (k : ℕ) (t : ℝ)
    (scaling threshold : Option ℝ) (xs : List F) : Except String (Result xs.length) := do
  let (_, m) ← Knn.featuresToKnn xs.length idx.cols (some k) none
  let a ← Knn.createGraph (S _) B xs.get (idx.values xs) idx.cols (idx.among xs) (some k) none true
  let rows ← Knn.reshapeRows xs.length a.data
  checkDistances A t scaling (some (scoreMetric m)) (fun i => rowMean rows i) threshold

end Cleanlab.OutlierFeatures
