import Mathlib.Data.Nat.Basic

/-!
# The kNN graph and its metric in the statistics of a `Datalab`

Model of `issue_manager/knn_graph_helpers.py` and of the `_build_statistics_dictionary` methods of the issue managers
(`cleanlab/datalab/internal`).  `M` is the type of metrics.
-/

namespace Cleanlab.KnnStats

variable {M : Type}

/-- A kNN graph: its number of stored distances and (only for stating properties) the metric it was built with. -/
structure Graph (M : Type) where
  nnz : ℕ
  builtWith : M

/-- The entries `weighted_knn_graph` and `knn_metric` of `info["statistics"]`. -/
structure Stats (M : Type) where
  graph : Option (Graph M)
  metric : Option M

/-- The issue managers that use the graph, with the inputs that matter.  A feature array is represented by the metric
that `decide_default_metric` chooses for it. -/
inductive Kind (M : Type) where
  | outlier (predProbs : Bool)
  | nearDuplicate
  | nonIid (predProbs : Option M)
  | dataValuation
  | underperforming (clusterIds : Bool)

/-- One check: its keyword arguments.  `fails` says that the check raises for some other reason after the graph was
set up. -/
structure Check (M : Type) where
  kind : Kind M
  features : Option M
  knnGraph : Option (Graph M)
  metric : Option M
  k : ℕ
  fails : Bool

/-- `num_neighbors_in_knn_graph`, `knn_graph_helpers.py:15-17`; `N` is the number of examples. -/
def numNeighbors (N : ℕ) (g : Graph M) : ℕ := g.nnz / N

/-- `_process_knn_graph_from_inputs`, `knn_graph_helpers.py:20-38`. -/
def processInputs (N : ℕ) (provided : Option (Graph M)) (s : Stats M) (k : ℕ) : Option (Graph M) :=
  match provided, s.graph with
  | some g, _ => some g
  | none, some g => if numNeighbors N g < k then none else some g
  | none, none => none

variable [DecidableEq M]

/-- `set_knn_graph`, `knn_graph_helpers.py:48-69`; `create_knn_graph_and_index` refuses `k ≥ N` and otherwise uses the
given metric or the default one of the features. -/
def setKnnGraph (N : ℕ) (features : Option M) (provided : Option (Graph M)) (metric : Option M) (k : ℕ) (s : Stats M) :
    Except String (Graph M × Option M) :=
  let g := processInputs N provided s k
  let oldMetric := s.metric.or metric
  let changes : Bool := metric.isSome ∧ metric ≠ oldMetric
  match g, changes with
  | some g, false => .ok (g, metric)
  | _, _ =>
    match features with
    | none => .error "Features must be provided to compute the knn graph."
    | some dflt =>
      if N ≤ k then .error "Number of nearest neighbors k cannot exceed the number of examples"
      else
        let m := metric.getD dflt
        .ok ({ nnz := N * k, builtWith := m }, some m)

/-- `prefer_new_graph`, e.g. `duplicate.py:161-165`. -/
def preferNew (s : Stats M) (g : Graph M) (metric : Option M) : Bool :=
  match s.graph with
  | none => true
  | some old => old.nnz < g.nnz ∨ metric ≠ s.metric

/-- `_build_statistics_dictionary` and `collect_statistics` of near duplicates, non-iid, data valuation and
underperforming group, e.g. `duplicate.py:154-171`. -/
def store (s : Stats M) (g : Graph M) (metric : Option M) : Stats M :=
  if preferNew s g metric then { graph := some g, metric := metric.or s.metric } else s

/-- The version of the outlier check, `outlier.py:264-288`: the metric is stored whether or not the graph is, also when
there is no graph. -/
def storeOutlier (s : Stats M) (g : Option (Graph M)) (metric : Option M) : Stats M :=
  { graph := match g with
      | none => s.graph
      | some g => if preferNew s g metric then some g else s.graph
    metric := metric.or s.metric }

/-- One check, from `find_issues` to `collect_statistics`; on an exception the statistics are unchanged
(`issue_finder.py:308-317`). -/
def runCheck (N : ℕ) (s : Stats M) (c : Check M) : Stats M :=
  if c.fails then s
  else
    match c.kind with
    | .outlier predProbs =>
      -- `outlier.py:103-181`
      if c.features.isSome ∨ (processInputs N c.knnGraph s c.k).isSome then
        match setKnnGraph N c.features c.knnGraph c.metric c.k s with
        | .error _ => s
        | .ok (g, m) => storeOutlier s (some g) m
      else if predProbs then storeOutlier s none c.metric
      else s
    | .nearDuplicate =>
      match setKnnGraph N c.features c.knnGraph c.metric c.k s with
      | .error _ => s
      | .ok (g, m) => store s g m
    | .nonIid predProbs =>
      -- `noniid.py:164-225,246-265`: graphs computed from `pred_probs` for lack of anything else are not stored
      let skip : Bool := (processInputs N c.knnGraph s c.k).isNone ∧ c.features.isNone ∧ predProbs.isSome
      match setKnnGraph N (c.features.or predProbs) c.knnGraph c.metric c.k s with
      | .error _ => s
      | .ok (g, m) => if skip then s else store s g m
    | .dataValuation =>
      match setKnnGraph N c.features c.knnGraph c.metric c.k s with
      | .error _ => s
      | .ok (g, m) => if numNeighbors N g < c.k then s else store s g m
    | .underperforming clusterIds =>
      if clusterIds then s
      else
        match setKnnGraph N c.features c.knnGraph c.metric c.k s with
        | .error _ => s
        | .ok (g, m) => store s g m

/-- A history of checks, starting from a new `Datalab`. -/
def runHistory (N : ℕ) (h : List (Check M)) : Stats M := h.foldl (runCheck N) { graph := none, metric := none }

end Cleanlab.KnnStats
