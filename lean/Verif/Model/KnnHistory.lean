import Mathlib.Data.Nat.Basic

/-!
# The kNN graph a check works with

Model of `issue_manager/knn_graph_helpers.py` and of the `find_issues` and `_build_statistics_dictionary` methods of the
issue managers that use it (`cleanlab/datalab/internal`), as in `Model/KnnStats.lean` but with the feature arrays and the
graphs themselves.  `X` is the type of feature arrays, `M` of metrics and `G` of kNN graphs.
-/

namespace Cleanlab.KnnHistory

variable {X M G : Type}

/-- What the checks rely on: `knn_graph.nnz`, `decide_default_metric` and `create_knn_graph_and_index(features,
n_neighbors=k, metric=metric)` (`knn_graph.py:142-203`) for a metric that is not `None`. -/
structure World (X M G : Type) where
  nnz : G → ℕ
  dflt : X → M
  build : X → M → ℕ → Except String G

/-- The entries `weighted_knn_graph` and `knn_metric` of `info["statistics"]`. -/
structure Stats (M G : Type) where
  graph : Option G
  metric : Option M

/-- A new `Datalab`. -/
def fresh : Stats M G := { graph := none, metric := none }

/-- The issue managers that use the graph. -/
inductive Kind (X : Type) where
  | outlier (predProbs : Bool)
  | nearDuplicate
  | nonIid (predProbs : Option X)
  | dataValuation
  | underperforming (clusterIds : Bool)

/-- One check with its arguments.  `fails` says that it raises for some other reason after the graph was set up. -/
structure Check (X M G : Type) where
  kind : Kind X
  features : Option X
  knnGraph : Option G
  metric : Option M
  k : ℕ
  fails : Bool

/-- `num_neighbors_in_knn_graph`, `knn_graph_helpers.py:15-17`; `N` is the number of examples. -/
def numNeighbors (W : World X M G) (N : ℕ) (g : G) : ℕ := W.nnz g / N

/-- `_process_knn_graph_from_inputs`, `knn_graph_helpers.py:20-38`. -/
def processInputs (W : World X M G) (N : ℕ) (provided : Option G) (s : Stats M G) (k : ℕ) : Option G :=
  match provided, s.graph with
  | some g, _ => some g
  | none, some g => if numNeighbors W N g < k then none else some g
  | none, none => none

variable [DecidableEq M]

/-- `set_knn_graph`, `knn_graph_helpers.py:48-69`: the graph and the metric the issue manager keeps. -/
def setKnnGraph (W : World X M G) (N : ℕ) (features : Option X) (provided : Option G) (metric : Option M) (k : ℕ)
    (s : Stats M G) : Except String (G × Option M) :=
  let g := processInputs W N provided s k
  let oldMetric := s.metric.or metric
  let changes : Bool := metric.isSome ∧ metric ≠ oldMetric
  match g, changes with
  | some g, false => .ok (g, metric)
  | _, _ =>
    match features with
    | none => .error "Features must be provided to compute the knn graph."
    | some x =>
      let m := metric.getD (W.dflt x)
      match W.build x m k with
      | .error e => .error e
      | .ok g => .ok (g, some m)

/-- The graph `find_issues` of an issue manager works with (none if it needs no graph) and the metric it keeps:
`outlier.py:103-118`, `duplicate.py:55-63`, `noniid.py:170-184`, `data_valuation.py:122-136` (a graph with fewer than `k`
neighbours is refused), `underperforming_group.py:93-105`. -/
def find (W : World X M G) (N : ℕ) (s : Stats M G) (c : Check X M G) : Except String (Option G × Option M) :=
  match c.kind with
  | .outlier predProbs =>
    if c.features.isSome ∨ (processInputs W N c.knnGraph s c.k).isSome then
      (setKnnGraph W N c.features c.knnGraph c.metric c.k s).map (fun r => (some r.1, r.2))
    else if predProbs then .ok (none, c.metric)
    else .error "ValueError"
  | .nearDuplicate => (setKnnGraph W N c.features c.knnGraph c.metric c.k s).map (fun r => (some r.1, r.2))
  | .nonIid predProbs =>
    (setKnnGraph W N (c.features.or predProbs) c.knnGraph c.metric c.k s).map (fun r => (some r.1, r.2))
  | .dataValuation =>
    match setKnnGraph W N c.features c.knnGraph c.metric c.k s with
    | .error e => .error e
    | .ok (g, m) => if numNeighbors W N g < c.k then .error "ValueError" else .ok (some g, m)
  | .underperforming clusterIds =>
    if clusterIds then .ok (none, c.metric)
    else (setKnnGraph W N c.features c.knnGraph c.metric c.k s).map (fun r => (some r.1, r.2))

/-- The graph a check works with. -/
def used (W : World X M G) (N : ℕ) (s : Stats M G) (c : Check X M G) : Except String (Option G) :=
  (find W N s c).map Prod.fst

/-- `prefer_new_graph`, e.g. `duplicate.py:161-165`. -/
def preferNew (W : World X M G) (s : Stats M G) (g : G) (metric : Option M) : Bool :=
  match s.graph with
  | none => true
  | some old => W.nnz old < W.nnz g ∨ metric ≠ s.metric

/-- `_build_statistics_dictionary` and `collect_statistics` of near duplicates, non-iid, data valuation and
underperforming group, e.g. `duplicate.py:154-171`. -/
def store (W : World X M G) (s : Stats M G) (g : G) (metric : Option M) : Stats M G :=
  if preferNew W s g metric then { graph := some g, metric := metric.or s.metric } else s

/-- The version of the outlier check, `outlier.py:264-288`. -/
def storeOutlier (W : World X M G) (s : Stats M G) (g : Option G) (metric : Option M) : Stats M G :=
  { graph := match g with
      | none => s.graph
      | some g => if preferNew W s g metric then some g else s.graph
    metric := metric.or s.metric }

/-- What a check that succeeded leaves in the statistics; graphs computed from `pred_probs` for lack of anything else are
not stored (`noniid.py:190-225,246-265`), and with given clusters the underperforming-group check has no graph to store. -/
def record (W : World X M G) (N : ℕ) (s : Stats M G) (c : Check X M G) (g : Option G) (metric : Option M) : Stats M G :=
  match c.kind, g with
  | .outlier _, g => storeOutlier W s g metric
  | .nonIid predProbs, some g =>
    if (processInputs W N c.knnGraph s c.k).isNone ∧ c.features.isNone ∧ predProbs.isSome then s else store W s g metric
  | _, some g => store W s g metric
  | _, none => s

/-- One check, from `find_issues` to `collect_statistics`; on an exception the statistics are unchanged
(`issue_finder.py:308-317`). -/
def runCheck (W : World X M G) (N : ℕ) (s : Stats M G) (c : Check X M G) : Stats M G :=
  if c.fails then s
  else
    match find W N s c with
    | .error _ => s
    | .ok (g, m) => record W N s c g m

/-- The statistics after a history of checks on a new `Datalab`. -/
def runHistory (W : World X M G) (N : ℕ) (h : List (Check X M G)) : Stats M G := h.foldl (runCheck W N) fresh

end Cleanlab.KnnHistory
