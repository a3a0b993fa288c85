import Verif.Model.KnnStats
import Verif.Model.KnnGraph
import Verif.Np.Collect

/-!
# What the checks of `Datalab` store in `info`

Model of the `collect_info` methods of the issue managers (`cleanlab/datalab/internal/issue_manager/`), as far as they
describe the computation: the number of neighbours, the metric, the clustering, the nearest neighbours.
-/

namespace Cleanlab.CheckInfo

open Np Cleanlab.KnnStats

/-! ## Number of neighbours and metric -/

/-- The checks that use the kNN graph. -/
inductive Kind where
  | outlier
  | nearDuplicate
  | nonIid
  | dataValuation
  | underperforming
  deriving DecidableEq

variable {M : Type} [DecidableEq M]

/-- The entries `k` and `metric` of the stored information: `outlier.py:227-237`, `duplicate.py:128-132`,
`noniid.py:232-235`, `data_valuation.py:158-162`, `underperforming_group.py:235-239`. -/
structure GraphInfo (M : Type) where
  k : ℕ
  metric : Option M

/-- The number of neighbours per example that enters the result: only the data valuation cuts the graph to `k` columns
(`data_valuation.py:135`); the other checks use all of them (`outlier.py:124-127`, `duplicate.py:99`,
`noniid.py:186`, `underperforming_group.py:152`). -/
def usedNeighbors (kind : Kind) (N k : ℕ) (g : KnnStats.Graph M) : ℕ :=
  if kind = .dataValuation then k else numNeighbors N g

/-- A check from the choice of the graph to `collect_info`: the graph it uses and what it stores.  The data valuation
refuses a graph with fewer than `k` columns, `data_valuation.py:127-133`. -/
def graphCheck (kind : Kind) (N : ℕ) (features : Option M) (provided : Option (KnnStats.Graph M)) (metric : Option M)
    (k : ℕ) (s : Stats M) : Except String (KnnStats.Graph M × GraphInfo M) := do
  let (g, m) ← setKnnGraph N features provided metric k s
  if kind = .dataValuation ∧ numNeighbors N g < k then throw "The provided knn graph has too few neighbors."
  return (g, { k := k, metric := m })

/-! ## Nearest neighbours -/

/-- `nearest_neighbor` and `distance_to_nearest_neighbor`, e.g. `duplicate.py:134-141`: the first column of the graph,
whose rows must have the same length for `reshape`. -/
def nearest {N : ℕ} (g : Knn.Graph N) : Except String (Fin N → Fin N × ℚ) :=
  if ∀ i j, (g i).length = (g j).length then
    collect (fun i => match (g i).head? with
      | some e => .ok e
      | none => .error "IndexError")
  else .error "cannot reshape array"

/-! ## Clustering -/

variable {V : Type}

/-- The parameters of `DBSCAN` (`inspect.signature`). -/
def dbscanKeys : List String := ["eps", "min_samples", "metric", "metric_params", "algorithm", "leaf_size", "p", "n_jobs"]

/-- `perform_clustering`, `underperforming_group.py:143-150`: the parameters with which `DBSCAN` is called;
`precomputed` is that string. `None` counts as not given. -/
def dbscanParams (precomputed : V) (clusteringKwargs : List (String × Option V)) : List (String × V) :=
  (dbscanKeys.filterMap (fun key => ((clusteringKwargs.lookup key).join).map (fun v => (key, v)))).filter
    (fun e => e.1 ≠ "metric") ++ [("metric", precomputed)]

/-- `_get_cluster_statistics`, `underperforming_group.py:309-325`: the stored algorithm and parameters
(`CLUSTERING_PARAMS_DEFAULT`, line 22). -/
def clusteringInfo (precomputed : V) (performedClustering : Bool) : Option String × List (String × V) :=
  if performedClustering then (some "DBSCAN", [("metric", precomputed)]) else (none, [])

/-! ## Class imbalance -/

/-- `rarest_class_name`, `imbalance.py:57-60`: the stored name of the rarest class. -/
def rarestClass (labelMap : List (ℤ × String)) (imbalanceExists : Bool) (rarest : ℕ) : String :=
  (labelMap.lookup (if imbalanceExists then (rarest : ℤ) else -1)).getD "NA"

end Cleanlab.CheckInfo
