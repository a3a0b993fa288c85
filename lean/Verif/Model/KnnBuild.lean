import Verif.Model.KnnGraph

/-!
# Model of the construction of a kNN graph in `cleanlab/internal/neighbor/knn_graph.py` and `metric.py`

The search index is a parameter: for every number of neighbours it returns the rows `kneighbors(X=None)` lists. Distances are
rationals.
-/

namespace Cleanlab.Knn

open Np

variable {N : ℕ}

/-- The metrics chosen by default; `scipyEuclidean` is the callable of scipy. -/
inductive Metric where
  | cosine
  | euclidean
  | scipyEuclidean
  | other (name : String)
  deriving DecidableEq

/-- `decide_euclidean_metric`, `metric.py:38-69`. -/
def decideEuclidean (rows : ℕ) : Metric := if 100 < rows then .euclidean else .scipyEuclidean

/-- `decide_default_metric`, `metric.py:73-105`. -/
def decideMetric (rows cols : ℕ) : Metric := if 3 < cols then .cosine else decideEuclidean rows

/-- `metric or decide_default_metric(features)`, `knn_graph.py:64`; a metric name is false only if it is empty. -/
def chooseMetric (metric : Option Metric) (rows cols : ℕ) : Metric :=
  match metric with
  | none => decideMetric rows cols
  | some m => if m = .other "" then decideMetric rows cols else m

/-- `_configure_num_neighbors`, `knn_graph.py:567-578`. -/
def configureNeighbors (N : ℕ) (k : Option ℤ) : Except String ℤ :=
  if k.any (fun k => decide ((N : ℤ) ≤ k)) then .error "ValueError"
  else .ok (match k with
    | none => min 10 ((N : ℤ) - 1)
    | some k => if k = 0 then min 10 ((N : ℤ) - 1) else k)

/-- `features_to_knn`, `knn_graph.py:26-70`: the number of neighbours and the metric of the fitted index. Fitting checks that
the number of neighbours is at least 1. -/
def featuresToKnn (rows cols : ℕ) (k : Option ℤ) (metric : Option Metric) : Except String (ℕ × Metric) := do
  let m := chooseMetric metric rows cols
  let k ← configureNeighbors rows k
  if k < 1 then .error "InvalidParameterError" else .ok (k.toNat, m)

/-- A sparse `N × N` matrix in CSR format. -/
structure CsrGraph (N : ℕ) where
  data : List ℚ
  indices : List (Fin N)
  indptr : List ℕ
  deriving DecidableEq

/-- The stored entries of row `i`. -/
def CsrGraph.row (a : CsrGraph N) (i : ℕ) : List (Fin N × ℚ) :=
  match a.indptr[i]?, a.indptr[i + 1]? with
  | some s, some e => ((a.indices.zip a.data).take e).drop s
  | _, _ => []

/-- `distances.reshape(-1)` and `indices.reshape(-1)` with the given row pointers. -/
def flattenGraph (g : Graph N) (indptr : List ℕ) : CsrGraph N :=
  { data := (List.finRange N).flatMap (fun p => (g p).map Prod.snd),
    indices := (List.finRange N).flatMap (fun p => (g p).map Prod.fst), indptr := indptr }

/-- `construct_knn_graph_from_index(knn)`, `knn_graph.py:124-139`: `np.arange(0, N * K + 1, K)` are the multiples of `K`. -/
def constructGraph (K : ℕ) (g : Graph N) : CsrGraph N := flattenGraph g ((List.range (N + 1)).map (fun i => i * K))

/-- `a.reshape(N, -1)`. -/
def reshapeRows {α : Type} (N : ℕ) (l : List α) : Except String (ℕ → List α) :=
  if N = 0 ∨ l.length % N ≠ 0 then .error "ValueError"
  else .ok (fun i => (l.drop (i * (l.length / N))).take (l.length / N))

/-- `correct_knn_graph`, `knn_graph.py:236-247`, with `correct_knn_distances_and_indices` (548-564). -/
def correctGraph {X : Type} [DecidableEq X] (S : ArgSort (Fin N)) (B : ArgSort Bool) (features : Fin N → X)
    (values : List X) (a : CsrGraph N) : Except String (CsrGraph N) := do
  let distances ← reshapeRows N a.data
  let indices ← reshapeRows N a.indices
  let g ← correctDuplicates S B (a.data.length / N) (fun p => (indices p).zip (distances p))
    (duplicateSets features values)
  return flattenGraph g a.indptr

/-- `create_knn_graph_and_index`, `knn_graph.py:191-203`. -/
def createGraph {X : Type} [DecidableEq X] (S : ArgSort (Fin N)) (B : ArgSort Bool) (features : Fin N → X)
    (values : List X) (cols : ℕ) (query : ℕ → Metric → Graph N) (k : Option ℤ) (metric : Option Metric) (correct : Bool) :
    Except String (CsrGraph N) := do
  let (k, m) ← featuresToKnn N cols k metric
  let a := constructGraph k (query k m)
  if correct then correctGraph S B features values a else return a

end Cleanlab.Knn
