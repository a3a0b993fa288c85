import Verif.Np.Basic

/-!
# Model of `cleanlab/data_valuation.py`
-/

namespace Cleanlab.DataValuation

open Np

variable {N : ℕ} {L : Type} [DecidableEq L]

/-- One round of the inner loop, `data_valuation.py:46-49`, for position `j` of the neighbour list `idx` of a point with
label `ya`. -/
def shapleyStep (y : Fin N → L) (ya : L) (idx : List (Fin N)) (s : Fin N → ℚ) (j : ℕ) : Except String (Fin N → ℚ) :=
  match idx[j]?, idx[j + 1]? with
  | some a, some b => .ok (Function.update s a
      (s b + ((if y a = ya then 1 else 0) - (if y b = ya then 1 else 0))))
  | _, _ => .error "IndexError"

/-- The row of one point, `data_valuation.py:43-49`: `j` runs from `k - 2` down to 0. -/
def shapleyRow (y : Fin N → L) (ya : L) (idx : List (Fin N)) (k : ℕ) : Except String (Fin N → ℚ) :=
  (List.range (k - 1)).reverse.foldlM (shapleyStep y ya idx) (fun _ => 0)

/-- The rows of all points, `data_valuation.py:43-49`. -/
def shapleyRows (neighbors : Fin N → List (Fin N)) (y : Fin N → L) (k : ℕ) : Except String (List (Fin N → ℚ)) :=
  (List.finRange N).mapM (fun a => shapleyRow y (y a) (neighbors a) k)

/-- `_knn_shapley_score`, `data_valuation.py:14-50`. With `k = 0` or no points the result is `nan`. -/
def knnShapley (neighbors : Fin N → List (Fin N)) (y : Fin N → L) (k : ℕ) : Except String (Fin N → ℚ) := do
  let rows ← shapleyRows neighbors y k
  if k = 0 ∨ N = 0 then throw "nan"
  return fun i => (rows.map (fun s => s i / (k : ℚ))).sum / (N : ℚ)

/-- `data_shapley_knn`, `data_valuation.py:53-127`, with a kNN graph. -/
def dataShapley (neighbors : Fin N → List (Fin N)) (y : Fin N → L) (k : ℕ) : Except String (Fin N → ℚ) := do
  let s ← knnShapley neighbors y k
  return fun i => (1 / 2) * (s i + 1)

/-- `DataValuationIssueManager.find_issues`, `issue_manager/data_valuation.py:127-147`, on the graph with `columns` neighbours per
example: flags and scores. The default threshold is `DEFAULT_THRESHOLD`, line 85. -/
def findIssues (neighbors : Fin N → List (Fin N)) (columns : ℕ) (y : Fin N → L) (k : ℕ) (threshold : Option ℚ) :
    Except String ((Fin N → Bool) × (Fin N → ℚ)) :=
  if columns < k then .error "The provided knn graph has fewer neighbors than the required k"
  else do
    let scores ← dataShapley neighbors y k
    return (fun i => decide (scores i < threshold.getD (1 / 2)), scores)

end Cleanlab.DataValuation
