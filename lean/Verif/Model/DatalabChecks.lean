import Verif.Np.Basic
import Mathlib.Data.List.MinMax
import Mathlib.Data.Finset.Sort

/-!
# Model of the small issue checks of `Datalab`

`issue_manager/identifier_column.py`, `issue_manager/underperforming_group.py`, `issue_manager/imbalance.py`,
`issue_manager/null.py` and `spurious_correlation.py` under `cleanlab/datalab/internal`.
-/

namespace Cleanlab.Checks

/-! ## Identifier columns -/

/-- A feature column.  Only `np.integer` dtypes are looked at, `identifier_column.py:107`; the content of columns of
other dtypes does not matter. -/
inductive Column where
  | ints (values : List ℤ)
  | other (length : ℕ)

/-- `_is_sequential`, `identifier_column.py:28-45`. -/
def isSequential (arr : List ℤ) : Bool :=
  if arr.length = 0 then false
  else
    let unique := arr.toFinset.sort (· ≤ ·)
    match unique.head?, unique.getLast? with
    | some lo, some hi =>
      let expected := (List.range (hi + 1 - lo).toNat).map (fun t : ℕ => lo + (t : ℤ))
      if expected.length = 1 ∨ expected.length ≠ unique.length then false
      else decide (unique = expected)
    | _, _ => false

/-- Whether a column is reported, `identifier_column.py:105-111`. -/
def isIdentifier : Column → Bool
  | .ints values => isSequential values
  | .other _ => false

/-- What the check stores, `identifier_column.py:93-131`. -/
structure IdentifierResult where
  isIssue : List Bool
  scores : List ℚ
  summary : ℚ
  columns : List ℕ

/-- `IdentifierColumnIssueManager.find_issues` for `n` rows and the given columns, `identifier_column.py:93-131`. -/
def identifierFindIssues (n : ℕ) (columns : List Column) : IdentifierResult :=
  let flags := columns.map isIdentifier
  { isIssue := List.replicate n false
    scores := List.replicate n 1
    summary := 1 - (if flags.any id then 1 else 0)
    columns := (flags.zipIdx.filter (·.1)).map (·.2) }

/-! ## Underperforming group -/

/-- `OUTLIER_CLUSTER_LABELS` is `(-1,)`, `underperforming_group.py:57`. -/
def outlierLabel : ℤ := -1

/-- `NO_UNDERPERFORMING_CLUSTER_ID`, `underperforming_group.py:59`. -/
def noCluster : ℤ := -2

section Underperforming

variable {n : ℕ}

/-- The examples of a cluster. -/
def members (cluster : Fin n → ℤ) (c : ℤ) : Finset (Fin n) := Finset.univ.filter (fun i => cluster i = c)

/-- Mean self confidence of a set of examples (`.mean()`; only called on non-empty sets). -/
def meanOn (conf : Fin n → ℚ) (s : Finset (Fin n)) : ℚ := (∑ i ∈ s, conf i) / s.card

/-- `filter_cluster_ids`, `underperforming_group.py:157-180`.  `order` is the iteration order of the Python set of
cluster ids. -/
def filterClusterIds (cluster : Fin n → ℤ) (minSamples : ℕ) (order : List ℤ) : List ℤ :=
  (order.filter (fun c => c ≠ outlierLabel)).filter (fun c => minSamples ≤ (members cluster c).card)

/-- State of the loop of `get_underperforming_clusters`: score dictionary, worst ratio, worst id. -/
structure WorstState where
  scores : List (ℤ × ℚ)
  ratio : ℚ
  id : ℤ

/-- The loop body, `underperforming_group.py:208-220`. -/
def worstStep (perf : ℤ → ℚ) (mean : ℚ) (s : WorstState) (c : ℤ) : WorstState :=
  if perf c < mean then
    let r := perf c / mean
    let scores := s.scores ++ [(c, r)]
    if perf c < s.ratio then { scores, ratio := r, id := c } else { s with scores }
  else s

/-- What the check reports. -/
structure GroupResult (n : ℕ) where
  isIssue : Fin n → Bool
  score : Fin n → ℚ
  summary : ℚ
  worst : ℤ

/-- `get_underperforming_clusters` and `find_issues`, `underperforming_group.py:107-126,182-227`.  `conf` is the self
confidence of every example, `order` the iteration order of the set of cluster ids; `set(cluster_ids)` has no
repetitions so the assignments of line 120 do not overlap.  Negative ids other than `-1` are rejected by
`np.bincount`. -/
def underperformingFindIssues (cluster : Fin n → ℤ) (conf : Fin n → ℚ) (threshold : ℚ) (minSamples : ℕ)
    (order : List ℤ) : Except String (GroupResult n) :=
  if ∃ i, cluster i < -1 then .error "'list' argument must have no negative elements"
  else
    let ids := filterClusterIds cluster minSamples order
    match ids.min? with
    | none => .error "No meaningful clusters were generated for determining underperforming group."
    | some lo =>
      let mean := meanOn conf (Finset.univ.filter (fun i => cluster i ∈ ids))
      let perf := fun c => meanOn conf (members cluster c)
      let s := ids.foldl (worstStep perf mean) { scores := [], ratio := 1, id := lo - 1 }
      let worst := if s.ratio < max threshold 0 then s.id else noCluster
      .ok { isIssue := fun i => cluster i = worst
            score := fun i => (s.scores.lookup (cluster i)).getD 1
            summary := s.ratio
            worst := worst }

end Underperforming

/-! ## Spurious correlations -/

/-- The domain of `np.bincount`: `0, …, max`. -/
def bins (labels : List ℕ) : List ℕ :=
  match labels.max? with
  | none => []
  | some m => List.range (m + 1)

/-- `_get_baseline`, `spurious_correlation.py:48-51`. `argmax` of an empty array raises. -/
def getBaseline (labels : List ℕ) : Except String ℚ :=
  match (bins labels).argmax (fun c => labels.count c) with
  | none => .error "attempt to get argmax of an empty sequence"
  | some c => .ok ((c : ℚ) / labels.length)

/-- `relative_room_for_improvement` with `eps = 1e-8`, `spurious_correlation.py:84-113`. -/
def relativeRoom (baseline accuracy : ℚ) : ℚ :=
  let numerator := 1 - accuracy
  let denominator := 1 - baseline
  let denominator := if baseline = 1 then denominator + 1 / 100000000 else denominator
  min 1 (numerator / denominator)

/-- The score of an image property, `spurious_correlation.py:53-80`: the accuracy is the cross-validated accuracy of a
classifier on that property. -/
def propertyScore (labels : List ℕ) (accuracy : ℚ) : Except String ℚ :=
  (getBaseline labels).map (fun b => relativeRoom b accuracy)

/-! ## Class imbalance -/

/-- What the check reports. -/
structure ImbalanceResult where
  isIssue : List Bool
  scores : List ℚ
  summary : ℚ
  rarest : ℕ

/-- `ClassImbalanceIssueManager.find_issues`, `imbalance.py:41-69`, for `K` class names. -/
def imbalanceFindIssues (labels : List ℕ) (K : ℕ) (threshold : ℚ) : Except String ImbalanceResult :=
  let prob := fun c => (labels.count c : ℚ) / labels.length
  match (bins labels).argmin prob with
  | none => .error "attempt to get argmin of an empty sequence"
  | some rarest =>
    let exists_ : Bool := prob rarest < threshold * (1 / K)
    .ok { isIssue := labels.map (fun l : ℕ => decide ((l : ℤ) = if exists_ then (rarest : ℤ) else -1))
          scores := labels.map (fun l => if l = rarest then prob rarest else 1)
          summary := prob rarest
          rarest := rarest }

/-! ## Null values -/

section Null

variable {n d : ℕ}

/-- Number of non-null features of a row, `null.py:43-44` (`true` is null). -/
def nonNull (null : Fin n → Fin d → Bool) (i : Fin n) : ℤ :=
  (d : ℤ) - ((Finset.univ.filter (fun j => null i j = true)).card : ℤ)

/-- `_calculate_null_issues`, `null.py:36-47`: flag and score; with no columns the score is `0/0 = nan` (`none`). -/
def nullRow (null : Fin n → Fin d → Bool) (i : Fin n) : Bool × Option ℚ :=
  (nonNull null i = 0, if d = 0 then none else some ((nonNull null i : ℚ) / (d : ℚ)))

/-- `most_common_issue`. -/
structure NullPattern (n d : ℕ) where
  pattern : Option (Fin d → Bool)
  rows : List (Fin n)
  count : ℕ

/-- `_most_common_issue`, `null.py:73-116`.  `most_common(1)` returns the first inserted among the most frequent
patterns, which is the first row pattern of maximal count. -/
def mostCommonIssue (null : Fin n → Fin d → Bool) : NullPattern n d :=
  let rows := (List.finRange n).filter (fun i => ∃ j, null i j = true)
  let patterns := rows.map null
  match patterns.argmax (fun p => patterns.count p) with
  | none => { pattern := none, rows := [], count := 0 }
  | some p => { pattern := some p, rows := rows.filter (fun i => null i = p), count := patterns.count p }

/-- `_column_impact`, `null.py:119-139`; with no rows the mean is `nan`. -/
def columnImpact (null : Fin n → Fin d → Bool) (j : Fin d) : Option ℚ :=
  if n = 0 then none else some (((Finset.univ.filter (fun i => null i j = true)).card : ℚ) / (n : ℚ))

end Null

end Cleanlab.Checks
