import Verif.Model.Outlier
import Verif.Np.Percentile

/-!
# Model of the outlier check, `cleanlab/datalab/internal/issue_manager/outlier.py`

The input is the average distance of each example to its neighbours in the kNN graph, or, without a graph, the scores
computed from predicted probabilities (`Verif.Model.OutlierPred`).
-/

namespace Cleanlab.OutlierCheck

open Np Cleanlab.Outlier

/-- `DEFAULT_THRESHOLDS`, `outlier.py:38-41`. -/
noncomputable def defaultFeatures : ℝ := 37037 / 100000

/-- `DEFAULT_THRESHOLDS`, `outlier.py:38-41`. -/
noncomputable def defaultPredProbs : ℝ := 13 / 100

variable {n : ℕ}

/-- The outcome of a check: the threshold used, the cut-off (`none` for infinity and `nan`), flags and scores. -/
structure Result (n : ℕ) where
  threshold : ℝ
  cutoff : Option ℝ
  flags : Fin n → Bool
  scores : Fin n → ℝ

/-- `compute_issue_threshold`, `outlier.py:202-206`. For threshold 0 the scale is infinite, and the cut-off is infinite or
`nan`. -/
noncomputable def issueThreshold (A : ArgSort ℝ) (avg : Fin n → ℝ) (threshold : ℝ) : Except String (Option ℝ) :=
  match percentile A (3 / 4) (List.ofFn avg), percentile A (1 / 4) (List.ofFn avg) with
  | some q3, some q1 =>
    open Classical in
    if threshold = 0 then .ok none else .ok (some (q3 + (1 / threshold - 1) * (q3 - q1)))
  | _, _ => .error "index -1 is out of bounds for axis 0 with size 0"

/-- The threshold, `outlier.py:194-200`. -/
noncomputable def chosen : Option ℝ → Except String ℝ
  | none => .ok defaultFeatures
  | some t =>
    open Classical in
    if t ≠ 0 ∧ ¬(0 ≤ t ∧ t ≤ 1) then .error "threshold must be a number between 0 and 1" else .ok t

/-- `avg_distances > issue_threshold`. -/
noncomputable def above (avg : Fin n → ℝ) (cut : Option ℝ) (i : Fin n) : Bool :=
  open Classical in
  match cut with
  | none => false
  | some c => decide (c < avg i)

/-- `_compute_threshold_and_issue_column_from_distances`, `outlier.py:190-209`. -/
noncomputable def fromDistances (A : ArgSort ℝ) (avg : Fin n → ℝ) (threshold : Option ℝ) :
    Except String (ℝ × Option ℝ × (Fin n → Bool)) := do
  let t ← chosen threshold
  let cut ← issueThreshold A avg t
  return (t, cut, above avg cut)

/-- The scaling factor, `outlier.py:130-137`. -/
noncomputable def scalingFactor (A : ArgSort ℝ) (avg : Fin n → ℝ) : Option ℝ → Except String ℝ
  | some s => .ok s
  | none =>
    match npMedian A (List.ofFn avg) with
    | some m => .ok (max m (100 * floatEps))
    | none => .error "nan"

/-- `find_issues` on a kNN graph, `outlier.py:109-146`. -/
noncomputable def checkDistances (A : ArgSort ℝ) (t : ℝ) (scaling : Option ℝ) (metric : Option Metric) (avg : Fin n → ℝ)
    (threshold : Option ℝ) : Except String (Result n) := do
  let (thr, cut, flags) ← fromDistances A avg threshold
  let scale ← scalingFactor A avg scaling
  return {
    threshold := thr
    cutoff := cut
    flags := flags
    scores := fun i =>
      match metric with
      | none => transformScore (avg i) t scale
      | some m => correctPrecision m (avg i) (transformScore (avg i) t scale) }

/-- `scores < issue_threshold`. -/
noncomputable def below (scores : Fin n → ℝ) (cut : ℝ) (i : Fin n) : Bool := open Classical in decide (scores i < cut)

/-- `find_issues` on scores from predicted probabilities, `outlier.py:147-160`. -/
noncomputable def checkPredProbs (A : ArgSort ℝ) (scores : Fin n → ℝ) (threshold : Option ℝ) :
    Except String (Result n) :=
  let t := threshold.getD defaultPredProbs
  if t < 0 then .error "threshold must be non-negative"
  else
    match npMedian A (List.ofFn scores) with
    | none => .error "nan"
    | some m => .ok { threshold := t, cutoff := some (t * m), flags := below scores (t * m), scores := scores }

end Cleanlab.OutlierCheck
