import Mathlib.Analysis.SpecialFunctions.Exp

/-!
# Model of `cleanlab/regression/rank.py`
-/

namespace Cleanlab.Regression

/-- `_get_residual_score_for_each_label`, `regression/rank.py:90-119`, on arrays of equal length. -/
noncomputable def residualScores (labels predictions : List ℝ) : List ℝ :=
  List.zipWith (fun y p => Real.exp (-|p - y|)) labels predictions

/-- `check_dimension_and_datatype`, `internal/regression_utils.py:72-107`, for one-dimensional numeric arrays; `none` is
`nan`. `np.squeeze` turns an array with one element into a zero-dimensional one, which is refused. -/
def checkArray (name : String) (x : List (Option ℝ)) : Except String Unit :=
  if x.isEmpty then .error (name ++ " cannot be empty array.")
  else if x.length = 1 then .error ("Expected 1-Dimensional inputs for " ++ name ++ ", got 0 dimensions.")
  else .ok ()

/-- `get_label_quality_scores`, `regression/rank.py:22-87` with `internal/regression_utils.py:11-48,110-114`, for
one-dimensional numeric arrays; `outre` is the score computed by the other method. -/
noncomputable def getLabelQualityScores (outre : List ℝ → List ℝ → List ℝ) (labels predictions : List (Option ℝ))
    (method : String) : Except String (List ℝ) := do
  checkArray "labels" labels
  checkArray "predictions" predictions
  if labels.length ≠ predictions.length then .error "Number of examples in labels and predictions are not same."
  match labels.mapM id, predictions.mapM id with
  | none, _ => .error "labels cannot contain missing values."
  | _, none => .error "predictions cannot contain missing values."
  | some y, some p =>
    if method = "residual" then return residualScores y p
    else if method = "outre" then return outre y p
    else .error "Specified method must be one of: residual, outre"

end Cleanlab.Regression
