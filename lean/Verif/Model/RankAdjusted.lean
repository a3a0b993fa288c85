import Verif.Model.FilterChecked

/-!
# Model of `get_label_quality_scores(..., adjust_pred_probs=True)`, `cleanlab/rank.py`
-/

namespace Cleanlab.Filter

open Np Cleanlab.Count Cleanlab.Rank

variable {n K : ℕ}

/-- `get_label_quality_scores`, `rank.py:112-155`, for the two methods that allow `adjust_pred_probs`, with the thresholds of
`internal/label_quality_utils.py:50-56`. -/
def scoresAdjusted [NeZero K] (m : Method) (adjust : Bool) (labels : Fin n → Fin K) (P : Fin n → Fin K → ℚ) :
    Except String (Fin n → ℚ) := do
  validate true labels P
  labelQualityScores m labels (if adjust then subtractConfidentThresholds P (getConfidentThresholds labels P) else P)

end Cleanlab.Filter
