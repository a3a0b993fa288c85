import Verif.Model.Count

/-!
# Model of `cleanlab/rank.py` (rational-valued scores, top issues, ordering)
-/

namespace Cleanlab.Rank

open Np Cleanlab.Count

variable {n K : ℕ} {F : Type} [Field F] [LinearOrder F]

/-- `get_self_confidence_for_each_label`, `rank.py:464-496`. -/
def selfConfidence (labels : Fin n → Fin K) (P : Fin n → Fin K → F) (i : Fin n) : F := P i (labels i)

/-- `np.max` of the row without its given label, `rank.py:537-540`. It is `none` (numpy raises
`ValueError`) when there is only one class. -/
def maxProbNotLabel (p : Fin K → F) (k : Fin K) : Option F :=
  (((List.finRange K).filter (fun j => j ≠ k)).map p).max?

/-- `get_normalized_margin_for_each_label`, `rank.py:499-542`. -/
def normalizedMargin (labels : Fin n → Fin K) (P : Fin n → Fin K → F) (i : Fin n) : Option F :=
  (maxProbNotLabel (P i) (labels i)).map (fun m => (selfConfidence labels P i - m + 1) / 2)

/-- The rational-valued scoring methods of `get_label_quality_scores`, `rank.py:132-136`. -/
inductive Method
  | selfConfidence
  | normalizedMargin

/-- `_compute_label_quality_scores`, `rank.py:120-155`, without `adjust_pred_probs`.
The whole call fails when the margin of some row does not exist. -/
def labelQualityScores (m : Method) (labels : Fin n → Fin K) (P : Fin n → Fin K → F) :
    Except String (Fin n → F) :=
  match m with
  | .selfConfidence => .ok (selfConfidence labels P)
  | .normalizedMargin =>
    if h : ∀ i, (normalizedMargin labels P i).isSome then
      .ok (fun i => (normalizedMargin labels P i).get (h i))
    else .error "zero-size array to reduction operation maximum"

/-- `_subtract_confident_thresholds`, `internal/label_quality_utils.py:11-65`. -/
def subtractConfidentThresholds [NeZero K] (P : Fin n → Fin K → F) (thr : Fin K → F) (i : Fin n)
    (k : Fin K) : F :=
  let m := thr (argmax thr)
  (P i k - thr k + m) / ∑ k', (P i k' - thr k' + m)

/-- `find_top_issues`, `rank.py:369-395`. `top = None` means all. -/
def findTopIssues {α : Type} [LinearOrder α] (A : ArgSort α) (scores : Fin n → α) (top : Option ℕ) :
    List (Fin n) :=
  let top := match top with
    | none => n
    | some t => if t > n then n else t
  (A.indices scores).take top

/-- `order_label_issues`, `rank.py:398-461`: the flagged indices, permuted by the argsort of their scores. -/
def orderLabelIssues {α : Type} [LinearOrder α] (A : ArgSort α) (mask : Fin n → Bool)
    (scores : Fin n → α) : List (Fin n) :=
  let idx := (List.finRange n).filter mask
  (A.indices (fun r => scores (idx.get r))).map idx.get

end Cleanlab.Rank
