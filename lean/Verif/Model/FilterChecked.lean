import Verif.Model.Filter
import Verif.Model.Validation

/-!
# The public functions of `filter.py`, `rank.py` and `count.py` with the checks of their inputs

`Verif.Model.Filter`, `Verif.Model.Rank` and `Verif.Model.Count` describe the computation for inputs that passed
`assert_valid_inputs`; here the checks come first, each with the value of `allow_one_class` that the code passes.
-/

namespace Cleanlab.Filter

open Np Cleanlab.Util Cleanlab.Count Cleanlab.Rank Cleanlab.Validation

variable {n K : ℕ}

/-- `assert_valid_inputs(X=None, y=labels, pred_probs=pred_probs, multi_label=False, allow_one_class=allowOne)`. -/
def validate (allowOne : Bool) (labels : Fin n → Fin K) (P : Fin n → Fin K → ℚ) : Except String Unit :=
  validProbs true allowOne (List.ofFn (fun i => Raw.num ((labels i : ℕ) : ℚ))) (fun i k => some (P i k))

/-- `set(labels) == {0}`, `filter.py:207-210` and `rank.py:438-441`. -/
def allZero (labels : Fin n → Fin K) : Bool := decide (0 < n ∧ ∀ i, (labels i : ℕ) = 0)

/-- `get_label_quality_scores`, `rank.py:112-117`. -/
def scoresChecked (m : Method) (labels : Fin n → Fin K) (P : Fin n → Fin K → ℚ) : Except String (Fin n → ℚ) := do
  validate true labels P
  labelQualityScores m labels P

/-- `num_label_issues`, `count.py:123-173`. -/
def numChecked (A : ArgSort ℚ) [NeZero K] (labels : Fin n → Fin K) (P : Fin n → Fin K → ℚ)
    (confidentJoint : Option (Fin K → Fin K → ℚ)) (method : EstimationMethod) : Except String ℤ := do
  validate false labels P
  numLabelIssues A labels P confidentJoint method

/-- `find_label_issues`, `filter.py:207-450`. `find_predicted_neq_given` (`filter.py:430`, `662`) and `num_label_issues`
(`filter.py:329`, `count.py:124`) check the inputs a second time and do not allow a single class. (Only the message of
the exception depends on the order of this check and the one of lines 232-245.) -/
def findChecked (A : ArgSort ℚ) [NeZero K] (labels : Fin n → Fin K) (P : Fin n → Fin K → ℚ) (args : Args K) :
    Except String (Fin n → Bool) := do
  validate (allZero labels) labels P
  if args.filterBy ∈ [FilterBy.predictedNeqGiven, .lowNormalizedMargin, .lowSelfConfidence] then
    validate false labels P
  findLabelIssues A labels P args

/-- `find_label_issues(..., return_indices_ranked_by=...)`, `filter.py:441-449` with `order_label_issues`,
`rank.py:438-461`; `scores` is what the scoring function returns. -/
def findRankedChecked {α : Type} [LinearOrder α] (A : ArgSort ℚ) (A' : ArgSort α) [NeZero K] (labels : Fin n → Fin K)
    (P : Fin n → Fin K → ℚ) (args : Args K) (scores : Fin n → α) : Except String (List (Fin n)) := do
  let mask ← findChecked A labels P args
  validate (allZero labels) labels P
  return orderLabelIssues A' mask scores

end Cleanlab.Filter
