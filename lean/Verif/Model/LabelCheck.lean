import Verif.Np.Lemmas
import Mathlib.Data.Rat.Floor

/-!
# Predictions of the label check from features, `cleanlab/datalab/internal/issue_manager/label.py:131-159`

`nbr i` are the `k + 1` neighbours scikit-learn finds for example `i` in the data it was fitted on.
-/

namespace Cleanlab.LabelCheck

variable {n K k : ℕ}

/-- `KNeighborsClassifier.predict_proba` with uniform weights: the fraction of the neighbours with each label. -/
def knnProbs (nbr : Fin n → Fin (k + 1) → Fin n) (labels : Fin n → Fin K) (i : Fin n) (c : Fin K) : ℚ :=
  ((Finset.univ.filter (fun r => labels (nbr i r) = c)).card : ℚ) / ((k : ℚ) + 1)

/-- The one-hot encoded label. -/
def oneHot (labels : Fin n → Fin K) (i : Fin n) (c : Fin K) : ℚ := if labels i = c then 1 else 0

/-- The adjustment that makes the predictions out-of-sample, `label.py:152-159`. -/
def outOfSample (nbr : Fin n → Fin (k + 1) → Fin n) (labels : Fin n → Fin K) (i : Fin n) (c : Fin K) : ℚ :=
  (knnProbs nbr labels i c - 1 / ((k : ℚ) + 1) * oneHot labels i c) * ((k : ℚ) + 1) / (k : ℚ)

/-- The range check of `assert_valid_inputs`, `internal/validation.py:77-81`, applied to the predictions by
`CleanLearning.find_label_issues`. -/
def checkedProbs (nbr : Fin n → Fin (k + 1) → Fin n) (labels : Fin n → Fin K) : Except String (Fin n → Fin K → ℚ) :=
  if ∀ i c, -(1 / 10 ^ 6) ≤ outOfSample nbr labels i c ∧ outOfSample nbr labels i c ≤ 1 + 1 / 10 ^ 6 then
    .ok (outOfSample nbr labels)
  else .error "Values in pred_probs must be between 0 and 1"

end Cleanlab.LabelCheck
