import Verif.Model.Rank
import Mathlib.Analysis.SpecialFunctions.Log.NegMulLog
import Mathlib.Analysis.SpecialFunctions.Exp

/-!
# Model of the real-valued parts of `cleanlab/rank.py`: entropy scores and ensembles

Results that are `nan` in numpy (0/0) are modelled as errors.
-/

namespace Cleanlab.Rank

open Np Cleanlab.Count

variable {n K M : ℕ}

/-- `CLIPPING_LOWER_BOUND`, `internal/constants.py:2`. -/
noncomputable def clippingLowerBound : ℝ := 1 / 1000000

/-- `get_normalized_entropy` of one row, `internal/label_quality_utils.py:118`; `xlogy(p, p)` is `p * log p`
with value 0 at `p = 0`. -/
noncomputable def rowEntropy (p : Fin K → ℝ) : ℝ := -(∑ k, p k * Real.log (p k)) / Real.log K

/-- `get_normalized_entropy`, `internal/label_quality_utils.py:68-118`. With one class numpy computes 0/0. -/
noncomputable def normalizedEntropy (P : Fin n → Fin K → ℝ) : Except String (Fin n → ℝ) :=
  open Classical in
  if ∃ i k, P i k < 0 ∨ P i k > 1 then .error "All probabilities are required to be in the interval [0, 1]."
  else if K ≤ 1 then .error "nan"
  else .ok (fun i => rowEntropy (P i))

/-- `get_confidence_weighted_entropy_for_each_label`, `rank.py:545-582`. -/
noncomputable def confidenceWeightedEntropy (labels : Fin n → Fin K) (P : Fin n → Fin K → ℝ) :
    Except String (Fin n → ℝ) := do
  let entropy ← normalizedEntropy P
  return fun i =>
    let conf := max (selfConfidence labels P i) clippingLowerBound
    let x := entropy i / conf
    Real.log (x + 1) / max x clippingLowerBound

/-- `assert_valid_inputs(X=None, y=labels, pred_probs=P, multi_label=False, allow_one_class=allowOne)`,
`internal/validation.py:13-112`, for labels in `0..K-1` and real probabilities (`Cleanlab.Filter.validate` for rational
ones, `Verif.Model.Validation` for other labels). -/
noncomputable def checkReal (allowOne : Bool) (labels : Fin n → Fin K) (P : Fin n → Fin K → ℝ) : Except String Unit :=
  open Classical in
  if n = 0 then .error "Labels cannot be empty."
  else if allowOne = false ∧ ∀ i j, labels i = labels j then .error "Labels must contain at least 2 classes."
  else if ∃ i k, P i k < -(1 / 10 ^ 6) ∨ P i k > 1 + 1 / 10 ^ 6 then .error "Values in pred_probs must be between 0 and 1."
  else .ok ()

/-- `weight_ensemble_members_by`, `rank.py:158`. -/
inductive Weighting (M : ℕ)
  | uniform
  | accuracy
  | logLossSearch (ts : List ℝ)
  | custom (w : Fin M → ℝ)

/-- Accuracy of one model, `rank.py:309`. -/
noncomputable def accuracy [NeZero K] (labels : Fin n → Fin K) (P : Fin n → Fin K → ℝ) : ℝ :=
  (((List.finRange n).countP (fun i => argmax (P i) = labels i) : ℕ) : ℝ) / n

/-- `pred_probs_clipped`, `rank.py:268-271`. -/
noncomputable def clipRows (P : Fin n → Fin K → ℝ) (i : Fin n) (k : Fin K) : ℝ :=
  max (P i k) clippingLowerBound / ∑ k', max (P i k') clippingLowerBound

/-- The weights tried for one temperature, `rank.py:265-277`; `logLoss` stands for `sklearn.metrics.log_loss`. -/
noncomputable def temperatureWeights (logLoss : (Fin n → Fin K) → (Fin n → Fin K → ℝ) → ℝ)
    (labels : Fin n → Fin K) (Ps : Fin M → Fin n → Fin K → ℝ) (t : ℝ) (m : Fin M) : ℝ :=
  let e := fun m => Real.exp (-t * logLoss labels (clipRows (Ps m)))
  e m / ∑ m', e m'

/-- One round of the search, `rank.py:262-290`; the state is the best loss so far (`none` for `inf`) and its
weights. -/
noncomputable def searchStep (logLoss : (Fin n → Fin K) → (Fin n → Fin K → ℝ) → ℝ)
    (labels : Fin n → Fin K) (Ps : Fin M → Fin n → Fin K → ℝ) (s : Option (ℝ × (Fin M → ℝ))) (t : ℝ) :
    Option (ℝ × (Fin M → ℝ)) :=
  let w := temperatureWeights logLoss labels Ps t
  let loss := logLoss labels (fun i k => ∑ m, w m * Ps m i k)
  match s with
  | none => some (loss, w)
  | some (best, w0) => if best > loss then some (loss, w) else some (best, w0)

/-- `get_label_quality_ensemble_scores`, `rank.py:158-366`; `score` is the chosen scoring method. The messages of the input
checks are left out. `log_loss` of scikit-learn, called without its argument `labels`, raises if the labels do not contain
every class. -/
noncomputable def ensembleScores [NeZero K] (logLoss : (Fin n → Fin K) → (Fin n → Fin K → ℝ) → ℝ)
    (score : (Fin n → Fin K → ℝ) → Fin n → ℝ) (labels : Fin n → Fin K)
    (Ps : Fin M → Fin n → Fin K → ℝ) (wt : Weighting M) : Except String (Fin n → ℝ) :=
  open Classical in
  if M = 0 then .error "pred_probs_list is empty."
  else if ∃ m, checkReal false labels (Ps m) ≠ .ok () then .error "invalid inputs"
  else match wt with
  | .uniform => .ok (fun i => (∑ m, score (Ps m) i) / M)
  | .accuracy =>
    if ∑ m, accuracy labels (Ps m) = 0 then .error "nan"
    else .ok (fun i => ∑ m, score (Ps m) i * (accuracy labels (Ps m) / ∑ m', accuracy labels (Ps m')))
  | .logLossSearch ts =>
    if ts ≠ [] ∧ ∃ k, ∀ i, labels i ≠ k then .error "y_true and y_pred contain different number of classes"
    else match ts.foldl (searchStep logLoss labels Ps) none with
    | none => .error "AssertionError: neg_log_loss_weights is not None"
    | some (_, w) => .ok (fun i => ∑ m, score (Ps m) i * w m)
  | .custom w => .ok (fun i => ∑ m, score (Ps m) i * w m)

end Cleanlab.Rank
