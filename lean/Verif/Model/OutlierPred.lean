import Verif.Model.RankReal
import Verif.Np.SortOn
import Mathlib.Analysis.SpecialFunctions.Pow.Real

/-!
# Model of the prediction-based out-of-distribution scores in `cleanlab/outlier.py`
-/

namespace Cleanlab.Outlier

open Np Cleanlab.Count Cleanlab.Rank

variable {n K : ℕ}

/-- `params["method"]`, `outlier.py:492`. -/
inductive OodMethod
  | entropy
  | leastConfidence
  | gen

/-- `get_confident_thresholds`, `count.py:1407-1458`, over the reals (`Cleanlab.Count.getConfidentThresholds` is the
same over the rationals). -/
noncomputable def realThresholds (labels : Fin n → Fin K) (P : Fin n → Fin K → ℝ) (k : Fin K) : ℝ :=
  let own := (List.finRange n).filter (fun i => labels i = k)
  max (if own.length = 0 then 2 else (own.map (fun i => P i k)).sum / own.length) (2 / 1000000)

/-- `softmax(pred_probs, axis=1)` of one row, `internal/numerics.py:35-39` with the default temperature. -/
noncomputable def softmaxRow (p : Fin K → ℝ) (k : Fin K) : ℝ := Real.exp (p k) / ∑ j, Real.exp (p j)

/-- The GEN score of one row, `outlier.py:563-567`. -/
noncomputable def genScore (A : ArgSort ℝ) (M : ℕ) (gamma : ℝ) (p : Fin K → ℝ) : ℝ :=
  let sorted := (sortOn A id (List.ofFn (softmaxRow p))).drop (K - M)
  1 - (sorted.map (fun q => q ^ gamma * (1 - q) ^ gamma)).sum / M

/-- `_get_ood_predictions_scores`, `outlier.py:534-582`. `thresholds` are the stored confident thresholds, `labels`
the given labels they are computed from otherwise. `M = 0` divides by zero. -/
noncomputable def oodPredictionScores [NeZero K] (A : ArgSort ℝ) (method : OodMethod) (adjust : Bool) (M : ℕ)
    (gamma : ℝ) (labels : Option (Fin n → Fin K)) (thresholds : Option (Fin K → ℝ)) (P : Fin n → Fin K → ℝ) :
    Except String ((Fin n → ℝ) × Option (Fin K → ℝ)) := do
  let thr ← if adjust then
      match thresholds, labels with
      | some t, _ => Except.ok (some t)
      | none, some l => (checkReal false l P).map (fun _ => some (realThresholds l P))
      | none, none => Except.error "Cannot calculate adjust_pred_probs without labels."
    else Except.ok thresholds
  let Q : Fin n → Fin K → ℝ := match adjust, thr with
    | true, some t => subtractConfidentThresholds P t
    | _, _ => P
  match method with
  | .entropy => do
    let e ← normalizedEntropy Q
    return (fun i => 1 - e i, thr)
  | .leastConfidence => return (fun i => Q i (argmax (Q i)), thr)
  | .gen => if M = 0 then Except.error "division by zero" else return (fun i => genScore A M gamma (Q i), thr)

end Cleanlab.Outlier
