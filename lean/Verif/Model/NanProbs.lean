import Verif.Model.Count
import Mathlib.Order.WithBot

/-!
# Model of the confident joint and of the scores for predicted probabilities with missing values

`cleanlab/count.py` and `cleanlab/rank.py`, where entries of `pred_probs` may be `nan` (`none`), which the validation lets
pass (`C96_not_nan`).  Comparisons with `nan` are false, means of values with `nan` are `nan`, `np.argmax` returns the first
`nan`, and `np.argsort` puts `nan` last.
-/

namespace Cleanlab.NanProbs

open Np Cleanlab.Count

variable {n K : ℕ}

/-- The order of `np.argmax` and `np.argsort`: `nan` is above every number. -/
def nanLast : Option ℚ → WithTop ℚ
  | none => ⊤
  | some x => (x : WithTop ℚ)

/-- `np.mean`. -/
def mean (l : List (Option ℚ)) : Option ℚ :=
  if l.all Option.isSome then some ((l.filterMap id).sum / l.length) else none

/-- `get_confident_thresholds`, `count.py:1407-1458`; `np.clip` keeps `nan`. -/
def thresholds (labels : Fin n → Fin K) (P : Fin n → Fin K → Option ℚ) (k : Fin K) : Option ℚ :=
  (if k ∈ List.ofFn labels then mean (((List.finRange n).filter (fun i => labels i = k)).map (fun i => P i k))
    else some 2).map (fun x => max x thresholdsLowerBound)

/-- `pred_probs >= thresholds - 1e-6`, `count.py:581`. -/
def predProbsBool (P : Fin n → Fin K → Option ℚ) (thr : Fin K → Option ℚ) (i : Fin n) (k : Fin K) : Bool :=
  match P i k, thr k with
  | some x, some t => decide (x ≥ t - 1 / 1000000)
  | _, _ => false

/-- `num_confident_bins`, `count.py:582`. -/
def numConfidentBins (P : Fin n → Fin K → Option ℚ) (thr : Fin K → Option ℚ) (i : Fin n) : ℕ :=
  (List.finRange K).countP (predProbsBool P thr i)

/-- `true_label_guess`, `count.py:585-595`. -/
def trueLabelGuess [NeZero K] (P : Fin n → Fin K → Option ℚ) (thr : Fin K → Option ℚ) (i : Fin n) : Fin K :=
  if numConfidentBins P thr i > 1 then argmax (fun k => nanLast (P i k))
  else argmax (fun k => if predProbsBool P thr i k then (1 : ℚ) else 0)

/-- The rows kept in `count.py:597-598`. -/
def confidentRows (P : Fin n → Fin K → Option ℚ) (thr : Fin K → Option ℚ) : List (Fin n) :=
  (List.finRange n).filter (fun i => numConfidentBins P thr i > 0)

/-- The confident joint before calibration, `count.py:597-612`. -/
def confidentJointRaw [NeZero K] (labels : Fin n → Fin K) (P : Fin n → Fin K → Option ℚ) (thr : Fin K → Option ℚ)
    (a b : Fin K) : ℕ :=
  let rows := confidentRows P thr
  let cm := confusionMatrix (rows.map (trueLabelGuess P thr)) (rows.map labels)
  let cj := cm b a
  if a = b then max cj 1 else cj

/-- `get_self_confidence_for_each_label`, `rank.py:489-542`. -/
def selfConfidence (labels : Fin n → Fin K) (P : Fin n → Fin K → Option ℚ) (i : Fin n) : Option ℚ := P i (labels i)

/-- `np.argsort(label_quality_scores)`, the order in which a user looks at the examples. -/
def ranking (A : ArgSort (WithTop ℚ)) (scores : Fin n → Option ℚ) : List (Fin n) :=
  A.indices (fun i => nanLast (scores i))

end Cleanlab.NanProbs
