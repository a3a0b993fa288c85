import Verif.Model.Count

/-!
# Model of the cross-validation loop of `cleanlab/count.py`

An example is its index; the feature row `X[i]` is determined by `i`. The classifier is a parameter: what
`predict_proba` returns for an example after `fit` on a list of (example, label) pairs and a validation set.
-/

namespace Cleanlab.CrossVal

open Cleanlab.Count

variable {n K : ℕ}

/-- One split of `StratifiedKFold.split`: training and holdout indices. -/
structure Split (n : ℕ) where
  train : List (Fin n)
  holdout : List (Fin n)

/-- `clone(clf).fit(X_train, y_train, validation data).predict_proba`: the row predicted for an example. -/
abbrev Learner (n K : ℕ) : Type := List (Fin n × Fin K) → List (Fin n × Fin K) → Fin n → Fin K → ℚ

/-- `missing_classes`, `count.py:1016-1019`; `order` is the iteration order of the set. -/
def missingClasses (order : List (Fin K) → List (Fin K)) (labels : Fin n → Fin K) (train : List (Fin n)) :
    List (Fin K) :=
  order ((List.finRange K).filter (fun k => decide (k ∉ train.map labels)))

/-- `np.where(s_holdout_cv == missing_class)[0][0]`, `count.py:1026-1027`: a position in the holdout set. -/
def dupPosition (labels : Fin n → Fin K) (holdout : List (Fin n)) (c : Fin K) : Except String (Fin holdout.length) :=
  match (List.finRange holdout.length).filter (fun p => decide (labels (holdout.get p) = c)) with
  | [] => .error "index 0 is out of bounds for axis 0 with size 0"
  | p :: _ => .ok p

/-- `missing_class_inds`, `count.py:1013-1033`. -/
def missingClassInds (order : List (Fin K) → List (Fin K)) (labels : Fin n → Fin K) (s : Split n) :
    Except String (List (Fin K × Fin s.holdout.length)) :=
  (missingClasses order labels s.train).mapM (fun c => do
    let p ← dupPosition labels s.holdout c
    return (c, p))

/-- `X_train_cv, s_train_cv` after the duplications, `count.py:1008-1030`. -/
def trainingData (labels : Fin n → Fin K) (s : Split n) (dups : List (Fin K × Fin s.holdout.length)) :
    List (Fin n × Fin K) :=
  s.train.map (fun i => (i, labels i)) ++ dups.map (fun d => (s.holdout.get d.2, labels (s.holdout.get d.2)))

/-- `dummy_pred`, `count.py:1049-1050`. -/
def dummyPred (c : Fin K) : Fin K → ℚ := fun k => if k = c then 1 else 0

/-- `pred_probs_cv` of one fold, `count.py:1036-1052`: the rows for the holdout examples, in their order. -/
def foldPreds (learn : Learner n K) (validation : Bool) (labels : Fin n → Fin K) (s : Split n)
    (dups : List (Fin K × Fin s.holdout.length)) : Fin s.holdout.length → Fin K → ℚ :=
  let val := if validation then s.holdout.map (fun i => (i, labels i)) else []
  let model := learn (trainingData labels s dups) val
  dups.foldl (fun preds d => Function.update preds d.2 (dummyPred d.1)) (fun p => model (s.holdout.get p))

/-- `pred_probs[cv_holdout_idx] = pred_probs_cv`, `count.py:1054`. -/
def assignRows (P : Fin n → Fin K → ℚ) (holdout : List (Fin n)) (preds : Fin holdout.length → Fin K → ℚ) :
    Fin n → Fin K → ℚ :=
  (List.finRange holdout.length).foldl (fun P p => Function.update P (holdout.get p) (preds p)) P

/-- The body of the loop over folds, `count.py:997-1054`. -/
def foldStep (order : List (Fin K) → List (Fin K)) (learn : Learner n K) (validation : Bool) (labels : Fin n → Fin K)
    (P : Fin n → Fin K → ℚ) (s : Split n) : Except String (Fin n → Fin K → ℚ) := do
  let dups ← missingClassInds order labels s
  return assignRows P s.holdout (foldPreds learn validation labels s dups)

/-- The predicted probabilities of `estimate_confident_joint_and_cv_pred_proba`, `count.py:888-1066`, for data that is
not a torch data set and labels in which all `K` classes occur. `assert_valid_inputs` (`count.py:980`) refuses labels of a
single class. -/
def cvPredProbs (order : List (Fin K) → List (Fin K)) (learn : Learner n K) (validation : Bool)
    (labels : Fin n → Fin K) (splits : List (Split n)) : Except String (Fin n → Fin K → ℚ) :=
  if ∃ i j, labels i ≠ labels j then splits.foldlM (foldStep order learn validation labels) (fun _ _ => 0)
  else .error "Labels must contain at least 2 classes."

end Cleanlab.CrossVal
