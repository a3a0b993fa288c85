import Verif.Model.Filter
import Verif.Model.Multilabel
import Verif.Model.Validation
import Verif.Model.ValueCounts

/-!
# Model of the baselines in `cleanlab/filter.py`

`find_predicted_neq_given` (`filter.py:638-699`), `find_label_issues_using_argmax_confusion_matrix` (`filter.py:702-760`) and
`confusion_matrix` (`internal/util.py:274-311`).
-/

namespace Cleanlab.Baselines

open Np Cleanlab.Util Cleanlab.Count Cleanlab.Filter Cleanlab.Validation Cleanlab.Multilabel

variable {n K : ℕ}

/-- `assert_valid_inputs(X=None, y=labels, pred_probs=pred_probs, multi_label=False)`. -/
def checkInputs (labels : Fin n → Fin K) (P : Fin n → Fin K → ℚ) : Except String Unit :=
  validProbs true false (List.ofFn (fun i => Raw.num ((labels i : ℕ) : ℚ))) (fun i k => some (P i k))

/-- `find_predicted_neq_given`, `filter.py:662-669`, single label. -/
def predictedNeqGiven [NeZero K] (labels : Fin n → Fin K) (P : Fin n → Fin K → ℚ) : Except String (Fin n → Bool) := do
  checkInputs labels P
  return fun i => decide (argmax (P i) ≠ labels i)

/-- The columns of `pred_neq`, `filter.py:692-698`: the single-label function for every class. -/
def neqColumns (y : Fin n → Fin K → Bool) (P : Fin n → Fin K → ℚ) : Except String (List (Fin n → Bool)) :=
  (List.finRange K).mapM (fun k => predictedNeqGiven (binaryLabels y k) (stackComplement P k))

/-- `find_predicted_neq_given(..., multi_label=True)`, `filter.py:662-699`. -/
def predictedNeqGivenMultilabel (labels : List (List ℕ)) (P : Fin labels.length → Fin K → ℚ) :
    Except String (Fin labels.length → Bool) := do
  validMultilabel (labels.map (fun l => l.map (fun a : ℕ => (a : ℤ)))) (fun i k => some (P i k))
  let cols ← neqColumns (fun i k => decide ((k : ℕ) ∈ labels.get i)) P
  return fun i => decide (cols.countP (fun c => c i) ≥ 1)

/-- The result of `confusion_matrix`: the shape and the entries. -/
structure Confusion where
  rows : ℕ
  cols : ℕ
  entry : ℕ → ℕ → ℕ

/-- One turn of the loop, `internal/util.py:308-309`; the dictionaries map a class to its position among the sorted classes. -/
def confusionStep (rowClasses colClasses : List ℕ) (r : ℕ → ℕ → ℕ) (p : ℕ × ℕ) : ℕ → ℕ → ℕ :=
  fun a b => if a = rowClasses.idxOf p.1 ∧ b = colClasses.idxOf p.2 then r a b + 1 else r a b

/-- `confusion_matrix(true, pred)`, `internal/util.py:274-311`. -/
def confusionMatrix (true pred : List ℕ) : Except String Confusion :=
  if true.length ≠ pred.length then .error "AssertionError"
  else .ok {
    rows := (npUnique true).length
    cols := (npUnique pred).length
    entry := (true.zip pred).foldl (confusionStep (npUnique true) (npUnique pred)) (fun _ _ => 0) }

/-- Transposition, `filter.py:752`. -/
def Confusion.transpose (c : Confusion) : Confusion where
  rows := c.cols
  cols := c.rows
  entry a b := c.entry b a

/-- Pruning in `find_label_issues` with a joint that is not `K × K` (`filter.py:343-420` with the default
`min_examples_per_class=1`). Fewer rows than classes: `prune_count_matrix[:, k]` fails, unless the subtraction in
`_keep_at_least_n_per_class` failed before. All rows, but fewer columns: this subtraction does not broadcast, except for one
column; then `prune_count_matrix[1]` fails as soon as a class has more than one example. -/
def pruneBadShape (labels : Fin n → Fin K) (rows cols : ℕ) : Except String (Fin n → Bool) :=
  if rows < K then .error "IndexError"
  else if cols ≠ 1 then .error "operands could not be broadcast together"
  else if ∃ k : Fin K, labelCounts labels k > 1 then .error "IndexError"
  else .ok (fun _ => false)

/-- `find_label_issues_using_argmax_confusion_matrix`, `filter.py:702-760`, for the filters that use the joint. The
calibration does not fail for any shape: the number of classes is the number of rows, which is the number of distinct labels. -/
def argmaxIssues (A : ArgSort ℚ) [NeZero K] (labels : Fin n → Fin K) (P : Fin n → Fin K → ℚ) (calibrate : Bool)
    (filterBy : FilterBy) : Except String (Fin n → Bool) := do
  checkInputs labels P
  let c ← confusionMatrix (List.ofFn (fun i => ((argmax (P i) : Fin K) : ℕ))) (List.ofFn (fun i => (labels i : ℕ)))
  let j := c.transpose
  if filterBy ∈ [FilterBy.pruneByNoiseRate, .pruneByClass, .both] ∧ ¬(j.rows = K ∧ j.cols = K) then
    pruneBadShape labels j.rows j.cols
  else
    let joint : Fin K → Fin K → ℚ := fun a b => j.entry a b
    findLabelIssues A labels P { filterBy := filterBy, confidentJoint := some (if calibrate then
      fun a b => (calibrateConfidentJoint A joint labels a b : ℚ) else joint) }

end Cleanlab.Baselines
