import Verif.Model.Multilabel
import Verif.Model.ValueCounts

/-!
# Model of the counting functions for multi-label data and of custom thresholds, `cleanlab/count.py`

Multi-label data is a list of lists of class numbers; a matrix per class is a function `Fin 2 → Fin 2 → ℚ` (or `ℤ`).
-/

namespace Cleanlab.MultilabelCount

open Np Cleanlab.Util Cleanlab.Count Cleanlab.Filter Cleanlab.Multilabel

variable {n K : ℕ}

/-- The one-hot matrix, `get_onehot_num_classes(labels, pred_probs)`, `internal/multilabel_utils.py:43-54`, for given
number `K` of classes. -/
def onehot (labels : List (List ℕ)) (K : ℕ) (i : Fin labels.length) (k : Fin K) : Bool := decide ((k : ℕ) ∈ labels.get i)

/-- The number of classes without predicted probabilities: `get_num_classes`, `num_unique_classes` and
`get_unique_classes`, `internal/util.py:518-566`, for a list of lists. -/
def numClasses (labels : List (List ℕ)) : ℕ := (npUnique labels.flatten).length

/-- `_get_confident_thresholds_multilabel`, `count.py:1461-1489`. -/
def thresholdsMultilabel (labels : List (List ℕ)) (P : Fin labels.length → Fin K → ℚ) (k : Fin K) : Fin 2 → ℚ :=
  getConfidentThresholds (binaryLabels (onehot labels K) k) (stackComplement P k)

/-- `_compute_confident_joint_multi_label` with the default thresholds, `count.py:625-712`. -/
def jointMultilabel (A : ArgSort ℚ) (labels : List (List ℕ)) (P : Fin labels.length → Fin K → ℚ) (calibrate : Bool)
    (k : Fin K) : Fin 2 → Fin 2 → ℤ :=
  computeConfidentJoint A (binaryLabels (onehot labels K) k) (stackComplement P k)
    (getConfidentThresholds (binaryLabels (onehot labels K) k) (stackComplement P k)) calibrate

/-- The second part of the result with `return_indices_of_off_diagonals`, `count.py:697`. -/
def offDiagonalMultilabel (labels : List (List ℕ)) (P : Fin labels.length → Fin K → ℚ) (k : Fin K) :
    List (Fin labels.length) :=
  offDiagonalIndices (binaryLabels (onehot labels K) k) (stackComplement P k)
    (getConfidentThresholds (binaryLabels (onehot labels K) k) (stackComplement P k))

/-- `_calibrate_confident_joint_multilabel`, `count.py:294-326`.  The array is allocated without being initialised;
`none` is an entry that is not written. -/
def calibrateMultilabel (A : ArgSort ℚ) (cj : List (Fin 2 → Fin 2 → ℚ)) (labels : List (List ℕ)) :
    List (Option (Fin 2 → Fin 2 → ℤ)) :=
  List.ofFn (fun k : Fin (numClasses labels) =>
    cj[(k : ℕ)]?.map (fun m => calibrateConfidentJoint A m (binaryLabels (onehot labels (numClasses labels)) k)))

/-- `estimate_joint(..., multi_label=True)`, `count.py:375-442`.  With a confident joint, the calibration in lines
384-386 has no effect on the result. -/
def estimateJointMultilabel (A : ArgSort ℚ) (labels : List (List ℕ)) (P : Fin labels.length → Fin K → ℚ)
    (cj : Option (List (Fin 2 → Fin 2 → ℚ))) : Except String (Fin K → Fin 2 → Fin 2 → ℚ) :=
  let cal := match cj with
    | none => List.ofFn (fun (k : Fin K) (a b : Fin 2) => (jointMultilabel A labels P true k a b : ℚ))
    | some cj => cj
  collect (fun k : Fin K =>
    match cal[(k : ℕ)]? with
    | none => .error "index out of bounds"
    | some m => .ok (estimateJointFrom A m (binaryLabels (onehot labels K) k)))

/-- `num_label_issues(..., multi_label=True)`, `count.py:109-122` and `176-208`; `estimation_method` is only used for a
warning. -/
def numLabelIssuesMultilabel (A A' : ArgSort ℚ) (labels : List (List ℕ)) (P : Fin labels.length → Fin K → ℚ)
    (cj : Option (Fin K → Fin 2 → Fin 2 → ℚ)) (_method : EstimationMethod) : Except String ℤ := do
  let mask ← multilabelIssues A A' (onehot labels K) P { filterBy := .confidentLearning, confidentJoint := cj }
  return (List.finRange labels.length).countP mask

/-- The argument `thresholds` of `compute_confident_joint`: an array of shape `(m,)` or of shape `(m, 1)`. -/
inductive Thresholds
  | vec (l : List ℚ)
  | col (l : List ℚ)

/-- The thresholds that the comparison `pred_probs >= thresholds - 1e-6`, `count.py:581`, uses for each example and class,
by numpy's rules for shapes, for at least two classes.  A column of `m > 1` thresholds and a single example raise in line
598 instead. -/
def broadcast (n K : ℕ) : Thresholds → Except String (Fin n → Fin K → ℚ)
  | .vec l =>
    if h : l.length = K then .ok (fun _ k => l[(k : ℕ)])
    else if h : l.length = 1 then .ok (fun _ _ => l[0])
    else .error "operands could not be broadcast together"
  | .col l =>
    if h : l.length = n then .ok (fun i _ => l[(i : ℕ)])
    else if h : l.length = 1 then .ok (fun _ _ => l[0])
    else .error "operands could not be broadcast together"

/-- `count.py:581-612` with a threshold for each example and class. -/
def rawFrom [NeZero K] (labels : Fin n → Fin K) (P : Fin n → Fin K → ℚ) (T : Fin n → Fin K → ℚ) (a b : Fin K) : ℕ :=
  let rows := (List.finRange n).filter (fun i => atLeastOneConfident P (T i) i)
  let cm := confusionMatrix (rows.map (fun i => trueLabelGuess P (T i) i)) (rows.map labels)
  let cj := cm b a
  if a = b then max cj 1 else cj

/-- `compute_confident_joint(labels, pred_probs, thresholds=..., calibrate=False)`, `count.py:561-622`. -/
def jointWithThresholds [NeZero K] (labels : Fin n → Fin K) (P : Fin n → Fin K → ℚ) (thr : Thresholds) :
    Except String (Fin K → Fin K → ℕ) := do
  let T ← broadcast n K thr
  return rawFrom labels P T

/-- `compute_confident_joint(..., thresholds=..., calibrate=False, multi_label=True)`, `count.py:686-707`: the same
thresholds are passed on for every class. -/
def jointMultilabelWithThresholds (labels : List (List ℕ)) (P : Fin labels.length → Fin K → ℚ) (thr : Thresholds) :
    Except String (Fin K → Fin 2 → Fin 2 → ℕ) :=
  collect (fun k : Fin K => jointWithThresholds (binaryLabels (onehot labels K) k) (stackComplement P k) thr)

end Cleanlab.MultilabelCount
