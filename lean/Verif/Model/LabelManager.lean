import Verif.Model.CleanLearning
import Verif.Model.Dataset

/-!
# The label check of Datalab, `cleanlab/datalab/internal/issue_manager/label.py`

`Verif.Model.LabelCheck` models how predictions are computed from features; here the predictions are given. A check that
raises is reported by Datalab as failed and leaves no results. When several arguments are wrong, which of the exceptions is
raised is not modelled.
-/

namespace Cleanlab.LabelManager

open Np Cleanlab.Count Cleanlab.CleanLearning Cleanlab.Dataset

variable {α : Type} {n K : ℕ}

/-- The entries of `health_summary_parameters` that are read: `none` if the key is absent or its value is `None`
(`label.py:111-113`). -/
structure Params (α : Type) (K : ℕ) where
  classNames : Option (List α) := none
  numExamples : Option ℚ := none
  joint : Option (Mat K) := none
  confidentJoint : Option (Mat K) := none
  asymmetric : Option Bool := none

/-- What the check reads from Datalab: the values of the label map and the entry `"statistics"` of the information, whose
keys may be absent. -/
structure Lab (α : Type) (K : ℕ) where
  labelMapValues : List α
  numExamples : Option ℚ := none
  joint : Option (Mat K) := none
  confidentJoint : Option (Mat K) := none
  asymmetric : Option Bool := none

/-- `__init__` and `_reset`, `label.py:54-69, 92-113`; an empty dictionary counts as not given. -/
def params (lab : Lab α K) (given : Option (Params α K)) : Params α K :=
  match given with
  | some p => p
  | none =>
    { classNames := some lab.labelMapValues, numExamples := lab.numExamples, joint := lab.joint,
      confidentJoint := lab.confidentJoint, asymmetric := lab.asymmetric }

/-- `_get_summary_parameters`, `label.py:197-240`: the data, the class names and `asymmetric` for `health_summary`. -/
def summaryInputs (p : Params α K) (labels : Fin n → Fin K) (P : Fin n → Fin K → ℚ) :
    Except String (Inputs n K × List α × Bool) := do
  let x : Inputs n K :=
    if p.confidentJoint.isSome then { confidentJoint := p.confidentJoint }
    else if p.joint.isSome ∧ p.numExamples.isSome then { joint := p.joint, numExamples := p.numExamples }
    else { labels := some labels, predProbs := some P }
  let names ← match p.classNames with
    | some names => .ok names
    | none => .error "KeyError: 'class_names'"
  return (x, names, p.asymmetric.getD false)

/-- The two tables of `health_summary` with the names of the classes, and its other results. -/
structure NamedSummary (α : Type) (K : ℕ) where
  health : ℚ
  joint : Mat K
  classes : List (α × ClassRow K)
  pairs : List (α × α × PairRow K)

/-- `health_summary` with `class_names`, `dataset.py:106-107, 276-282, 361-488`: the column `Class Name` must have one value
per class. -/
def namedSummary (A : ArgSort ℚ) [NeZero K] (names : List α) (asymmetric : Bool) (x : Inputs n K) :
    Except String (NamedSummary α K) := do
  let s ← healthSummary A asymmetric x
  if h : names.length = K then
    return { health := s.health, joint := s.joint,
             classes := s.classes.map (fun r => (names[r.cls.val]'(h ▸ r.cls.isLt), r)),
             pairs := s.pairs.map (fun r => (names[r.a.val]'(h ▸ r.a.isLt), names[r.b.val]'(h ▸ r.b.isLt), r)) }
  else .error "Length of values does not match length of index"

/-- `get_health_summary`, `label.py:186-195`; `_validate_pred_probs` repeats the checks of `find_label_issues`. -/
def getHealthSummary (A : ArgSort ℚ) [NeZero K] (p : Params α K) (labels : Fin n → Fin K) (P : Fin n → Fin K → ℚ) :
    Except String (NamedSummary α K) := do
  let r ← summaryInputs p labels P
  namedSummary A r.2.1 r.2.2 r.1

/-- The information about the check, `label.py:242-270`. -/
structure Info (α : Type) (K : ℕ) where
  numLabelIssues : ℕ
  averageQuality : ℚ
  givenLabel : List (Fin K)
  predictedLabel : List (Fin K)
  confidentJoint : Option (Mat K)
  classesByQuality : List (α × ClassRow K)
  overlappingClasses : List (α × α × PairRow K)
  py : Option (Fin K → ℚ)
  noiseMatrix : Option (Mat K)
  inverseNoiseMatrix : Option (Mat K)
  thresholds : Fin K → ℚ

/-- `collect_info`: `confident_joint` is first the joint of the health summary and then replaced by the attribute of the
`CleanLearning` object, which always exists. -/
def collectInfo (s : State K) (df : List (IssueRow K)) (summary : NamedSummary α K) (thresholds : Fin K → ℚ) : Info α K :=
  { numLabelIssues := df.countP (·.isLabelIssue)
    averageQuality := (df.map (·.labelQuality)).sum / df.length
    givenLabel := df.map (·.givenLabel)
    predictedLabel := df.map (·.predictedLabel)
    confidentJoint := s.confidentJoint
    classesByQuality := summary.classes
    overlappingClasses := summary.pairs
    py := s.py
    noiseMatrix := s.noiseMatrix
    inverseNoiseMatrix := s.inverseNoiseMatrix
    thresholds := thresholds }

/-- The options for the check in `issue_types["label"]`. Other keys are accepted and not used (`label.py:60, 83-90`). -/
structure Options (α : Type) (K : ℕ) where
  findKwargs : Kwargs K := {}
  healthParams : Option (Params α K) := none
  thresholds : Option (Fin K → ℚ) := none
  noiseMatrix : Option (Mat K) := none
  inverseNoiseMatrix : Option (Mat K) := none
  saveSpace : Bool := false

/-- The call of `CleanLearning.find_label_issues`, `label.py:162-168`. -/
def Options.call (o : Options α K) (labels : Fin n → Fin K) (P : Fin n → Fin K → ℚ) : Call K :=
  { n := n, labels := labels, predProbs := some P, cvProbs := P, thresholds := o.thresholds, noiseMatrix := o.noiseMatrix,
    inverseNoiseMatrix := o.inverseNoiseMatrix, saveSpace := o.saveSpace }

/-- What the check reports: the columns `is_label_issue` and `label_score`, the score of the summary and the
information. -/
structure Result (α : Type) (K : ℕ) where
  issues : List (Bool × ℚ)
  score : ℚ
  info : Info α K

/-- `find_issues` with `pred_probs`, `label.py:115-130, 160-184`; `cfg` are the other entries of `clean_learning_kwargs`. -/
def findIssues [NeZero K] (cfg : Settings K) (lab : Lab α K) (o : Options α K) (labels : Fin n → Fin K)
    (P : Fin n → Fin K → ℚ) : Except String (Result α K) :=
  match findLabelIssues cfg (fresh o.findKwargs) (o.call labels P) with
  | (_, .error e) => .error e
  | (s, .ok df) => do
    let summary ← getHealthSummary cfg.sort (params lab o.healthParams) labels P
    return { issues := df.map (fun r => (r.isLabelIssue, r.labelQuality))
             score := summary.health
             info := collectInfo s df summary (getConfidentThresholds labels P) }

end Cleanlab.LabelManager
