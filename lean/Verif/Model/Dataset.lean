import Verif.Model.FilterChecked

/-!
# Model of `cleanlab/dataset.py`
-/

namespace Cleanlab.Dataset

open Np Cleanlab.Util Cleanlab.Count Cleanlab.Filter

variable {n K : ℕ}

/-- The arguments shared by the functions of `dataset.py` (`None` when not given). `n` and `K` are the number of
examples and classes of whatever is given. -/
structure Inputs (n K : ℕ) where
  labels : Option (Fin n → Fin K) := none
  predProbs : Option (Fin n → Fin K → ℚ) := none
  joint : Option (Fin K → Fin K → ℚ) := none
  numExamples : Option ℚ := none
  confidentJoint : Option (Fin K → Fin K → ℚ) := none

/-- `_get_num_examples`, `dataset.py:491-514`. -/
def getNumExamples (labels : Option (Fin n → Fin K)) (confidentJoint : Option (Fin K → Fin K → ℚ)) :
    Except String ℚ :=
  match labels, confidentJoint with
  | some _, _ => .ok n
  | none, some cj => .ok (∑ a, ∑ b, cj a b)
  | none, none => .error "num_examples is None"

/-- `estimate_joint` with optional arguments, `count.py:375-399`. -/
def estimateJointAny (A : ArgSort ℚ) [NeZero K] (labels : Option (Fin n → Fin K))
    (P : Option (Fin n → Fin K → ℚ)) (confidentJoint : Option (Fin K → Fin K → ℚ)) :
    Except String (Fin K → Fin K → ℚ) :=
  match confidentJoint, labels, P with
  | none, some labels, some P => .ok (estimateJoint A labels P)
  | none, _, _ => .error "labels and pred_probs are required"
  | some cj, some labels, _ => .ok (estimateJointFrom A cj labels)
  | some cj, none, _ => .ok (fun a b => cj a b / clipTiny (∑ a', ∑ b', cj a' b'))

/-- The joint used by all functions, e.g. `dataset.py:79-84`. -/
def usedJoint (A : ArgSort ℚ) [NeZero K] (x : Inputs n K) : Except String (Fin K → Fin K → ℚ) :=
  match x.joint with
  | some j => .ok j
  | none => estimateJointAny A x.labels x.predProbs x.confidentJoint

/-- A row of the table of `rank_classes_by_label_quality`. -/
structure ClassRow (K : ℕ) where
  cls : Fin K
  labelIssues : ℤ
  inverseLabelIssues : ℤ
  labelNoise : ℚ
  inverseLabelNoise : ℚ
  quality : ℚ

/-- The row of class `k`, `dataset.py:87-105`. -/
def classRow (joint : Fin K → Fin K → ℚ) (num : ℚ) (k : Fin K) : ClassRow K :=
  let given := ∑ b, joint k b - joint k k
  let true_ := ∑ a, joint a k - joint k k
  let noise := given / max (∑ b, joint k b) (1 / 1000000)
  { cls := k, labelIssues := rint (given * num), inverseLabelIssues := rint (true_ * num), labelNoise := noise,
    inverseLabelNoise := true_ / max (∑ a, joint a k) (1 / 1000000), quality := 1 - noise }

/-- `rank_classes_by_label_quality`, `dataset.py:16-108`. -/
def rankClasses (A : ArgSort ℚ) [NeZero K] (x : Inputs n K) : Except String (List (ClassRow K)) := do
  let joint ← usedJoint A x
  let num ← match x.numExamples with
    | some m => .ok m
    | none => getNumExamples x.labels none
  return (A.indices (fun k => (classRow joint num k).quality)).map (classRow joint num)

/-- A row of the table of `find_overlapping_classes`. -/
structure PairRow (K : ℕ) where
  a : Fin K
  b : Fin K
  num : ℤ
  prob : ℚ

/-- All index pairs, in the order of `np.ndenumerate`. -/
def allPairs (K : ℕ) : List (Fin K × Fin K) := (List.finRange K).flatMap (fun a => (List.finRange K).map (fun b => (a, b)))

/-- `sym_joint`, `dataset.py:269`. -/
def symJoint (joint : Fin K → Fin K → ℚ) (a b : Fin K) : ℚ :=
  (if a ≤ b then joint a b else 0) + (if a ≤ b then joint b a else 0)

/-- The rows before sorting, `dataset.py:263-275`. -/
def pairRows (asymmetric : Bool) (joint : Fin K → Fin K → ℚ) (num : ℚ) : List (PairRow K) :=
  if asymmetric then
    ((allPairs K).filter (fun p => decide (p.1 ≠ p.2))).map
      (fun p => { a := p.1, b := p.2, num := rint (joint p.1 p.2 * num), prob := joint p.1 p.2 })
  else
    ((allPairs K).filter (fun p => decide (p.1 < p.2))).map
      (fun p => { a := p.1, b := p.2, num := rint (symJoint joint p.1 p.2 * num), prob := symJoint joint p.1 p.2 })

/-- `find_overlapping_classes`, `dataset.py:111-283`. -/
def overlappingClasses (A : ArgSort ℚ) [NeZero K] (asymmetric : Bool) (x : Inputs n K) :
    Except String (List (PairRow K)) := do
  let joint ← usedJoint A x
  let num ← match x.numExamples with
    | some m => .ok m
    | none => getNumExamples x.labels x.confidentJoint
  let rows := pairRows asymmetric joint num
  return (A.indices (fun r => -(rows.get r).prob)).map rows.get

/-- `overall_label_health_score`, `dataset.py:286-358`; dividing by `num_examples=0` gives no number. -/
def overallHealth (A : ArgSort ℚ) [NeZero K] (x : Inputs n K) : Except String ℚ := do
  let num ← match x.numExamples with
    | some m => .ok m
    | none => getNumExamples x.labels x.confidentJoint
  match x.labels, x.predProbs with
  | some labels, some P =>
    let issues ← numChecked A labels P x.confidentJoint .offDiagonal
    if num = 0 then .error "division by zero" else .ok (1 - issues / num)
  | _, _ =>
    let joint ← usedJoint A x
    return ∑ k, joint k k

/-- What `health_summary` returns. -/
structure Summary (K : ℕ) where
  health : ℚ
  joint : Fin K → Fin K → ℚ
  classes : List (ClassRow K)
  pairs : List (PairRow K)

/-- `health_summary`, `dataset.py:361-488`. The joint is not passed on to `overall_label_health_score`. -/
def healthSummary (A : ArgSort ℚ) [NeZero K] (asymmetric : Bool) (x : Inputs n K) : Except String (Summary K) := do
  let joint ← usedJoint A x
  let num ← match x.numExamples with
    | some m => .ok m
    | none => getNumExamples x.labels none
  let x' : Inputs n K := { x with joint := some joint, numExamples := some num }
  let classes ← rankClasses A x'
  let pairs ← overlappingClasses A asymmetric x'
  let health ← overallHealth A { x' with joint := none }
  return { health := health, joint := joint, classes := classes, pairs := pairs }

end Cleanlab.Dataset
