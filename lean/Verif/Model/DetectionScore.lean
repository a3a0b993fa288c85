import Verif.Model.Detection
import Verif.Model.Multilabel
import Mathlib.Analysis.SpecialFunctions.Log.Basic
import Mathlib.Analysis.SpecialFunctions.Sqrt

/-!
# Model of object detection label quality scores and issues

`cleanlab/object_detection/rank.py` and `_find_label_issues` of `cleanlab/object_detection/filter.py`, over the reals.
`nan` scores are `none`.
-/

namespace Cleanlab.Detection

open Np

variable {K : ℕ}

/-- `_euc_dis`, `object_detection/rank.py:388-395`; `EUC_FACTOR = 0.1`. -/
noncomputable def closeness (a b : Box ℝ) : ℝ :=
  let dx := (a.x1 + a.x2) / 2 - (b.x1 + b.x2) / 2
  let dy := (a.y1 + a.y2) / 2 - (b.y1 + b.y2) / 2
  Real.exp (-Real.sqrt (dx ^ 2 + dy ^ 2) * (1 / 10))

/-- An entry of `similarity_matrix`, `object_detection/rank.py:458-460`; `ALPHA = 0.9`. -/
noncomputable def similarity (a b : Box ℝ) : ℝ := iou a b * (9 / 10) + (1 - 9 / 10) * (1 - (1 - closeness a b))

/-- `_separate_prediction_single_box`, `object_detection/rank.py:263-274`. -/
def allPreds (im : Image ℝ K) : List (Pred ℝ × Fin K) :=
  (List.finRange K).flatMap (fun k => (im.preds k).map (fun p => (p, k)))

/-- `np.min` of a list, with the value for an empty list. -/
noncomputable def minOr (d : ℝ) (l : List ℝ) : ℝ :=
  match l with
  | [] => d
  | x :: xs => xs.foldl min x

/-- `np.max` of a list, with the value for an empty list. -/
noncomputable def maxOr (d : ℝ) (l : List ℝ) : ℝ :=
  match l with
  | [] => d
  | x :: xs => xs.foldl max x

/-- All similarities of annotated with predicted boxes. -/
noncomputable def similarities (im : Image ℝ K) : List ℝ :=
  im.labels.flatMap (fun l => (allPreds im).map (fun p => similarity l.1 p.1.box))

/-- `_get_min_possible_similarity`, `object_detection/rank.py:407-425`. -/
noncomputable def minSimilarity (images : List (Image ℝ K)) : ℝ :=
  open Classical in
  images.foldl (fun m im => min m (minOr 1 ((similarities im).filter (fun s => s ≠ 0)))) 1

/-- `_compute_overlooked_box_scores_for_image`, `object_detection/rank.py:591-608`, one score per predicted box;
`HIGH_PROBABILITY_THRESHOLD = 0.95`. -/
noncomputable def overlookedScores (minSim : ℝ) (im : Image ℝ K) : List (Option ℝ) :=
  open Classical in
  (allPreds im).map (fun p =>
    if p.1.prob < 95 / 100 ∨ ∃ l ∈ im.labels, iou l.1 p.1.box > 0 then none
    else some (maxOr (minSim * (1 - p.1.prob))
      ((im.labels.filter (fun l => l.2 = p.2)).map (fun l => similarity l.1 p.1.box))))

/-- `_compute_badloc_box_scores_for_image`, `object_detection/rank.py:725-746`, one score per annotated box;
`LOW_PROBABILITY_THRESHOLD = 0.5`. -/
noncomputable def badlocScores (im : Image ℝ K) : List ℝ :=
  open Classical in
  im.labels.map (fun l =>
    let ks := (allPreds im).filter (fun p => p.2 = l.2)
    if ks = [] ∨ ∀ p ∈ ks, p.1.prob ≤ 1 / 2 then 1
    else maxOr 1 ((ks.filter (fun p => p.1.prob > 1 / 2 ∧ iou l.1 p.1.box > 0)).map (fun p => similarity l.1 p.1.box)))

/-- `_has_overlap`, `object_detection/rank.py:371-385`; `LABEL_OVERLAP_THRESHOLD = 0.95`. -/
def HasOverlap (labels : List (Box ℝ × Fin K)) (i : Fin labels.length) : Prop :=
  ∃ j : Fin labels.length, i ≠ j ∧ iou (labels.get i).1 (labels.get j).1 ≥ 95 / 100 ∧ (labels.get i).2 ≠ (labels.get j).2

/-- `_compute_swap_box_scores_for_image`, `object_detection/rank.py:861-889`, one score per annotated box. -/
noncomputable def swapScores (check : Bool) (minSim : ℝ) (im : Image ℝ K) : List ℝ :=
  open Classical in
  List.ofFn (fun i : Fin im.labels.length =>
    let l := im.labels.get i
    let others := (allPreds im).filter (fun p => p.2 ≠ l.2)
    if check = true ∧ HasOverlap im.labels i then minSim
    else if others = [] ∨ ∀ p ∈ others, p.1.prob ≤ 95 / 100 then 1
    else max minSim (1 - maxOr 0 ((others.filter (fun p => p.1.prob > 95 / 100)).map (fun p => similarity l.1 p.1.box))))

/-- `softmin1d`, `internal/object_detection_utils.py:25-29`. -/
noncomputable def softmin1d (T : ℝ) (l : List ℝ) (h : l ≠ []) : ℝ :=
  have : NeZero l.length := ⟨by simpa using h⟩
  ∑ k, Multilabel.softmax (fun k => -1 * l.get k) T k * l.get k

/-- `_get_valid_score`, `object_detection/rank.py:512-519`. -/
noncomputable def validScore (T : ℝ) (l : List (Option ℝ)) : ℝ :=
  if h : l.reduceOption ≠ [] then softmin1d T l.reduceOption h else 1

/-- `TEMPERATURE`, `internal/constants.py:20`. -/
noncomputable def temperature : ℝ := 1 / 10

/-- `TINY_VALUE + x`. In binary64 the sum is `x` itself unless `x` is below `1e-84`; the model adds only to zero. -/
noncomputable def addTiny (x : ℝ) : ℝ := open Classical in if x = 0 then 1 / 10 ^ 100 else x

/-- `aggregation_weights`. -/
structure Weights where
  overlooked : ℝ
  badloc : ℝ
  swap : ℝ

/-- `_get_aggregation_weights`, `object_detection/rank.py:540-552`, with `assert_valid_aggregation_weights`,
`internal/object_detection_utils.py:39-46` (`np.isclose` allows `1e-8 + 1e-5`). -/
noncomputable def aggregationWeights : Option Weights → Except String Weights
  | none => .ok ⟨1 / 3, 1 / 3, 1 / 3⟩
  | some w =>
    open Classical in
    if |w.overlooked + w.badloc + w.swap - 1| > 1 / 10 ^ 8 + 1 / 10 ^ 5 ∨ min w.overlooked (min w.badloc w.swap) < 0 then
      .error "Aggregation weights should be non-negative and must sum to 1.0"
    else .ok w

/-- The score of one image, `object_detection/rank.py:1076-1108`. -/
noncomputable def imageScore (w : Weights) (check : Bool) (minSim : ℝ) (im : Image ℝ K) : ℝ :=
  let o := validScore temperature (overlookedScores minSim im)
  let b := validScore temperature ((badlocScores im).map some)
  let s := validScore temperature ((swapScores check minSim im).map some)
  Real.exp (w.overlooked * Real.log (addTiny o) + w.badloc * Real.log (addTiny b) + w.swap * Real.log (addTiny s))

/-- `assert_valid_inputs`, `internal/object_detection_utils.py:49-89`: the lookups `labels[0]` and `predictions[0][0]`
fail without an image or without a class. The other checks are part of the types. -/
def checkInputs (images : List (Image ℝ K)) : Except String Unit :=
  if images.isEmpty then .error "IndexError"
  else if K = 0 then .error "IndexError"
  else .ok ()

/-- `get_label_quality_scores`, `object_detection/rank.py:49-201`. Predictions with negative probability are pruned
(threshold 0). -/
noncomputable def labelQualityScores (weights : Option Weights) (check : Bool) (images : List (Image ℝ K)) :
    Except String (List ℝ) := do
  checkInputs images
  let w ← aggregationWeights weights
  let pruned := open Classical in
    images.map (fun im => { im with preds := fun k => (im.preds k).filter (fun p => p.prob ≥ 0) })
  return pruned.map (imageScore w check (minSimilarity pruned))

/-- `issues_from_scores`, `object_detection/rank.py:126-156`: indices of scores up to the threshold, lowest first. -/
noncomputable def issuesFromScores (A : ArgSort ℝ) (scores : List ℝ) (threshold : ℝ) : Except String (List ℕ) :=
  open Classical in
  if threshold > 1 then .error "Threshold is a cutoff of label_quality_scores and therefore should be <= 1."
  else .ok ((sortOn A (fun x : ℕ × ℝ => x.2)
    (((List.range scores.length).zip scores).filter (fun x => x.2 ≤ threshold))).map (fun x => x.1))

/-- `_find_label_issues_per_box` and `_pool_box_scores_per_image`, `object_detection/filter.py:183-223`, for one image:
some box scores at most `0.8` times the score of its class; `nan` counts as 1. -/
def AnyIssue (scores : List (Option ℝ)) (thresholds : List ℝ) : Prop :=
  ∃ x ∈ scores.zip thresholds, x.1.getD 1 ≤ x.2 * (8 / 10)

/-- `is_issue` of one image, `object_detection/filter.py:121-163`. -/
def IsIssue (ap : Fin K → ℝ) (check : Bool) (minSim : ℝ) (im : Image ℝ K) : Prop :=
  AnyIssue (overlookedScores minSim im) ((allPreds im).map (fun p => ap p.2)) ∨
    AnyIssue ((badlocScores im).map some) (im.labels.map (fun l => ap l.2)) ∨
    AnyIssue ((swapScores check minSim im).map some) (im.labels.map (fun l => ap l.2))

/-- `find_label_issues` with `return_indices_ranked_by_score=False`, `object_detection/filter.py:32-180`, after the check
of the inputs. -/
noncomputable def issueMask (A : ArgSort ℝ) (check : Bool) (images : List (Image ℝ K)) : List Bool :=
  open Classical in
  images.map (fun im => decide (IsIssue (perClassAp A images) check (minSimilarity images) im))

/-- `find_label_issues` with `return_indices_ranked_by_score=True`, `object_detection/filter.py:172-178`. -/
noncomputable def issueIndices (A : ArgSort ℝ) (check : Bool) (images : List (Image ℝ K)) : Except String (List ℕ) := do
  checkInputs images
  let scores ← labelQualityScores none true images
  let order ← issuesFromScores A scores 1
  let mask := issueMask A check images
  return order.filter (fun i => mask[i]? = some true)

end Cleanlab.Detection
