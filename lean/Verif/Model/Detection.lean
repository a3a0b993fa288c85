import Verif.Np.SortOn
import Mathlib.Algebra.Order.Field.Basic
import Mathlib.Algebra.BigOperators.Group.List.Basic

/-!
# Model of object detection: overlap, matching, average precision

`cleanlab/object_detection/rank.py` (overlap), `cleanlab/object_detection/filter.py` (matching and average precision)
and `cleanlab/object_detection/summary.py` (confusion counts). Coordinates and probabilities are elements of an ordered
field. Results stored as `float32` by the code are exact here.
-/

namespace Cleanlab.Detection

open Np

variable {F : Type} [Field F] [LinearOrder F]

/-- A box `[x1, y1, x2, y2]`, `object_detection/rank.py:303`. -/
structure Box (F : Type) where
  x1 : F
  y1 : F
  x2 : F
  y2 : F
  deriving DecidableEq

/-- `EPSILON`, `internal/constants.py:15`. -/
def eps : F := 1 / 1000000

/-- Area as computed in `object_detection/rank.py:358-359`. -/
def Box.area (b : Box F) : F := (b.x2 - b.x1) * (b.y2 - b.y1)

/-- `_get_iou`, `object_detection/rank.py:323-368`. -/
def iou (a b : Box F) : F :=
  let xLeft := max a.x1 b.x1
  let yTop := max a.y1 b.y1
  let xRight := min a.x2 b.x2
  let yBottom := min a.y2 b.y2
  if xRight < xLeft ∨ yBottom < yTop then 0
  else
    let inter := (xRight - xLeft) * (yBottom - yTop)
    inter / max (a.area + b.area - inter) eps

/-- A predicted box with its probability. -/
structure Pred (F : Type) where
  box : Box F
  prob : F
  deriving DecidableEq

/-- An image: the predictions of each class and the annotated boxes with their classes. -/
structure Image (F : Type) (K : ℕ) where
  preds : Fin K → List (Pred F)
  labels : List (Box F × Fin K)

/-- The arrays filled by the matching loop: `is_covered`, `true_positives`, `false_positives`. -/
structure MatchState (p l : ℕ) where
  covered : Fin l → Bool
  tp : Fin p → Bool
  fp : Fin p → Bool

/-- The body of the matching loop, `object_detection/filter.py:343-351`. -/
def matchStep {p l : ℕ} [NeZero l] (thr : F) (ious : Fin p → Fin l → F) (st : MatchState p l) (i : Fin p) :
    MatchState p l :=
  if ious i (argmax (ious i)) ≥ thr then
    let j := argmax (ious i)
    if st.covered j then { st with fp := Function.update st.fp i true }
    else { st with covered := Function.update st.covered j true, tp := Function.update st.tp i true }
  else { st with fp := Function.update st.fp i true }

/-- True positives, false positives and false negatives of one image and one class. -/
structure Matching (p l : ℕ) where
  tp : Fin p → Bool
  fp : Fin p → Bool
  fn : Fin l → Bool

/-- `_calculate_true_positives_false_positives`, `object_detection/filter.py:315-358`, from the overlap matrix. -/
def matchBoxes (A : ArgSort F) (thr : F) {p : ℕ} : {l : ℕ} → (ious : Fin p → Fin l → F) → (probs : Fin p → F) →
    Matching p l
  | 0, _, _ => ⟨fun _ => false, fun _ => true, fun _ => false⟩
  | _ + 1, ious, probs =>
    let st := (A.indices (fun i => -probs i)).foldl (matchStep thr ious) ⟨fun _ => false, fun _ => false, fun _ => false⟩
    ⟨st.tp, st.fp, fun j => !st.covered j⟩

/-- `_get_overlap_matrix`, `object_detection/rank.py:313-320`, for predictions against annotations. -/
def overlaps (preds : List (Pred F)) (labs : List (Box F)) (i : Fin preds.length) (j : Fin labs.length) : F :=
  iou (preds.get i).box (labs.get j)

/-- `_filter_by_class`, `object_detection/filter.py:301-312`: annotated boxes of class `k`. -/
def labelsOf {K : ℕ} (im : Image F K) (k : Fin K) : List (Box F) :=
  (im.labels.filter (fun x => x.2 = k)).map (fun x => x.1)

/-- The matching of class `k` in one image. -/
def matchImage {K : ℕ} (A : ArgSort F) (thr : F) (im : Image F K) (k : Fin K) :
    Matching (im.preds k).length (labelsOf im k).length :=
  matchBoxes A thr (overlaps (im.preds k) (labelsOf im k)) (fun i => ((im.preds k).get i).prob)

/-- The predictions of one image with their true positive flags, in the order of `np.hstack`. -/
def flagged {K : ℕ} (A : ArgSort F) (thr : F) (im : Image F K) (k : Fin K) : List (F × Bool) :=
  List.ofFn (fun i : Fin (im.preds k).length => (((im.preds k).get i).prob, (matchImage A thr im k).tp i))

/-- `np.cumsum` of booleans. -/
def cumTrue : ℕ → List Bool → List ℕ
  | _, [] => []
  | c, b :: bs => (c + b.toNat) :: cumTrue (c + b.toNat) bs

/-- `np.maximum` accumulated from the right, `object_detection/filter.py:374-377`. -/
def suffixMax : List F → List F
  | [] => []
  | [x] => [x]
  | x :: y :: ys =>
    match suffixMax (y :: ys) with
    | [] => [x]
    | m :: ms => max x m :: m :: ms

/-- `_calculate_average_precision`, `object_detection/filter.py:361-386`. -/
def averagePrecision (recalls precisions : List F) : F :=
  let r := 0 :: (recalls ++ [1])
  let p := suffixMax (0 :: (precisions ++ [0]))
  (((r.zip (r.tail.zip p.tail)).filter (fun x => x.2.1 ≠ x.1)).map (fun x => (x.2.1 - x.1) * x.2.2)).sum

/-- `np.finfo(np.float32).eps`. -/
def eps32 : F := 1 / 2 ^ 23

/-- Recalls and precisions of one class, `object_detection/filter.py:279-293`. -/
def recallsPrecisions {K : ℕ} (A : ArgSort F) (thr : F) (images : List (Image F K)) (k : Fin K) : List F × List F :=
  let numGts := (images.map (fun im => (labelsOf im k).length)).sum
  let sorted := (sortOn A (fun x : F × Bool => -x.1) (images.flatMap (fun im => flagged A thr im k))).map (fun x => x.2)
  let tp := cumTrue 0 sorted
  let fp := cumTrue 0 (sorted.map (fun b => !b))
  (tp.map (fun t : ℕ => (t : F) / max (numGts : F) eps32),
    (tp.zip fp).map (fun x : ℕ × ℕ => (x.1 : F) / max ((x.1 : F) + (x.2 : F)) eps32))

/-- `_calculate_ap_per_class` for one class, `object_detection/filter.py:264-295`. -/
def apOfClass {K : ℕ} (A : ArgSort F) (thr : F) (images : List (Image F K)) (k : Fin K) : F :=
  let rp := recallsPrecisions A thr images k
  averagePrecision rp.1 rp.2

/-- `iou_thrs`, `object_detection/filter.py:396`. -/
def iouThresholds : List F := (List.range 10).map (fun i : ℕ => 1 / 2 + (i : F) / 20)

/-- `_get_per_class_ap`, `object_detection/filter.py:389-405`; `AP_SCALE_FACTOR` is `0.25`. -/
def perClassAp {K : ℕ} (A : ArgSort F) (images : List (Image F K)) (k : Fin K) : F :=
  ((iouThresholds (F := F)).map (fun thr => apOfClass A thr images k)).sum / 10 * (1 / 4)

/-- Counts of true positives, false positives and false negatives. -/
structure Confusion (N : Type) where
  tp : N
  fp : N
  fn : N

/-- `_get_per_class_confusion_matrix_dict_` for one class, `object_detection/summary.py:481-496`. -/
def confusionOf {K : ℕ} (A : ArgSort F) (thr : F) (images : List (Image F K)) (k : Fin K) : Confusion ℕ :=
  let ms := images.map (fun im => ⟨_, _, matchImage A thr im k⟩ : Image F K → Σ p l, Matching p l)
  ⟨(ms.map (fun m => (List.finRange m.1).countP (fun i => m.2.2.tp i))).sum,
    (ms.map (fun m => (List.finRange m.1).countP (fun i => m.2.2.fp i))).sum,
    (ms.map (fun m => (List.finRange m.2.1).countP (fun j => m.2.2.fn j))).sum⟩

/-- `get_average_per_class_confusion_matrix`, `object_detection/summary.py:522-592`. -/
def averageConfusion {K : ℕ} (A : ArgSort F) (images : List (Image F K)) (k : Fin K) : Confusion F :=
  let total (f : Confusion ℕ → ℕ) : F :=
    ((iouThresholds (F := F)).map (fun thr => (f (confusionOf A thr images k) : F))).sum
  let num : F := ((10 * K : ℕ) : F)
  ⟨total (fun c => c.tp) / num, total (fun c => c.fp) / num, total (fun c => c.fn) / num⟩

/-- `TINY_VALUE`, `internal/constants.py:6`. -/
def tiny : F := 1 / 10 ^ 100

/-- `calculate_per_class_metrics`, `object_detection/summary.py:595-650`: precision, recall, F1. -/
def classMetrics {K : ℕ} (A : ArgSort F) (images : List (Image F K)) (k : Fin K) : F × F × F :=
  let c := averageConfusion A images k
  let precision := c.tp / (c.tp + c.fp + tiny)
  let recall := c.tp / (c.tp + c.fn + tiny)
  (precision, recall, 2 * (precision * recall) / (precision + recall + tiny))

end Cleanlab.Detection
