import Verif.Model.Detection
import Verif.Np.Basic

/-!
# Model of the object detection summaries

`cleanlab/object_detection/summary.py:48-236, 653-674`. A dictionary is a list of pairs in insertion order. Names of
classes are of an arbitrary type; `class_names` is a partial function on the classes, and without it (`None`) the names
are the classes themselves. The overlaps that `_get_valid_inputs_for_compute_scores` also computes are left out, they
are not used here.
-/

namespace Cleanlab.Detection

open Np

variable {K : ℕ} {N : Type} [DecidableEq N]

/-- `_separate_prediction_single_box`, `object_detection/rank.py:263-274`. -/
def predBoxes (im : Image ℚ K) : List (Fin K × Box ℚ) :=
  (List.finRange K).flatMap (fun k => (im.preds k).map (fun p => (k, p.box)))

/-- `lab_labels` and `lab_bboxes`, `object_detection/rank.py:448`. -/
def labBoxes (im : Image ℚ K) : List (Fin K × Box ℚ) := im.labels.map (fun l => (l.2, l.1))

/-- `object_counts_per_image`, `object_detection/summary.py:95-100`. -/
def objectCounts (images : List (Image ℚ K)) : List ℕ × List ℕ :=
  (images.map (fun im => (labBoxes im).length), images.map (fun im => (predBoxes im).length))

/-- Change the value of a key of a `defaultdict`; `f none` is the value of a new key. -/
def upsert {V : Type} (d : List (N × V)) (k : N) (f : Option V → V) : List (N × V) :=
  match d with
  | [] => [(k, f none)]
  | (k', v) :: t => if k' = k then (k', f (some v)) :: t else (k', v) :: upsert t k f

/-- `_get_bbox_areas`, `object_detection/summary.py:659-666`. -/
def addAreas (names : Fin K → Option N) (d : List (N × List ℚ)) (boxes : List (Fin K × Box ℚ)) : List (N × List ℚ) :=
  boxes.foldl (fun d e =>
    match names e.1 with
    | none => d
    | some c => upsert d c (fun v => v.getD [] ++ [e.2.area])) d

/-- `sorted(area.items(), key=lambda x: -len(x[1]))`, `object_detection/summary.py:151-152`; Python sorts stably. -/
def sortByNumber (d : List (N × List ℚ)) : List (N × List ℚ) :=
  d.mergeSort (fun a b => decide (b.2.length ≤ a.2.length))

/-- `bounding_box_size_distribution`, `object_detection/summary.py:141-154`. -/
def sizeDistribution (names : Fin K → Option N) (sort : Bool) (images : List (Image ℚ K)) :
    List (N × List ℚ) × List (N × List ℚ) :=
  let lab := images.foldl (fun d im => addAreas names d (labBoxes im)) []
  let pred := images.foldl (fun d im => addAreas names d (predBoxes im)) []
  if sort then (sortByNumber lab, sortByNumber pred) else (lab, pred)

/-- `_get_class_instances`, `object_detection/summary.py:669-674`; an unnamed class is a `KeyError`. -/
def addInstances (names : Fin K → Option N) (d : List (N × ℕ)) (classes : List (Fin K)) : Except String (List (N × ℕ)) :=
  classes.foldlM (fun d c =>
    match names c with
    | none => .error "KeyError"
    | some c => .ok (upsert d c (fun v => v.getD 0 + 1))) d

/-- `_normalize_by_total`, `object_detection/summary.py:653-656`; `round(x, 2)` is exact here. -/
def normalizeByTotal (d : List (N × ℕ)) : List (N × ℚ) :=
  d.map (fun e => (e.1, (rint (100 * ((e.2 : ℚ) / (((d.map Prod.snd).sum : ℕ) + eps))) : ℚ) / 100))

/-- `class_label_distribution`, `object_detection/summary.py:191-203`. -/
def classDistribution (names : Fin K → Option N) (images : List (Image ℚ K)) :
    Except String (List (N × ℚ) × List (N × ℚ)) := do
  let lab ← images.foldlM (fun d im => addInstances names d ((labBoxes im).map Prod.fst)) []
  let pred ← images.foldlM (fun d im => addInstances names d ((predBoxes im).map Prod.fst)) []
  return (normalizeByTotal lab, normalizeByTotal pred)

/-- `sorted(enumerate(count), key=lambda x: x[1], reverse=True)`, `object_detection/summary.py:230-234`. -/
def sortedCounts (count : List ℕ) : List (ℕ × ℕ) :=
  (count.zipIdx.map Prod.swap).mergeSort (fun a b => decide (b.2 ≤ a.2))

/-- `get_sorted_bbox_count_idxs`, `object_detection/summary.py:229-236`. -/
def sortedBoxCounts (images : List (Image ℚ K)) : List (ℕ × ℕ) × List (ℕ × ℕ) :=
  (sortedCounts (objectCounts images).1, sortedCounts (objectCounts images).2)

end Cleanlab.Detection
