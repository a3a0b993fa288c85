import Verif.Model.DetectionSummary

/-!
# Model of the plots of object detection data

`visualize` and `plot_class_size_distributions`, `cleanlab/object_detection/summary.py:239-293, 335-455, 677-755`. What is
drawn is a list of rectangles with their text, and the entries of a legend. Files, fonts and the image itself are left out.
-/

namespace Cleanlab.Detection

open Np

variable {K : ℕ} {N : Type} [DecidableEq N]

/-- `bbox_xyxy_to_xywh`, `internal/object_detection_utils.py:13-22`: left, top, width, height. -/
def xywh (b : Box ℚ) : ℚ × ℚ × ℚ × ℚ := (b.x1, b.y1, b.x2 - b.x1, b.y2 - b.y1)

inductive Color
  | red
  | blue
deriving DecidableEq

/-- A rectangle with the number of its class: in which of the two images (0 is the left one), colour, left, top, width, height. -/
structure Drawn where
  axis : ℕ
  color : Color
  rect : ℚ × ℚ × ℚ × ℚ
  cls : ℕ
deriving DecidableEq

/-- `_get_prediction_type`, `object_detection/rank.py:277-285`: whether predictions with three classes look like boxes, classes and
probabilities. The predicted boxes of a class are an array with five columns. -/
def looksLikeAllPred (p : List (List (Pred ℚ))) : Bool :=
  match p with
  | [a, b, c] => decide (a.length = 5 ∧ b.length = c.length)
  | _ => false

/-- `_separate_prediction_single_box` and the threshold, `object_detection/rank.py:263-274` and `summary.py:408-411`. -/
def keptBoxes (threshold : Option ℚ) (p : List (List (Pred ℚ))) : List (Box ℚ × ℕ) :=
  let all := p.zipIdx.flatMap (fun e => e.1.map (fun q => (q, e.2)))
  let kept := match threshold with
    | none => all
    | some t => all.filter (fun q => decide (t < q.1.prob))
  kept.map (fun q => (q.1.box, q.2))

/-- The predicted boxes to draw, `summary.py:402-411`, together with `_draw_boxes`, `summary.py:731-755`. Predictions that look
like boxes, classes and probabilities are the arrays of three classes with five columns, and a box with five numbers cannot be
drawn. Without boxes of the second class nothing is drawn. With a threshold the entries of the third array select single numbers of
the first, which cannot be drawn either. -/
def predictedBoxes (threshold : Option ℚ) (p : List (List (Pred ℚ))) : Except String (List (Box ℚ × ℕ)) :=
  if looksLikeAllPred p then
    match p[2]? with
    | none => .error "unreachable"
    | some [] => .ok []
    | some c =>
      match threshold with
      | none => .error "cannot unpack non-iterable NoneType object"
      | some t =>
        if ∃ q ∈ c, t < q.box.x1 ∨ t < q.box.y1 ∨ t < q.box.x2 ∨ t < q.box.y2 ∨ t < q.prob then
          .error "object of type 'numpy.float64' has no len()"
        else .ok []
  else .ok (keptBoxes threshold p)

/-- The rectangles of `visualize`, `object_detection/summary.py:402-440`. -/
def visualize (label : Option (List (Box ℚ × ℕ))) (prediction : Option (List (List (Pred ℚ)))) (threshold : Option ℚ)
    (overlay : Bool) : Except String (List Drawn) := do
  let given := match label with
    | none => []
    | some l => l.map (fun e => Drawn.mk 0 .red (xywh e.1) e.2)
  match prediction with
  | none => return given
  | some p =>
    let boxes ← predictedBoxes threshold p
    return given ++ boxes.map (fun e => Drawn.mk (if overlay then 0 else 1) .blue (xywh e.1) e.2)

/-- The texts of the legend, `_plot_legend`, `object_detection/summary.py:677-708`: as many as there are markers with a colour. -/
def legendTexts (names : List (String × String)) (hasLabel hasPrediction : Bool) : List String :=
  let texts := ["Legend"] ++ (if hasLabel then ["given label"] else []) ++ (if hasPrediction then ["predicted label"] else [])
  let colors := texts.length
  if names = [] then texts
  else (texts ++ ["classes"] ++ names.map Prod.snd).take (colors + 1 + min names.length 10)

/-- `plot_class_size_distributions`, `object_detection/summary.py:275-293`: the classes with the sizes of their annotated and predicted
boxes. Sorted dictionaries are no `defaultdict` any more. -/
def plotSizes (names : Fin K → Option N) (classToShow : Option ℕ) (images : List (Image ℚ K)) :
    Except String (List (N × List ℚ × List ℚ)) :=
  let d := sizeDistribution names classToShow.isSome images
  match classToShow with
  | none => if d.1 = [] then .ok [] else .error "'>=' not supported between instances of 'int' and 'NoneType'"
  | some m => (d.1.take m).mapM (fun e =>
      match d.2.lookup e.1 with
      | none => .error "KeyError"
      | some v => .ok (e.1, e.2, v))

end Cleanlab.Detection
