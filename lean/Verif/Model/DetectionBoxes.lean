import Verif.Model.DetectionScore

/-!
# Model of the published box scores of `cleanlab/object_detection/rank.py`

`compute_overlooked_box_scores`, `compute_badloc_box_scores`, `compute_swap_box_scores` and
`pool_box_scores_per_image`, with their optional parameters and `auxiliary_inputs`. `nan` scores are `none`.

Simplification: in an auxiliary dictionary the two keys for the annotated boxes are given together, as are the three keys
for the predicted boxes, and the given matrices have a row for every annotated and a column for every predicted box.
-/

namespace Cleanlab.Detection

open Np

variable {K : ℕ}

/-- The annotated boxes of an image, `_separate_label`, `rank.py:248-252`. -/
abbrev Labs (K : ℕ) : Type := List (Box ℝ × Fin K)

/-- `prediction`: for every class its predicted boxes. -/
abbrev Prediction (K : ℕ) : Type := Fin K → List (Pred ℝ)

/-- `_separate_prediction`, `rank.py:263-297`. -/
def separate (p : Prediction K) : List (Pred ℝ × Fin K) := (List.finRange K).flatMap (fun k => (p k).map (fun q => (q, k)))

/-- An entry of `similarity_matrix` for the weight `alpha`, `rank.py:418-419` and `459-460`. -/
noncomputable def similarityWith (alpha : ℝ) (a b : Box ℝ) : ℝ :=
  iou a b * alpha + (1 - alpha) * (1 - (1 - closeness a b))

/-- The non-zero entries of a matrix, row by row. -/
noncomputable def nonZero {l p : ℕ} (m : Fin l → Fin p → ℝ) : List ℝ :=
  open Classical in
  ((List.finRange l).flatMap (fun i => (List.finRange p).map (fun j => m i j))).filter (fun s => s ≠ 0)

/-- `_get_min_possible_similarity`, `rank.py:407-425`; `zip` stops at the shorter list. -/
noncomputable def minPossible (alpha : ℝ) (predictions : List (Prediction K)) (labels : List (Labs K)) : ℝ :=
  (predictions.zip labels).foldl (fun m x => min m (minOr 1 (nonZero (fun i j =>
    similarityWith alpha (x.2.get i).1 ((separate x.1).get j).1.box)))) 1

/-- One dictionary of `auxiliary_inputs`. -/
structure Aux (K : ℕ) where
  label : Option (Labs K) := none
  prediction : Option (Prediction K) := none
  labs : Option (Labs K) := none
  preds : Option (List (Pred ℝ × Fin K)) := none
  similarity : Option (ℕ → ℕ → ℝ) := none
  iou : Option (ℕ → ℕ → ℝ) := none
  minSim : Option ℝ := none

/-- The dictionary that `_get_valid_inputs_for_compute_scores_per_image` returns. -/
structure Full (K : ℕ) where
  labs : Labs K
  preds : List (Pred ℝ × Fin K)
  sim : Fin labs.length → Fin preds.length → ℝ
  iou : Fin labs.length → Fin preds.length → ℝ
  minSim : ℝ

/-- `np.min(similarity_matrix[np.nonzero(similarity_matrix)])` unless the matrix is empty, `rank.py:466-470`. -/
noncomputable def imageMin {l p : ℕ} (m : Fin l → Fin p → ℝ) : Except String ℝ :=
  if l = 0 ∨ p = 0 then .ok 1
  else match nonZero m with
    | [] => .error "zero-size array to reduction operation minimum which has no identity"
    | x :: xs => .ok (xs.foldl min x)

/-- `_get_valid_inputs_for_compute_scores_per_image`, `rank.py:428-483`. -/
noncomputable def fill (alpha : ℝ) (a : Aux K) : Except String (Full K) := do
  let labs ← match a.labs, a.label with
    | some l, _ => .ok l
    | none, some l => .ok l
    | none, none => .error "Pass in either one of label or label labels into auxiliary inputs. Both can not be None."
  let preds ← match a.preds, a.prediction with
    | some p, _ => .ok p
    | none, some p => .ok (separate p)
    | none, none => .error "Pass in either one of prediction or prediction labels and prediction probabilities"
  let overlap := fun (i : Fin labs.length) (j : Fin preds.length) =>
    Detection.iou (labs.get i).1 (preds.get j).1.box
  let sim := match a.similarity with
    | some m => fun (i : Fin labs.length) (j : Fin preds.length) => m i j
    | none => fun i j => similarityWith alpha (labs.get i).1 (preds.get j).1.box
  let iou := match a.similarity, a.iou with
    | none, _ => overlap
    | some _, none => overlap
    | some _, some m => fun i j => m i j
  let minSim ← match a.minSim with
    | some m => .ok m
    | none => imageMin sim
  return { labs, preds, sim, iou, minSim }

/-- The dictionary of one image as a dictionary of auxiliary inputs, `rank.py:500-507`. -/
def Full.aux (f : Full K) : Aux K where
  labs := some f.labs
  preds := some f.preds
  similarity := some (fun i j => if h : i < f.labs.length ∧ j < f.preds.length then f.sim ⟨i, h.1⟩ ⟨j, h.2⟩ else 0)
  iou := some (fun i j => if h : i < f.labs.length ∧ j < f.preds.length then f.iou ⟨i, h.1⟩ ⟨j, h.2⟩ else 0)
  minSim := some f.minSim

/-- `_get_valid_inputs_for_compute_scores`, `rank.py:486-509`. -/
noncomputable def validInputs (alpha : ℝ) (labels : Option (List (Labs K))) (predictions : Option (List (Prediction K))) :
    Except String (List (Aux K)) :=
  match predictions, labels with
  | some ps, some ls => (ps.zip ls).mapM (fun x => do
      let f ← fill alpha { label := some x.2, prediction := some x.1, minSim := some (minPossible alpha ps ls) }
      return f.aux)
  | _, _ => .error "Predictions and labels can not be None. Both are needed to get valid inputs."

/-- The loop of `_compute_overlooked_box_scores_for_image`, `rank.py:591-608`. -/
noncomputable def Full.overlooked (f : Full K) (high : ℝ) : List (Option ℝ) :=
  open Classical in
  List.ofFn (fun j : Fin f.preds.length =>
    let p := f.preds.get j
    if p.1.prob < high ∨ ∃ i, f.iou i j > 0 then none
    else some (maxOr (f.minSim * (1 - p.1.prob))
      (((List.finRange f.labs.length).filter (fun i => (f.labs.get i).2 = p.2)).map (fun i => f.sim i j))))

/-- `_compute_overlooked_box_scores_for_image`, `rank.py:555-608`; a given `iou_matrix` is not passed on. -/
noncomputable def overlookedOf (alpha high : ℝ) (a : Aux K) : Except String (List (Option ℝ)) := do
  let f ← fill alpha { a with iou := none }
  return f.overlooked high

/-- The loop of `_compute_badloc_box_scores_for_image`, `rank.py:725-746`. -/
noncomputable def Full.badloc (f : Full K) (low : ℝ) : List ℝ :=
  open Classical in
  List.ofFn (fun i : Fin f.labs.length =>
    let ks := (List.finRange f.preds.length).filter (fun j => (f.preds.get j).2 = (f.labs.get i).2)
    if ks = [] ∨ ∀ j ∈ ks, (f.preds.get j).1.prob ≤ low then 1
    else maxOr 1 ((ks.filter (fun j => (f.preds.get j).1.prob > low ∧ f.iou i j > 0)).map (fun j => f.sim i j)))

/-- `_compute_badloc_box_scores_for_image`, `rank.py:690-746`. -/
noncomputable def badlocOf (alpha low : ℝ) (a : Aux K) : Except String (List ℝ) := do
  let f ← fill alpha a
  return f.badloc low

/-- The loop of `_compute_swap_box_scores_for_image`, `rank.py:866-889`. -/
noncomputable def Full.swap (f : Full K) (high : ℝ) (check : Bool) : List ℝ :=
  open Classical in
  List.ofFn (fun i : Fin f.labs.length =>
    let others := (List.finRange f.preds.length).filter (fun j => (f.preds.get j).2 ≠ (f.labs.get i).2)
    if check = true ∧ HasOverlap f.labs i then f.minSim
    else if others = [] ∨ ∀ j ∈ others, (f.preds.get j).1.prob ≤ high then 1
    else max f.minSim (1 - maxOr 0 ((others.filter (fun j => (f.preds.get j).1.prob > high)).map (fun j => f.sim i j))))

/-- `_compute_swap_box_scores_for_image`, `rank.py:825-889`: the overlaps are computed from the boxes in the dictionary,
which are missing if only `label` is given; a given `iou_matrix` is not passed on. -/
noncomputable def swapOf (alpha high : ℝ) (check : Bool) (a : Aux K) : Except String (List ℝ) := do
  let f ← fill alpha { a with iou := none }
  if check = true ∧ a.labs.isNone then .error "TypeError: object of type 'NoneType' has no len()"
  else return f.swap high check

/-- The auxiliary inputs used: those given or those from labels and predictions, `rank.py:676-677`. -/
noncomputable def auxiliary (alpha : ℝ) (labels : Option (List (Labs K))) (predictions : Option (List (Prediction K)))
    (aux : Option (List (Aux K))) : Except String (List (Aux K)) :=
  match aux with
  | some a => .ok a
  | none => validInputs alpha labels predictions

/-- `compute_overlooked_box_scores`, `rank.py:611-687`; defaults of `_get_valid_subtype_score_params`,
`rank.py:522-537`. -/
noncomputable def computeOverlooked (labels : Option (List (Labs K)) := none)
    (predictions : Option (List (Prediction K)) := none) (alpha : Option ℝ := none) (high : Option ℝ := none)
    (aux : Option (List (Aux K)) := none) : Except String (List (List (Option ℝ))) := do
  let alpha := alpha.getD (9 / 10)
  let l ← auxiliary alpha labels predictions aux
  l.mapM (overlookedOf alpha (high.getD (95 / 100)))

/-- `compute_badloc_box_scores`, `rank.py:749-822`. -/
noncomputable def computeBadloc (labels : Option (List (Labs K)) := none)
    (predictions : Option (List (Prediction K)) := none) (alpha : Option ℝ := none) (low : Option ℝ := none)
    (aux : Option (List (Aux K)) := none) : Except String (List (List ℝ)) := do
  let alpha := alpha.getD (9 / 10)
  let l ← auxiliary alpha labels predictions aux
  l.mapM (badlocOf alpha (low.getD (1 / 2)))

/-- `compute_swap_box_scores`, `rank.py:892-973`. -/
noncomputable def computeSwap (labels : Option (List (Labs K)) := none)
    (predictions : Option (List (Prediction K)) := none) (alpha : Option ℝ := none) (high : Option ℝ := none)
    (check : Bool := true) (aux : Option (List (Aux K)) := none) : Except String (List (List ℝ)) := do
  let alpha := alpha.getD (9 / 10)
  let l ← auxiliary alpha labels predictions aux
  l.mapM (swapOf alpha (high.getD (95 / 100)) check)

/-- `pool_box_scores_per_image`, `rank.py:976-1014`. -/
noncomputable def poolScores (scores : List (List (Option ℝ))) (T : Option ℝ := none) : List ℝ :=
  scores.map (validScore (T.getD temperature))

end Cleanlab.Detection
