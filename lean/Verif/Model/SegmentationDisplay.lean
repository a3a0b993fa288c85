import Verif.Model.SegmentationSummary

/-!
# Model of `display_issues`, `cleanlab/segmentation/summary.py:15-156`

A picture of labels is given by the classes whose colours the pixels have.
-/

namespace Cleanlab.Segmentation

open Np

variable {N K h w : ℕ}

/-- What is shown for one image: the given and the predicted classes, if there are any, and the pixels in red. -/
structure Figure (N h w : ℕ) where
  image : Fin N
  given : Option (Fin h → Fin w → ℕ)
  predicted : Option (Fin h → Fin w → ℕ)
  red : Fin h → Fin w → Bool

/-- The number of flagged pixels of an image, `segmentation/summary.py:85`. -/
def pixelIssues (issues : Stack N h w Bool) (n : Fin N) : ℕ := ∑ i, ∑ j, if issues n i j then 1 else 0

/-- `max(np.unique(labels)) + 1`, `segmentation/summary.py:105`; there is no maximum of nothing. -/
def classesOfLabels (labels : Stack N h w ℕ) : Except String ℕ :=
  if N = 0 ∨ h = 0 ∨ w = 0 then .error "max() iterable argument is empty"
  else .ok ((Finset.univ.sup fun n => Finset.univ.sup fun i => Finset.univ.sup fun j => labels n i j) + 1)

/-- The number of colours, `segmentation/summary.py:100-108`; `none` without colours. -/
def numColors (labels : Option (Stack N h w ℕ)) (P : Option (Stack N h w (Fin K → ℚ))) : Except String (Option ℕ) :=
  match P, labels with
  | some _, _ => .ok (some K)
  | none, some labels => (classesOfLabels labels).map some
  | none, none => .ok none

/-- The entries of the legend, class and name, `segmentation/summary.py:111-120`; `none` without a legend. -/
def legend (colors : Option ℕ) (names : Option (List String)) : Except String (Option (List (ℕ × String))) :=
  match colors, names with
  | some c, some names =>
    if names.length ≤ c then .ok (some ((List.range names.length).zip names)) else .error "IndexError"
  | _, _ => .ok none

/-- The figure of an image, `segmentation/summary.py:122-154`; `cmap[labels[i]]` raises if there is no such colour. -/
def figure [NeZero K] (issues : Stack N h w Bool) (labels : Option (Stack N h w ℕ)) (P : Option (Stack N h w (Fin K → ℚ)))
    (colors : Option ℕ) (exclude : List ℕ) (n : Fin N) : Except String (Figure N h w) :=
  let predicted := P.map (fun P i j => (argmax (P n i j)).val)
  match labels with
  | none => .ok ⟨n, none, predicted, issues n⟩
  | some labels =>
    if ∃ c ∈ colors, ∃ i j, c ≤ labels n i j then .error "IndexError"
    else .ok ⟨n, some (labels n), predicted,
      fun i j => issues n i j && (if exclude = [] then true else decide (labels n i j ∉ exclude))⟩

/-- `display_issues`, `segmentation/summary.py:15-156`: the legend and the figures, in order. `top=None` means 20, `exclude=None`
no class (`internal/segmentation_utils.py:23-33`). -/
def displayIssues (A : ArgSort ℤ) [NeZero K] (issues : Stack N h w Bool) (labels : Option (Stack N h w ℕ))
    (P : Option (Stack N h w (Fin K → ℚ))) (names : Option (List String)) (exclude : Option (List ℕ)) (top : Option ℕ) :
    Except String (Option (List (ℕ × String)) × List (Figure N h w)) := do
  let exclude := match exclude with | none => [] | some e => e
  let top := match top with | none => 20 | some t => t
  if labels.isNone ∧ exclude ≠ [] then throw "Provide labels to allow class exclusion"
  let order := (A.indices (fun n => -(pixelIssues issues n : ℤ))).take (min top N)
  let colors ← numColors labels P
  let l ← legend colors names
  let figures ← order.mapM (figure issues labels P colors exclude)
  return (l, figures)

end Cleanlab.Segmentation
