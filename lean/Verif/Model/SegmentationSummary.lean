import Verif.Model.Segmentation
import Verif.Np.SortOn

/-!
# Model of `cleanlab/segmentation/summary.py`
-/

namespace Cleanlab.Segmentation

open Np

variable {N K h w : ℕ}

/-- A pixel. -/
abbrev Pixel (N h w : ℕ) : Type := Fin N × Fin h × Fin w

/-- `np.column_stack(np.where(issues))`, `segmentation/summary.py:232`. -/
def issueCoords (issues : Stack N h w Bool) : List (Pixel N h w) :=
  ((List.finRange N).flatMap fun n => (List.finRange h).flatMap fun i => (List.finRange w).map fun j => (n, i, j)).filter
    (fun p => issues p.1 p.2.1 p.2.2)

/-- The dictionary `count`, `segmentation/summary.py:235`; `none` for a missing key. -/
abbrev Count (K : ℕ) : Type := Fin K → Option (Fin K → ℕ)

/-- The loop body, `segmentation/summary.py:236-242`. -/
def countStep [NeZero K] (labels : Stack N h w (Fin K)) (P : Stack N h w (Fin K → ℚ)) (exclude : List (Fin K))
    (count : Count K) (p : Pixel N h w) : Count K :=
  let label := labels p.1 p.2.1 p.2.2
  let pred := argmax (P p.1 p.2.1 p.2.2)
  let row := match count label with
    | none => fun _ => 0
    | some r => r
  let row := if pred ∉ exclude then Function.update row pred (row pred + 1) else row
  Function.update count label (some row)

/-- The counts, `segmentation/summary.py:235-242`. -/
def countIssues [NeZero K] (issues : Stack N h w Bool) (labels : Stack N h w (Fin K)) (P : Stack N h w (Fin K → ℚ))
    (exclude : List (Fin K)) : Count K :=
  (issueCoords issues).foldl (countStep labels P exclude) (fun _ => none)

/-- The list `info` with class indices in place of names, `segmentation/summary.py:248-253`. -/
def infoRows (count : Count K) : List (Fin K × Fin K × ℕ) :=
  (List.finRange K).flatMap fun g => match count g with
    | none => []
    | some row => (List.finRange K).filterMap fun p => if row p > 0 then some (g, p, row p) else none

/-- `common_label_issues`, `segmentation/summary.py:159-265`, with `K` class names, which are left out of the rows.
`top=None` means 20. -/
def commonLabelIssues (A : ArgSort ℤ) [NeZero K] (issues : Stack N h w Bool) (labels : Stack N h w (Fin K))
    (P : Stack N h w (Fin K → ℚ)) (exclude : Option (List (Fin K))) (top : Option ℕ) : List (Fin K × Fin K × ℕ) :=
  let exclude := match exclude with | none => [] | some e => e
  let top := match top with | none => 20 | some t => t
  (sortOn A (fun r => -(r.2.2 : ℤ)) (infoRows (countIssues issues labels P exclude))).take top

/-- `filter_by_class`, `segmentation/summary.py:268-308`. -/
def filterByClass [NeZero K] (c : Fin K) (issues : Stack N h w Bool) (labels : Stack N h w (Fin K))
    (P : Stack N h w (Fin K → ℚ)) : Stack N h w Bool := fun n i j =>
  (issues n i j && decide (labels n i j = c)) || (issues n i j && decide (argmax (P n i j) = c))

end Cleanlab.Segmentation
