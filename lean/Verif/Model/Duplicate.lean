import Verif.Model.KnnGraph
import Verif.Np.Collect
import Verif.Np.Median
import Mathlib.Analysis.SpecialFunctions.Exp

/-!
# Model of `cleanlab/datalab/internal/issue_manager/duplicate.py`
-/

namespace Cleanlab.Duplicate

open Np Cleanlab.Knn

variable {N : ℕ}

/-- `EPSILON`, `internal/constants.py`. -/
def epsilon : ℚ := 1 / 1000000

/-- `_set_threshold`, `duplicate.py:173-186`. -/
def setThreshold (t : ℚ) : ℚ := if t < 0 then 0 else t

/-- The sets before the second pass, `duplicate.py:98-109`. -/
def withinRadius (g : Graph N) (radius : ℚ) (i : Fin N) : List (Fin N) :=
  ((g i).filter (fun e => decide (e.2 < radius))).map Prod.fst

/-- The body of the second pass, `duplicate.py:117-118`. -/
def reciprocate (i : Fin N) (sets : Fin N → List (Fin N)) (j : Fin N) : Fin N → List (Fin N) :=
  if i ∈ sets j then sets else Function.update sets j (sets j ++ [i])

/-- The second pass, `duplicate.py:115-118`: the inner loop runs over the set of `i` as it is when the loop starts. -/
def secondPass (sets : Fin N → List (Fin N)) : Fin N → List (Fin N) :=
  (List.finRange N).foldl (fun sets i => (sets i).foldl (reciprocate i) sets) sets

/-- `_neighbors_within_radius`, `duplicate.py:88-120`. -/
def neighborsWithinRadius (g : Graph N) (threshold median : ℚ) : Fin N → List (Fin N) :=
  secondPass (withinRadius g (threshold * median))

/-- `nn_distances`, `duplicate.py:66`; a graph without columns raises `IndexError`. -/
def nnDistances (g : Graph N) : Except String (Fin N → ℚ) :=
  collect (fun i => match (g i).head? with
    | some e => .ok e.2
    | none => .error "IndexError")

/-- `_compute_scores_with_exp_transform`, `duplicate.py:189-228`; `np.isclose(d, 0)` is `|d| <= 1e-8`. -/
noncomputable def expScores (nn : Fin N → ℚ) (temperature : ℝ) : Except String (Fin N → ℝ) :=
  open Classical in
  if temperature ≤ 0 then .error "Temperature must be greater than 0."
  else .ok (fun i => if |nn i| ≤ 1 / 100000000 then 0 else 1 - Real.exp (-temperature * nn i))

/-- What `find_issues` stores. -/
structure Report (N : ℕ) where
  sets : Fin N → List (Fin N)
  isIssue : Fin N → Bool
  score : Fin N → ℝ
  median : ℚ

/-- `NearDuplicateIssueManager.find_issues` on a given graph, `duplicate.py:65-83`. -/
noncomputable def findIssues (A : ArgSort ℚ) (g : Graph N) (threshold : ℚ) : Except String (Report N) := do
  let nn ← nnDistances g
  match npMedian A (List.ofFn nn) with
  | none => .error "nan"
  | some med =>
    let median := max med epsilon
    let sets := neighborsWithinRadius g (setThreshold threshold) median
    let all := (List.finRange N).flatMap sets
    let score ← expScores nn (1 / (median : ℝ))
    return { sets := sets, isIssue := fun i => decide (i ∈ all), score := score, median := median }

end Cleanlab.Duplicate
