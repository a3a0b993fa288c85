import Verif.Model.Token

/-!
# Model of `common_label_issues` in `cleanlab/token_classification/summary.py`
-/

namespace Cleanlab.Token

open Np

variable {K : ℕ}

/-- A dictionary with the keys in order of insertion. -/
structure Counts (ι : Type) where
  words : List String := []
  count : String → ι → ℕ

/-- `count[word][...] += 1` after creating the entry if needed; `skip` for an excluded swap. -/
def Counts.add {ι : Type} [DecidableEq ι] (c : Counts ι) (word : String) (i : ι) (skip : Bool) : Counts ι :=
  let c := if word ∈ c.words then c else { words := c.words ++ [word], count := Function.update c.count word (fun _ => 0) }
  if skip then c else { c with count := Function.update c.count word (Function.update (c.count word) i (c.count word i + 1)) }

/-- The empty dictionary. -/
def Counts.empty {ι : Type} : Counts ι := { count := fun _ _ => 0 }

/-- `common_label_issues` without labels or predictions, `token_classification/summary.py:221-241`. -/
def commonTokens (A : ArgSort ℤ) (issues : List (ℕ × ℕ)) (tokens : List (List String)) :
    Except String (List (String × ℕ)) := do
  let words ← issues.mapM (get2 tokens)
  let c := words.foldl (fun c w => c.add w () false) Counts.empty
  return sortOn A (fun r => -(r.2 : ℤ)) (c.words.map (fun w => (w, c.count w ())))

/-- The word, the given and the predicted class of an issue, `token_classification/summary.py:250-254`. -/
def fetch [NeZero K] (tokens : List (List String)) (labels : List (List (Fin K))) (probs : List (List (Fin K → ℚ)))
    (p : ℕ × ℕ) : Except String (String × Fin K × Fin K) := do
  let word ← get2 tokens p
  let label ← get2 labels p
  let pred ← get2 probs p
  return (word, label, argmax pred)

/-- `common_label_issues` with labels and predictions, `token_classification/summary.py:243-299`, with class indices. -/
def commonSwaps (A : ArgSort ℤ) [NeZero K] (issues : List (ℕ × ℕ)) (tokens : List (List String))
    (labels : List (List (Fin K))) (probs : List (List (Fin K → ℚ))) (exclude : List (Fin K × Fin K)) :
    Except String (List (String × Fin K × Fin K × ℕ)) := do
  let found ← issues.mapM (fetch tokens labels probs)
  let c := found.foldl (fun c f => c.add f.1 f.2 (decide (f.2 ∈ exclude))) Counts.empty
  return sortOn A (fun r => -(r.2.2.2 : ℤ)) (c.words.flatMap (fun w => (List.finRange K).flatMap (fun i =>
    (List.finRange K).filterMap (fun j => if c.count w (i, j) > 0 then some (w, i, j, c.count w (i, j)) else none))))

end Cleanlab.Token
