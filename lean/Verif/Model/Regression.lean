import Verif.Np.Collect
import Verif.Np.Median
import Mathlib.Data.List.MinMax
import Mathlib.Analysis.SpecialFunctions.Exp

/-!
# Model of `cleanlab/regression/learn.py`

The wrapped regressor, the random folds and the `r2` score are parameters.
-/

namespace Cleanlab.Regression

open Np

variable {n : ℕ}

/-! ## Cross-validated predictions -/

/-- The wrapped model: which fold it was trained for, the indices of its training examples, and its prediction for an
example. -/
abbrev Fit (n : ℕ) := ℕ → List (Fin n) → Fin n → ℚ

/-- The entries of a list at the positions with a given property (`in_sample_idx[cv_train_idx]`). -/
def pick {α : Type} (l : List α) (p : ℕ → Bool) : List α := (l.zipIdx.filter (fun e => p e.2)).map (·.1)

/-- The loop over the folds, `learn.py:693-720`: `assign` is the fold of each position (`KFold` with shuffling is an
arbitrary assignment). The predictions for the held-out examples are written into the array. -/
def cvLoop (fit : Fit n) (assign : ℕ → ℕ) (inSample : List (Fin n)) (folds : ℕ) : Fin n → ℚ :=
  (List.range folds).foldl
    (fun preds j =>
      let train := pick inSample (fun p => assign p ≠ j)
      let holdout := pick inSample (fun p => assign p = j)
      fun i => if i ∈ holdout then fit j train i else preds i)
    (fun _ => 0)

/-- `_get_cv_predictions`, `learn.py:625-726`, with `sorted_index` given. -/
def cvPredictions (fit : Fit n) (assign : ℕ → ℕ) (sortedIndex : List (Fin n)) (k : ℚ) (folds : ℕ) :
    Except String (Fin n → ℚ) :=
  if k < 0 ∨ 1 < k then .error "k must be a value between 0 and 1"
  else
    let numDrop := ⌈(sortedIndex.length : ℚ) * k⌉.toNat
    let inSample := sortedIndex.take (sortedIndex.length - numDrop)
    let outSample := sortedIndex.drop (sortedIndex.length - numDrop)
    if inSample.length < folds then .error "There are too few examples to conduct cross validation"
    else
      let preds := cvLoop fit assign inSample folds
      .ok (fun i =>
        if i ∈ outSample then
          ((List.range folds).map (fun j => fit j (pick inSample (fun p => assign p ≠ j)) i)).sum / (folds : ℚ)
        else preds i)

/-! ## Searching the fraction to remove -/

/-- The value given to a candidate with too few examples left. -/
def tooFew : ℚ := -10 ^ 30

/-- One candidate of the search, `learn.py:766-778` and `813-825`: `cv t k` are the predictions of the `t`-th
cross-validation, made with fraction `k` removed. -/
def candidate (folds : ℕ) (cv : ℕ → ℚ → Except String (Fin n → ℚ)) (r2 : (Fin n → ℚ) → ℚ) (t : ℕ) (k : ℚ) :
    Except String ℚ :=
  if ⌊(n : ℚ) * (1 - k)⌋ < folds then .ok tooFew else (cv t k).map r2

/-- `np.linspace(a, b, size + 1, endpoint=False)[1:]`. -/
def linspaceTail (a b : ℚ) (size : ℕ) : List ℚ :=
  (List.range size).map (fun j : ℕ => a + (b - a) * ((j : ℚ) + 1) / ((size : ℚ) + 1))

/-- `fine_search_range`, `learn.py:789-809`. -/
def fineRange (ks : List ℚ) (i : Fin ks.length) (size : ℕ) : List ℚ :=
  (if h : 0 < i.val then linspaceTail ks[i.val - 1] ks[i.val] size else []) ++
  (if h : i.val + 1 < ks.length then linspaceTail ks[i.val] ks[i.val + 1] size else [])

/-- `_find_best_k`, `learn.py:728-835`, for a search range with at least two values, after sorting it. -/
def searchSorted (folds : ℕ) (cv : ℕ → ℚ → Except String (Fin n → ℚ)) (r2 : (Fin n → ℚ) → ℚ) (ks : List ℚ)
    [NeZero ks.length] (size : ℕ) : Except String (ℚ × ℚ) := do
  let coarse ← collect (fun i : Fin ks.length => candidate folds cv r2 i.val ks[i.val])
  let best := argmax coarse
  if size = 0 then return (ks[best.val], coarse best)
  let fine ← (fineRange ks best size).zipIdx.mapM
    (fun e => (candidate folds cv r2 (ks.length + e.2) e.1).map (fun r => (e.1, r)))
  match fine.argmax (·.2) with
  | none => .error "max() arg is an empty sequence"
  | some (k, r) => if r < coarse best then return (ks[best.val], coarse best) else return (k, r)

/-- `_find_best_k`, `learn.py:728-835` (`fine_search_size` is a natural number here; a negative one raises). -/
def findBestK (folds : ℕ) (cv : ℕ → ℚ → Except String (Fin n → ℚ)) (r2 : (Fin n → ℚ) → ℚ) (coarse : List ℚ)
    (size : ℕ) : Except String (ℚ × ℚ) :=
  match coarse.insertionSort (· ≤ ·) with
  | [] => .error "coarse_search_range must have at least 1 value of k"
  | [k] =>
    if ⌊(n : ℚ) * (1 - k)⌋ < folds then .error "There are too few examples to conduct cross validation"
    else (cv 0 k).map (fun p => (k, r2 p))
  | k :: k' :: rest => searchSorted folds cv r2 (k :: k' :: rest) size

/-! ## Flagging -/

/-- `TINY_VALUE`, `constants.py:6`. -/
noncomputable def tiny : ℝ := 1 / 10 ^ 100

/-- `residual_adjusted`, `learn.py:477`. -/
noncomputable def adjusted (residual uncertainty : Fin n → ℝ) (i : Fin n) : ℝ :=
  |residual i / (uncertainty i + tiny)|

/-- `label_quality_scores`, `learn.py:479-483`; with no examples there is nothing to score. -/
noncomputable def qualityScores (A : ArgSort ℝ) (residual uncertainty : Fin n → ℝ) : Option (Fin n → ℝ) :=
  (npMedian A ((List.finRange n).map (adjusted residual uncertainty))).map
    (fun med => fun i => Real.exp (-adjusted residual uncertainty i / max med tiny))

/-- The mask, `learn.py:485-488`. -/
noncomputable def flag (A : ArgSort ℝ) (scores : Fin n → ℝ) (k : ℚ) (i : Fin n) : Bool :=
  i ∈ (A.indices scores).take ⌈(n : ℚ) * k⌉.toNat

/-- What surrounds a call: the wrapped model under given keyword arguments (`κ`), the folds of each cross-validation,
the score and the estimated uncertainty. -/
structure Env (n : ℕ) (κ : Type) where
  /-- The wrapped model. -/
  fit : κ → Fit n
  /-- `{}`. -/
  noKwargs : κ
  /-- `self.cv_n_folds`. -/
  folds : ℕ
  /-- The fold of each position in the initial, the final, and the `t`-th cross-validation of the search. -/
  assignInitial : ℕ → ℕ
  /-- See `assignInitial`. -/
  assignFinal : ℕ → ℕ
  /-- See `assignInitial`. -/
  assignSearch : ℕ → ℕ → ℕ
  /-- `r2_score(y, ·)`. -/
  r2 : (Fin n → ℚ) → ℚ
  /-- The uncertainty, given or estimated. -/
  uncertainty : (Fin n → ℚ) → Fin n → ℝ

/-- The results of `find_label_issues`: the table and the attribute `self.k`. -/
structure Issues (n : ℕ) where
  /-- `is_label_issue`. -/
  flags : Fin n → Bool
  /-- `label_quality`. -/
  scores : Fin n → ℝ
  /-- `predicted_label`. -/
  predicted : Fin n → ℚ
  /-- `self.k`. -/
  k : ℚ

variable {κ : Type}

/-- The cross-validations of the search, `learn.py:754-759, 773-778, 820-825`: without the keyword arguments. -/
def searchCv (E : Env n κ) (sortedIndex : List (Fin n)) (t : ℕ) (k : ℚ) : Except String (Fin n → ℚ) :=
  cvPredictions (E.fit E.noKwargs) (E.assignSearch t) sortedIndex k E.folds

/-- The initial predictions, `learn.py:441`. -/
def initialPredictions (E : Env n κ) (kwargs : κ) : Except String (Fin n → ℚ) :=
  cvPredictions (E.fit kwargs) E.assignInitial (List.finRange n) 0 E.folds

/-- `find_label_issues`, `learn.py:362-517` (the integer cast of the predictions for integer `y` is left out). -/
noncomputable def findLabelIssues (B : ArgSort ℚ) (A : ArgSort ℝ) (E : Env n κ) (kwargs : κ) (y : Fin n → ℚ)
    (coarse : List ℚ) (size : ℕ) : Except String (Issues n) := do
  let initial ← initialPredictions E kwargs
  let sortedIndex := B.indices (fun i => |initial i - y i|)
  let kr ← findBestK E.folds (searchCv E sortedIndex) E.r2 coarse size
  let k := if kr.2 ≤ E.r2 initial then 0 else kr.1
  let preds ← cvPredictions (E.fit kwargs) E.assignFinal sortedIndex k E.folds
  match qualityScores A (fun i => ((preds i - y i : ℚ) : ℝ)) (E.uncertainty preds) with
  | none => .error "no examples"
  | some scores => return ⟨flag A scores k, scores, preds, k⟩

end Cleanlab.Regression
