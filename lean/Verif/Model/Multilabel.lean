import Verif.Np.Collect
import Verif.Model.FilterChecked
import Mathlib.Analysis.SpecialFunctions.Exp

/-!
# Model of the multi-label code

`cleanlab/internal/multilabel_utils.py`, `cleanlab/internal/multilabel_scorer.py`,
`cleanlab/multilabel_classification/filter.py` and `_find_label_issues_multilabel` of `cleanlab/filter.py`.
One-hot labels are `y : Fin n → Fin K → Bool`.
-/

namespace Cleanlab.Multilabel

open Np Cleanlab.Util Cleanlab.Count Cleanlab.Rank Cleanlab.Filter

variable {n K : ℕ} {F : Type} [Field F] [LinearOrder F]

/-- `int2onehot`, `internal/multilabel_utils.py:57-72`. `MultiLabelBinarizer(classes=range(K))` ignores (with a
warning) labels outside `range(K)`. -/
def int2onehot (labels : List (List ℕ)) (K : ℕ) : List (Fin K → Bool) :=
  labels.map (fun row k => decide (k.val ∈ row))

/-- `onehot2int`, `internal/multilabel_utils.py:75-90`. -/
def onehot2int (y : List (Fin K → Bool)) : List (List ℕ) :=
  y.map (fun row => ((List.finRange K).filter row).map Fin.val)

/-- The one-vs-rest labels of class `k`: a column of the one-hot matrix. -/
def binaryLabels (y : Fin n → Fin K → Bool) (k : Fin K) (i : Fin n) : Fin 2 := if y i k then 1 else 0

/-- `stack_complement`, `internal/multilabel_utils.py:22-40`, applied to column `k`. -/
def stackComplement (P : Fin n → Fin K → F) (k : Fin K) (i : Fin n) : Fin 2 → F := ![1 - P i k, P i k]

/-- A row sorted in decreasing order, `np.fliplr(np.sort(s))`, `internal/multilabel_scorer.py:193`. -/
def sortDesc (s : Fin K → F) : List F := (List.ofFn s).insertionSort (· ≥ ·)

/-- `exponential_moving_average` of one row, `internal/multilabel_scorer.py:134-203`. A row without classes
raises `IndexError`. -/
def ema (alpha : Option F) (s : Fin K → F) : Except String F :=
  let a := match alpha with
    | none => 2 / ((K : F) + 1)
    | some a => a
  if 0 ≤ a ∧ a ≤ 1 then
    match sortDesc s with
    | [] => .error "index 0 is out of bounds"
    | x :: xs => .ok (xs.foldl (fun acc si => a * si + (1 - a) * acc) x)
  else .error "alpha must be in the interval [0, 1]"

/-- `softmax(..., shift=True)` on one row, `internal/numerics.py:7-39`; `EPSILON = 1e-6`. -/
noncomputable def softmax [NeZero K] (x : Fin K → ℝ) (temperature : ℝ) (k : Fin K) : ℝ :=
  let x' := fun k => x k / max temperature (1 / 1000000)
  let e := fun k => Real.exp (x' k - x' (argmax x'))
  e k / ∑ j, e j

/-- `softmin` of one row, `internal/multilabel_scorer.py:206-233`. -/
noncomputable def softmin [NeZero K] (s : Fin K → ℝ) (temperature : ℝ) : ℝ :=
  ∑ k, s k * softmax (fun k => 1 - s k) temperature k

/-- `_is_multilabel`, `internal/multilabel_utils.py:12-19`, on a 0/1 matrix. -/
def isMultilabel (y : Fin n → Fin K → Bool) : Bool :=
  decide (1 < K ∧ (∃ i k, y i k = true) ∧ ∃ i k, y i k = false)

/-- `MultilabelScorer.get_class_label_quality_scores`, `internal/multilabel_scorer.py:444-488`: column by column,
with the base scorer `base` for binary problems. -/
def classScores (base : (Fin n → Fin 2) → (Fin n → Fin 2 → F) → Except String (Fin n → F))
    (y : Fin n → Fin K → Bool) (P : Fin n → Fin K → F) : Except String (Fin K → Fin n → F) :=
  collect (fun k => base (binaryLabels y k) (stackComplement P k))

/-- `MultilabelScorer.__call__` with `strict=True` and the default aggregator (EMA with `alpha = 0.8`),
`internal/multilabel_scorer.py:342-398`. -/
def scorer (base : (Fin n → Fin 2) → (Fin n → Fin 2 → F) → Except String (Fin n → F))
    (y : Fin n → Fin K → Bool) (P : Fin n → Fin K → F) : Except String (Fin n → F) :=
  if isMultilabel y then do
    let s ← classScores base y P
    collect (fun i => ema (some (4 / 5)) (fun k => s k i))
  else .error "Labels must be in multi-label format."

/-- The arguments of the multi-label `find_label_issues`. -/
structure MLArgs (K : ℕ) where
  filterBy : FilterBy
  fracNoise : ℚ := 1
  numToRemove : Option (Fin K → ℤ) := none
  minExamples : ℕ := 1
  confidentJoint : Option (Fin K → Fin 2 → Fin 2 → ℚ) := none
  /-- what `astype(int)` makes of `nan` -/
  nanInt : ℤ := -2 ^ 63

/-- The arguments passed on for class `k`, `multilabel_classification/filter.py:272-292`. -/
def MLArgs.binary (args : MLArgs K) (k : Fin K) : Args 2 where
  filterBy := args.filterBy
  fracNoise := args.fracNoise
  numToRemove := args.numToRemove.map (fun num => ![num k, 0])
  minExamples := args.minExamples
  confidentJoint := args.confidentJoint.map (fun cj => cj k)
  nanInt := args.nanInt

/-- `find_multilabel_issues_per_class` returning masks, `multilabel_classification/filter.py:156-303`. -/
def issuesPerClass (A : ArgSort ℚ) (y : Fin n → Fin K → Bool) (P : Fin n → Fin K → ℚ) (args : MLArgs K) :
    Except String (Fin K → Fin n → Bool) :=
  collect (fun k => findChecked A (binaryLabels y k) (stackComplement P k) (args.binary k))

/-- `find_multilabel_issues_per_class(..., return_indices_ranked_by=...)`: one index list per class. -/
def issuesPerClassRanked (A A' : ArgSort ℚ)
    (base : (Fin n → Fin 2) → (Fin n → Fin 2 → ℚ) → Except String (Fin n → ℚ))
    (y : Fin n → Fin K → Bool) (P : Fin n → Fin K → ℚ) (args : MLArgs K) : Except String (Fin K → List (Fin n)) :=
  collect (fun k => do
    let s ← base (binaryLabels y k) (stackComplement P k)
    findRankedChecked A A' (binaryLabels y k) (stackComplement P k) (args.binary k) s)

/-- The mask from the union over classes, `filter.py:506-522`. -/
def unionMask (A : ArgSort ℚ) (y : Fin n → Fin K → Bool) (P : Fin n → Fin K → ℚ) (args : MLArgs K) :
    Except String (Fin n → Bool) := do
  let per ← issuesPerClass A y P args
  return fun i => decide (1 ≤ (List.finRange K).countP (fun k => per k i))

/-- The number of issues of the `low_*` filters, `filter.py:472-481`. -/
def numErrors (A : ArgSort ℚ) (y : Fin n → Fin K → Bool) (P : Fin n → Fin K → ℚ) (args : MLArgs K) :
    Except String ℕ := do
  let mask ← unionMask A y P { filterBy := .confidentLearning, confidentJoint := args.confidentJoint }
  return (List.finRange n).countP mask

/-- The default base scorer, self confidence. -/
def selfConf (labels : Fin n → Fin 2) (P : Fin n → Fin 2 → F) : Except String (Fin n → F) :=
  labelQualityScores .selfConfidence labels P

/-- `cl_error_indices` of the `low_*` filters, `filter.py:483-489`. -/
def lowIndices (A A' : ArgSort ℚ) (y : Fin n → Fin K → Bool) (P : Fin n → Fin K → ℚ) (args : MLArgs K) :
    Except String (List (Fin n)) := do
  let num ← numErrors A y P args
  let scores ← scorer selfConf y P
  return (A'.indices scores).take num

/-- Whether the special branch for `low_*` filters is taken, `filter.py:472`. -/
def isLow (args : MLArgs K) : Bool :=
  decide (args.filterBy ∈ [FilterBy.lowNormalizedMargin, .lowSelfConfidence])

/-- `_find_label_issues_multilabel` returning a mask, `filter.py:453-522`, without `low_memory`. -/
def multilabelIssues (A A' : ArgSort ℚ) (y : Fin n → Fin K → Bool) (P : Fin n → Fin K → ℚ) (args : MLArgs K) :
    Except String (Fin n → Bool) :=
  if isLow args then do
    let idx ← lowIndices A A' y P args
    return fun i => decide (i ∈ idx)
  else unionMask A y P args

/-- The ranked output of the `low_*` filters, `filter.py:489-502`. The scores of the flagged examples are computed
in the order of their index, but their sorting permutation is applied to `cl_error_indices`, which is in the order
of the scores of line 484. (numpy raises `IndexError` if the permutation does not fit, it always fits here.) -/
def lowRanked (A A' : ArgSort ℚ)
    (base : (m : ℕ) → (Fin m → Fin 2) → (Fin m → Fin 2 → ℚ) → Except String (Fin m → ℚ))
    (y : Fin n → Fin K → Bool) (P : Fin n → Fin K → ℚ) (args : MLArgs K) : Except String (List (Fin n)) := do
  let idx ← lowIndices A A' y P args
  let sel := (List.finRange n).filter (fun i => decide (i ∈ idx))
  let s ← scorer (base sel.length) (fun r => y (sel.get r)) (fun r => P (sel.get r))
  match ((A'.indices s).map (fun r => idx[r.val]?)).mapM id with
  | some l => .ok l
  | none => .error "index out of bounds"

/-- The ranked output in all other cases, `filter.py:523-536`. -/
def unionRanked (A A' : ArgSort ℚ)
    (base : (m : ℕ) → (Fin m → Fin 2) → (Fin m → Fin 2 → ℚ) → Except String (Fin m → ℚ))
    (y : Fin n → Fin K → Bool) (P : Fin n → Fin K → ℚ) (args : MLArgs K) : Except String (List (Fin n)) := do
  let lists ← issuesPerClassRanked A A' (base n) y P args
  let idx := (List.finRange n).filter (fun i => decide (∃ k, i ∈ lists k))
  let s ← scorer (base n) y P
  return (A'.indices (fun r => s (idx.get r))).map idx.get

/-- `_find_label_issues_multilabel(..., return_indices_ranked_by=...)`, `filter.py:453-536`. -/
def multilabelIssuesRanked (A A' : ArgSort ℚ)
    (base : (m : ℕ) → (Fin m → Fin 2) → (Fin m → Fin 2 → ℚ) → Except String (Fin m → ℚ))
    (y : Fin n → Fin K → Bool) (P : Fin n → Fin K → ℚ) (args : MLArgs K) : Except String (List (Fin n)) :=
  if isLow args then lowRanked A A' base y P args else unionRanked A A' base y P args

end Cleanlab.Multilabel
