import Verif.Model.Regression
import Mathlib.Analysis.SpecialFunctions.Pow.Real

/-!
# Model of `cleanlab/regression/learn.py`: the state of a `CleanLearning` object, `fit` and the uncertainties

Each method takes the attributes of the object and returns them together with a result or an exception; attributes
assigned before an exception stay assigned. Labels are rational numbers, so values that are missing or not numbers
(which are refused) do not occur, and features and labels have the same length.
-/

namespace Cleanlab.RegressionFit

open Np Cleanlab.Regression

variable {n : ℕ} {κ : Type}

/-! ## Uncertainties -/

/-- `np.var`; the variance of no values is not used. -/
def variance (l : List ℚ) : ℚ :=
  let mean := l.sum / (l.length : ℚ)
  (l.map (fun x => (x - mean) ^ 2)).sum / (l.length : ℚ)

/-- `np.sqrt(np.var(...))`. -/
noncomputable def spread (l : List ℚ) : ℝ := Real.sqrt ((variance l : ℚ) : ℝ)

/-- What surrounds the calls on one data set: the wrapped model trained on given targets with given keyword arguments
(`κ`), the settings of the object, `learn.py:127-164`, and the folds of each cross-validation. -/
structure Env (n : ℕ) (κ : Type) where
  /-- The wrapped model, given the targets and the keyword arguments. -/
  fit : (Fin n → ℚ) → κ → Fit n
  /-- `{}`. -/
  noKwargs : κ
  /-- `self.cv_n_folds`. -/
  folds : ℕ
  /-- `self.n_boot`. -/
  nBoot : ℕ
  /-- `self.include_aleatoric_uncertainty`. -/
  aleatoric : Bool
  /-- The fold of each position in the initial cross-validation. -/
  assignInitial : ℕ → ℕ
  /-- In the final cross-validation. -/
  assignFinal : ℕ → ℕ
  /-- In the `t`-th cross-validation of the search. -/
  assignSearch : ℕ → ℕ → ℕ
  /-- In the `t`-th cross-validation of the epistemic uncertainty. -/
  assignBoot : ℕ → ℕ → ℕ
  /-- In the cross-validation of the aleatoric uncertainty. -/
  assignResidual : ℕ → ℕ
  /-- `r2_score(y, predictions)`. -/
  r2 : (Fin n → ℚ) → (Fin n → ℚ) → ℚ

/-- `assert_valid_regression_inputs`, `regression_utils.py:50-70` and `73-107`: the array is squeezed, so a single label is
not one-dimensional. -/
def validate (n : ℕ) : Except String Unit :=
  if n = 0 then .error "y cannot be empty array."
  else if n = 1 then .error "Expected 1-Dimensional inputs for y, got 0 dimensions."
  else .ok ()

/-- The predictions of the repeated cross-validations, `learn.py:568-570`: two folds, and without the keyword arguments. -/
def bootPredictions (E : Env n κ) (y : Fin n → ℚ) : Except String (List (Fin n → ℚ)) :=
  (List.range E.nBoot).mapM (fun t => cvPredictions (E.fit y E.noKwargs) (E.assignBoot t) (List.finRange n) 0 2)

/-- `get_epistemic_uncertainty`, `learn.py:537-579`. -/
noncomputable def epistemicUncertainty (E : Env n κ) (y : Fin n → ℚ) (predictions : Option (Fin n → ℚ)) :
    Except String (Fin n → ℝ) := do
  validate n
  if E.nBoot = 0 then return fun _ => 0
  let boots ← bootPredictions E y
  return fun i => spread ((boots ++ predictions.toList).map (fun p => p i))

/-- `get_aleatoric_uncertainty`, `learn.py:581-606`. -/
noncomputable def aleatoricUncertainty (E : Env n κ) (residual : Fin n → ℚ) : Except String ℝ := do
  validate n
  let p ← cvPredictions (E.fit residual E.noKwargs) E.assignResidual (List.finRange n) 0 E.folds
  return spread ((List.finRange n).map p)

/-- The argument `uncertainty` of `find_label_issues`. -/
inductive Uncertainty
  | estimate
  | number (u : ℝ)
  | array (u : List ℝ)

/-- `learn.py:464-475`. -/
noncomputable def resolveUncertainty (E : Env n κ) (y predictions : Fin n → ℚ) : Uncertainty → Except String (Fin n → ℝ)
  | .estimate => do
    let e ← epistemicUncertainty E y (some predictions)
    let a ← if E.aleatoric then aleatoricUncertainty E (fun i => predictions i - y i) else .ok 0
    return fun i => e i + a
  | .number u => .ok (fun _ => u)
  | .array u =>
    if h : u.length = n then .ok (fun i => u[i.val])
    else .error "If uncertainty is passed in as an array, it must have the same length as y."

/-! ## The state of the object -/

/-- The column `is_label_issue` of a data frame: its type matters. -/
inductive Column
  | bools (l : List Bool)
  | ints (l : List ℤ)
  /-- another type, with its length -/
  | other (len : ℕ)
deriving DecidableEq

/-- The length of a column. -/
def Column.length : Column → ℕ
  | .bools l => l.length
  | .ints l => l.length
  | .other len => len

/-- A data frame of label issues: `is_label_issue` (always present here), `label_quality`, `given_label` and
`predicted_label`. -/
structure Table where
  isIssue : Column
  quality : Option (List ℝ) := none
  given : Option (List ℚ) := none
  predicted : Option (List ℚ) := none

/-- The attributes that calls change, `learn.py:162-164`; `label_issues_mask` is always the column `is_label_issue` of
`label_issues_df`. -/
structure Obj where
  table : Option Table := none
  k : Option ℚ := none

/-- Arguments of `find_label_issues`, `learn.py:362-372`. -/
structure FindCall (n : ℕ) (κ : Type) where
  y : Fin n → ℚ
  /-- `y.dtype == int` -/
  integer : Bool := false
  uncertainty : Uncertainty := .estimate
  coarse : List ℚ := [1/100, 5/100, 1/10, 15/100, 2/10]
  size : ℕ := 3
  saveSpace : Bool := false
  kwargs : κ

/-- The cross-validations of the search, `learn.py:753-758, 772-777, 819-824`: without the keyword arguments. -/
def searchCv (E : Env n κ) (y : Fin n → ℚ) (sortedIndex : List (Fin n)) (t : ℕ) (k : ℚ) : Except String (Fin n → ℚ) :=
  cvPredictions (E.fit y E.noKwargs) (E.assignSearch t) sortedIndex k E.folds

/-- The fraction and the order of the examples, `learn.py:440-457`. -/
def chooseFraction (B : ArgSort ℚ) (E : Env n κ) (c : FindCall n κ) : Except String (ℚ × List (Fin n)) := do
  validate n
  let initial ← cvPredictions (E.fit c.y c.kwargs) E.assignInitial (List.finRange n) 0 E.folds
  let sortedIndex := B.indices (fun i => |initial i - c.y i|)
  let kr ← findBestK E.folds (searchCv E c.y sortedIndex) (E.r2 c.y) c.coarse c.size
  return (if kr.2 ≤ E.r2 c.y initial then 0 else kr.1, sortedIndex)

/-- The table for a given fraction, `learn.py:459-503`. -/
noncomputable def issueTable (A : ArgSort ℝ) (E : Env n κ) (c : FindCall n κ) (k : ℚ) (sortedIndex : List (Fin n)) :
    Except String Table := do
  let predictions ← cvPredictions (E.fit c.y c.kwargs) E.assignFinal sortedIndex k E.folds
  let u ← resolveUncertainty E c.y predictions c.uncertainty
  match qualityScores A (fun i => ((predictions i - c.y i : ℚ) : ℝ)) u with
  | none => .error "no examples"
  | some scores =>
    return { isIssue := .bools (List.ofFn (flag A scores k))
             quality := some (List.ofFn scores)
             given := some (List.ofFn c.y)
             predicted := some (List.ofFn (fun i =>
               if c.integer then ((trunc (predictions i) : ℤ) : ℚ) else predictions i)) }

/-- `find_label_issues`, `learn.py:362-517`: `self.k` is assigned before the table is
computed. -/
noncomputable def find (B : ArgSort ℚ) (A : ArgSort ℝ) (E : Env n κ) (o : Obj) (c : FindCall n κ) :
    Obj × Except String Table :=
  match chooseFraction B E c with
  | .error e => (o, .error e)
  | .ok (k, sortedIndex) =>
    let o := { o with k := some k }
    match issueTable A E c k sortedIndex with
    | .error e => (o, .error e)
    | .ok t => (if c.saveSpace then o else { o with table := some t }, .ok t)

/-- `save_space`, `learn.py:608-620`. -/
def saveSpace (_ : Obj) : Obj := {}

/-- `get_label_issues`, `learn.py:519-535`. -/
def getLabelIssues (o : Obj) : Option Table := o.table

/-! ## `fit` -/

/-- How the features are stored. -/
inductive Features | array | frame
deriving DecidableEq

/-- How the labels are stored: an array of shape `(n,)` or `(n, 1)`, a list, or a series. -/
inductive Labels | array | column | list | series
deriving DecidableEq

/-- The argument `label_issues` of `fit`. -/
inductive Arg
  /-- a data frame with column `is_label_issue` -/
  | table (t : Table)
  /-- a data frame without that column -/
  | noColumn
  /-- an array or series of booleans -/
  | mask (l : List Bool)
  /-- an array or series of another type -/
  | notBool
  | other

/-- `np.any(label_issues["given_label"].to_numpy() != y)`: with labels of shape `(n, 1)` the comparison is broadcast to all
pairs. -/
def labelsDiffer (kind : Labels) (y : Fin n → ℚ) (given : List ℚ) : Bool :=
  if kind = .column then given.any (fun g => (List.ofFn y).any (fun v => decide (g ≠ v)))
  else decide (given ≠ List.ofFn y)

/-- `_process_label_issues_arg`, `learn.py:837-871`. -/
def processArg (kind : Labels) (y : Fin n → ℚ) : Arg → Except String Table
  | .noColumn => .error "DataFrame label_issues must contain column: 'is_label_issue'."
  | .table t =>
    if t.isIssue.length ≠ n then .error "label_issues and labels must have same length"
    else if t.given.any (labelsDiffer kind y) then .error "labels must match label_issues['given_label']"
    else .ok t
  | .notBool => .error "If label_issues is numpy.array, dtype must be 'bool'."
  | .mask l =>
    if l.length ≠ n ∨ kind = .column then .error "label_issues must have same shape as labels"
    else .ok { isIssue := .bools l, given := some (List.ofFn y) }
  | .other => .error "label_issues must be either pandas.DataFrame, pandas.Series or numpy.ndarray"

/-- The array `np.invert(self.label_issues_mask)` used as an index, `learn.py:285`. -/
inductive Index
  | mask (l : List Bool)
  | positions (l : List ℤ)

/-- `np.invert`, `learn.py:285`: for integers this is `-x - 1`. -/
def invert : Column → Except String Index
  | .bools l => .ok (.mask (l.map (fun b => !b)))
  | .ints l => .ok (.positions (l.map (fun x => -x - 1)))
  | .other _ => .error "ufunc 'invert' not supported for the input types"

/-- `mask[idx]` is true: the comprehension over the entries, `util.py:450`. -/
def truthy : Index → ℕ → Bool
  | .mask l, i => l[i]? == some true
  | .positions l, i => l[i]?.any (fun x => decide (x ≠ 0))

/-- An entry of an array of length `n` by a position that may be negative. -/
def position (n : ℕ) (z : ℤ) : Except String (Fin n) :=
  if h : 0 ≤ z ∧ z < n then .ok ⟨z.toNat, by omega⟩
  else if h : -(n : ℤ) ≤ z ∧ z < 0 then .ok ⟨(z + n).toNat, by omega⟩
  else .error "index is out of bounds"

/-- `array[index]`: the rows it contains. -/
def takeArray (n : ℕ) : Index → Except String (List (Fin n))
  | .mask l => .ok ((List.finRange n).filter (fun i => l[i.val]? == some true))
  | .positions l => l.mapM (position n)

/-- `subset_labels`, `util.py:444-452`: what cannot be indexed is filtered entry by entry. Integer positions are looked up
among the labels of the index of a series; negative ones are not there. -/
def subsetLabels (kind : Labels) (n : ℕ) (m : Index) : List (Fin n) :=
  let filtered := (List.finRange n).filter (fun i => truthy m i.val)
  match kind, m with
  | .list, _ => filtered
  | .series, .positions _ => filtered
  | _, m => match takeArray n m with
    | .ok l => l
    | .error _ => filtered

/-- `subset_data`, `util.py:455-468`: a data frame is not indexed by positions. -/
def subsetData (kind : Features) (n : ℕ) (m : Index) : Except String (List (Fin n)) :=
  match kind, m with
  | .frame, .positions _ => .error "Data features X must be subsettable with boolean mask array: X[mask]"
  | _, m => match takeArray n m with
    | .ok l => .ok l
    | .error _ => .error "Data features X must be subsettable with boolean mask array: X[mask]"

/-- Arguments of `fit`, `learn.py:166-176`: those of `find_label_issues` are in `toFindCall`. -/
structure FitCall (n : ℕ) (κ : Type) extends FindCall n κ where
  features : Features := .array
  labels : Labels := .array
  labelIssues : Option Arg := none
  /-- an array of weights -/
  weights : Option (List ℚ) := none
  /-- `"sample_weight" in model_kwargs or "sample_weight" in model_final_kwargs` -/
  weightInKwargs : Bool := false
  /-- `"sample_weight" in inspect.signature(self.model.fit).parameters` -/
  takesWeight : Bool := true

/-- What is passed to `self.model.fit`: the rows of the features, the rows of the labels, and the weights. -/
structure Training (n : ℕ) where
  rows : List (Fin n)
  labels : List (Fin n)
  weights : Option (List ℚ)
deriving DecidableEq

/-- The checks of the weights, `learn.py:247-258`. -/
def checkWeights (c : FitCall n κ) : Except String Unit :=
  if c.weightInKwargs then .error "sample_weight should be provided directly in fit()"
  else match c.weights with
    | none => .ok ()
    | some w =>
      if ¬ c.takesWeight then .error "sample_weight must be a supported fit() argument for your model"
      else if w.length ≠ n then .error "sample_weight must be a 1D array that has the same length as y."
      else .ok ()

/-- `sample_weight[X_mask]`, `learn.py:292`. -/
def subsetWeights (n : ℕ) (m : Index) (w : List ℚ) : Except String (List ℚ) := do
  let rows ← takeArray n m
  rows.mapM (fun i => match w[i.val]? with
    | some x => .ok x
    | none => .error "index is out of bounds")

/-- The final training once the table is stored, `learn.py:285-299`. -/
def finalTraining (c : FitCall n κ) (t : Table) : Except String (Training n) := do
  let m ← invert t.isIssue
  let rows ← subsetData c.features n m
  match c.weights with
  | none => return ⟨rows, subsetLabels c.labels n m, none⟩
  | some w =>
    let w ← subsetWeights n m w
    return ⟨rows, subsetLabels c.labels n m, some w⟩

/-- `fit` once the label issues are there, `learn.py:282-299`. -/
def finish (o : Obj) (c : FitCall n κ) (arg : Arg) : Obj × Except String (Training n) :=
  match processArg c.labels c.y arg with
  | .error e => (o, .error e)
  | .ok t => ({ o with table := some t }, finalTraining c t)

/-- `fit`, `learn.py:166-306`. -/
noncomputable def fit (B : ArgSort ℚ) (A : ArgSort ℝ) (E : Env n κ) (o : Obj) (c : FitCall n κ) :
    Obj × Except String (Training n) :=
  match (do validate n; checkWeights c) with
  | .error e => (o, .error e)
  | .ok () =>
    match c.labelIssues with
    | some arg => finish o c arg
    | none =>
      match find B A E o c.toFindCall with
      | (o, .error e) => (o, .error e)
      | (o, .ok t) => finish o c (.table t)

/-! ## Histories -/

/-- A call on the object, on a data set with its surroundings. -/
inductive Event (κ : Type)
  | find (n : ℕ) (E : Env n κ) (c : FindCall n κ)
  | fit (n : ℕ) (E : Env n κ) (c : FitCall n κ)
  | saveSpace

/-- The attributes after a call, whether it raises or not. -/
noncomputable def step (B : ArgSort ℚ) (A : ArgSort ℝ) (o : Obj) : Event κ → Obj
  | .find _ E c => (find B A E o c).1
  | .fit _ E c => (fit B A E o c).1
  | .saveSpace => saveSpace o

/-- The attributes after a history of calls on a new object. -/
noncomputable def after (B : ArgSort ℚ) (A : ArgSort ℝ) (events : List (Event κ)) : Obj :=
  events.foldl (step B A) {}

/-! ## Random numbers

The folds are drawn with `KFold(shuffle=True, random_state=None)` from the global random state of NumPy, which
`CleanLearning(seed=...)` sets once, when the object is made (`learn.py:148-149`); `self.seed` is not used afterwards. -/

/-- The global random state: the state after `np.random.seed(s)`, and for a data set and arguments the surroundings of a
call that begins in a state (its folds; the wrapped model may also draw from it), and the state after it. -/
structure Random (G : Type) (n : ℕ) (κ : Type) where
  seeded : ℕ → G
  env : G → Env n κ
  next : G → FindCall n κ → G

/-- A program that makes objects and calls `find_label_issues` on them; `other` stands for any other use of the global
random state. -/
inductive Command (G : Type) (n : ℕ) (κ : Type)
  | make (seed : Option ℕ)
  | find (object : ℕ) (c : FindCall n κ)
  | other (f : G → G)

/-- The global state, the objects made so far in order, and the results obtained so far. -/
structure World (G : Type) where
  rng : G
  objects : List Obj
  results : List (Except String Table)

/-- One command of the program. -/
noncomputable def World.exec (B : ArgSort ℚ) (A : ArgSort ℝ) {G : Type} (R : Random G n κ) (w : World G) :
    Command G n κ → World G
  | .make none => { w with objects := w.objects ++ [{}] }
  | .make (some s) => { w with rng := R.seeded s, objects := w.objects ++ [{}] }
  | .other f => { w with rng := f w.rng }
  | .find j c =>
    match w.objects[j]? with
    | none => w
    | some o =>
      let r := RegressionFit.find B A (R.env w.rng) o c
      { rng := R.next w.rng c, objects := w.objects.set j r.1, results := w.results ++ [r.2] }

end Cleanlab.RegressionFit
