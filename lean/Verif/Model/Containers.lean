import Verif.Model.CleanLearning

/-!
# Model of how `CleanLearning` selects rows of data sets of various types, `cleanlab/internal/util.py:402-468` and
`cleanlab/internal/validation.py:28-161`

A row is its position. Selecting rows of a data set gives the list of the positions of the selected rows.
-/

namespace Cleanlab.Containers

open Cleanlab.CleanLearning

/-- What an object that supports `X[index_list]` does with `X[mask]` for an array of booleans. -/
inductive OnMask
  /-- the rows at which the mask is true -/
  | rows
  /-- `True` and `False` are the integers 1 and 0, as in `[self.rows[i] for i in index]` -/
  | integers
  /-- raises -/
  | refuses
deriving DecidableEq

/-- The types of data sets, `classification.py:290-297`. -/
inductive Data
  | missing
  /-- arrays and sparse matrices -/
  | array
  /-- `pd.DataFrame`, `pd.Series` -/
  | frame
  | torch
  /-- a Python list of rows -/
  | list
  /-- any dataset object that supports list-based indexing -/
  | custom (m : OnMask)
deriving DecidableEq

/-- The rows at some positions; `rows` is the number of rows. -/
def lookup (rows : ℕ) (idx : List ℕ) : Except String (List ℕ) :=
  if ∀ i ∈ idx, i < rows then .ok idx else .error "index is out of bounds"

/-- `X[idx]` for a list or an array of integers. A data frame looks for columns with these names, a list cannot be indexed by
a list, and what a torch data set does is up to it (not used). -/
def Data.get (d : Data) (rows : ℕ) (idx : List ℕ) : Except String (List ℕ) :=
  match d with
  | .array | .custom _ => lookup rows idx
  | .missing => .error "'NoneType' object is not subscriptable"
  | .frame => .error "None of the indices are in the columns"
  | .torch => .error "not used"
  | .list => .error "list indices must be integers or slices, not list"

/-- `X[mask]` for an array of booleans. -/
def Data.getMask (d : Data) (rows : ℕ) (mask : List Bool) : Except String (List ℕ) :=
  let selected := (List.range mask.length).filter (fun i => mask[i]? == some true)
  match d with
  | .array | .frame | .custom .rows =>
    if mask.length = rows then .ok selected else .error "boolean index did not match indexed array"
  | .custom .integers => lookup rows (mask.map (fun b => if b then 1 else 0))
  | .custom .refuses => .error "not supported"
  | .missing => .error "'NoneType' object is not subscriptable"
  | .list => .error "list indices must be integers or slices, not numpy.ndarray"
  | .torch => .error "not used"

/-- `assert_indexing_works(X, length_X=rows)`, `validation.py:121-161`; `Subset(X, idx)` looks at nothing. -/
def indexingWorks (d : Data) (rows : ℕ) : Except String Unit :=
  let idx := [0, rows - 1]
  let frame := match d with
    | .frame => (lookup rows idx).toBool
    | _ => false
  if frame then .ok ()
  else if d = .torch then .ok ()
  else match d.get rows idx with
    | .ok _ => .ok ()
    | .error _ => .error "Data features X must support list-based indexing"

/-- The part of `assert_valid_inputs` about `X`, `validation.py:28-55`; `n` is the number of labels. -/
def checkData (d : Data) (rows n : ℕ) (hasProbs : Bool) : Except String Unit :=
  if hasProbs then .ok ()
  else if d = .missing then .error "Data features X cannot be None."
  else if rows ≠ n then .error "X and labels must be same length"
  else indexingWorks d rows

/-- The rows of `X` in `train_val_split`, `util.py:411-432`: of `X.iloc[idx]`, `Subset(X, idx)` or `X[idx]`. A subset of a
torch data set fails when the rows are used. -/
def splitRows (d : Data) (rows : ℕ) (idx : List ℕ) : Except String (List ℕ) :=
  match d with
  | .frame | .torch => lookup rows idx
  | d => match d.get rows idx with
    | .ok l => .ok l
    | .error _ => .error "Cleanlab cannot split this form of dataset (required for cross-validation)."

/-- `train_val_split`, `util.py:402-434`: training rows, held out rows and their labels. -/
def trainValSplit (d : Data) (rows : ℕ) {α : Type} {n : ℕ} (labels : Fin n → α) (train holdout : List (Fin n)) :
    Except String (List ℕ × List ℕ × List α × List α) := do
  let a ← splitRows d rows (train.map (·.val))
  let b ← splitRows d rows (holdout.map (·.val))
  return (a, b, train.map labels, holdout.map labels)

/-- `subset_data`, `util.py:455-468`. -/
def subsetData (d : Data) (rows : ℕ) (mask : List Bool) : Except String (List ℕ) :=
  match d with
  | .torch => lookup rows ((List.range mask.length).filter (fun i => mask[i]? == some true))
  | d => match d.getMask rows mask with
    | .ok l => .ok l
    | .error _ => .error "Data features X must be subsettable with boolean mask array: X[mask]"

/-- The types of labels. -/
inductive Labels
  | array
  | series
  | list
  /-- a data frame with one column -/
  | frame
deriving DecidableEq

/-- `sample_weight_auto` and its assignment to the rows of the data frame, `classification.py:527-543`: comparing a list with
a number is `False`, so nothing is assigned; with a data frame the weights are two-dimensional and cannot be assigned to the
masked entries of a vector. -/
def autoWeights {K : ℕ} (kind : Labels) (noise : Mat K) (labels : List (Fin K)) : Except String (List ℚ) :=
  match kind with
  | .frame => .error "NumPy boolean array indexing assignment requires a 0 or 1-dimensional input"
  | .list => .ok (labels.map (fun k => autoWeight noise true k))
  | _ => .ok (labels.map (fun k => autoWeight noise false k))

/-- What the final training is given: rows, labels and weights, if the classifier takes weights and the noise matrix is
known, `classification.py:506-575`, without weights passed by the caller. `subset_labels` (`util.py:444-452`) filters all
types of labels alike. -/
def finalTraining {K n : ℕ} (d : Data) (rows : ℕ) (kind : Labels) (noise : Option (Mat K)) (labels : Fin n → Fin K)
    (flagged : Fin n → Bool) : Except String (List ℕ × List (Fin K) × Option (List ℚ)) := do
  let kept := (List.finRange n).filter (fun i => !flagged i)
  let x ← subsetData d rows (List.ofFn (fun i => !flagged i))
  match noise with
  | none => return (x, kept.map labels, none)
  | some m =>
    let w ← autoWeights kind m (kept.map labels)
    return (x, kept.map labels, some w)

end Cleanlab.Containers
