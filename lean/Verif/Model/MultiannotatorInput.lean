import Verif.Model.Multiannotator
import Verif.Model.Validation
import Verif.Np.Collect

/-!
# The inputs of the multi-annotator functions

Model of `cleanlab/internal/multiannotator_utils.py:19-187,235-253` and of the parts of `cleanlab/multiannotator.py` that
convert and check what the caller passes.  Numbers are rational or `nan`; infinite values are left out.
-/

namespace Cleanlab.MultiannotatorInput

open Np Cleanlab.Validation

/-- An entry of the table of labels. -/
inductive Cell where
  | num (q : ℚ)
  | nan
  | text (s : String)
  /-- `pd.NA` or `None` -/
  | missing
  deriving DecidableEq

def Cell.isText : Cell → Bool
  | .text _ => true
  | _ => false

/-- The argument `labels_multiannotator`. -/
inductive Labels (n M : ℕ) where
  | frame (cells : Fin n → Fin M → Cell)
  /-- a two-dimensional array; `object` says whether its dtype is `object` -/
  | array (object : Bool) (cells : Fin n → Fin M → Cell)
  /-- an array with another number of dimensions -/
  | otherDim
  /-- neither an array nor a data frame -/
  | other

/-- The argument `pred_probs`. -/
inductive Probs where
  | none
  | notArray
  | array (shape : List ℕ) (values : List ℚ)

variable {n M K : ℕ}

/-- A label as a number; `none` is `nan`. -/
abbrev Table (n M : ℕ) := Fin n → Fin M → Option ℚ

/-- An entry after `.replace({pd.NA: np.nan}).astype(float)`; `parse` is `float` on texts. -/
def toFloat (parse : String → Option (Option ℚ)) : Cell → Except String (Option ℚ)
  | .num q => .ok (some q)
  | .nan => .ok none
  | .missing => .ok none
  | .text s =>
    match parse s with
    | some v => .ok v
    | none => .error "could not convert string to float"

/-- An entry of an array on which `np.isnan` works. -/
def asNumber : Cell → Except String (Option ℚ)
  | .num q => .ok (some q)
  | .nan => .ok none
  | _ => .error "ufunc 'isnan' not supported for the input types"

/-- The conversion of the labels, `multiannotator.py:158-168`, and the first checks on the result,
`multiannotator_utils.py:27-41`: dimension, texts, and `np.isnan`, which does not work on arrays of objects. -/
def table (parse : String → Option (Option ℚ)) : Labels n M → Except String (Table n M)
  | .frame cells => collect (fun i => collect (fun m => toFloat parse (cells i m)))
  | .array object cells =>
    if ∃ i m, (cells i m).isText then
      .error "Labels cannot be strings, they must be zero-indexed integers corresponding to class indices."
    else if object then .error "ufunc 'isnan' not supported for the input types"
    else collect (fun i => collect (fun m => asNumber (cells i m)))
  | .otherDim => .error "labels_multiannotator must be a 2D array or dataframe"
  | .other => .error "labels_multiannotator must be either a NumPy array or Pandas DataFrame."

/-- `np.sum(~np.isnan(labels_multiannotator), axis=1)`. -/
def given (V : Table n M) (i : Fin n) : ℕ := (List.finRange M).countP (fun m => (V i m).isSome)

/-- The labels that are not missing, row by row, `multiannotator_utils.py:85-86`. -/
def flat (V : Table n M) : List Raw :=
  ((List.finRange n).flatMap (fun i => (List.finRange M).filterMap (fun m => V i m))).map Raw.num

/-- `has_agreement.any()`, `multiannotator_utils.py:78-81`. -/
def hasAgreement (V : Table n M) : Bool :=
  decide (∃ i, ∃ a ∈ (List.finRange M).filterMap (fun m => V i m),
    1 < (List.finRange M).countP (fun m => V i m == some a))

/-- The checks on the predicted probabilities, `multiannotator_utils.py:90-125`; `labels` are the labels that occur. -/
def checkProbs (n : ℕ) (ensemble : Bool) (labels : List ℕ) : Probs → Except String Unit
  | .none => .ok ()
  | .notArray => .error "pred_probs must be a numpy array."
  | .array shape _ =>
    if ensemble then
      match shape with
      | [_, l, k] =>
        if l ≠ n then .error "each pred_probs and labels_multiannotator must have same length."
        else if labels.any (fun a => decide (k ≤ a)) then .error "pred_probs must have more columns"
        else .ok ()
      | _ => .error "pred_probs must be a 3d array."
    else
      match shape with
      | [l, k] =>
        if l ≠ n then .error "pred_probs and labels_multiannotator must have same length."
        else if labels.any (fun a => decide (k ≤ a)) then .error "pred_probs must have more columns"
        else .ok ()
      | _ => .error "pred_probs must be a 2d array."

/-- `assert_valid_inputs_multiannotator`, `multiannotator_utils.py:40-125`, on numbers; the result says whether the warning
about missing agreement is given. -/
def assertValid (ensemble allowSingle : Bool) (V : Table n M) (P : Probs) : Except String Bool :=
  if ∃ i, ∀ m, V i m = none then .error "labels_multiannotator cannot have rows with all NaN"
  else if ∃ m, ∀ i, V i m = none then .error "labels_multiannotator cannot have columns with all NaN"
  else if allowSingle = false ∧ M ≤ 1 then .error "labels_multiannotator must have more than one column."
  else if allowSingle = false ∧ ∀ i, given V i = 1 then .error "Each example only has one label"
  else do
    let labels ← validClassLabels true true (flat V)
    checkProbs n ensemble labels P
    return (!allowSingle && !hasAgreement V)

/-- The conversion and the checks at the start of `get_label_quality_multiannotator`, `multiannotator.py:158-178` (and
`415-429` for ensembles). -/
def input (parse : String → Option (Option ℚ)) (ensemble : Bool) (labels : Labels n M) (P : Probs) :
    Except String (Table n M × Bool) := do
  let V ← table parse labels
  let w ← assertValid ensemble false V P
  return (V, w)

/-- The checks of one of the arguments of `assert_valid_pred_probs`, `multiannotator_utils.py:140-156,165-181`. -/
def checkDim (ensemble : Bool) : Probs → Except String Unit
  | .none => .ok ()
  | .notArray => .error "pred_probs must be a numpy array."
  | .array shape _ =>
    if shape.length = (if ensemble then 3 else 2) then .ok () else .error "wrong number of dimensions"

/-- The size of the last axis. -/
def classes : Probs → Option ℕ
  | .array shape _ => shape.getLast?
  | _ => none

def Probs.isNone : Probs → Bool
  | .none => true
  | _ => false

/-- `assert_valid_pred_probs`, `multiannotator_utils.py:128-187`. -/
def assertValidPredProbs (ensemble : Bool) (P U : Probs) : Except String Unit := do
  if P.isNone && U.isNone then throw "pred_probs and pred_probs_unlabeled cannot both be None"
  checkDim ensemble P
  checkDim ensemble U
  if !P.isNone && !U.isNone && classes P != classes U then
    throw "pred_probs and pred_probs_unlabeled must have the same number of classes"

/-! ## Counting the labels -/

/-- The position of a label in an axis of length `K`: converted to an integer, negative ones from the end,
`multiannotator.py:952-954`. -/
def position (K : ℕ) (q : ℚ) : Except String (Fin K) :=
  if h : 0 ≤ trunc q ∧ trunc q < K then .ok ⟨(trunc q).toNat, by omega⟩
  else if h : trunc q < 0 ∧ -(K : ℤ) ≤ trunc q then .ok ⟨(trunc q + K).toNat, by omega⟩
  else .error "index is out of bounds"

/-- The labels as positions. -/
def positions (K : ℕ) (V : Table n M) : Except String (Fin n → Fin M → Option (Fin K)) :=
  collect (fun i => collect (fun m =>
    match V i m with
    | none => .ok none
    | some q => (position K q).map some))

/-- `label_count` in `get_majority_vote_label`, `multiannotator.py:937-954`, with predicted probabilities for `K` classes:
the inputs are only checked if `verbose` is true. -/
def labelCounts (verbose : Bool) (V : Table n M) (K : ℕ) (values : List ℚ) : Except String (Fin n → Fin K → ℕ) := do
  if verbose then
    let _ ← assertValid false false V (.array [n, K] values)
  let L ← positions K V
  return fun i k => (List.finRange M).countP (fun m => L i m == some k)

/-- `labels_set_difference`, `multiannotator_utils.py:241-243`: the classes that are announced as omitted. -/
def omitted (V : Table n M) (consensus : Fin n → ℕ) : List ℚ :=
  (((List.finRange n).flatMap (fun i => (List.finRange M).filterMap (fun m => V i m))).dedup).filter
    (fun a => decide (∀ i, a ≠ (consensus i : ℚ)))

end Cleanlab.MultiannotatorInput
