import Verif.Model.ValueCounts
import Mathlib.Data.Rat.Defs
import Mathlib.Algebra.BigOperators.Fin
import Mathlib.Data.Rat.Cast.Order

/-!
# Model of `cleanlab/internal/validation.py` and of the model outputs of Datalab

Numbers may be `nan`; infinite values are left out. `X` is represented by its length (`none` for `X=None`); indexing it
works. Arrays have the right type and number of dimensions.
-/

namespace Cleanlab.Validation

open Cleanlab.Util

/-- A label as given by the caller. -/
inductive Raw where
  | num (q : ℚ)
  | nan
  | text (s : String)
  deriving DecidableEq

namespace Raw

/-- `isinstance(label, str)`. -/
def isText : Raw → Bool
  | text _ => true
  | _ => false

/-- The integer value, if `np.mod(y, 1) == 0`. -/
def toInt? : Raw → Option ℤ
  | num q => if q.den = 1 then some q.num else none
  | _ => none

end Raw

/-- `assert_valid_class_labels`, `validation.py:84-112`; returns the labels as integers. `min` of an empty list raises. -/
def validClassLabels (allowMissing allowOne : Bool) (y : List Raw) : Except String (List ℕ) := do
  if y.any Raw.isText then .error "Labels cannot be strings"
  else
    match y.mapM Raw.toInt? with
    | none => .error "Labels must be zero-indexed integers corresponding to class indices."
    | some z =>
      if z = [] then .error "min() arg is an empty sequence"
      else if z.any (fun a => decide (a < 0)) then .error "Labels must be positive integers corresponding to class indices."
      else
        let y := z.map Int.toNat
        let u := npUnique y
        if !allowOne && decide (u.length < 2) then .error "Labels must contain at least 2 classes."
        else if !allowMissing && decide (u ≠ List.range u.length) then .error "Every class must be present in labels as well."
        else .ok y

/-- `FLOATING_POINT_COMPARISON`. -/
def tol : ℚ := 1 / 10 ^ 6

variable {n K : ℕ}

/-- `np.min(pred_probs) < 0 - tol or np.max(pred_probs) > 1 + tol`, `validation.py:76-79`: with a `nan` both are `nan` and
no comparison holds. -/
def outOfRange (P : Fin n → Fin K → Option ℚ) : Bool :=
  decide (∀ i k, (P i k).isSome = true) &&
    decide (∃ i k, ∃ p ∈ P i k, p < 0 - tol ∨ 1 + tol < p)

/-- `assert_valid_inputs` without `pred_probs`, `validation.py:22-55`. -/
def validFeatures (allowMissing allowOne : Bool) (X : Option ℕ) (y : List Raw) : Except String Unit := do
  let y' ← validClassLabels allowMissing allowOne y
  match X with
  | none => .error "Data features X cannot be None. Currently X is None."
  | some l => if l ≠ y'.length then .error "X and labels must be same length" else .ok ()

/-- `assert_valid_inputs` with `pred_probs`, `validation.py:22-28,57-79`. An empty array has no minimum. -/
def validProbs (allowMissing allowOne : Bool) (y : List Raw) (P : Fin n → Fin K → Option ℚ) : Except String Unit := do
  let y' ← validClassLabels allowMissing allowOne y
  if n ≠ y'.length then .error "pred_probs and labels must have same length."
  else if y'.any (fun a => decide (K ≤ a)) then .error "pred_probs must have more columns"
  else if n = 0 ∨ K = 0 then .error "zero-size array to reduction operation"
  else if outOfRange P then .error "Values in pred_probs must be between 0 and 1."
  else .ok ()

/-- `assert_valid_inputs` with `multi_label=True`, `validation.py:57-79`. -/
def validMultilabel (y : List (List ℤ)) (P : Fin n → Fin K → Option ℚ) : Except String Unit :=
  if n ≠ y.length then .error "pred_probs and labels must have same length."
  else if y.flatten = [] then .error "max() arg is an empty sequence"
  else if y.flatten.any (fun a => decide ((K : ℤ) < a + 1)) then .error "pred_probs must have more columns"
  else if n = 0 ∨ K = 0 then .error "zero-size array to reduction operation"
  else if outOfRange P then .error "Values in pred_probs must be between 0 and 1."
  else .ok ()

/-- `np.allclose(s, 1)` for one number. -/
def closeToOne (s : ℚ) : Bool := decide (|s - 1| ≤ 1 / 10 ^ 8 + 1 / 10 ^ 5)

/-- `MultiClassPredProbs.validate`, `datalab/internal/model_outputs.py:59-70`. -/
def validateMultiClass (P : Fin n → Fin K → Option ℚ) : Except String Unit :=
  if ¬∀ i k, ∃ p ∈ P i k, 0 ≤ p ∧ p ≤ 1 then .error "Expected pred_probs to be between 0 and 1"
  else if ¬∀ i, closeToOne (∑ k, (P i k).getD 0) = true then .error "pred_probs must sum to 1 for each row"
  else .ok ()

/-- The model output part of `get_available_issue_types`, `datalab/internal/issue_finder.py:404-423`: the output is
collected; `validate` is called nowhere. -/
def modelOutput (P : Fin n → Fin K → Option ℚ) : Except String (Fin n → Fin K → Option ℚ) := .ok P

end Cleanlab.Validation
