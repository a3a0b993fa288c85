import Verif.Model.Validation
import Verif.Np.Basic

/-!
# Labels in the containers and number types that `assert_valid_inputs` accepts

Model of what numpy makes of them in `cleanlab/rank.py` and `cleanlab/filter.py`. A Series and a frame have an arbitrary
index, which numpy ignores.
-/

namespace Cleanlab.LabelContainer

open Np Cleanlab.Validation

/-- `list`, `np.ndarray`, `pd.Series` or a `pd.DataFrame` with one column, `validation.py:22`. -/
inductive Container where
  | list
  | array
  | series
  | frame
  deriving DecidableEq

/-- The type of the numbers. -/
inductive NumType where
  | int
  | float
  | bool
  deriving DecidableEq

variable {n K : ℕ} {F : Type}

/-- Class labels of `n` examples. -/
structure Given (n : ℕ) where
  container : Container
  type : NumType
  values : Fin n → ℕ

/-- The values are those of the type: Booleans are 0 and 1. -/
def Given.WellTyped (g : Given n) : Prop := g.type = .bool → ∀ i, g.values i ≤ 1

/-- `assert_valid_inputs(X=None, y=labels, pred_probs=pred_probs)`, `validation.py:22-79`: the container and the number type
play no role, since `labels_to_array` (163-191) makes an array of them and integers are recognised by `np.mod(y, 1) == 0`. -/
def validate (allowOne : Bool) (g : Given n) (P : Fin n → Fin K → ℚ) : Except String Unit :=
  validProbs true allowOne ((List.ofFn g.values).map (fun v : ℕ => Raw.num (v : ℚ))) (fun i k => some (P i k))

/-- An array of dimension 1 or 2. -/
inductive Out (F : Type) where
  | vector (l : List F)
  | matrix (l : List (List F))

/-- `a[np.arange(n), idx]` for integers `idx` of shape `(n,)`. -/
def takeRows (P : Fin n → Fin K → F) (v : Fin n → ℕ) : Except String (Out F) :=
  if h : ∀ i, v i < K then .ok (.vector (List.ofFn (fun i => P i ⟨v i, h i⟩))) else .error "IndexError"

/-- `a[np.arange(n), idx]` for integers `idx` of shape `(n, 1)`: both are broadcast to `(n, n)`. -/
def takeTable (P : Fin n → Fin K → F) (v : Fin n → ℕ) : Except String (Out F) :=
  if h : ∀ i, v i < K then .ok (.matrix (List.ofFn (fun i => List.ofFn (fun j => P j ⟨v i, h i⟩)))) else .error "IndexError"

/-- `a[np.arange(n), idx]` for Booleans `idx` of shape `(n,)`: a mask of the columns, which stands for the positions of its
`True` values and must have as many entries as there are columns; the positions are broadcast against the rows. -/
def takeMask (P : Fin n → Fin K → F) (v : Fin n → ℕ) : Except String (Out F) :=
  if h : n = K then
    let pos := (List.finRange n).filter (fun i => decide (v i = 1))
    if pos.length = n then .ok (.vector ((List.finRange n).zipWith (fun i c => P i (Fin.cast h c)) pos))
    else match pos with
      | [c] => .ok (.vector ((List.finRange n).map (fun i => P i (Fin.cast h c))))
      | [] => if n = 1 then .ok (.vector []) else .error "IndexError"
      | _ => .error "IndexError"
  else .error "IndexError"

/-- `get_self_confidence_for_each_label`, `rank.py:464-496`: a list has no `shape`, floats are no indices, and a Boolean table
counts as two indices. -/
def selfConfidence (g : Given n) (P : Fin n → Fin K → F) : Except String (Out F) :=
  match g.container, g.type with
  | .list, _ => .error "AttributeError"
  | _, .float => .error "IndexError"
  | .frame, .int => takeTable P g.values
  | .frame, .bool => .error "IndexError"
  | _, .int => takeRows P g.values
  | _, .bool => takeMask P g.values

/-- `get_label_quality_scores` with `method="self_confidence"`, `rank.py:112-117,152-155`; the other methods compute the
self-confidence first (`rank.py:535,572`). -/
def labelQualityScores (g : Given n) (P : Fin n → Fin K → ℚ) : Except String (Out ℚ) := do
  validate true g P
  selfConfidence g P

/-- `np.argmax(pred_probs, axis=1) != np.asarray(labels)`, `filter.py:669`: numbers of different types are compared by value, a
table is broadcast. -/
def predictedNeqGiven [NeZero K] (g : Given n) (P : Fin n → Fin K → ℚ) : Except String (Out Bool) := do
  validate false g P
  match g.container with
  | .frame => return .matrix (List.ofFn (fun i => List.ofFn (fun j => decide ((argmax (P j) : ℕ) ≠ g.values i))))
  | _ => return .vector (List.ofFn (fun i => decide ((argmax (P i) : ℕ) ≠ g.values i)))

end Cleanlab.LabelContainer
