import Verif.Np.Basic
import Mathlib.Algebra.Order.Field.Rat
import Mathlib.Algebra.BigOperators.Fin
import Mathlib.Algebra.BigOperators.Field

/-!
# Model of using a trained model: `predict`, `predict_proba` and `score`

`cleanlab/classification.py`, `cleanlab/regression/learn.py` and `force_two_dimensions` of `cleanlab/internal/util.py`.  The
wrapped model is a parameter, and so are its exceptions.
-/

namespace Cleanlab.Predict

/-- An array of numpy: its shape and its values in row-major order. -/
structure Arr where
  shape : List ℕ
  data : List ℚ
  size : data.length = shape.prod

/-- The position of a multi-index in row-major order; `none` if it is out of range. -/
def ravel : List ℕ → List ℕ → Option ℕ
  | [], [] => some 0
  | n :: shape, i :: index => if i < n then (ravel shape index).map (fun p => i * shape.prod + p) else none
  | _, _ => none

/-- `a[i, j, …]`. -/
def Arr.entry (a : Arr) (index : List ℕ) : Option ℚ := (ravel a.shape index).bind (fun p => a.data[p]?)

/-- Features: an array, a data frame (its values) or a nested list, which has no `shape`. -/
inductive Features where
  | array (a : Arr)
  | frame (rows columns : ℕ) (cells : ℕ → ℕ → ℚ)
  | list (rows : List (List ℚ))

/-- `X.reshape((len(X), -1))` for an array of at least one dimension; the length of the second dimension cannot be inferred
if there are no examples. -/
def reshapeRows (a : Arr) (n : ℕ) (rest : List ℕ) (h : a.shape = n :: rest) : Except String Arr :=
  if n = 0 then .error "cannot reshape array of size 0 into shape (0,newaxis)"
  else .ok ⟨[n, rest.prod], a.data, by rw [a.size, h]; simp⟩

/-- `force_two_dimensions`, `internal/util.py:614-616`. -/
def forceTwoDimensions : Features → Except String Features
  | .array a =>
    match h : a.shape with
    | n :: d :: e :: rest => (reshapeRows a n (d :: e :: rest) h).map .array
    | _ => .ok (.array a)
  | .frame r c cells => .ok (.frame r c cells)
  | .list _ => .error "'list' object has no attribute 'shape'"

variable {V R : Type}

/-- The arguments of a call: positional and named ones; those that are not features are arbitrary values. -/
structure Args (V : Type) where
  positional : List (Features ⊕ V)
  named : List (String × (Features ⊕ V))

/-- `force_two_dimensions` of any argument; anything else than features is taken to have no `shape`. -/
def forceArg : Features ⊕ V → Except String (Features ⊕ V)
  | .inl X => (forceTwoDimensions X).map .inl
  | .inr _ => .error "object has no attribute 'shape'"

/-- `predict` and `predict_proba`, `classification.py:598-610` and `626-638`; `defaultClf` says that no model was given to
the constructor, and `method` is the method of the model. -/
def predict (defaultClf : Bool) (method : Args V → Except String R) (args : Args V) : Except String R :=
  if defaultClf then
    match args.positional with
    | X :: rest =>
      match forceArg X with
      | .error e => .error e
      | .ok X' => method ⟨X' :: rest, args.named⟩
    | [] =>
      match args.named.lookup "X" with
      | none => .error "No input provided to predict, please provide X."
      | some X =>
        match forceArg X with
        | .error e => .error e
        | .ok X' => method ⟨[X'], args.named.filter (fun e => e.1 ≠ "X")⟩
  else method args

/-- The method `score` of the wrapped model: none, one with the parameter `sample_weight` or one without. -/
inductive ScoreMethod (n : ℕ) (Y : Type) where
  | absent
  | weighted (f : Features → (Fin n → Y) → Option (Fin n → ℚ) → Except String ℚ)
  | unweighted (f : Features → (Fin n → Y) → Except String ℚ)

/-- scikit-learn's `accuracy_score`: the average of the indicator of a right prediction. -/
def accuracyScore {n : ℕ} {Y : Type} [DecidableEq Y] (y p : Fin n → Y) (w : Option (Fin n → ℚ)) : Except String ℚ :=
  match w with
  | none => .ok ((∑ i, if y i = p i then 1 else 0) / n)
  | some w =>
    if ∑ i, w i = 0 then .error "Weights sum to zero, can't be normalized"
    else .ok ((∑ i, w i * (if y i = p i then 1 else 0)) / ∑ i, w i)

/-- scikit-learn's `r2_score`; if all targets are equal it is 1 for a perfect prediction and 0 otherwise. -/
def r2Score {n : ℕ} (y p : Fin n → ℚ) (w : Option (Fin n → ℚ)) : Except String ℚ :=
  let w := w.getD (fun _ => 1)
  if ∑ i, w i = 0 then .error "Weights sum to zero, can't be normalized"
  else
    let mean := (∑ i, w i * y i) / ∑ i, w i
    let residual := ∑ i, w i * (y i - p i) ^ 2
    let spread := ∑ i, w i * (y i - mean) ^ 2
    if spread ≠ 0 then .ok (1 - residual / spread)
    else if residual ≠ 0 then .ok 0
    else .ok 1

/-- The common part of both `score` methods, `classification.py:662-673` and `regression/learn.py:349-360`; `fallback` is
the score of scikit-learn for models without a method of their own. -/
def scoreWith {n : ℕ} {Y : Type} (method : ScoreMethod n Y) (predictions : Features → Except String (Fin n → Y))
    (fallback : (Fin n → Y) → (Fin n → Y) → Option (Fin n → ℚ) → Except String ℚ)
    (X : Features) (y : Fin n → Y) (w : Option (Fin n → ℚ)) : Except String ℚ :=
  match method with
  | .weighted f => f X y w
  | .unweighted f => f X y
  | .absent =>
    match predictions X with
    | .error e => .error e
    | .ok p => fallback y p w

/-- `CleanLearning.score`, `classification.py:640-673`. -/
def score {n : ℕ} {Y : Type} [DecidableEq Y] (defaultClf : Bool) (method : ScoreMethod n Y)
    (predictions : Features → Except String (Fin n → Y)) (X : Features) (y : Fin n → Y) (w : Option (Fin n → ℚ)) :
    Except String ℚ :=
  match (if defaultClf then forceTwoDimensions X else .ok X) with
  | .error e => .error e
  | .ok X' => scoreWith method predictions accuracyScore X' y w

/-- `regression.CleanLearning.score`, `regression/learn.py:325-360`. -/
def scoreRegression {n : ℕ} (method : ScoreMethod n ℚ) (predictions : Features → Except String (Fin n → ℚ))
    (X : Features) (y : Fin n → ℚ) (w : Option (Fin n → ℚ)) : Except String ℚ :=
  scoreWith method predictions r2Score X y w

end Cleanlab.Predict
