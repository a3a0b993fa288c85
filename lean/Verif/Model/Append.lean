import Mathlib.Data.List.Basic
import Mathlib.Tactic.Linarith

/-!
# Model of `csr_vstack` and `append_extra_datapoint` in `cleanlab/internal/util.py`
-/

namespace Cleanlab.Append

variable {V : Type}

/-- A `scipy.sparse.csr_matrix`. -/
structure Csr (V : Type) where
  data : List V
  indices : List ℕ
  indptr : List ℕ
  rows : ℕ
  cols : ℕ
  deriving DecidableEq

namespace Csr

/-- `nnz` is the last entry of `indptr` (0 for a malformed empty one). -/
def nnz (a : Csr V) : ℕ := (a.indptr.getLast?).getD 0

/-- The stored entries (column and value) of row `i`. -/
def row (a : Csr V) (i : ℕ) : List (ℕ × V) :=
  match a.indptr[i]?, a.indptr[i + 1]? with
  | some s, some e => ((a.indices.zip a.data).take e).drop s
  | _, _ => []

/-- `from_data[index]`: a matrix with one row. -/
def rowAt (a : Csr V) (i : ℕ) : Csr V :=
  { data := (a.row i).map Prod.snd, indices := (a.row i).map Prod.fst, indptr := [0, (a.row i).length], rows := 1,
    cols := a.cols }

end Csr

/-- `csr_vstack`, `internal/util.py:482-490`; `nnz` is read after `data` and before `indptr` is changed. -/
def csrVstack (a b : Csr V) : Csr V :=
  { data := a.data ++ b.data, indices := a.indices ++ b.indices,
    indptr := a.indptr ++ (b.indptr.map (· + a.nnz)).tail, rows := a.rows + b.rows, cols := b.cols }

/-- Kinds of features: arrays with their number of dimensions, data frames or series, sparse matrices, and others without
`append`. A row of an array or frame is the list of its values. -/
inductive Features (V : Type) where
  | ndarray (ndim : ℕ) (rows : List (List V))
  | frame (rows : List (List V))
  | sparse (m : Csr V)
  | other
  deriving DecidableEq

/-- `np.vstack([a, row])` for the array `a` and one of the rows of such an array: a row of a matrix becomes a matrix with one
row. A vector becomes a matrix with one row and its element a `1 × 1` matrix, so the widths differ unless the vector has length
1. In higher dimensions the numbers of dimensions differ. -/
def vstackRow (ndim : ℕ) (rows : List (List V)) (row : List V) : Except String (Features V) :=
  if ndim = 2 then
    if rows.all (fun r => decide (r.length = row.length)) then .ok (.ndarray 2 (rows ++ [row]))
    else .error "ValueError"
  else if ndim = 1 ∧ rows.length = 1 then .ok (.ndarray 2 (rows ++ [row]))
  else .error "ValueError"

/-- `append_extra_datapoint`, `internal/util.py:493-515`. -/
def appendExtra (to' from' : Features V) (index : ℕ) : Except String (Features V) :=
  match to', from' with
  | .ndarray d rows, .ndarray _ rows' =>
    match rows'[index]? with
    | some r => vstackRow d rows r
    | none => .error "IndexError"
  | .frame rows, .frame rows' =>
    match rows'[index]? with
    | some r => .ok (.frame (rows ++ [r]))
    | none => .error "IndexError"
  | .sparse a, .sparse b =>
    if index < b.rows then .ok (.sparse (csrVstack a (b.rowAt index)))
    else .error "Data features X must support: X.append(X[i])"
  | .other, .other => .error "Data features X must support: X.append(X[i])"
  | _, _ => .error "Cannot append datapoint from different type of data object."

end Cleanlab.Append
