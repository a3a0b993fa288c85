import Verif.Model.DatalabChecks

/-!
# The containers accepted by the identifier column check

Model of `_prepare_features` and `find_issues` of `cleanlab/datalab/internal/issue_manager/identifier_column.py`.  Integers
are taken to fit into 64 bits.
-/

namespace Cleanlab.IdentifierFeatures

open Cleanlab.Checks

/-- An entry of a feature table. -/
inductive Cell where
  | int (z : ℤ)
  | float (q : ℚ)
  | str (s : String)
  | bool (b : Bool)
  | none
  deriving DecidableEq

/-- The integer that an entry becomes in an integer array. -/
def Cell.toInt : Cell → ℤ
  | .int z => z
  | .bool true => 1
  | _ => 0

def Cell.isInt : Cell → Bool
  | .int _ => true
  | _ => false

def Cell.isBool : Cell → Bool
  | .bool _ => true
  | _ => false

def Cell.isStr : Cell → Bool
  | .str _ => true
  | _ => false

/-- Whether `np.array` of these entries has an integer dtype: truth values are promoted if there is an integer. -/
def npIsInt (cells : List Cell) : Bool := cells.all (fun c => c.isInt || c.isBool) && cells.any Cell.isInt

/-- `np.array(column)`. -/
def npColumn (cells : List Cell) : Column :=
  if npIsInt cells then .ints (cells.map Cell.toInt) else .other cells.length

/-- The array of a column of a data frame: pandas gives an integer dtype to columns of integers only. -/
def pdColumn (cells : List Cell) : Column :=
  if cells ≠ [] ∧ cells.all Cell.isInt = true then .ints (cells.map Cell.toInt) else .other cells.length

/-- The argument `features`. -/
inductive Features where
  /-- a two-dimensional array, given by its columns; it has one dtype for all entries -/
  | array (columns : List (List Cell))
  /-- a one-dimensional array -/
  | vector (cells : List Cell)
  | frame (columns : List (List Cell))
  | dict (columns : List (List Cell))
  /-- a list; `none` stands for elements that are neither lists nor arrays -/
  | list (items : List (Option (List Cell)))
  | other

/-- One value of a dictionary, `identifier_column.py:71-77`. -/
def dictColumn (cells : List Cell) : Except String Column :=
  match cells with
  | [] => .error "list index out of range"
  | c :: t => if c.isStr then .ok (.other (c :: t).length) else .ok (npColumn (c :: t))

/-- `_prepare_features`, `identifier_column.py:47-91`.  Iterating over a vector gives its entries, arrays of size 1. -/
def prepare : Features → Except String (List Column)
  | .array columns =>
    .ok (columns.map (fun c => if npIsInt columns.flatten then .ints (c.map Cell.toInt) else .other c.length))
  | .vector cells => .ok (cells.map (fun c => if npIsInt cells then .ints [c.toInt] else .other 1))
  | .frame columns => .ok (columns.map pdColumn)
  | .dict columns => columns.mapM dictColumn
  | .list items =>
    items.mapM (fun item => match item with
      | none => .error "features must be a list of lists or numpy arrays if a list is passed."
      | some cells => .ok (npColumn cells))
  | .other => .error "features must be a numpy array, pandas DataFrame, list, or dict."

/-- `processed_features[0].size`. -/
def size : Column → ℕ
  | .ints values => values.length
  | .other length => length

/-- `find_issues`, `identifier_column.py:93-131`. -/
def findIssues (features : Option Features) : Except String IdentifierResult :=
  match features with
  | none => .error "features must be provided to check for identifier columns."
  | some f =>
    match prepare f with
    | .error e => .error e
    | .ok [] => .error "list index out of range"
    | .ok (c :: t) => .ok (identifierFindIssues (size c) (c :: t))

end Cleanlab.IdentifierFeatures
