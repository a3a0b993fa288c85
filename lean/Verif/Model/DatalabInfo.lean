import Verif.Model.DatalabData
import Verif.Model.Multilabel
import Verif.Np.Basic

/-!
# Model of `Datalab.get_info` and of the labels reported by `get_issues("label")`

`cleanlab/datalab/internal/data_issues.py:73-162, 198-274` and the parts of the label checks that store and translate
labels.
-/

namespace Cleanlab.DatalabInfo

open Np Cleanlab.DatalabData Cleanlab.Multilabel

/-! ## Labels -/

/-- The labels that a label check stores in its `info` (integers, or lists of integers for multi-label data), and what
`get_info("label")` makes of them. -/
structure LabelInfo (L : Type) where
  given : List L
  predicted : List L
  deriving DecidableEq

variable {α : Type} {K : ℕ}

/-- `LabelIssueManager.find_issues`, `issue_manager/label.py:115-185`, as far as the stored labels go.  Labels without a
column are refused (`internal/validation.py:69-75`); the class names are inserted in a table with one row per column of
`pred_probs` (`dataset.py:107`), which raises unless there are as many. `others` is the outcome of everything else that may
raise. -/
def classCheck [NeZero K] (m : List (ℕ × α)) (codes : List ℕ) (P : List (Fin K → ℚ)) (others : Except String Unit) :
    Except String (LabelInfo ℕ) :=
  match others with
  | .error e => .error e
  | .ok _ =>
    if codes.any (fun c => decide (K ≤ c)) then .error "pred_probs must have at least as many columns as labels"
    else if m.length ≠ K then .error "Length of values does not match length of index"
    else .ok { given := codes, predicted := P.map (fun r => (argmax r).val) }

/-- `MultilabelIssueManager.find_issues`, `issue_manager/multilabel/label.py:89-135`, as far as the stored labels go. -/
def multiCheck (codes : List (List ℕ)) (P : List (Fin K → ℚ)) (others : Except String Unit) :
    Except String (LabelInfo (List ℕ)) :=
  match others with
  | .error e => .error e
  | .ok _ =>
    if codes.any (fun l => l.any (fun c => decide (K ≤ c))) then
      .error "pred_probs must have at least as many columns as labels"
    else .ok { given := codes, predicted := onehot2int (P.map (fun r k => decide (1 / 2 < r k))) }

/-- `_ClassificationInfoStrategy.get_info("label")`, `data_issues.py:91-114`, for a data set with labels: `np.vectorize`
applies `label_map.get` and refuses an empty array.  It also converts the results to the type of the first; this does
nothing when no result is `None`. -/
def classInfo (m : List (ℕ × α)) (info : LabelInfo ℕ) : Except String (LabelInfo (Option α)) :=
  if m = [] then .error "The label map is not available."
  else if info.given = [] ∨ info.predicted = [] then .error "cannot call vectorize on size 0 inputs"
  else .ok { given := info.given.map (fun c => m.lookup c), predicted := info.predicted.map (fun c => m.lookup c) }

/-- `_MultilabelInfoStrategy.get_info("label")`, `data_issues.py:139-162`. -/
def multiInfo (m : List (ℕ × α)) (info : LabelInfo (List ℕ)) : Except String (LabelInfo (List (Option α))) :=
  if m = [] then .error "The label map is not available."
  else .ok { given := info.given.map (·.map (fun c => m.lookup c)), predicted := info.predicted.map (·.map (fun c => m.lookup c)) }

/-- `Datalab(data, label_name)`, `find_issues(pred_probs)` and then the labels of `get_issues("label")`. -/
def classLabels [LinearOrder α] [NeZero K] (raw : List α) (P : List (Fin K → ℚ)) (others : Except String Unit) :
    Except String (LabelInfo (Option α)) := do
  let (codes, m) ← multiClass raw
  let info ← classCheck m codes P others
  classInfo m info

/-- The same for a `ClassLabel` column. -/
def namedLabels [LinearOrder α] [NeZero K] (names : List α) (column : List ℕ) (P : List (Fin K → ℚ))
    (others : Except String Unit) : Except String (LabelInfo (Option α)) := do
  let info ← classCheck (classLabel names column).2 (classLabel names column).1 P others
  classInfo (classLabel names column).2 info

/-- The same for `task="multilabel"`. -/
def multiLabels [LinearOrder α] (raw : List (List α)) (P : List (Fin K → ℚ)) (others : Except String Unit) :
    Except String (LabelInfo (List (Option α))) := do
  let (codes, m) ← multiLabel raw
  let info ← multiCheck codes P others
  multiInfo m info

/-! ## Objects handed out -/

/-- Python objects: dictionaries refer to other objects, arrays hold values. -/
inductive Obj (V : Type) where
  | dict (entries : List (String × ℕ))
  | array (values : List V)

/-- The memory, with the address of `DataIssues.info`. Addresses from `next` on are free. -/
structure Mem (V : Type) where
  obj : ℕ → Obj V
  info : ℕ
  next : ℕ

variable {V : Type}

/-- The entries of a dictionary. -/
def entries (m : Mem V) (a : ℕ) : List (String × ℕ) :=
  match m.obj a with
  | .dict d => d
  | .array _ => []

/-- `get_info`, `data_issues.py:73-85, 91-133`, for the check types that are not translated: the address of the result. -/
def getInfo (m : Mem V) (name : Option String) : Except String (Mem V × ℕ) :=
  match name with
  | none => .ok (m, m.info)
  | some s =>
    match (entries m m.info).lookup s with
    | none => .error "issue_name not found in self.info. These have not been computed yet."
    | some a => .ok ({ m with obj := Function.update m.obj m.next (.dict (entries m a)), next := m.next + 1 }, m.next)

/-- `d[key] = value` by the caller, for a new array. -/
def assign (m : Mem V) (d : ℕ) (key : String) (values : List V) : Mem V :=
  { m with
    obj := Function.update (Function.update m.obj m.next (.array values)) d
      (.dict ((entries m d).filter (fun e => e.1 ≠ key) ++ [(key, m.next)]))
    next := m.next + 1 }

/-- `del d[key]` by the caller. -/
def remove (m : Mem V) (d : ℕ) (key : String) : Mem V :=
  { m with obj := Function.update m.obj d (.dict ((entries m d).filter (fun e => e.1 ≠ key))) }

/-- `d[key][:] = values` by the caller. -/
def overwrite (m : Mem V) (d : ℕ) (key : String) (values : List V) : Mem V :=
  match (entries m d).lookup key with
  | none => m
  | some a => { m with obj := Function.update m.obj a (.array values) }

/-- `datalab.info[name][key]`. -/
def stored (m : Mem V) (name key : String) : Option (List V) := do
  let d ← (entries m m.info).lookup name
  let a ← (entries m d).lookup key
  match m.obj a with
  | .array v => some v
  | .dict _ => none

end Cleanlab.DatalabInfo
