import Verif.Model.DatalabData

/-!
# Model of loading data and labels in `cleanlab/datalab/internal/data.py`

The functions of the `datasets` package that read data are parameters (`Loaders`); they return a data set, a dictionary of data
sets (one per split) or an exception. Labels of type `α` are scalars that numpy can sort.
-/

namespace Cleanlab.DatalabLoad

open Cleanlab.DatalabData

variable {α : Type} [LinearOrder α]

/-- The tasks of `datalab/internal/task.py`. -/
inductive Task where
  | classification
  | regression
  | multilabel
  deriving DecidableEq

/-- A column of a data set: scalars, lists of scalars, or integers of a `ClassLabel` feature with its names. -/
inductive Column (α : Type) where
  | scalars (values : List α)
  | lists (values : List (List α))
  | classLabel (names : List α) (codes : List ℕ)
  deriving DecidableEq

def Column.length : Column α → ℕ
  | .scalars v => v.length
  | .lists v => v.length
  | .classLabel _ c => c.length

/-- A `datasets.Dataset`. -/
structure Table (α : Type) where
  columns : List (String × Column α)
  rows : ℕ

/-- What the functions of the `datasets` package return. -/
inductive Loaded (α : Type) where
  | table (t : Table α)
  | splits (l : List (String × Table α))

/-- The argument `data`; `content` is whatever the object holds. -/
inductive Kind (C : Type) where
  | dataset (content : C)
  | frame (content : C)
  | dict (content : C)
  | list (content : C)
  | str (path : String)
  | datasetDict (content : C)
  | other

/-- The argument `data` with whether its type is exactly the supported one rather than a subclass of it. -/
structure Argument (C : Type) where
  kind : Kind C
  exact : Bool

/-- The functions that read data. -/
structure Loaders (C α : Type) where
  asDataset : C → Table α
  fromPandas : C → Except String (Table α)
  fromDict : C → Except String (Table α)
  fromList : C → Except String (Table α)
  pathExists : String → Bool
  /-- `os.path.splitext(path)[1]` -/
  extension : String → String
  fromText : String → Except String (Table α)
  fromCsv : String → Except String (Table α)
  fromJson : String → Except String (Table α)
  loadDataset : String → Except String (Loaded α)

variable {C : Type}

/-- `_validate_data`, `data.py:194-198`; `DatasetDict` is a subclass of `dict`. -/
def validateData (a : Argument C) : Except String Unit :=
  match a.kind with
  | .datasetDict _ => .error "DatasetDictError"
  | .other => .error "DataFormatError"
  | _ => .ok ()

/-- `_load_dataset_from_string`, `data.py:215-235`. -/
def loadString (L : Loaders C α) (path : String) : Except String (Loaded α) :=
  if L.pathExists path then
    if L.extension path = ".txt" then (L.fromText path).map .table
    else if L.extension path = ".csv" then (L.fromCsv path).map .table
    else if L.extension path = ".json" then (L.fromJson path).map .table
    else .error "DatasetLoadError"
  else
    match L.loadDataset path with
    | .ok d => .ok d
    | .error _ => .error "DatasetLoadError"

/-- `_load_data`, `data.py:156-168`: the function is looked up by the exact type. -/
def loadData (L : Loaders C α) (a : Argument C) : Except String (Loaded α) :=
  match a.kind with
  | .datasetDict _ => .error "KeyError"
  | .other => .error "DataFormatError"
  | .dataset c => if a.exact then .ok (.table (L.asDataset c)) else .error "KeyError"
  | .frame c => if a.exact then (L.fromPandas c).map .table else .error "KeyError"
  | .dict c =>
    if a.exact then
      match L.fromDict c with
      | .ok t => .ok (.table t)
      | .error _ => .error "DatasetLoadError"
    else .error "KeyError"
  | .list c =>
    if a.exact then
      match L.fromList c with
      | .ok t => .ok (.table t)
      | .error _ => .error "DatasetLoadError"
    else .error "KeyError"
  | .str p => if a.exact then loadString L p else .error "KeyError"

/-- The labels of a lab. -/
inductive Labels (α : Type) where
  | none
  | codes (l : List ℕ)
  | raw (l : List α)
  | nested (l : List (List ℕ))
  deriving DecidableEq

def Labels.length : Labels α → ℕ
  | .none => 0
  | .codes l => l.length
  | .raw l => l.length
  | .nested l => l.length

/-- `Label`: the labels and the label map. -/
structure LabelInfo (α : Type) where
  labels : Labels α
  map : List (ℕ × α)

/-- `_extract_labels`, `data.py:323-335` and `342-390`. Scalars are no lists and raise for multi-label data; lists give an array
that is not one-dimensional, or none at all if their lengths differ, and raise otherwise. A `ClassLabel` column of regression
data holds integers, which are kept (`toLabel`). -/
def extract (toLabel : ℕ → α) (task : Task) (c : Column α) : Except String (LabelInfo α) :=
  match task, c with
  | .multilabel, .lists v => (multiLabel v).map (fun r => ⟨.nested r.1, r.2⟩)
  | .multilabel, .scalars v => if v = [] then .ok ⟨.nested [], []⟩ else .error "ValueError"
  | .multilabel, .classLabel _ v => if v = [] then .ok ⟨.nested [], []⟩ else .error "ValueError"
  | _, .lists v =>
    if v = [] then .ok (match task with | .classification => ⟨.codes [], []⟩ | _ => ⟨.raw [], []⟩)
    else .error "ValueError"
  | .regression, .scalars v => .ok ⟨.raw v, []⟩
  | .regression, .classLabel _ v => .ok ⟨.raw (v.map toLabel), []⟩
  | .classification, .scalars v => (multiClass v).map (fun r => ⟨.codes r.1, r.2⟩)
  | .classification, .classLabel names v => let r := classLabel names v; .ok ⟨.codes r.1, r.2⟩

/-- `_validate_labels`, `data.py:303-311`. -/
def validateLabels (t : Table α) (name : String) : Except String Unit :=
  match t.columns.lookup name with
  | none => .error "ValueError"
  | some c => if c.length = t.rows then .ok () else .error "AssertionError"

/-- `Label.__init__`, `data.py:258-267`: `data[label_name]` raises if there is no such column. -/
def makeLabels (toLabel : ℕ → α) (task : Task) (t : Table α) (name : Option String) : Except String (LabelInfo α) :=
  match name with
  | none => .ok ⟨.none, []⟩
  | some name =>
    match t.columns.lookup name with
    | none => .error "KeyError"
    | some c => do
      let r ← extract toLabel task c
      validateLabels t name
      return r

/-- `Data.__init__`, `data.py:142-154`: a dictionary of splits has no hash. -/
def makeData (toLabel : ℕ → α) (L : Loaders C α) (a : Argument C) (task : Task) (name : Option String) :
    Except String (Table α × LabelInfo α) := do
  validateData a
  match ← loadData L a with
  | .splits _ => .error "TypeError"
  | .table t => do
    let l ← makeLabels toLabel task t name
    return (t, l)

/-- `is_available`, `data.py:296-301`; `has_labels`. -/
def isAvailable (l : LabelInfo α) : Bool := !(l.labels.length == 0 || l.map.length == 0)

end Cleanlab.DatalabLoad
