import Verif.Model.IssueFinder

/-!
# Model of `cleanlab/datalab/internal/issue_manager_factory.py` and `task.py`

The registry is a dictionary per task, as an association list in insertion order.  A class is given by its identity, its
`issue_name` and whether it is a subclass of `IssueManager`.
-/

namespace Cleanlab.Registry

open Cleanlab.Finder

/-- A class passed to `register`. -/
structure Cls where
  ident : String
  issueName : String
  isManager : Bool
  deriving DecidableEq

/-- `REGISTRY`. -/
abbrev Reg := Task → List (String × Cls)

/-- A class of the library under its name. -/
def entry (name ident : String) : String × Cls := (name, ⟨ident, name, true⟩)

/-- The registry when the module is imported, `issue_manager_factory.py:47-74`. -/
def builtin : Reg
  | .classification =>
    [entry "outlier" "OutlierIssueManager", entry "label" "LabelIssueManager",
     entry "near_duplicate" "NearDuplicateIssueManager", entry "non_iid" "NonIIDIssueManager",
     entry "class_imbalance" "ClassImbalanceIssueManager",
     entry "underperforming_group" "UnderperformingGroupIssueManager",
     entry "data_valuation" "DataValuationIssueManager", entry "null" "NullIssueManager"]
  | .regression =>
    [entry "label" "RegressionLabelIssueManager", entry "outlier" "OutlierIssueManager",
     entry "near_duplicate" "NearDuplicateIssueManager", entry "non_iid" "NonIIDIssueManager",
     entry "data_valuation" "DataValuationIssueManager", entry "null" "NullIssueManager"]
  | .multilabel =>
    [entry "label" "MultilabelIssueManager", entry "outlier" "OutlierIssueManager",
     entry "near_duplicate" "NearDuplicateIssueManager", entry "non_iid" "NonIIDIssueManager",
     entry "data_valuation" "DataValuationIssueManager", entry "null" "NullIssueManager"]

/-- `Task.from_str`, `task.py:45-76`. -/
def taskFromStr (s : String) : Except String Task :=
  if s = "classification" then .ok .classification
  else if s = "regression" then .ok .regression
  else if s = "multilabel" then .ok .multilabel
  else .error "Invalid task"

/-- Python dictionary assignment: an existing key keeps its position. -/
def assign (d : List (String × Cls)) (k : String) (v : Cls) : List (String × Cls) :=
  if k ∈ d.map (·.1) then d.map (fun e => if e.1 = k then (k, v) else e) else d ++ [(k, v)]

/-- `register`, `issue_manager_factory.py:140-213`: the new registry and the returned class.  The warning about
overwriting is only printed; every task is in the registry, so that line 202 is never reached. -/
def register (reg : Reg) (cls : Cls) (task : String) : Except String (Reg × Cls) :=
  if cls.isManager = false then .error "must be a subclass of IssueManager"
  else
    match taskFromStr task with
    | .error e => .error e
    | .ok t => .ok (Function.update reg t (assign (reg t) cls.issueName cls), cls)

/-- A program that calls `register` several times and goes on after exceptions. -/
def registerAll (reg : Reg) : List (Cls × String) → Reg
  | [] => reg
  | (cls, task) :: rest =>
    match register reg cls task with
    | .ok r => registerAll r.1 rest
    | .error _ => registerAll reg rest

/-- `_IssueManagerFactory.from_str`, `issue_manager_factory.py:120-132`. -/
def fromStr (reg : Reg) (name : String) (task : Task) : Except String Cls :=
  match (reg task).lookup name with
  | some cls => .ok cls
  | none => .error "Invalid issue type"

/-- `list_possible_issue_types`, `issue_manager_factory.py:216-225`. -/
def listPossible (reg : Reg) (task : Task) : List String := (reg task).map (·.1)

/-- The keys of `DEFAULT_CLEANVISION_ISSUES`, `adapter/constants.py:7-17`. -/
def imageTypes : List String :=
  ["dark", "light", "low_information", "odd_aspect_ratio", "odd_size", "grayscale", "blurry"]

/-- `Datalab.list_possible_issue_types`, `datalab.py:554-566`. -/
def datalabPossible (reg : Reg) (task : Task) (images : Bool) : List String :=
  listPossible reg task ++ (if images then imageTypes else [])

/-- `ImagelabIssueFinderAdapter.find_issues`, `imagelab.py:340-345`, and `from_list`, `issue_manager_factory.py:135-137`:
whether the names of `issue_types` are accepted.  Only for checks that `get_available_issue_types` does not drop. -/
def accepts (reg : Reg) (task : Task) (images : Bool) (names : List String) : Bool :=
  (if images then names.filter (fun k => k ∉ ["image_issue_types", "spurious_correlations"]) else names).all
    (fun k => k ∈ listPossible reg task)

end Cleanlab.Registry
