import Verif.Np.Basic

/-!
# Model of `DataIssues`, `cleanlab/datalab/internal/data_issues.py`

The per-example issue table is a list of named columns over the `n` examples, the summary a list of rows.
-/

namespace Cleanlab.DataIssues

/-- A cell of the issue table. -/
inductive Cell where
  | bool (b : Bool)
  | num (x : ℚ)
  deriving DecidableEq

variable {n : ℕ}

/-- A column of the issue table. -/
abbrev Col (n : ℕ) := Fin n → Cell

/-- An issue manager after a successful `find_issues`: its `issues` table, the score in its `summary` and its `info`.
-/
structure Manager (n : ℕ) where
  name : String
  columns : List (String × Col n)
  score : ℚ
  info : List (String × String)

/-- `DataIssues`, `data_issues.py:187-196`. -/
structure State (n : ℕ) where
  issues : List (String × Col n)
  summary : List (String × ℚ × ℕ)
  info : List (String × List (String × String))
  health : Option ℚ

/-- `DataIssues.__init__`, `data_issues.py:187-196`. -/
def init (n : ℕ) : State n := { issues := [], summary := [], info := [], health := none }

/-- The name of the Boolean column of a check. -/
def flagColumn (name : String) : String := "is_" ++ name ++ "_issue"

/-- The name of the score column of a check. -/
def scoreColumn (name : String) : String := name ++ "_score"

/-- `_update_issues`, `data_issues.py:331-339`; all tables have the same row index. -/
def updateIssues (issues new : List (String × Col n)) : List (String × Col n) :=
  issues.filter (fun c => c.1 ∉ new.map (·.1)) ++ new

/-- The truth value of a cell in `.sum()`. -/
def cellTrue : Cell → Bool
  | .bool b => b
  | .num x => x ≠ 0

/-- `int(issues[is_…_issue].sum())`, `data_issues.py:372` (for Boolean columns). -/
def numIssues (col : Col n) : ℕ := (Finset.univ.filter (fun i => cellTrue (col i) = true)).card

/-- Python dictionary assignment. -/
def setKey {β : Type} (d : List (String × β)) (k : String) (v : β) : List (String × β) :=
  d.filter (fun e => e.1 ≠ k) ++ [(k, v)]

/-- `collect_issues_from_issue_manager`, `data_issues.py:346-381`.  A manager without its Boolean column makes line 372
raise, after the table was updated and the old summary row was removed. -/
def collect (s : State n) (m : Manager n) : State n :=
  let issues := updateIssues s.issues m.columns
  let summary := s.summary.filter (fun r => r.1 ≠ m.name)
  match m.columns.lookup (flagColumn m.name) with
  | none => { s with issues, summary }
  | some col =>
    { s with
      issues
      summary := summary ++ [(m.name, m.score, numIssues col)]
      info := setKey s.info m.name m.info }

/-- `self.issue_summary["score"].mean()`; `nan` when empty. -/
def meanScore (summary : List (String × ℚ × ℕ)) : Option ℚ :=
  if summary = [] then none else some ((summary.map (·.2.1)).sum / (summary.length : ℚ))

/-- One check of a run: it either raises or succeeds. -/
abbrev Outcome (n : ℕ) := Except String (Manager n)

/-- The loop body of `IssueFinder.find_issues`, `issue_finder.py:308-317`. -/
def runCheck (s : State n) : Outcome n → State n
  | .ok m => collect s m
  | .error _ => s

/-- `IssueFinder.find_issues`, `issue_finder.py:296-320`: nothing happens when there is no check to run. -/
def runAll (s : State n) (checks : List (Outcome n)) : State n :=
  if checks = [] then s
  else
    let s' := checks.foldl runCheck s
    { s' with health := meanScore s'.summary }

/-- A history of `find_issues` calls. -/
def runHistory (h : List (List (Outcome n))) : State n := h.foldl runAll (init n)

/-- Python `name in col` on strings. -/
def contains (name col : String) : Bool := decide (name.toList <:+: col.toList)

/-- `get_issues`, `data_issues.py:209-274`: the columns from the issue table.  `n = 0` also counts as empty. The extra
columns added for `label`, `near_duplicate` and `class_imbalance` come from this check's own `info`. -/
def getIssues (s : State n) (name : Option String) : Except String (List (String × Col n)) :=
  if s.issues = [] ∨ n = 0 then .error "No issues available for retrieval."
  else
    match name with
    | none => .ok s.issues
    | some name =>
      let columns := s.issues.filter (fun c => contains name c.1)
      if columns = [] then .error "No columns found for issue type"
      else
        match s.info.lookup name with
        | none => .error "issue_name not found in self.info"
        | some _ => .ok columns

/-- `get_issue_summary`, `data_issues.py:276-304`. -/
def getIssueSummary (s : State n) (name : Option String) : Except String (List (String × ℚ × ℕ)) :=
  if s.summary = [] then .error "No issues found in the dataset."
  else
    match name with
    | none => .ok s.summary
    | some name =>
      let rows := s.summary.filter (fun r => r.1 = name)
      if rows = [] then .error "Issue type not found in the summary." else .ok rows

end Cleanlab.DataIssues
