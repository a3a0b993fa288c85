import Verif.Model.DataIssues
import Verif.Model.DatalabChecks
import Verif.Np.SortOn

/-!
# Model of the report

`cleanlab/datalab/internal/report.py`, `IssueManager.report` in `cleanlab/datalab/internal/issue_manager/issue_manager.py`
and `Datalab.report` in `cleanlab/datalab/datalab.py`. A report is a value: which rows the summary table shows and, for
each section, the numbers, examples and information it shows. Texts and descriptions are left out, and so is the
report that the image library itself prints.
-/

namespace Cleanlab.Report

open Np Cleanlab.DataIssues

variable {n : ℕ}

/-- One section of the report, `issue_manager.py:268-330`. -/
structure Section (n : ℕ) where
  name : String
  count : ℕ
  score : ℚ
  examples : List (Fin n)
  shown : List String

/-- What `Datalab.report` prints. -/
inductive Output (n : ℕ) where
  | nothing
  | noIssues
  | full (rows : List (String × ℚ × ℕ)) (sections : List (Section n))

/-- The order of a cell in `sort_values`. -/
def cellValue : Cell → ℚ
  | .bool b => if b then 1 else 0
  | .num x => x

/-- The keys of `info_to_print`, `issue_manager.py:281-288`; `levels` lists `verbosity_levels` for 0, 1, 2, ... -/
def infoToPrint (levels : List (List String)) (columns keys : List String) (verbosity : ℕ) : List String :=
  ((levels.take (verbosity + 1)).flatten ++ if verbosity = levels.length then keys else []).filter (fun k => k ∉ columns)

/-- `IssueManager.report`, `issue_manager.py:255-330`. -/
def section' (A : ArgSort ℚ) (levels : List (List String)) (name : String) (issues : List (String × Col n))
    (summary : List (String × ℚ × ℕ)) (info : List (String × String)) (numExamples verbosity : ℕ) :
    Except String (Section n) :=
  if levels.length < verbosity then .error "ValueError: verbosity level not supported"
  else
    match issues.lookup (scoreColumn name), summary, issues.lookup (flagColumn name) with
    | some score, row :: _, some flag =>
      let keys := infoToPrint levels (issues.map (·.1)) (info.map (·.1)) verbosity
      if keys.all (fun k => k ∈ info.map (·.1)) then
        .ok { name
              count := numIssues flag
              score := row.2.1
              examples := (A.indices (fun i => cellValue (score i))).take numExamples
              shown := keys }
      else .error "KeyError"
    | _, _, _ => .error "KeyError"

/-- `DEFAULT_CLEANVISION_ISSUES`, `adapter/constants.py:7-17`. -/
def imageTypes : List String :=
  ["dark", "light", "low_information", "odd_aspect_ratio", "odd_size", "grayscale", "blurry"]

/-- `_get_issue_types`, `report.py:185-194`. -/
def issueTypes (showAll : Bool) (summary : List (String × ℚ × ℕ)) : List String :=
  (summary.filter (fun r => decide (r.1 ∉ imageTypes) && (showAll || decide (0 < r.2.2)))).map (·.1)

/-- The section of one check, `report.py:131-141`; `registry` are the verbosity levels of the registered managers. -/
def sectionOf (A : ArgSort ℚ) (registry : String → Option (List (List String))) (s : State n) (numExamples verbosity : ℕ)
    (name : String) : Except String (Section n) := do
  let levels ← (registry name).elim (.error "ValueError: invalid issue type") .ok
  let issues ← getIssues s (some name)
  let summary ← getIssueSummary s (some name)
  let info ← (s.info.lookup name).elim (.error "ValueError: issue_name not found") .ok
  section' A levels name issues summary info numExamples verbosity

/-- `Reporter.get_report`, `report.py:86-144`, called by `Datalab.report`, `datalab.py:393-408`. -/
def report (A : ArgSort ℚ) (A' : ArgSort ℤ) (registry : String → Option (List (List String))) (s : State n)
    (showAll : Bool) (numExamples verbosity : ℕ) : Except String (Output n) :=
  if s.summary = [] then .ok .nothing
  else if showAll = false ∧ (s.summary.map (·.2.2)).sum = 0 then .ok .noIssues
  else do
    let sorted := sortOn A' (fun r : String × ℚ × ℕ => -(r.2.2 : ℤ)) s.summary
    let rows := if showAll then sorted else sorted.filter (fun r => decide (0 < r.2.2))
    let sections ← (issueTypes showAll sorted).mapM (sectionOf A registry s numExamples verbosity)
    return .full rows sections

/-- The levels of the registered managers for classification, `issue_manager/*.py` (`verbosity_levels`). -/
def builtinLevels : String → Option (List (List String))
  | "outlier" => some [[], [], ["average_ood_score"], []]
  | "label" => some [[], [], [], ["classes_by_label_quality", "overlapping_classes"]]
  | "near_duplicate" => some [[], [], ["threshold"]]
  | "non_iid" => some [["p-value"], [], []]
  | "class_imbalance" => some [["Rarest Class"], [], []]
  | "underperforming_group" => some [[], [], ["threshold"]]
  | "null" => some [[], [], ["most_common_issue"]]
  | "data_valuation" => some [[], [], [], ["average_data_valuation"]]
  | "identifier_column" => some [[], ["identifier_columns"], []]
  | _ => none

/-- The identifier column check as a manager, `identifier_column.py:93-131`. -/
def identifierManager (n : ℕ) (columns : List Checks.Column) : Manager n :=
  let r := Checks.identifierFindIssues n columns
  { name := "identifier_column"
    columns := [(flagColumn "identifier_column", fun _ => .bool false), (scoreColumn "identifier_column", fun _ => .num 1)]
    score := r.summary
    info := [("identifier_columns", ""), ("num_identifier_columns", "")] }

/-- The check for missing values as a manager, `null.py:49-70`, for at least one column. -/
def nullManager {d : ℕ} (null : Fin n → Fin d → Bool) : Manager n :=
  { name := "null"
    columns := [(flagColumn "null", fun i => .bool (Checks.nullRow null i).1),
      (scoreColumn "null", fun i => .num (((Checks.nonNull null i : ℤ) : ℚ) / d))]
    score := (∑ i, ((Checks.nonNull null i : ℤ) : ℚ) / d) / n
    info := [("average_null_score", ""), ("most_common_issue", ""), ("column_impact", "")] }

end Cleanlab.Report
