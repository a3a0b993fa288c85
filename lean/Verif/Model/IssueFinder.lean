import Mathlib.Data.List.Basic

/-!
# Model of `cleanlab/datalab/internal/issue_finder.py`

Which checks `Datalab.find_issues` runs and with which arguments.  Python dictionaries are association lists.  The
caller's `issue_types` is a dictionary of references to inner dictionaries, because the code mutates these.
-/

namespace Cleanlab.Finder

/-- `Task`, `task.py:11-32`. -/
inductive Task where
  | classification
  | regression
  | multilabel
  deriving DecidableEq

/-- `_CLASSIFICATION_ARGS_DICT`, `_REGRESSION_ARGS_DICT`, `_MULTILABEL_ARGS_DICT`, `issue_finder.py:43-70`. -/
def argTable : Task → List (String × List String)
  | .classification =>
    [("label", ["pred_probs", "features"]), ("outlier", ["pred_probs", "features", "knn_graph"]),
     ("near_duplicate", ["features", "knn_graph"]), ("non_iid", ["pred_probs", "features", "knn_graph"]),
     ("underperforming_group", ["pred_probs", "features", "knn_graph", "cluster_ids"]),
     ("data_valuation", ["features", "knn_graph"]), ("class_imbalance", []), ("null", ["features"])]
  | .regression =>
    [("label", ["features", "predictions"]), ("outlier", ["features", "knn_graph"]),
     ("near_duplicate", ["features", "knn_graph"]), ("non_iid", ["features", "knn_graph"]),
     ("data_valuation", ["features", "knn_graph"]), ("null", ["features"])]
  | .multilabel =>
    [("label", ["pred_probs"]), ("outlier", ["features", "knn_graph"]),
     ("near_duplicate", ["features", "knn_graph"]), ("non_iid", ["features", "knn_graph"]),
     ("data_valuation", ["features", "knn_graph"]), ("null", ["features"])]

/-- `list_default_issue_types`, `issue_manager_factory.py:228-267`. -/
def defaultTypes : Task → List String
  | .classification =>
    ["null", "label", "outlier", "near_duplicate", "non_iid", "class_imbalance", "underperforming_group"]
  | .regression => ["null", "label", "outlier", "near_duplicate", "non_iid"]
  | .multilabel => ["null", "label", "outlier", "near_duplicate", "non_iid"]

variable {V : Type}

/-- The data arguments of one `find_issues` call. -/
structure Call (V : Type) where
  predProbs : Option V
  features : Option V
  knnGraph : Option V

/-- `kwargs.get(arg, None)` after the update of `issue_finder.py:405-422`: for regression the model output is passed
as `predictions`; `cluster_ids` is not an argument of `find_issues`. -/
def kwarg (task : Task) (c : Call V) (arg : String) : Option V :=
  if arg = "pred_probs" then c.predProbs
  else if arg = "features" then c.features
  else if arg = "knn_graph" then c.knnGraph
  else if arg = "predictions" then (if task = .regression then c.predProbs else none)
  else none

/-- The arguments of one check that were passed (not `None`). -/
def passed (task : Task) (c : Call V) (args : List String) : List (String × V) :=
  args.filterMap (fun a => (kwarg task c a).map (fun v => (a, v)))

/-- `_resolve_required_args_for_…`, `issue_finder.py:73-162`: the checks for which at least one argument was passed or
that need none. -/
def resolve (task : Task) (c : Call V) : List (String × List (String × V)) :=
  ((argTable task).map (fun e => (e.1, e.2, passed task c e.2))).filterMap
    (fun e => if e.2.2 ≠ [] ∨ e.2.1 = [] then some (e.1, e.2.2) else none)

/-- An inner dictionary of `issue_types`; values may be `None`. -/
abbrev Dict (V : Type) := List (String × Option V)

/-- `missing_dict`, `issue_finder.py:372-377` (the iteration order of the Python set does not matter). -/
def missing (required : List (String × V)) (d : Dict V) : Dict V :=
  (required.filter (fun e => e.1 ∉ d.map (·.1))).map (fun e => (e.1, some e.2))

/-- The loop body of `_check_missing_args`, `issue_finder.py:371-378`: the inner dictionary is updated in place. -/
def imputeStep (required : List (String × List (String × V))) (heap : ℕ → Dict V) (e : String × ℕ) : ℕ → Dict V :=
  Function.update heap e.2 (heap e.2 ++ missing ((required.lookup e.1).getD []) (heap e.2))

/-- `_check_missing_args`, `issue_finder.py:369-378`. -/
def impute (required : List (String × List (String × V))) (heap : ℕ → Dict V) (outer : List (String × ℕ)) :
    ℕ → Dict V :=
  outer.foldl (imputeStep required) heap

/-- `issue_finder.py:363-365`: remove `None` values (in new dictionaries). -/
def dropNone (d : Dict V) : List (String × V) := d.filterMap (fun e => e.2.map (fun v => (e.1, v)))

/-- `_set_issue_types`, `issue_finder.py:322-367`, and the same selection at lines 431-437.  The validation at line 361
cannot fail: after `_check_missing_args` no required argument is missing. Also returns the heap. -/
def setIssueTypes (task : Task) (c : Call V) (heap : ℕ → Dict V) (issueTypes : Option (List (String × ℕ))) :
    (ℕ → Dict V) × List (String × List (String × V)) :=
  match issueTypes with
  | some outer =>
    let heap' := impute (resolve task c) heap outer
    (heap', outer.map (fun e => (e.1, dropNone (heap' e.2))))
  | none =>
    (heap, (defaultTypes task).filterMap (fun t => ((resolve task c).lookup t).map (fun args => (t, args))))

/-- `drop_underperforming_group_check`, `issue_finder.py:473-487`. -/
def groupArgsOk (args : List (String × V)) : Bool :=
  let has := fun a => (args.lookup a).isSome
  (has "pred_probs" && has "features") || (has "pred_probs" && has "knn_graph") ||
    (has "pred_probs" && has "cluster_ids")

/-- The checks dropped at the end of `get_available_issue_types`, `issue_finder.py:438-487`.  The condition of line 449
compares an enum member with a string, is always false, and so nothing is dropped there. -/
def keep (task : Task) (hasLabels : Bool) (e : String × List (String × V)) : Bool :=
  !(e.1 = "label" && !hasLabels && task ≠ .regression) &&
  !(e.1 = "class_imbalance" && !hasLabels && task = .classification) &&
  !(e.1 = "underperforming_group" && !groupArgsOk e.2)

/-- `get_available_issue_types`, `issue_finder.py:396-489`: the heap afterwards and the checks with their
arguments. -/
def getAvailable (task : Task) (hasLabels : Bool) (c : Call V) (heap : ℕ → Dict V)
    (issueTypes : Option (List (String × ℕ))) : (ℕ → Dict V) × List (String × List (String × V)) :=
  let r := setIssueTypes task c heap issueTypes
  (r.1, r.2.filter (keep task hasLabels))

/-- `find_issues` up to the start of the checks, `issue_finder.py:232-304`: unknown check names raise after the
dictionaries were already changed. -/
def findIssues (task : Task) (registry : List String) (hasLabels : Bool) (c : Call V) (heap : ℕ → Dict V)
    (issueTypes : Option (List (String × ℕ))) :
    (ℕ → Dict V) × Except String (List (String × List (String × V))) :=
  let r := getAvailable task hasLabels c heap issueTypes
  (r.1, if r.2.all (fun e => e.1 ∈ registry) then .ok r.2 else .error "Invalid issue type")

/-- A history of calls with their arguments; what each call ran. -/
def history (task : Task) (registry : List String) (hasLabels : Bool) :
    (ℕ → Dict V) → List (Call V × Option (List (String × ℕ))) →
      List (Except String (List (String × List (String × V))))
  | _, [] => []
  | heap, (c, t) :: rest =>
    let r := findIssues task registry hasLabels c heap t
    r.2 :: history task registry hasLabels r.1 rest

end Cleanlab.Finder
