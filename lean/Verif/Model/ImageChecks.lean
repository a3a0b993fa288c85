import Verif.Model.IssueFinder
import Verif.Model.Spurious

/-!
# Model of the choice of image checks, `cleanlab/datalab/internal/adapter/imagelab.py`

Which checks `find_issues` runs for a data set with images: the ordinary ones (`Model/IssueFinder`), those of the image
library and the search for spurious correlations (`Model/Spurious`).  Only the choice of the checks and their parameters is
modelled here; `Model/Imagelab` has the tables they produce.
-/

namespace Cleanlab.ImageChecks

open Cleanlab.Finder

/-- The parameters of an image check. -/
abbrev Params := List (String × ℚ)

/-- `DEFAULT_CLEANVISION_ISSUES`, `adapter/constants.py:7-17`. -/
def defaultChecks : List (String × Params) :=
  [("dark", []), ("light", []), ("low_information", [("threshold", 15 / 100)]), ("odd_aspect_ratio", []),
   ("odd_size", []), ("grayscale", []), ("blurry", [])]

/-- The argument `issue_types`: the ordinary checks with references to their dictionaries, the value of
`"image_issue_types"` and that of `"spurious_correlations"` (its threshold, if it has one), where these keys are
present. -/
structure IssueTypes where
  checks : List (String × ℕ)
  image : Option (List (String × Params))
  spurious : Option (Option ℚ)

/-- Python's `not issue_types` for a dictionary. -/
def IssueTypes.isEmpty (t : IssueTypes) : Bool := t.checks.isEmpty && t.image.isNone && t.spurious.isNone

/-- The body of the loop of `_get_imagelab_issue_types`, `imagelab.py:324-328`. -/
def fillParams (e : String × Params) : Except String (String × Params) :=
  if e.2 = [] then
    match defaultChecks.lookup e.1 with
    | none => .error ("KeyError: " ++ e.1)
    | some p => .ok (e.1, p)
  else .ok e

/-- `_get_imagelab_issue_types`, `imagelab.py:316-330`. -/
def imageTypes : Option IssueTypes → Except String (Option (List (String × Params)))
  | none => .ok (some defaultChecks)
  | some t =>
    match t.image with
    | none => .ok none
    | some requested => (requested.mapM fillParams).map some

/-- The part of `issue_types` that matters for the spurious correlations, `imagelab.py:370` and `389-399`. -/
def spuriousRequest : Option IssueTypes → Spurious.Request
  | none => .trivial
  | some t =>
    if t.isEmpty then .trivial
    else
      match t.spurious with
      | none => .others
      | some threshold => .asked threshold

/-- What a call does: the ordinary checks that start, the call of the image library, the threshold of the search for
spurious correlations if it starts, and the exception that leaves `find_issues`. -/
structure Outcome (V : Type) where
  ordinary : List (String × List (String × V))
  image : Option (List (String × Params))
  correlations : Option ℚ
  raised : Option String

/-- The score columns of the image library after a call with the types `run`, `imagelab.py:354-366`; if the library raises
(`succeeds` is false) the exception is printed and the columns are those of before. -/
def scoresAfter (scores : List String) (run : Option (List (String × Params))) (succeeds : Bool) : List String :=
  match run with
  | none => scores
  | some l => if l.isEmpty then scores else if succeeds then scores ++ l.map Prod.fst else scores

/-- `imagelab.py:368-399`: the threshold with which the spurious correlations are searched. -/
def correlationThreshold (scores : List String) (request : Spurious.Request) : Option ℚ :=
  match request with
  | .others => none
  | .trivial => if defaultChecks.all (fun e => e.1 ∉ scores) then none else some Spurious.defaultThreshold
  | .asked t =>
    if defaultChecks.all (fun e => e.1 ∉ scores) then none else some (t.getD Spurious.defaultThreshold)

variable {V : Type}

/-- `ImagelabIssueFinderAdapter.find_issues`, `imagelab.py:332-411`.  `scores` are the types of which the image library has
scores before the call; `succeeds` says whether it finishes without an exception. -/
def findIssues (task : Task) (registry : List String) (hasLabels : Bool) (c : Call V) (heap : ℕ → Dict V)
    (scores : List String) (succeeds : Bool) (types : Option IssueTypes) : (ℕ → Dict V) × Outcome V :=
  let r := Finder.findIssues task registry hasLabels c heap (types.map IssueTypes.checks)
  (r.1,
    match r.2 with
    | .error e => ⟨[], none, none, some e⟩
    | .ok ordinary =>
      match imageTypes types with
      | .error e => ⟨ordinary, none, none, some e⟩
      | .ok run =>
        ⟨ordinary, run.filter (fun l => !l.isEmpty),
          correlationThreshold (scoresAfter scores run succeeds) (spuriousRequest types), none⟩)

/-- `Datalab.find_issues`, `datalab.py:335-350`, for a data set with images: with an empty dictionary it warns and
returns. -/
def datalabFindIssues (task : Task) (registry : List String) (hasLabels : Bool) (c : Call V) (heap : ℕ → Dict V)
    (scores : List String) (succeeds : Bool) (types : Option IssueTypes) : (ℕ → Dict V) × Outcome V :=
  if types.any IssueTypes.isEmpty then (heap, ⟨[], none, none, none⟩)
  else findIssues task registry hasLabels c heap scores succeeds types

/-- `create_imagelab`, `imagelab.py:46-65`: whether there is an image library, for a key (`None` or text) and a data set
that is one of Hugging Face or not. -/
def createImagelab (imageKey : Option String) (isHuggingFace : Bool) : Except String Bool :=
  match imageKey with
  | none => .ok false
  | some key =>
    if key = "" then .ok false
    else if isHuggingFace then .ok true
    else .error "For now, only huggingface datasets are supported for running cleanvision checks inside cleanlab"

end Cleanlab.ImageChecks
