import Verif.Model.DatalabChecks

/-!
# Model of the spurious correlation check, `cleanlab/datalab/internal/adapter/imagelab.py`

The scores are those of `Model/DatalabChecks` (`spurious_correlation.py`).  The cross-validated accuracy of the naive
Bayes classifier (scikit-learn) is a parameter.
-/

namespace Cleanlab.Spurious

open Cleanlab.Checks

/-- `calculate_correlations`, `spurious_correlation.py:33-46`, for distinct properties; `accuracy` is
`_train_and_eval` of the column of a property.  The baseline is computed first, so that an exception does not depend on the
properties. -/
def calculateCorrelations (labels : List ℕ) (accuracy : String → ℚ) (properties : List String) :
    Except String (List (String × ℚ)) :=
  match getBaseline labels with
  | .error e => .error e
  | .ok b => .ok (properties.map (fun p => (p, relativeRoom b (accuracy p))))

/-- `info["spurious_correlations"]`, `imagelab.py:427-430`. -/
structure Info where
  correlations : List (String × ℚ)
  threshold : ℚ

/-- The default threshold, `adapter/constants.py:1-5`. -/
def defaultThreshold : ℚ := 3 / 10

/-- `issue_types` as far as this check is concerned: `None` or empty, without the key, or with it and maybe with a
threshold. -/
inductive Request where
  | trivial
  | others
  | asked (threshold : Option ℚ)

/-- The end of `ImagelabIssueFinderAdapter.find_issues`, `imagelab.py:368-411`: the stored information afterwards.
`columns` are the score columns of `imagelab.issues` and `available` says whether one of the default types is among
them. -/
def runCheck (old : Option Info) (labels : Option (List ℕ)) (accuracy : String → ℚ)
    (columns : List String) (available : Bool) (request : Request) : Option Info :=
  match request with
  | .others => old
  | .trivial => go defaultThreshold
  | .asked t => go (t.getD defaultThreshold)
where
  /-- Lines 373-411 with the threshold. -/
  go (threshold : ℚ) : Option Info :=
    if available = false then old
    else
      match labels with
      | none => old
      | some y =>
        match calculateCorrelations y accuracy columns with
        | .error _ => old
        | .ok rows => some ⟨rows, threshold⟩

/-- The properties shown in the report, `imagelab.py:191-199`, `248-252` and `285-290`: with threshold 0 the reporter is
not created. -/
def reported : Option Info → List String
  | none => []
  | some info =>
    if info.threshold = 0 then [] else (info.correlations.filter (fun r => r.2 < info.threshold)).map (·.1)

end Cleanlab.Spurious
