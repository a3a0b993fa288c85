import Verif.Model.Multilabel
import Verif.Np.SortOn

/-!
# Model of `cleanlab/multilabel_classification/dataset.py`

`rnd` is the rounding of a floating point operation, for the places where the code truncates a float.  The data frames are
lists of rows; `sort_values` leaves the order of equal rows open, so it is an arbitrary sort.  Without examples the code
divides by zero; the theorems assume an example.
-/

namespace Cleanlab.MultilabelDataset

open Np Cleanlab.Util Cleanlab.Count Cleanlab.Rank Cleanlab.Filter Cleanlab.Multilabel

variable {n K : ℕ}

/-- A row of `common_multilabel_issues`; `given` is the column "In Given Label" (the negation of "In Suggested Label"). -/
structure IssueRow (K : ℕ) where
  cls : Fin K
  given : Bool
  count : ℕ
  prob : ℚ
deriving DecidableEq

/-- `true_but_false_count` and `false_but_true_count`, `dataset.py:73-76`. -/
def issueCount (y : Fin n → Fin K → Bool) (k : Fin K) (issues : List (Fin n)) (given : Bool) : ℕ :=
  (Finset.univ.filter (fun i => y i k = given ∧ i ∈ issues)).card

/-- A row, `dataset.py:78-92`. -/
def issueRow (rnd : ℚ → ℚ) (y : Fin n → Fin K → Bool) (lists : Fin K → List (Fin n)) (k : Fin K) (given : Bool) :
    IssueRow K where
  cls := k
  given := given
  count := issueCount y k (lists k) given
  prob := rnd ((issueCount y k (lists k) given : ℚ) / (n : ℚ))

/-- The rows before sorting, `dataset.py:72-92`. -/
def issueRows (rnd : ℚ → ℚ) (y : Fin n → Fin K → Bool) (lists : Fin K → List (Fin n)) : List (IssueRow K) :=
  (List.finRange K).flatMap (fun k => [issueRow rnd y lists k true, issueRow rnd y lists k false])

/-- `common_multilabel_issues`, `dataset.py:18-97`. -/
def commonIssues (rnd : ℚ → ℚ) (A A' : ArgSort ℚ) (y : Fin n → Fin K → Bool) (P : Fin n → Fin K → ℚ)
    (cj : Option (Fin K → Fin 2 → Fin 2 → ℚ)) : Except String (List (IssueRow K)) := do
  let lists ← issuesPerClassRanked A A' selfConf y P { filterBy := .pruneByNoiseRate, confidentJoint := cj }
  return sortOn A' (fun r => -r.prob) (issueRows rnd y lists)

/-- A row of `rank_classes_by_multilabel_quality`. -/
structure ClassRow (K : ℕ) where
  cls : Fin K
  labelIssues : ℤ
  inverseLabelIssues : ℤ
  labelNoise : ℚ
  inverseLabelNoise : ℚ
  quality : ℚ
deriving DecidableEq

/-- `int(row["Issue Probability"] * num_examples)`, `dataset.py:162-164`. -/
def countFromProb (rnd : ℚ → ℚ) (n : ℕ) (p : ℚ) : ℤ := ⌊rnd (p * (n : ℚ))⌋

/-- The entries of one class, `dataset.py:158-175`, from its two rows. -/
def classRow (rnd : ℚ → ℚ) (n : ℕ) (g i : IssueRow K) : ClassRow K where
  cls := g.cls
  labelIssues := countFromProb rnd n g.prob
  inverseLabelIssues := countFromProb rnd n i.prob
  labelNoise := g.prob
  inverseLabelNoise := i.prob
  quality := rnd (1 - g.prob)

/-- One row per class, `dataset.py:158-181` (before sorting; the order is irrelevant because the sort is arbitrary on
ties). -/
def classRows (rnd : ℚ → ℚ) (n : ℕ) (rows : List (IssueRow K)) : List (ClassRow K) :=
  (rows.filter (·.given)).filterMap (fun g =>
    (rows.find? (fun i => decide (i.cls = g.cls) && !i.given)).map (classRow rnd n g))

/-- `rank_classes_by_multilabel_quality`, `dataset.py:100-186`.  `common_multilabel_issues` is called with
`confident_joint=joint`; the argument `confident_joint` is only used for the number of examples, which is the number of
labels. -/
def rankClasses (rnd : ℚ → ℚ) (A A' : ArgSort ℚ) (y : Fin n → Fin K → Bool) (P : Fin n → Fin K → ℚ)
    (joint _cj : Option (Fin K → Fin 2 → Fin 2 → ℚ)) : Except String (List (ClassRow K)) := do
  let rows ← commonIssues rnd A A' y P joint
  return sortOn A' (fun r => r.quality) (classRows rnd n rows)

/-- `overall_multilabel_health_score`, `dataset.py:218-243`. -/
def overallHealth (rnd : ℚ → ℚ) (A A' : ArgSort ℚ) (y : Fin n → Fin K → Bool) (P : Fin n → Fin K → ℚ)
    (cj : Option (Fin K → Fin 2 → Fin 2 → ℚ)) : Except String ℚ := do
  let mask ← multilabelIssues A A' y P { filterBy := .pruneByNoiseRate, confidentJoint := cj }
  return rnd (1 - rnd (((Finset.univ.filter (fun i => mask i = true)).card : ℚ) / (n : ℚ)))

end Cleanlab.MultilabelDataset
