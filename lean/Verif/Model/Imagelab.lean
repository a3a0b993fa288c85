import Verif.Np.Lemmas

/-!
# Model of the image checks of Datalab, `cleanlab/datalab/internal/adapter/imagelab.py`

`T` are the issue types and `n` is the number of examples.  The image library (cleanvision's `Imagelab`) is modelled by its
results: flags and scores of every type it has been run for so far, in the order of its summary.
-/

namespace Cleanlab.Imagelab

variable {n : ℕ} {T : Type} [DecidableEq T]

/-- The two columns of an issue type. -/
structure Finding (n : ℕ) where
  flags : Fin n → Bool
  scores : Fin n → ℚ

/-- `num_images`. -/
def Finding.count (f : Finding n) : ℕ := (Finset.univ.filter (fun i => f.flags i = true)).card

/-- `Imagelab.find_issues`: the results of the types of this call replace or join the earlier ones. -/
def find (lab : List (T × Finding n)) (results : List (T × Finding n)) : List (T × Finding n) :=
  lab.filter (fun e => e.1 ∉ results.map Prod.fst) ++ results

/-- The issues table (the two columns of each type) and the summary (type and number of issues) of `DataIssues`. -/
structure State (n : ℕ) (T : Type) where
  table : List (T × Finding n)
  summary : List (T × ℕ)

/-- The overlapping types, `imagelab.py:123`. -/
def overlapping (st : State n T) (types : List T) : List T := (st.summary.map Prod.fst).filter (· ∈ types)

/-- `_update_issues_imagelab`, `imagelab.py:93-104`: the columns of the overlapping types are dropped, then all columns of
`imagelab.issues` that are missing are joined. -/
def updateTable (table : List (T × Finding n)) (lab : List (T × Finding n)) (overlap : List T) : List (T × Finding n) :=
  let kept := table.filter (fun e => e.1 ∉ overlap)
  kept ++ lab.filter (fun e => e.1 ∉ kept.map Prod.fst)

/-- `filter_based_on_max_prevalence`, `imagelab.py:106-112`, with `max_num = int(0.1 * n)`; 0.1 is
`IMAGELAB_ISSUES_MAX_PREVALENCE` of `adapter/constants.py`. -/
def prevalent (lab : List (T × Finding n)) : List (T × ℕ) :=
  (lab.map (fun e => (e.1, e.2.count))).filter (fun e => e.2 ≤ n / 10)

/-- `collect_issues_from_imagelab`, `imagelab.py:114-143`. -/
def collect (st : State n T) (lab : List (T × Finding n)) (types : List T) : State n T :=
  { table := updateTable st.table lab (overlapping st types)
    summary := st.summary.filter (fun e => e.1 ∉ overlapping st types) ++ prevalent lab }

/-- The image part of `find_issues`, `imagelab.py:353-364`: one call with the results of its types. -/
def run (s : State n T × List (T × Finding n)) (results : List (T × Finding n)) : State n T × List (T × Finding n) :=
  let lab := find s.2 results
  (collect s.1 lab (results.map Prod.fst), lab)

/-- Several calls. -/
def runs (st : State n T) (calls : List (List (T × Finding n))) : State n T × List (T × Finding n) :=
  calls.foldl run (st, [])

end Cleanlab.Imagelab
