import Verif.Model.DatalabData
import Verif.Np.Basic

/-!
# Model of the preparation of multi-annotator labels

`convert_long_to_wide_dataset` (`multiannotator.py:1063-1090`) and `format_multiannotator_labels`
(`internal/multiannotator_utils.py:190-232`). A missing label is `none`; the text `"nan"`, which the code treats as missing,
is `none` as well.
-/

namespace Cleanlab.MultiannotatorFormat

open Np Cleanlab.DatalabData

/-- A row of the long format: task, annotator and label. -/
structure Record (T A L : Type) where
  task : T
  annotator : A
  label : Option L

/-- The wide format: one row per task and one column per annotator. -/
structure Wide (T A L : Type) where
  tasks : List T
  annotators : List A
  rows : List (List (Option L))

section Wide

variable {T A L : Type} [LinearOrder T] [LinearOrder A]

/-- The entry of the pivot table for a task and an annotator. -/
def cell (recs : List (Record T A L)) (t : T) (a : A) : Option L :=
  (recs.find? (fun r => decide (r.task = t ∧ r.annotator = a))).bind Record.label

/-- `convert_long_to_wide_dataset`, `multiannotator.py:1063-1090`: `DataFrame.pivot` sorts tasks and annotators and
raises if a pair of them occurs twice. -/
def longToWide (recs : List (Record T A L)) : Except String (Wide T A L) :=
  if (recs.map (fun r => (r.task, r.annotator))).Nodup then
    let tasks := unique (recs.map Record.task)
    let annotators := unique (recs.map Record.annotator)
    .ok { tasks := tasks, annotators := annotators, rows := tasks.map (fun t => annotators.map (cell recs t)) }
  else .error "Index contains duplicate entries, cannot reshape"

end Wide

/-- The values of the table that are not missing, `multiannotator_utils.py:210-218`. -/
def present {α : Type} (labels : List (List (Option α))) : List α := labels.flatten.filterMap id

/-- An entry after `labels.replace(label_map)`: replaced by its code, or unchanged if it is not a key. -/
inductive Entry (α : Type)
  | missing
  | code (i : ℕ)
  | unchanged (a : α)
  deriving DecidableEq

/-- `labels.replace(label_map)`, `multiannotator_utils.py:230`, on an entry. -/
def replaceEntry {α : Type} (m : α → Option ℕ) : Option α → Entry α
  | none => .missing
  | some a => match m a with
    | some i => .code i
    | none => .unchanged a

/-- `format_multiannotator_labels`, `multiannotator_utils.py:190-232`, for labels that are not floats. -/
def format {α : Type} [LinearOrder α] (labels : List (List (Option α))) : List (List (Entry α)) × List (ℕ × α) :=
  let m := labelMap (present labels)
  (labels.map (fun row => row.map (replaceEntry (fun a => m.lookup a))), inverseMap m)

/-- `{label: i for i, label in enumerate(unique_labels)}`, line 225: a later position replaces an earlier one. -/
def lastIndex (keys : List ℤ) (q : ℚ) : Option ℕ :=
  (keys.zipIdx.reverse.find? (fun p => decide ((p.1 : ℚ) = q))).map Prod.snd

/-- `inverse_map`, line 226: each key once, with its last position. -/
def floatInverse (keys : List ℤ) : List (ℕ × ℤ) :=
  keys.dedup.filterMap (fun k : ℤ => (lastIndex keys (k : ℚ)).map (fun i => (i, k)))

/-- `format_multiannotator_labels` for float labels, which arise from integers as soon as one label is missing: the distinct
values are converted to integers (lines 221-223). -/
def formatFloat (labels : List (List (Option ℚ))) : List (List (Entry ℚ)) × List (ℕ × ℤ) :=
  let keys := (unique (present labels)).map trunc
  (labels.map (fun row => row.map (replaceEntry (lastIndex keys))), floatInverse keys)

end Cleanlab.MultiannotatorFormat
