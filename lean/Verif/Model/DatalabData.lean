import Mathlib.Data.List.Dedup
import Mathlib.Data.List.Sort

/-!
# Model of the label encoding in `cleanlab/datalab/internal/data.py`
-/

namespace Cleanlab.DatalabData

variable {α : Type} [LinearOrder α]

/-- `np.unique(labels)`: the distinct values in ascending order. -/
def unique (labels : List α) : List α := labels.dedup.insertionSort (· ≤ ·)

/-- `{label: i for i, label in enumerate(np.unique(labels))}`, `data.py:332` and `data.py:386`. -/
def labelMap (labels : List α) : List (α × ℕ) := (unique labels).zipIdx

/-- `label_map[label]`; `label_map.get` followed by the conversion to `int` also raises for a missing key. -/
def code (m : List (α × ℕ)) (x : α) : Except String ℕ :=
  match m.lookup x with
  | some i => .ok i
  | none => .error "KeyError"

/-- `inverse_map = {i: label for label, i in label_map.items()}`, `data.py:334` and `data.py:388`. -/
def inverseMap (m : List (α × ℕ)) : List (ℕ × α) := m.map (fun p => (p.2, p.1))

/-- `MultiClass._extract_labels` for a column that is not a `ClassLabel`, `data.py:372-390`; also `format_labels`,
`internal/util.py:563-585`. -/
def multiClass (labels : List α) : Except String (List ℕ × List (ℕ × α)) := do
  let m := labelMap labels
  let codes ← labels.mapM (code m)
  return (codes, inverseMap m)

/-- `MultiLabel._extract_labels`, `data.py:323-335`. -/
def multiLabel (labels : List (List α)) : Except String (List (List ℕ) × List (ℕ × α)) := do
  let m := labelMap labels.flatten
  let codes ← labels.mapM (fun l => l.mapM (code m))
  return (codes, inverseMap m)

/-- `MultiClass._extract_labels` for a `ClassLabel` column with the given names, `data.py:379-390`: the column already holds
integers, and `str2int` is the position of a name. -/
def classLabel (names : List α) (column : List ℕ) : List ℕ × List (ℕ × α) :=
  (column, inverseMap (names.map (fun s => (s, names.idxOf s))))

/-- `class_names`, `data.py:289-294`. -/
def classNames (m : List (ℕ × α)) : List α := m.map Prod.snd

end Cleanlab.DatalabData
