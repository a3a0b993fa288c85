import Mathlib.Data.List.Basic
import Mathlib.Data.Int.Notation
import Mathlib.Data.Nat.Notation

/-!
# Model of `cleanlab/datalab/internal/serialize.py`

One path of the file system is modelled. Pickling is exact, and an incomplete pickle file does not load. A save is a list
of file writes that may be interrupted after any of them.
-/

namespace Cleanlab.Serialize

/-- A `datasets.Dataset` object: what `hash` returns for it, and its number of rows. -/
structure Dataset where
  hash : ℤ
  rows : ℕ
deriving DecidableEq

/-- The `data` argument of the constructor and of `load`. Data frames, dictionaries and lists are accepted by the
constructor, are converted to a `Dataset`, and have no hash. -/
inductive DataArg where
  | dataset (d : Dataset)
  | str (hash : ℤ) (len : ℕ)
  | frame (rows : ℕ)
  | dict (columns : ℕ)
  | list (rows : ℕ)
deriving DecidableEq

/-- `hash(data)`; `none` stands for the `TypeError` of unhashable types. -/
def DataArg.hash : DataArg → Option ℤ
  | .dataset d => some d.hash
  | .str h _ => some h
  | _ => none

/-- `len(data)`. -/
def DataArg.len : DataArg → ℕ
  | .dataset d => d.rows
  | .str _ n => n
  | .frame n => n
  | .dict n => n
  | .list n => n

/-- A lab. `dataHash` is `hash(datalab._data)`, that is `Data._data_hash` (`data.py:144` and `data.py:180`); `labels` are the
formatted labels, empty for a lab without label name (`data.py:258-267`); `rest` is everything else that is pickled. -/
structure Lab (R : Type) where
  dataHash : ℤ
  data : Dataset
  labels : List ℕ
  rest : R
deriving DecidableEq

/-- A file: complete, with the lab it was written from, or incomplete. -/
inductive File (R : Type) where
  | complete (lab : Lab R)
  | incomplete
deriving DecidableEq

/-- The folder of a saved lab. -/
structure Dir (R : Type) where
  pkl : Option (File R)
  issues : Option (File R)
  summary : Option (File R)
  data : Option (File R)
deriving DecidableEq

/-- What is at the path. -/
inductive Entry (R : Type) where
  | absent
  | file
  | dir (d : Dir R)
deriving DecidableEq

variable {R : Type}

/-- The folder made by `os.mkdir`. -/
def emptyDir : Dir R := ⟨none, none, none, none⟩

/-- The file writes of `serialize`, `serialize.py:76-85` with `serialize.py:28-41`: opening a file for writing makes it
incomplete. -/
def writes (lab : Lab R) : List (Dir R → Dir R) :=
  [fun d => { d with pkl := some .incomplete },
   fun d => { d with pkl := some (.complete lab) },
   fun d => { d with issues := some .incomplete },
   fun d => { d with issues := some (.complete lab) },
   fun d => { d with summary := some .incomplete },
   fun d => { d with summary := some (.complete lab) },
   fun d => { d with data := some .incomplete },
   fun d => { d with data := some (.complete lab) }]

/-- The folder after the first `k` writes. -/
def afterWrites (lab : Lab R) (k : ℕ) (d : Dir R) : Dir R := ((writes lab).take k).foldl (fun d w => w d) d

/-- `serialize`, `serialize.py:55-85`, interrupted after `k` writes. -/
def saveUpTo (lab : Lab R) (force : Bool) (k : ℕ) (e : Entry R) : Entry R × Except String Unit :=
  let run := fun d => (Entry.dir (afterWrites lab k d),
    if k < (writes lab).length then Except.error "interrupted" else Except.ok ())
  match e with
  | .absent => run emptyDir
  | .file => if force then (.file, .error "NotADirectoryError") else (.file, .error "FileExistsError")
  | .dir d => if force then run d else (.dir d, .error "FileExistsError")

/-- `serialize` when nothing interrupts it. -/
def save (lab : Lab R) (force : Bool) (e : Entry R) : Entry R × Except String Unit :=
  saveUpTo lab force (writes lab).length e

/-- `pickle.load` of the object file, `serialize.py:91-95`. -/
def unpickle (e : Entry R) : Except String (Lab R) :=
  match e with
  | .absent => .error "ValueError: no folder"
  | .file => .error "NotADirectoryError"
  | .dir d =>
    match d.pkl with
    | none => .error "FileNotFoundError"
    | some .incomplete => .error "EOFError"
    | some (.complete lab) => .ok lab

/-- `Data(data, …)` for an argument whose hash was accepted, `data.py:136-161`: a `Dataset` is kept as it is. A string is read
from disk into a `Dataset` that `read` gives. -/
def rebuild (read : ℤ → Dataset) : DataArg → Dataset
  | .dataset d => d
  | .str h _ => read h
  | .frame n => ⟨0, n⟩
  | .dict n => ⟨0, n⟩
  | .list n => ⟨0, n⟩

/-- `deserialize`, `serialize.py:88-123`. The pickled object always has its issue tables, so the `.csv` files are not
read. -/
def load (read : ℤ → Dataset) (e : Entry R) (data : Option DataArg) : Except String (Lab R) := do
  let lab ← unpickle e
  match data with
  | none => return lab
  | some arg =>
    match arg.hash with
    | none => .error "TypeError"
    | some h =>
      if h ≠ lab.dataHash then .error "ValueError: modified"
      else if arg.len ≠ lab.labels.length then .error "ValueError: length"
      else
        let d := rebuild read arg
        return { lab with dataHash := d.hash, data := d }

end Cleanlab.Serialize
