import Verif.Np.Basic
import Mathlib.Data.List.Dedup
import Mathlib.Data.Finset.Sort

/-!
# Model of `value_counts` and `get_missing_classes`, `cleanlab/internal/util.py`
-/

namespace Cleanlab.Util

/-- `np.unique(x)` on class numbers: the distinct values in increasing order. -/
def npUnique (x : List ℕ) : List ℕ := x.dedup.insertionSort (· ≤ ·)

/-- The counts returned by `np.unique(x, return_counts=True)`. -/
def npUniqueCounts (x : List ℕ) : List ℕ := (npUnique x).map (fun u => x.count u)

/-- `value_counts(x, num_classes=K)`, `internal/util.py:113-168` (not `multi_label`), for labels that are class
numbers; `isInt` says whether the dtype of `x` is an integer type (`False` for float arrays and object arrays).
Result: the vector of counts, or the exception. -/
def valueCounts (isInt : Bool) (x : List ℕ) (numClasses : Option ℕ) : Except String (List ℕ) :=
  let unique := npUnique x
  let counts := npUniqueCounts x
  match numClasses with
  | none => .ok counts
  | some K =>
    if K = unique.length then .ok counts
    else if isInt then
      match unique.max? with
      | none => .error "zero-size array to reduction operation maximum"
      | some m =>
        if K ≤ m then .error "Required: num_classes > max(x)"
        else
          -- `total_counts[unique_classes] = counts`
          .ok (unique.foldl (fun total u => total.set u (x.count u)) (List.replicate K 0))
    else if K < unique.length then .error "could not broadcast input array"
    else
      -- `total_counts[slice(len(unique_classes))] = counts`
      .ok (counts ++ List.replicate (K - unique.length) 0)

/-- `get_missing_classes`, `internal/util.py:180-191`, for integer labels. -/
def getMissingClasses (labels : List ℕ) (K : ℕ) : List ℕ :=
  ((List.range K).filter (fun k => k ∉ npUnique labels)).insertionSort (· ≤ ·)

end Cleanlab.Util
