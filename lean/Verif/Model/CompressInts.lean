import Mathlib.Data.Int.Order.Basic

/-!
# Model of the integer columns of the issue table

`compress_int_array`, `cleanlab/internal/util.py:387-398`, used by `CleanLearning.find_label_issues`,
`cleanlab/classification.py:929-930`. Values of a signed type of `b` bits are the integers from `-2 ^ (b - 1)` to
`2 ^ (b - 1) - 1`, and `astype` keeps the value modulo `2 ^ b`.
-/

namespace Cleanlab.CompressInts

/-- The types of an integer column. -/
inductive Width
  | int16
  | int32
  /-- the type of the array as it is -/
  | unchanged
deriving DecidableEq

/-- `np.iinfo(np.dtype("int16")).max`. -/
def maxInt16 : ℕ := 2 ^ 15 - 1

/-- `np.iinfo(np.dtype("int32")).max`. -/
def maxInt32 : ℕ := 2 ^ 31 - 1

/-- The type that is chosen, `util.py:390-394`. -/
def chosen (numPossible : ℕ) : Width :=
  if numPossible < maxInt16 then .int16
  else if numPossible < maxInt32 then .int32
  else .unchanged

/-- `x.astype(width)` for one value. -/
def cast : Width → ℤ → ℤ
  | .int16, x => Int.bmod x (2 ^ 16)
  | .int32, x => Int.bmod x (2 ^ 32)
  | .unchanged, x => x

/-- `compress_int_array`, `util.py:387-398`. Without `astype` (lists) the values are returned as they are; `isArray` says whether
there is one. -/
def compress (isArray : Bool) (xs : List ℤ) (numPossible : ℕ) : List ℤ :=
  if isArray then xs.map (cast (chosen numPossible)) else xs

end Cleanlab.CompressInts
