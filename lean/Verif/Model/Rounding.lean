import Verif.Np.Basic

/-!
# Model of the rounding helpers of `cleanlab/internal/util.py`
-/

namespace Cleanlab.Util

open Np

/-- `cleanlab/internal/constants.py:1`, `FLOATING_POINT_COMPARISON`. -/
def floatingPointComparison : ℚ := 1 / 1000000

/-- `for i in indices: ints[i] = ints[i] + increment`, `internal/util.py:223-224`. -/
def bumpAll {n : ℕ} (increment : ℤ) (indices : List (Fin n)) (ints : Fin n → ℤ) : Fin n → ℤ :=
  indices.foldl (fun a i => Function.update a i (a i + increment)) ints

/-- The `while` loop of `round_preserving_sum`, `internal/util.py:216-225`.
The recursion is a genuine `while` loop: the result is `none` if it never ends.
`int_sum` is a sum of integers, so its rounding in the code is the identity. -/
def roundLoop (A : ArgSort ℚ) {n : ℕ} (floats : Fin n → ℚ) (ints : Fin n → ℤ) :
    Option (Fin n → ℤ) :=
  let origSum : ℤ := rint (∑ i, floats i)
  let intSum : ℤ := ∑ i, ints i
  if |((intSum - origSum : ℤ) : ℚ)| > floatingPointComparison then
    let diff := origSum - intSum
    let increment : ℤ := if diff < 0 then -1 else 1
    let changes := min diff.natAbs n
    let order := A.indices (fun i => floats i - (ints i : ℚ))
    -- `[::-increment]`: reversed if `increment = 1`
    let indices := (if diff < 0 then order else order.reverse).take changes
    roundLoop A floats (bumpAll increment indices ints)
  else some ints
partial_fixpoint

/-- `round_preserving_sum`, `internal/util.py:194-226`. -/
def roundPreservingSum (A : ArgSort ℚ) {n : ℕ} (floats : Fin n → ℚ) : Option (Fin n → ℤ) :=
  roundLoop A floats (fun i => rint (floats i))

/-- `round_preserving_row_totals`, `internal/util.py:229-248`: the rows are rounded one by one.
The call ends only if the loop ends on every row. -/
def roundPreservingRowTotals (A : ArgSort ℚ) {m n : ℕ} (cj : Fin m → Fin n → ℚ) :
    Option (Fin m → Fin n → ℤ) :=
  if h : ∀ k, (roundPreservingSum A (cj k)).isSome then
    some (fun k => (roundPreservingSum A (cj k)).get (h k))
  else none

end Cleanlab.Util
