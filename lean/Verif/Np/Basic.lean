import Mathlib.Algebra.Order.Floor.Ring
import Mathlib.Data.Rat.Floor
import Mathlib.Data.List.NodupEquivFin
import Mathlib.Data.List.FinRange
import Mathlib.Data.List.Sort
import Mathlib.Algebra.BigOperators.Fin
import Mathlib.Algebra.BigOperators.Field
import Mathlib.Algebra.Order.BigOperators.Group.Finset
import Mathlib.Algebra.Order.BigOperators.Ring.Finset
import Mathlib.Tactic.Linarith
import Mathlib.Tactic.Ring
import Mathlib.Tactic.FieldSimp
import Mathlib.Tactic.Positivity
import Mathlib.Tactic.NormNum

/-!
# The numpy operations used by the models

Vectors of length `n` are functions `Fin n → α`; matrices are functions of two indices.
-/

namespace Np

/-- `np.round` / `np.rint` on one number: round to the nearest integer, ties to even. -/
def rint (x : ℚ) : ℤ :=
  if x - ⌊x⌋ < 1 / 2 then ⌊x⌋
  else if x - ⌊x⌋ > 1 / 2 then ⌊x⌋ + 1
  else if ⌊x⌋ % 2 = 0 then ⌊x⌋
  else ⌊x⌋ + 1

/-- Python `int(x)` / `astype(int)`: truncation towards zero. -/
def trunc (x : ℚ) : ℤ := if 0 ≤ x then ⌊x⌋ else ⌈x⌉

/-- The position of the first maximum among the classes of a list (`np.argmax`),
starting from a current best. -/
def argmaxFrom {ι α : Type} [LinearOrder α] (f : ι → α) : ι → List ι → ι
  | b, [] => b
  | b, i :: is => if f b < f i then argmaxFrom f i is else argmaxFrom f b is

/-- `np.argmax` of a non-empty vector: the first index with the maximal value. -/
def argmax {α : Type} [LinearOrder α] {n : ℕ} [NeZero n] (f : Fin n → α) : Fin n :=
  argmaxFrom f 0 (List.finRange n)

/-- `np.argmin` of a non-empty vector: the first index with the minimal value. -/
def argmin {α : Type} [LinearOrder α] {n : ℕ} [NeZero n] (f : Fin n → α) : Fin n :=
  argmax (fun i => OrderDual.toDual (f i))

/-- `np.argsort`.  Numpy's default sort is not stable, so the model is parametric in the
permutation chosen: any permutation that sorts the values is allowed. -/
structure ArgSort (α : Type) [LinearOrder α] where
  /-- the sorting permutation returned for a vector -/
  perm : {n : ℕ} → (Fin n → α) → Equiv.Perm (Fin n)
  /-- the permuted vector is non-decreasing -/
  sorted : ∀ {n : ℕ} (v : Fin n → α), Monotone (v ∘ perm v)

/-- The index array returned by `np.argsort`. -/
def ArgSort.indices {α : Type} [LinearOrder α] (A : ArgSort α) {n : ℕ} (v : Fin n → α) :
    List (Fin n) :=
  (List.finRange n).map (A.perm v)

/-- The positions of a vector in stable sorted order (insertion sort). -/
def stableOrder {α : Type} [LinearOrder α] {n : ℕ} (v : Fin n → α) : List (Fin n) :=
  (List.finRange n).insertionSort (fun i j => v i ≤ v j)

theorem stableOrder_perm {α : Type} [LinearOrder α] {n : ℕ} (v : Fin n → α) :
    (stableOrder v).Perm (List.finRange n) := List.perm_insertionSort _ _

theorem length_stableOrder {α : Type} [LinearOrder α] {n : ℕ} (v : Fin n → α) :
    (stableOrder v).length = n := by
  rw [(stableOrder_perm v).length_eq, List.length_finRange]

/-- A stable sort is one admissible `argsort`; it is what numpy does on short arrays. -/
def stableSort (α : Type) [LinearOrder α] : ArgSort α where
  perm {n} v := (finCongr (length_stableOrder v).symm).trans
    (List.Nodup.getEquivOfForallMemList (stableOrder v)
      ((stableOrder_perm v).nodup_iff.mpr (List.nodup_finRange n))
      (fun i => (stableOrder_perm v).mem_iff.mpr (List.mem_finRange i)))
  sorted {n} v := by
    intro a b hab
    have hp : (stableOrder v).Pairwise (fun i j => v i ≤ v j) := by
      have : IsTrans (Fin n) (fun i j => v i ≤ v j) := ⟨fun _ _ _ h1 h2 => le_trans h1 h2⟩
      have : Std.Total (fun (i j : Fin n) => v i ≤ v j) := ⟨fun i j => le_total (v i) (v j)⟩
      exact List.pairwise_insertionSort _ _
    rcases eq_or_lt_of_le hab with rfl | hlt
    · exact le_refl _
    · exact List.pairwise_iff_get.mp hp _ _ (by simpa using hlt)

theorem stableSort_indices {α : Type} [LinearOrder α] {n : ℕ} (v : Fin n → α) :
    (stableSort α).indices v = stableOrder v := by
  apply List.ext_getElem
  · simp [ArgSort.indices, length_stableOrder]
  · intro i h1 h2
    simp [ArgSort.indices, stableSort]

end Np
