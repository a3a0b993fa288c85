import Verif.Np.Lemmas

/-!
# Sorting a list by a key

`sorted(l, key=...)` and `DataFrame.sort_values`; which order equal keys get is left open.
-/

namespace Np

variable {α β : Type} [LinearOrder α]

/-- `sorted(l, key=key)`. -/
def sortOn (A : ArgSort α) (key : β → α) (l : List β) : List β := (A.indices (fun r => key (l.get r))).map l.get

theorem sortOn_perm (A : ArgSort α) (key : β → α) (l : List β) : (sortOn A key l).Perm l := by
  unfold sortOn
  refine ((A.perm_indices _).map l.get).trans ?_
  rw [show (List.finRange l.length).map l.get = l from by rw [← List.ofFn_eq_map]; exact List.ofFn_get l]

theorem mem_sortOn (A : ArgSort α) (key : β → α) (l : List β) (x : β) : x ∈ sortOn A key l ↔ x ∈ l :=
  (sortOn_perm A key l).mem_iff

theorem sortOn_sorted (A : ArgSort α) (key : β → α) (l : List β) :
    (sortOn A key l).Pairwise (fun x y => key x ≤ key y) := by
  unfold sortOn
  rw [List.pairwise_map]
  exact A.pairwise_indices _

theorem length_sortOn (A : ArgSort α) (key : β → α) (l : List β) : (sortOn A key l).length = l.length :=
  (sortOn_perm A key l).length_eq

end Np
