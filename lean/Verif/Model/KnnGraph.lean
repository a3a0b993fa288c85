import Verif.Np.SortOn

/-!
# Model of the duplicate correction in `cleanlab/internal/neighbor/knn_graph.py`

A row of the graph lists the neighbours of a point with their distances: the two arrays `indices` and `distances` have the
same shape and their entries are always moved together.
-/

namespace Cleanlab.Knn

open Np

variable {N : ℕ}

/-- The neighbour rows of a kNN graph. -/
abbrev Graph (N : ℕ) := Fin N → List (Fin N × ℚ)

/-- `_compute_exact_duplicate_sets`, `knn_graph.py:250-290`; `values` lists the distinct feature vectors in the order
in which Python iterates over `set(unique_inverse)`. -/
def duplicateSets {X : Type} [DecidableEq X] (features : Fin N → X) (values : List X) : List (List (Fin N)) :=
  (values.map (fun v => (List.finRange N).filter (fun i => features i = v))).filter (fun s => 1 < s.length)

/-- Row `i` of `scipy.linalg.circulant(c)` without its first column. -/
def circulantRow (c : List (Fin N)) (i : ℕ) : List (Fin N) :=
  ((List.range (c.length - 1)).map (fun j => c[(i + c.length - (j + 1)) % c.length]?)).reduceOption

/-- Row `i` of `_prepare_neighborhood_of_first_k_duplicates`, `knn_graph.py:402-460`. -/
def firstDuplicatesRow (S : ArgSort (Fin N)) (dups : List (Fin N)) (inc i : ℕ) : List (Fin N) :=
  sortOn S id (circulantRow (dups.take (inc + 1)) i)

/-- The new row of the point at position `i` of the duplicate set, `knn_graph.py:357-397`. A set of one point makes the
slice `:-0` empty, so the assignment fails. -/
def correctRow (S : ArgSort (Fin N)) (B : ArgSort Bool) (k : ℕ) (dups : List (Fin N)) (i : ℕ)
    (row : List (Fin N × ℚ)) : Except String (List (Fin N × ℚ)) :=
  let inc := min (dups.length - 1) k
  if k + 1 ≤ dups.length then
    if i < k + 1 then .ok ((firstDuplicatesRow S dups inc i).map (fun j => (j, 0)))
    else .ok ((dups.take k).map (fun j => (j, 0)))
  else if inc = 0 then .error "ValueError"
  else .ok ((firstDuplicatesRow S dups inc i).map (fun j => (j, 0)) ++
    (sortOn B (fun e => decide (e.1 ∈ dups)) row).take (row.length - inc))

/-- One round of the loop, `knn_graph.py:356-397`: all rows of the set are replaced. -/
def correctSet (S : ArgSort (Fin N)) (B : ArgSort Bool) (k : ℕ) (g : Graph N) (dups : List (Fin N)) :
    Except String (Graph N) :=
  dups.zipIdx.foldlM (fun acc pi => do
    let r ← correctRow S B k dups pi.2 (g pi.1)
    return Function.update acc pi.1 r) g

/-- `correct_knn_distances_and_indices_with_exact_duplicate_sets_inplace`, `knn_graph.py:293-399`. -/
def correctDuplicates (S : ArgSort (Fin N)) (B : ArgSort Bool) (k : ℕ) (g : Graph N) (sets : List (List (Fin N))) :
    Except String (Graph N) :=
  sets.foldlM (correctSet S B k) g

end Cleanlab.Knn
