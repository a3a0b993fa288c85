import Verif.Np.Lemmas
import Mathlib.Analysis.SpecialFunctions.Trigonometric.DerivHyp
import Mathlib.Data.Rat.Floor

/-!
# Model of the non-IID check, `cleanlab/datalab/internal/issue_manager/noniid.py`

`N` examples with `k` neighbours each.  The p-value of the permutation test (`noniid.py:267-299`, a kernel density
estimate of random permutations) is a parameter; see `Model/PermutationTest.lean`.
-/

namespace Cleanlab.NonIid

open Np

variable {N k : ℕ}

/-- `neighbor_index_distances`, `noniid.py:190-191`: the index gaps of an example and its neighbours. -/
def gaps (nbr : Fin N → Fin k → Fin N) (i : Fin N) : List ℕ :=
  List.ofFn (fun r => (((i : ℕ) : ℤ) - ((nbr i r : ℕ) : ℤ)).natAbs)

/-- `np.sort` of natural numbers. -/
def sortNat (l : List ℕ) : List ℕ := l.insertionSort (· ≤ ·)

/-- `double_distances`, `noniid.py:353-356`. -/
def doubleDistance (N i : ℕ) : ℕ :=
  if i > (N - 1) / 2 then ((i : ℤ) - ((N : ℤ) - 1)).natAbs else i

/-- `background_area`, `noniid.py:373-393`: the area under the background distribution function of example `i` up to
the gap `x`. -/
def backgroundArea (N i x : ℕ) : ℚ :=
  let d : ℚ := doubleDistance N i
  let n1 : ℚ := (N : ℚ) - 1
  let y : ℚ := x
  if y ≤ d then y ^ 2 / n1
  else if y ≤ (N : ℚ) - d - 1 then d ^ 2 / n1 + 1 / 2 * ((y + 3 * d) * (y - d) / n1)
  else d ^ 2 / n1 + 1 / 2 * (2 * d / n1 + 1) * ((N : ℚ) - 2 * d - 1) + (y - ((N : ℚ) - d - 1) * 1)

/-- The row of `area_diffs`, `noniid.py:369-405`: on the interval between two consecutive gaps, the difference of the
areas under the two distribution functions.  `l` is the rest of the row of `sorted_neighbors`, `prev` the gap
before, `j` the column. -/
def areaDiffs (N i k : ℕ) : ℕ → ℕ → List ℕ → List ℚ
  | _, _, [] => []
  | prev, j, x :: l =>
    |((j : ℚ) / (k : ℚ)) * ((x : ℚ) - (prev : ℚ)) - (backgroundArea N i x - (if j = 0 then 0 else backgroundArea N i prev))| ::
      areaDiffs N i k x (j + 1) l

/-- `stats`, `noniid.py:350-406`. -/
def stat (nbr : Fin N → Fin k → Fin N) (i : Fin N) : ℚ :=
  (areaDiffs N i k 0 0 (sortNat (gaps nbr i) ++ [N - 1])).sum

/-- `normalizer`, `noniid.py:409-411`. -/
def normalizer (N i : ℕ) : ℕ := if i > N - i then i else N - i

/-- The argument of `tanh`, `noniid.py:413`. -/
def ratio (nbr : Fin N → Fin k → Fin N) (i : Fin N) : ℚ := stat nbr i / (normalizer N i : ℚ)

/-- `_score_dataset`, `noniid.py:301-415`. -/
noncomputable def score (nbr : Fin N → Fin k → Fin N) (i : Fin N) : ℝ := Real.tanh (-1 * (ratio nbr i : ℝ)) + 1

/-- `background_distribution`, `noniid.py:434-437`: position `t` is the gap `t + 1`. -/
def backgroundProb (N t : ℕ) : ℚ := ((N : ℚ) - ((t : ℚ) + 1)) / ((N : ℚ) * ((N : ℚ) - 1) / 2)

/-- `background_cdf`, `noniid.py:440`. -/
def backgroundCdf (N t : ℕ) : ℚ := ((List.range (t + 1)).map (backgroundProb N)).sum

/-- `background_cdf[x - 1]`: the index `-1` means the last entry. -/
def backgroundAt (N x : ℕ) : ℚ := if x = 0 then backgroundCdf N (N - 2) else backgroundCdf N (x - 1)

/-- The differences of line 444: entry `j` of `foreground_cdf` is `j` over the number of gaps. -/
def ksDiffs (N m : ℕ) : ℕ → List ℕ → List ℚ
  | _, [] => []
  | j, x :: l => |(j : ℚ) / (m : ℚ) - backgroundAt N x| :: ksDiffs N m (j + 1) l

/-- `_get_statistics`, `noniid.py:426-446`. -/
def ksStatistic (N : ℕ) (gs : List ℕ) : ℚ := (ksDiffs N gs.length 0 (sortNat gs ++ [N - 1])).foldl max 0

/-- The statistic of the data set, `noniid.py:193`. -/
def statistic (nbr : Fin N → Fin k → Fin N) : ℚ := ksStatistic N ((List.ofFn (fun i => gaps nbr i)).flatten)

/-- `find_issues`, `noniid.py:197-208`: flags and scores, for the p-value of the permutation test. -/
noncomputable def check [NeZero N] (nbr : Fin N → Fin k → Fin N) (pValue threshold : ℝ) : (Fin N → Bool) × (Fin N → ℝ) :=
  (fun i => open Classical in decide (pValue < threshold ∧ i = argmin (score nbr)), score nbr)

end Cleanlab.NonIid
