import Verif.Model.NonIid
import Mathlib.Probability.CDF
import Mathlib.Probability.Distributions.Gaussian.Real

/-!
# Model of the permutation test of the non-IID check, `cleanlab/datalab/internal/issue_manager/noniid.py`

The random permutations are a parameter.
-/

namespace Cleanlab.NonIid

variable {N k : ℕ}

/-- One row of `neighbor_index_distances`, `noniid.py:280-286`: the gaps after example `i` has moved to position `π i`. -/
def permutedGaps (nbr : Fin N → Fin k → Fin N) (π : Equiv.Perm (Fin N)) : List ℕ :=
  (List.ofFn (fun i => List.ofFn (fun r => (((π i : ℕ) : ℤ) - ((π (nbr i r) : ℕ) : ℤ)).natAbs))).flatten

/-- `ks_stats`, `noniid.py:288-295`. -/
def permutedStatistics (nbr : Fin N → Fin k → Fin N) (perms : List (Equiv.Perm (Fin N))) : List ℚ :=
  perms.map (fun π => ksStatistic N (permutedGaps nbr π))

/-- The distribution function of the standard normal distribution, `scipy.special.ndtr`. -/
noncomputable def normalCdf (x : ℝ) : ℝ := ProbabilityTheory.cdf (ProbabilityTheory.gaussianReal 0 1) x

/-- The variance with denominator `n - 1`, `np.cov` in `scipy.stats.gaussian_kde`. -/
noncomputable def variance (xs : List ℝ) : ℝ :=
  (xs.map (fun x => (x - xs.sum / xs.length) ^ 2)).sum / (xs.length - 1)

/-- The standard deviation of the kernel with Scott's factor `n ** (-1 / 5)`. -/
noncomputable def bandwidth (xs : List ℝ) : ℝ := Real.sqrt (variance xs) * (xs.length : ℝ) ^ (-(1 / 5) : ℝ)

/-- `gaussian_kde(xs).integrate_box(s, 100)`, `noniid.py:296-297`. The constructor refuses less than two values and values
without variance. -/
noncomputable def kdeTail (xs : List ℝ) (s : ℝ) : Except String ℝ :=
  open Classical in
  if xs.length ≤ 1 then .error "`dataset` input should have multiple elements."
  else if variance xs = 0 then .error "LinAlgError"
  else .ok ((xs.map (fun x => normalCdf ((100 - x) / bandwidth xs) - normalCdf ((s - x) / bandwidth xs))).sum / xs.length)

/-- `_permutation_test`, `noniid.py:267-299`. -/
noncomputable def permutationTest (nbr : Fin N → Fin k → Fin N) (perms : List (Equiv.Perm (Fin N))) : Except String ℝ :=
  kdeTail ((permutedStatistics nbr perms).map (fun q : ℚ => (q : ℝ))) (statistic nbr : ℝ)

/-- `find_issues` from the graph, `noniid.py:190-211`: flags and scores, and the p-value. -/
noncomputable def findIssues [NeZero N] (nbr : Fin N → Fin k → Fin N) (perms : List (Equiv.Perm (Fin N))) (threshold : ℝ) :
    Except String (((Fin N → Bool) × (Fin N → ℝ)) × ℝ) := do
  let p ← permutationTest nbr perms
  return (check nbr p threshold, p)

end Cleanlab.NonIid
