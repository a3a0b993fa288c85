import Verif.Model.KnnBuild
import Mathlib.Analysis.SpecialFunctions.Pow.Real

/-!
# Model of the search for nearest neighbours in `cleanlab/internal/neighbor/search.py` and `metric.py`

The distances are those of scikit-learn and scipy, on real numbers.
-/

namespace Cleanlab.Knn

open Np

variable {N M : ℕ}

/-- `sklearn.metrics.pairwise.cosine_distances` of two rows: both are divided by their lengths first; a row of zeros stays as it is,
as does `0 / 0 = 0` here. The clipping to `[0, 2]` only undoes rounding. -/
noncomputable def cosineDistance (x y : Fin M → ℝ) : ℝ :=
  1 - ∑ m, x m / Real.sqrt (∑ a, x a * x a) * (y m / Real.sqrt (∑ a, y a * y a))

/-- `scipy.spatial.distance.euclidean` and the `"euclidean"` metric of scikit-learn. -/
noncomputable def euclideanDistance (x y : Fin M → ℝ) : ℝ := Real.sqrt (∑ m, (x m - y m) * (x m - y m))

/-- The distance that a metric stands for; those with other names are a parameter. -/
noncomputable def distanceOf (named : String → (Fin M → ℝ) → (Fin M → ℝ) → ℝ) : Metric → (Fin M → ℝ) → (Fin M → ℝ) → ℝ
  | .cosine => cosineDistance
  | .euclidean => euclideanDistance
  | .scipyEuclidean => euclideanDistance
  | .other name => named name

/-- `NearestNeighbors(n_neighbors=k, metric=metric).fit(features).kneighbors(X=None)`, `search.py:73` and `knn_graph.py:125`, for
example `i`: of the `k + 1` nearest examples the example itself is left out, and the first one if the example is not among them. -/
noncomputable def nearest (A : ArgSort ℝ) (k : ℕ) (dist : Fin N → Fin N → ℝ) (i : Fin N) : List (Fin N × ℝ) :=
  let found := (A.indices (dist i)).take (k + 1)
  (if i ∈ found then found.filter (fun j => decide (j ≠ i)) else found.drop 1).map (fun j => (j, dist i j))

/-- The neighbours with the default metric and number of neighbours or those given, `features_to_knn` (`knn_graph.py:26-70`). -/
noncomputable def featureNeighbours (A : ArgSort ℝ) (named : String → (Fin M → ℝ) → (Fin M → ℝ) → ℝ) (features : Fin N → Fin M → ℝ)
    (k : Option ℤ) (metric : Option Metric) : Except String (Fin N → List (Fin N × ℝ)) :=
  match featuresToKnn N M k metric with
  | .error e => .error e
  | .ok (k, m) => .ok (nearest A k (fun i j => distanceOf named m (features i) (features j)))

end Cleanlab.Knn
