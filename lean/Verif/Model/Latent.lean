import Verif.Model.Count

/-!
# Model of `cleanlab/internal/latent_algebra.py`, the clipping helpers of `internal/util.py` and
`estimate_latent` of `count.py`

A matrix entry `m a b` is row `a`, column `b`.
-/

namespace Cleanlab.Latent

open Np Cleanlab.Count

variable {n K : ℕ}

/-- `np.clip(x, low, high)`. -/
def clip (x low high : ℚ) : ℚ := min (max x low) high

/-- `CLIPPING_LOWER_BOUND`, `internal/constants.py:2`. -/
def clippingLowerBound : ℚ := 1 / 1000000

/-- `clip_values`, `internal/util.py:78-110`. -/
def clipValues (x : Fin K → ℚ) (low high : ℚ) (newSum : Option ℚ) (k : Fin K) : ℚ :=
  let prevSum := match newSum with
    | none => ∑ j, x j
    | some s => s
  clip (x k) low high * prevSum / clipTiny (∑ j, clip (x j) low high)

/-- The matrix before the renormalisation in `clip_noise_rates`, `internal/util.py:65-71`. -/
def clipOff (m : Fin K → Fin K → ℚ) (a b : Fin K) : ℚ := if a = b then m a b else clip (m a b) 0 (9999 / 10000)

/-- `clip_noise_rates`, `internal/util.py:49-75`. -/
def clipNoiseRates (m : Fin K → Fin K → ℚ) (a b : Fin K) : ℚ :=
  clipOff m a b / clipTiny (∑ a', clipOff m a' b)

/-- The matrix in `remove_noise_from_class` after zeroing the row, `internal/util.py:35-40`. -/
def zeroRow (m : Fin K → Fin K → ℚ) (cwn : Fin K) (a b : Fin K) : ℚ := if a = cwn ∧ b ≠ cwn then 0 else m a b

/-- `remove_noise_from_class`, `internal/util.py:15-46`. -/
def removeNoiseFromClass (m : Fin K → Fin K → ℚ) (cwn : Fin K) (a b : Fin K) : ℚ :=
  let x := zeroRow m cwn
  if a = b then 1 - (∑ a', x a' b - x b b) else x a b

/-- `compute_inv_noise_matrix`, `latent_algebra.py:66-113`. -/
def computeInvNoiseMatrix (py : Fin K → ℚ) (noise : Fin K → Fin K → ℚ) (ps : Option (Fin K → ℚ)) :
    Fin K → Fin K → ℚ :=
  let joint := fun s y => noise s y * py y
  let ps := ps.getD (fun s => ∑ y, joint s y)
  clipNoiseRates (fun y s => joint s y / clipTiny (ps s))

/-- `compute_noise_matrix_from_inverse`, `latent_algebra.py:116-173`. -/
def computeNoiseMatrixFromInverse (ps : Fin K → ℚ) (inv : Fin K → Fin K → ℚ) (py : Option (Fin K → ℚ)) :
    Fin K → Fin K → ℚ :=
  let joint := fun s y => inv y s * ps s
  let py := py.getD (fun y => ∑ s, joint s y)
  clipNoiseRates (fun s y => joint s y / clipTiny (py y))

/-- `py_method` of `compute_py`; for `eqn` the argument is the vector `np.linalg.inv(noise_matrix).dot(ps)`. -/
inductive PyMethod (K : ℕ)
  | cnt
  | eqn (x : Fin K → ℚ)
  | marginal
  | marginalPs

/-- `compute_py` before clipping, `latent_algebra.py:231-253`. -/
def rawPy (ps : Fin K → ℚ) (noise inv : Fin K → Fin K → ℚ) (counts : Option (Fin K → ℚ)) :
    PyMethod K → Except String (Fin K → ℚ)
  | .cnt => .ok (fun k => inv k k / clipTiny (noise k k) * ps k)
  | .eqn x => .ok x
  | .marginal =>
    match counts with
    | none => .error "Provide parameter true_labels_class_counts."
    | some c => .ok (fun k => c k / clipTiny (∑ j, c j))
  | .marginalPs => .ok (fun y => ∑ s, inv y s * ps s)

/-- `compute_py`, `latent_algebra.py:176-256`. -/
def computePy (ps : Fin K → ℚ) (noise inv : Fin K → Fin K → ℚ) (counts : Option (Fin K → ℚ))
    (method : PyMethod K) : Except String (Fin K → ℚ) := do
  let py ← rawPy ps noise inv counts method
  return clipValues py clippingLowerBound 1 (some 1)

/-- `compute_pyx`, `latent_algebra.py:259-312`. -/
def computePyx (P : Fin n → Fin K → ℚ) (noise inv : Fin K → Fin K → ℚ) (i : Fin n) : Fin K → ℚ :=
  clipValues (fun k => P i k * inv k k / clipTiny (noise k k)) 0 1 (some 1)

/-- One inner round of `_converge_estimates`, `count.py:1398-1399`. -/
def convergeInner (ps : Fin K → ℚ) (noise : Fin K → Fin K → ℚ) (s : (Fin K → ℚ) × (Fin K → Fin K → ℚ)) :
    (Fin K → ℚ) × (Fin K → Fin K → ℚ) :=
  let inv := computeInvNoiseMatrix s.1 noise (some ps)
  let py := clipValues (fun k => inv k k / clipTiny (noise k k) * ps k) clippingLowerBound 1 (some 1)
  (py, inv)

/-- One outer round of `_converge_estimates`, `count.py:1397-1402`. -/
def convergeOuter (ps : Fin K → ℚ) (s : (Fin K → ℚ) × (Fin K → Fin K → ℚ) × (Fin K → Fin K → ℚ)) :
    (Fin K → ℚ) × (Fin K → Fin K → ℚ) × (Fin K → Fin K → ℚ) :=
  let (py, inv) := (convergeInner ps s.2.1)^[5] (s.1, s.2.2)
  (py, computeNoiseMatrixFromInverse ps inv (some py), inv)

/-- `_converge_estimates`, `count.py:1331-1404`; the state is `(py, noise_matrix, inverse_noise_matrix)`. -/
def convergeEstimates (ps py : Fin K → ℚ) (noise inv : Fin K → Fin K → ℚ) :
    (Fin K → ℚ) × (Fin K → Fin K → ℚ) × (Fin K → Fin K → ℚ) :=
  (convergeOuter ps)^[3] (py, noise, inv)

/-- `estimate_latent`, `count.py:715-796`. -/
def estimateLatent (cj : Fin K → Fin K → ℚ) (labels : Fin n → Fin K) (method : PyMethod K) (converge : Bool) :
    Except String ((Fin K → ℚ) × (Fin K → Fin K → ℚ) × (Fin K → Fin K → ℚ)) := do
  let ps := fun k => (labelCounts labels k : ℚ) / n
  let labelsClassCounts := fun s => ∑ y, cj s y
  let trueCounts := fun y => ∑ s, cj s y
  let noise := fun s y => cj s y / clipTiny (trueCounts y)
  let inv := fun y s => cj s y / clipTiny (labelsClassCounts s)
  let py ← computePy ps noise inv (some trueCounts) method
  let noise := clipNoiseRates noise
  let inv := clipNoiseRates inv
  if converge then
    let (py, noise, inv) := convergeEstimates ps py noise inv
    return (clipValues py (1 / 100000) 1 (some 1), clipNoiseRates noise, clipNoiseRates inv)
  else
    return (py, noise, inv)

end Cleanlab.Latent
