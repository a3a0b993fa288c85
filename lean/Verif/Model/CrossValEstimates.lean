import Verif.Model.CrossVal
import Verif.Model.Latent

/-!
# Model of the functions of `cleanlab/count.py` that estimate noise rates from probabilities or by cross-validation

The thresholds are those given or, by default, the ones of `get_confident_thresholds`. Simplification: `py_method` is the
`PyMethod` of `Verif.Model.Latent`, where `eqn` carries the vector obtained with the inverse matrix.
-/

namespace Cleanlab.CrossVal

open Np Cleanlab.Count Cleanlab.Latent

variable {n K : ℕ}

/-- The three latent estimates: `py`, `noise_matrix`, `inverse_noise_matrix`. -/
abbrev Estimates (K : ℕ) : Type := (Fin K → ℚ) × (Fin K → Fin K → ℚ) × (Fin K → Fin K → ℚ)

/-- `compute_confident_joint(labels, pred_probs, thresholds=thresholds, calibrate=calibrate)`, `count.py:572-622`. -/
def jointOf (A : ArgSort ℚ) [NeZero K] (labels : Fin n → Fin K) (P : Fin n → Fin K → ℚ) (thr : Option (Fin K → ℚ))
    (calibrate : Bool) : Fin K → Fin K → ℤ :=
  match thr with
  | none => computeConfidentJoint A labels P (getConfidentThresholds labels P) calibrate
  | some t => computeConfidentJoint A labels P t calibrate

/-- `estimate_py_and_noise_matrices_from_probabilities`, `count.py:799-885`; `converge_latent_estimates` and `calibrate`
are true by default. -/
def fromProbabilities (A : ArgSort ℚ) [NeZero K] (labels : Fin n → Fin K) (P : Fin n → Fin K → ℚ)
    (thr : Option (Fin K → ℚ) := none) (converge : Bool := true) (method : PyMethod K := .cnt)
    (calibrate : Bool := true) : Except String (Estimates K × (Fin K → Fin K → ℤ)) := do
  let cj := jointOf A labels P thr calibrate
  let est ← estimateLatent (fun a b => (cj a b : ℚ)) labels method converge
  return (est, cj)

/-- What the cross-validating functions are given: the classifier, whether there is a `validation_func`, the splits that
`cv_n_folds` and `seed` lead to and the iteration order of the sets of classes. -/
structure Cv (n K : ℕ) where
  order : List (Fin K) → List (Fin K)
  learn : Learner n K
  validation : Bool
  splits : List (Split n)

/-- `estimate_confident_joint_and_cv_pred_proba`, `count.py:888-1066`. -/
def jointAndProbs (A : ArgSort ℚ) [NeZero K] (cv : Cv n K) (labels : Fin n → Fin K)
    (thr : Option (Fin K → ℚ) := none) (calibrate : Bool := true) :
    Except String ((Fin K → Fin K → ℤ) × (Fin n → Fin K → ℚ)) := do
  let P ← cvPredProbs cv.order cv.learn cv.validation labels cv.splits
  return (jointOf A labels P thr calibrate, P)

/-- `estimate_py_noise_matrices_and_cv_pred_proba`, `count.py:1069-1177`; `converge_latent_estimates` is false by
default. -/
def estimatesAndProbs (A : ArgSort ℚ) [NeZero K] (cv : Cv n K) (labels : Fin n → Fin K)
    (thr : Option (Fin K → ℚ) := none) (converge : Bool := false) (method : PyMethod K := .cnt) :
    Except String (Estimates K × (Fin K → Fin K → ℤ) × (Fin n → Fin K → ℚ)) := do
  let (cj, P) ← jointAndProbs A cv labels thr
  let est ← estimateLatent (fun a b => (cj a b : ℚ)) labels method converge
  return (est, cj, P)

/-- `estimate_cv_predicted_probabilities`, `count.py:1180-1243`: the last component. -/
def cvProbabilities (A : ArgSort ℚ) [NeZero K] (cv : Cv n K) (labels : Fin n → Fin K) :
    Except String (Fin n → Fin K → ℚ) := do
  let r ← estimatesAndProbs A cv labels
  return r.2.2

/-- `estimate_noise_matrices`, `count.py:1246-1328`: the components `[1:-2]`; `converge_latent_estimates` is true by
default. -/
def noiseMatricesCv (A : ArgSort ℚ) [NeZero K] (cv : Cv n K) (labels : Fin n → Fin K)
    (thr : Option (Fin K → ℚ) := none) (converge : Bool := true) :
    Except String ((Fin K → Fin K → ℚ) × (Fin K → Fin K → ℚ)) := do
  let r ← estimatesAndProbs A cv labels thr converge
  return (r.1.2.1, r.1.2.2)

end Cleanlab.CrossVal
