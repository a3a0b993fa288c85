import Verif.Np.Median
import Mathlib.Analysis.SpecialFunctions.Pow.Real

/-!
# Model of `cleanlab/outlier.py` and `cleanlab/internal/outlier.py`

The nearest-neighbour estimator of scikit-learn is a parameter (`KnnEnv`): how it is fitted and which distances it
returns. Scores based on predicted probabilities are a parameter too (`PredEnv`); they are modelled in
`Verif.Model.OutlierPred`. A user-supplied estimator is assumed to be fitted, as documented (`outlier.py:434-437` would
fit it on the first data it sees).
-/

namespace Cleanlab.Outlier

open Np

/-- `np.finfo(np.float64).eps`. -/
noncomputable def floatEps : ℝ := 1 / 2 ^ 52

/-- The distance metric of an estimator, with the parameter `p` of the Minkowski metric. -/
inductive Metric
  | cosine
  | euclidean
  | minkowski (p : ℝ)
  | other

/-- `transform_distances_to_scores`, `internal/outlier.py:11-57`. -/
noncomputable def transformScore (avg t scaling : ℝ) : ℝ := Real.exp (-t * avg / max scaling (1 / 1000000))

/-- The tolerance of `correct_precision_errors`, `internal/outlier.py:99-108`, for `C = 100`. -/
noncomputable def tolerance : Metric → Option ℝ
  | .cosine => some (100 * (1 / 2 ^ 53))
  | .euclidean => some (Real.sqrt (100 * floatEps))
  | .minkowski p => some ((100 * floatEps) ^ (1 / p))
  | .other => none

/-- `correct_precision_errors`, `internal/outlier.py:60-112`. -/
noncomputable def correctPrecision (m : Metric) (avg score : ℝ) : ℝ :=
  open Classical in
  match tolerance m with
  | none => score
  | some tol => if avg < tol then 1 else score

/-- The nearest-neighbour estimators. -/
structure KnnEnv (E X : Type) where
  /-- `features_to_knn(features, n_neighbors=k)`, which raises e.g. for too few examples -/
  fit : X → Option ℕ → Except String E
  /-- `knn.n_neighbors` -/
  nNeighbors : E → ℕ
  /-- distances among the points it was fitted on, corrected for exact duplicates (`outlier.py:442-453`) -/
  trainDist : E → List (List ℝ)
  /-- `knn.kneighbors(features)`, which raises e.g. for another number of features -/
  queryDist : E → X → Except String (List (List ℝ))
  /-- `knn.metric` -/
  metric : E → Metric

/-- Scores based on predicted probabilities. -/
structure PredEnv (Pr L T : Type) where
  /-- `assert_valid_inputs` and `get_confident_thresholds` -/
  thresholds : L → Pr → Except String T
  /-- the score for given thresholds (`none` without adjustment) -/
  score : Pr → Option T → Except String (List ℝ)

/-- The attribute `params`; `t`, `k` and `adjust` do not change. -/
structure State (E T : Type) where
  k : Option ℕ := none
  t : ℝ := 1
  adjust : Bool := true
  knn : Option E := none
  thr : Option T := none
  scaling : Option ℝ := none

variable {E X Pr L T : Type}

/-- `distances[:, :k].mean(axis=1)`. -/
noncomputable def avgDist (k : ℕ) (rows : List (List ℝ)) : List ℝ := rows.map (fun r => (r.take k).sum / (r.take k).length)

/-- `_get_ood_features_scores`, `outlier.py:371-479`; the median of no values is `nan`. -/
noncomputable def featureScores (A : ArgSort ℝ) (env : KnnEnv E X) (s : State E T) (x : X) :
    State E T × Except String (List ℝ × E) :=
  let fitted : Except String (E × List (List ℝ)) := match s.knn with
    | none => (env.fit x s.k).map (fun e => (e, env.trainDist e))
    | some e => (env.queryDist e x).map (fun rows => (e, rows))
  match fitted with
  | .error err => (s, .error err)
  | .ok (e, rows) =>
    let maxK := env.nNeighbors e
    let k := match s.knn, s.k with
      | none, _ => maxK
      | some _, none => maxK
      | some _, some k => min k maxK
    let avg := avgDist k rows
    let scaling := match s.scaling with
      | some v => some v
      | none => (npMedian A avg).map (fun m => max m (100 * floatEps))
    match scaling with
    | none => (s, .error "nan")
    | some v => ({ s with scaling := some v },
        .ok (avg.map (fun d => correctPrecision (env.metric e) d (transformScore d s.t v)), e))

/-- `_get_ood_predictions_scores`, `outlier.py:482-582`: scores and thresholds. -/
def predScores (env : PredEnv Pr L T) (s : State E T) (p : Pr) (labels : Option L) :
    Except String (List ℝ × Option T) :=
  if s.adjust then
    match s.thr, labels with
    | some thr, _ => (env.score p (some thr)).map (fun r => (r, some thr))
    | none, none => .error "Cannot calculate adjust_pred_probs without labels."
    | none, some l => do
      let thr ← env.thresholds l p
      (env.score p (some thr)).map (fun r => (r, some thr))
  else (env.score p none).map (fun r => (r, s.thr))

/-- `_assert_valid_inputs`, `outlier.py:293-310`. -/
def validInputs (x : Option X) (p : Option Pr) : Except String (X ⊕ Pr) :=
  match x, p with
  | none, none => .error "Not enough information to compute scores."
  | some _, some _ => .error "Cannot fit to OOD Estimator to both features and pred_probs."
  | some x, none => .ok (.inl x)
  | none, some p => .ok (.inr p)

/-- `_shared_fit`, `outlier.py:312-369`; the result `none` means that nothing was fitted. -/
noncomputable def sharedFit (A : ArgSort ℝ) (ke : KnnEnv E X) (pe : PredEnv Pr L T) (s : State E T) (x : Option X)
    (p : Option Pr) (labels : Option L) : State E T × Except String (Option (List ℝ)) :=
  match validInputs x p with
  | .error e => (s, .error e)
  | .ok (.inl x) =>
    match s.knn with
    | some _ => (s, .ok none)
    | none =>
      match featureScores A ke s x with
      | (s', .error e) => (s', .error e)
      | (s', .ok (r, e)) => ({ s' with knn := some e }, .ok (some r))
  | .ok (.inr p) =>
    match s.thr with
    | some _ => (s, .ok none)
    | none =>
      match predScores pe s p labels with
      | .error e => (s, .error e)
      | .ok (r, none) => (s, .ok (some r))
      | .ok (r, some thr) => ({ s with thr := some thr }, .ok (some r))

/-- `score`, `outlier.py:224-277`. -/
noncomputable def score (A : ArgSort ℝ) (ke : KnnEnv E X) (pe : PredEnv Pr L T) (s : State E T) (x : Option X)
    (p : Option Pr) : State E T × Except String (List ℝ) :=
  match validInputs x p with
  | .error e => (s, .error e)
  | .ok (.inl x) =>
    match s.knn with
    | none => (s, .error "OOD estimator needs to be fit on features first.")
    | some _ =>
      match featureScores A ke s x with
      | (s', .error e) => (s', .error e)
      | (s', .ok (r, _)) => (s', .ok r)
  | .ok (.inr p) =>
    if s.thr.isNone ∧ s.adjust then (s, .error "OOD estimator needs to be fit on pred_probs first.")
    else (s, (predScores pe s p none).map Prod.fst)

/-- `fit_score`, `outlier.py:119-172`. -/
noncomputable def fitScore (A : ArgSort ℝ) (ke : KnnEnv E X) (pe : PredEnv Pr L T) (s : State E T) (x : Option X)
    (p : Option Pr) (labels : Option L) : State E T × Except String (List ℝ) :=
  match sharedFit A ke pe s x p labels with
  | (s', .error e) => (s', .error e)
  | (s', .ok (some r)) => (s', .ok r)
  | (s', .ok none) => score A ke pe s' x p

/-- A call of a method of the object. -/
inductive Call (X Pr L : Type)
  | fit (x : Option X) (p : Option Pr) (labels : Option L)
  | fitScore (x : Option X) (p : Option Pr) (labels : Option L)
  | score (x : Option X) (p : Option Pr)

/-- The state after a call (also if it raises). -/
noncomputable def step (A : ArgSort ℝ) (ke : KnnEnv E X) (pe : PredEnv Pr L T) (s : State E T) :
    Call X Pr L → State E T
  | .fit x p l => (sharedFit A ke pe s x p l).1
  | .fitScore x p l => (fitScore A ke pe s x p l).1
  | .score x p => (score A ke pe s x p).1

/-- The state after a history of calls. -/
noncomputable def run (A : ArgSort ℝ) (ke : KnnEnv E X) (pe : PredEnv Pr L T) (s : State E T)
    (calls : List (Call X Pr L)) : State E T := calls.foldl (step A ke pe) s

end Cleanlab.Outlier
