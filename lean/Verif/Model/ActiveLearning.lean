import Verif.Model.Multiannotator
import Verif.Model.RankReal
import Verif.Np.Collect
import Mathlib.Analysis.SpecialFunctions.Log.Basic
import Mathlib.Analysis.SpecialFunctions.Sqrt
import Mathlib.Data.List.MinMax

/-!
# Model of temperature scaling and of the active learning scores

`cleanlab/internal/multiannotator_utils.py:255-352` and `cleanlab/multiannotator.py:564-894`, with the ensemble
version of CROWDLAB (lines 351-561 and 1527-1638). Over the reals: `exp`, `log` and `sqrt` are exact.

The ensemble functions write into the arrays of the caller, so their models also return these arrays.
-/

namespace Cleanlab.Multiannotator

open Np Cleanlab.Util Cleanlab.Rank

variable {n M K R u : ℕ}

/-- `SMALL_CONST`, `internal/multiannotator_utils.py:16`. -/
noncomputable def smallConst : ℝ := 1 / 10 ^ 30

/-- `softmax(x, temperature, axis=1, shift=False)` of the row `x = log p`, `internal/numerics.py:7-39`; `exp` of
`log 0 = -inf` is `0` for every (positive) temperature. A row of zeros gives `NaN` in the code, `0` here. -/
noncomputable def softmaxLog (T : ℝ) (p : Fin K → ℝ) (k : Fin K) : ℝ :=
  let e := fun k => if 0 < p k then Real.exp (Real.log (p k) / max T (1 / 10 ^ 6)) else 0
  e k / ∑ j, e j

/-- `temp_scale_pred_probs` on one row, `internal/multiannotator_utils.py:337-352`. -/
noncomputable def tempScale (T : ℝ) (p : Fin K → ℝ) (k : Fin K) : ℝ :=
  let c := fun k => max (p k) smallConst
  let q := fun k => c k / ∑ j, c j
  let s := softmaxLog T q
  s k / ∑ j, s j

/-- One entry of `compute_soft_cross_entropy`, `internal/multiannotator_utils.py:255-274`; `isInt` says whether
`labels_multiannotator` has an integer dtype. An error stands for `NaN` (no label, or `log(1) = 0` in the
denominator). -/
noncomputable def softCrossEntropy (isInt : Bool) (L : Annotations n M K) (Q : Fin n → Fin K → ℝ) (i : Fin n) :
    Except String ℝ :=
  let labels := (List.finRange M).filterMap (fun m => L i m)
  if labels.length = 0 ∨ K = 1 then .error "nan"
  else
    match valueCounts isInt (labels.map Fin.val) (some K) with
    | .error e => .error e
    | .ok counts =>
      if h : counts.length = K then
        .ok (-(∑ k : Fin K, (counts[k.val]'(by rw [h]; exact k.isLt) : ℝ) / labels.length *
          Real.log (max (Q i k) smallConst)) / Real.log K)
      else .error "could not broadcast input array"

/-- `np.mean(compute_soft_cross_entropy(labels, softmax(log_pred_probs, temperature)))`,
`internal/multiannotator_utils.py:291-294`. -/
noncomputable def meanEntropy (isInt : Bool) (L : Annotations n M K) (P : Fin n → Fin K → ℝ) (T : ℝ) :
    Except String ℝ := do
  if n = 0 then throw "nan"
  let h ← collect (softCrossEntropy isInt L (fun i => softmaxLog T (P i)))
  return (∑ i, h i) / n

/-- `coarse_search_range`, `internal/multiannotator_utils.py:280`. -/
noncomputable def coarseRange : Fin 9 → ℝ := ![1 / 10, 1 / 5, 1 / 2, 4 / 5, 1, 2, 3, 5, 8]

/-- `_set_fine_search_range(coarse_search_range, 4, j)`, `internal/multiannotator_utils.py:310-334`. -/
noncomputable def fineRange (j : Fin 9) : List ℝ :=
  (if 0 < j.val then
    (List.range 4).map (fun t : ℕ => coarseRange (j - 1) + (coarseRange j - coarseRange (j - 1)) * t / 4)
  else []) ++
  (if j.val < 8 then
    (List.range 5).map (fun t : ℕ => coarseRange j + (coarseRange (j + 1) - coarseRange j) * t / 4)
  else [])

/-- `find_best_temp_scaler`, `internal/multiannotator_utils.py:277-307`. -/
noncomputable def bestTemp (isInt : Bool) (L : Annotations n M K) (P : Fin n → Fin K → ℝ) : Except String ℝ := do
  let coarse ← collect (fun j => meanEntropy isInt L P (coarseRange j))
  let range := fineRange (argmin coarse)
  let fine ← range.mapM (meanEntropy isInt L P)
  match (range.zip fine).argmin Prod.snd with
  | none => .error "attempt to get argmin of an empty sequence"
  | some (T, _) => .ok T

/-- `np.sqrt(np.mean(num_annotations))`, `multiannotator.py:1484`. -/
noncomputable def rootMeanAnnotations (L : Annotations n M K) : ℝ :=
  Real.sqrt ((∑ i, (numAnnotations L i : ℝ)) / n)

/-- `assert_valid_inputs_multiannotator` with `allow_single_label=True`. -/
def assertValidSingle (L : Annotations n M K) : Except String Unit :=
  if ∃ i, ∀ m, L i m = none then .error "labels_multiannotator cannot have rows with all NaN"
  else if ∃ m, ∀ i, L i m = none then .error "labels_multiannotator cannot have columns with all NaN"
  else .ok ()

/-- What the first half of `get_active_learning_scores` computes from the labelled examples. -/
structure LabeledPart (n : ℕ) where
  /-- `optimal_temp` -/
  temp : ℝ
  /-- `model_weight` -/
  modelWeight : ℝ
  /-- `avg_annotator_weight` -/
  avgWeight : ℝ
  /-- `active_learning_scores` -/
  scores : Fin n → ℝ

/-- `get_active_learning_scores` on the labelled examples, `multiannotator.py:645-692`. `get_label_quality_scores`
(line 658) checks the range of the probabilities. -/
noncomputable def activeLabeled [NeZero K] (isInt : Bool) (L : Annotations n M K) (P : Fin n → Fin K → ℝ)
    (rand : Fin n → ℕ) : Except String (LabeledPart n) :=
  if ∀ i, numAnnotations L i = 1 then do
    assertValidSingle L
    let c ← majorityVote L (some P) rand
    checkReal true c P
    let aw : Fin M → ℝ := fun _ => 1
    return { temp := 1, modelWeight := 1, avgWeight := (∑ m, aw m) / M,
             scores := activeScore K L (selfConfidence c P) aw 1 }
  else do
    let T ← bestTemp isInt L P
    let r ← labelQualityMultiannotator L (fun i => tempScale T (P i)) rand (rootMeanAnnotations L) .bestQuality
    let aw := r.posterior.annWeight
    return { temp := T, modelWeight := r.posterior.modelWeight, avgWeight := (∑ m, aw m) / M,
             scores := activeScore K L r.quality aw r.posterior.modelWeight }

/-- `get_active_learning_scores`, `multiannotator.py:564-726`. An empty result array is `none`. Both arrays of
probabilities have the same number of classes (line 118 of `internal/multiannotator_utils.py`). -/
noncomputable def activeLearningScores [NeZero K] (isInt : Bool) (L : Option (Annotations n M K))
    (P : Option (Fin n → Fin K → ℝ)) (U : Option (Fin u → Fin K → ℝ)) (rand : Fin n → ℕ) :
    Except String (Option (Fin n → ℝ) × Option (Fin u → ℝ)) :=
  match P, U with
  | none, none => .error "pred_probs and pred_probs_unlabeled cannot both be None"
  | none, some U => .ok (none, some (fun i => activeScoreUnlabeled (tempScale 1 (U i)) 1 1))
  | some P, U =>
    match L with
    | none => .error "labels_multiannotator cannot be None when passing in pred_probs"
    | some L => do
      let a ← activeLabeled isInt L P rand
      return (some a.scores,
        U.map (fun U i => activeScoreUnlabeled (tempScale a.temp (U i)) a.modelWeight a.avgWeight))

/-! ## Ensembles -/

/-- The posterior of `_get_post_pred_probs_and_weights_ensemble`, `multiannotator.py:1614-1633`. -/
noncomputable def posteriorEnsemble (L : Annotations n M K) (P : Fin R → Fin n → Fin K → ℝ) (cl : ℝ)
    (mw : Fin R → ℝ) (aw : Fin M → ℝ) (i : Fin n) (k : Fin K) : ℝ :=
  let ncl := (1 - cl) / ((K : ℝ) - 1)
  let total := (∑ m, if (L i m).isSome then aw m else 0) + ∑ r, mw r
  ((∑ r, P r i k * mw r) + ∑ m, match L i m with
    | none => 0
    | some l => if l = k then aw m * cl else aw m * ncl) / total

/-- What `_get_post_pred_probs_and_weights_ensemble` returns. -/
structure PosteriorEnsemble (n M K R : ℕ) where
  /-- `post_pred_probs` -/
  post : Fin n → Fin K → ℝ
  /-- `model_weight` -/
  modelWeight : Fin R → ℝ
  /-- `annotator_weight` -/
  annWeight : Fin M → ℝ

/-- `_get_post_pred_probs_and_weights_ensemble`, `multiannotator.py:1575-1638`; an error stands for a `NaN`
result. -/
noncomputable def postEnsemble [NeZero K] (L : Annotations n M K) (c : Fin n → Fin K)
    (P : Fin R → Fin n → Fin K → ℝ) : Except String (PosteriorEnsemble n M K R) :=
  match mean? ((multiRows L).map (agreementWithConsensus (F := ℝ) L c)) with
  | none => .error "nan"
  | some cl =>
    if h : ∀ m, (agreementWithAnnotators (F := ℝ) L m).isSome then
      let aw := fun m => adjustedAgreement L c ((agreementWithAnnotators L m).get (h m))
      let mw := fun r => modelWeight L c (P r) (rootMeanAnnotations L)
      .ok { post := posteriorEnsemble L P cl mw aw, modelWeight := mw, annWeight := aw }
    else .error "nan"

/-- `np.mean(pred_probs, axis=0)`. -/
noncomputable def avgProbs (P : Fin R → Fin n → Fin K → ℝ) (i : Fin n) (k : Fin K) : ℝ := (∑ r, P r i k) / R

/-- The part of the result of `get_label_quality_multiannotator_ensemble` kept here. -/
structure ResultEnsemble (n M K R : ℕ) where
  /-- `consensus_label` -/
  consensus : Fin n → Fin K
  /-- `consensus_quality_score` -/
  quality : Fin n → ℝ
  /-- `detailed_label_quality`; `none` is `NaN` -/
  detailed : Fin n → Fin M → Option ℝ
  /-- posterior and weights -/
  posterior : PosteriorEnsemble n M K R

/-- `_get_consensus_stats` with `ensemble=True`, `multiannotator.py:1142-1178`. -/
noncomputable def consensusStatsEnsemble [NeZero K] (L : Annotations n M K) (P : Fin R → Fin n → Fin K → ℝ)
    (c : Fin n → Fin K) : Except String (ResultEnsemble n M K R) := do
  let p ← postEnsemble L c P
  return { consensus := c, quality := selfConfidence c p.post, detailed := fun i m => (L i m).map (p.post i),
           posterior := p }

/-- `get_label_quality_multiannotator_ensemble` without calibration, `multiannotator.py:427-561`. -/
noncomputable def labelQualityEnsemble [NeZero K] (L : Annotations n M K) (P : Fin R → Fin n → Fin K → ℝ)
    (rand : Fin n → ℕ) : Except String (ResultEnsemble n M K R) := do
  assertValidInputs L
  let mv ← majorityVote L (some (avgProbs P)) rand
  let r ← consensusStatsEnsemble L P mv
  consensusStatsEnsemble L P (bestQuality r.posterior.post mv)

/-- The calibration loop, `multiannotator.py:436-439` and `821-824`: the temperatures and the array
`pred_probs` afterwards. -/
noncomputable def calibrate (isInt : Bool) (L : Annotations n M K) (P : Fin R → Fin n → Fin K → ℝ) :
    Except String ((Fin R → ℝ) × (Fin R → Fin n → Fin K → ℝ)) := do
  let T ← collect (fun r => bestTemp isInt L (P r))
  return (T, fun r i => tempScale (T r) (P r i))

/-- `get_label_quality_multiannotator_ensemble`, `multiannotator.py:351-561`: the result and the array
`pred_probs` of the caller afterwards. -/
noncomputable def labelQualityEnsembleCall [NeZero K] (isInt calibrateProbs : Bool) (L : Annotations n M K)
    (P : Fin R → Fin n → Fin K → ℝ) (rand : Fin n → ℕ) :
    Except String (ResultEnsemble n M K R × (Fin R → Fin n → Fin K → ℝ)) := do
  assertValidInputs L
  let P ← if calibrateProbs then (calibrate isInt L P).map Prod.snd else .ok P
  let r ← labelQualityEnsemble L P rand
  return (r, P)

/-- The labelled half of `get_active_learning_scores_ensemble`. -/
structure LabeledPartEnsemble (n K R : ℕ) where
  /-- `optimal_temp` -/
  temp : Fin R → ℝ
  /-- `model_weight` -/
  modelWeight : Fin R → ℝ
  /-- `avg_annotator_weight` -/
  avgWeight : ℝ
  /-- `active_learning_scores` -/
  scores : Fin n → ℝ
  /-- the array `pred_probs` of the caller afterwards -/
  array : Fin R → Fin n → Fin K → ℝ

/-- `get_active_learning_scores_ensemble` on the labelled examples, `multiannotator.py:798-850`. -/
noncomputable def activeLabeledEnsemble [NeZero K] (isInt : Bool) (L : Annotations n M K)
    (P : Fin R → Fin n → Fin K → ℝ) (rand : Fin n → ℕ) : Except String (LabeledPartEnsemble n K R) :=
  if ∀ i, numAnnotations L i = 1 then do
    assertValidSingle L
    let c ← majorityVote L (some (avgProbs P)) rand
    checkReal true c (avgProbs P)
    let aw : Fin M → ℝ := fun _ => 1
    return { temp := fun _ => 1, modelWeight := fun _ => 1, avgWeight := (∑ m, aw m) / M,
             scores := activeScore K L (selfConfidence c (avgProbs P)) aw (∑ _r : Fin R, 1), array := P }
  else do
    let (T, P) ← calibrate isInt L P
    let r ← labelQualityEnsemble L P rand
    let aw := r.posterior.annWeight
    return { temp := T, modelWeight := r.posterior.modelWeight, avgWeight := (∑ m, aw m) / M,
             scores := activeScore K L r.quality aw (∑ r', r.posterior.modelWeight r'), array := P }

/-- `get_active_learning_scores_ensemble` on the unlabelled examples, `multiannotator.py:866-890`: the scores and
the array `pred_probs_unlabeled` of the caller afterwards. -/
noncomputable def activeUnlabeledEnsemble [NeZero K] (U : Fin R → Fin u → Fin K → ℝ) (T mw : Fin R → ℝ) (avg : ℝ)
    (rand : Fin u → ℕ) : Except String ((Fin u → ℝ) × (Fin R → Fin u → Fin K → ℝ)) := do
  let S := fun r i => tempScale (T r) (U r i)
  let votes : Annotations u R K := fun i r => some (argmax (S r i))
  assertValidInputs votes
  let c ← majorityVote votes (some (avgProbs S)) rand
  let avgd := fun i k => ((∑ r, S r i k * mw r) + 1 / (K : ℝ) * avg) / ((∑ r, mw r) + avg)
  return (selfConfidence c avgd, S)

/-- What one call of `get_active_learning_scores_ensemble` returns and leaves behind. -/
structure EnsembleCall (n u K R : ℕ) where
  /-- `active_learning_scores` -/
  labeled : Option (Fin n → ℝ)
  /-- `active_learning_scores_unlabeled` -/
  unlabeled : Option (Fin u → ℝ)
  /-- the array `pred_probs` afterwards -/
  P : Option (Fin R → Fin n → Fin K → ℝ)
  /-- the array `pred_probs_unlabeled` afterwards -/
  U : Option (Fin R → Fin u → Fin K → ℝ)

/-- `get_active_learning_scores_ensemble`, `multiannotator.py:729-894`, for arrays `pred_probs` and
`pred_probs_unlabeled` by the same `R` models. -/
noncomputable def activeLearningScoresEnsemble [NeZero K] (isInt : Bool) (L : Option (Annotations n M K))
    (P : Option (Fin R → Fin n → Fin K → ℝ)) (U : Option (Fin R → Fin u → Fin K → ℝ)) (rand : Fin n → ℕ)
    (randU : Fin u → ℕ) : Except String (EnsembleCall n u K R) :=
  match P, U with
  | none, none => .error "pred_probs and pred_probs_unlabeled cannot both be None"
  | none, some U => do
    let (s, U) ← activeUnlabeledEnsemble U (fun _ => 1) (fun _ => 1) 1 randU
    return { labeled := none, unlabeled := some s, P := none, U := some U }
  | some P, U =>
    match L with
    | none => .error "labels_multiannotator cannot be None when passing in pred_probs"
    | some L => do
      let a ← activeLabeledEnsemble isInt L P rand
      match U with
      | none => return { labeled := some a.scores, unlabeled := none, P := some a.array, U := none }
      | some U =>
        let (s, U) ← activeUnlabeledEnsemble U a.temp a.modelWeight a.avgWeight randU
        return { labeled := some a.scores, unlabeled := some s, P := some a.array, U := some U }

end Cleanlab.Multiannotator
