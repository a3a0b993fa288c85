import Verif.Model.ValueCounts
import Verif.Model.Rank

/-!
# Model of `cleanlab/multiannotator.py`

`L i m` is the label annotator `m` gave to example `i`, `none` for `NaN`. Scores live in an ordered field `F`;
the one square root of the code (`np.sqrt(np.mean(num_annotations))`) is passed as the parameter `root`.
-/

namespace Cleanlab.Multiannotator

open Np Cleanlab.Util Cleanlab.Rank

variable {n M K : ℕ} {F : Type} [Field F] [LinearOrder F]

/-- A matrix of labels by several annotators. -/
abbrev Annotations (n M K : ℕ) := Fin n → Fin M → Option (Fin K)

/-- `num_annotations`, `multiannotator.py:181`. -/
def numAnnotations (L : Annotations n M K) (i : Fin n) : ℕ := (List.finRange M).countP (fun m => (L i m).isSome)

/-- `label_count`, `multiannotator.py:947-954`. -/
def labelCount (L : Annotations n M K) (i : Fin n) (k : Fin K) : ℕ :=
  (List.finRange M).countP (fun m => L i m == some k)

/-- `assert_valid_inputs_multiannotator`, `internal/multiannotator_utils.py:19-125`, with
`allow_single_label=False` (the checks on dtype, shape and class range are part of the type). -/
def assertValidInputs (L : Annotations n M K) : Except String Unit :=
  if ∃ i, ∀ m, L i m = none then .error "labels_multiannotator cannot have rows with all NaN"
  else if ∃ m, ∀ i, L i m = none then .error "labels_multiannotator cannot have columns with all NaN"
  else if M ≤ 1 then .error "labels_multiannotator must have more than one column"
  else if ∀ i, numAnnotations L i = 1 then .error "Each example only has one label"
  else .ok ()

/-- The candidates with the largest score (`np.where(s == np.max(s))`), in order. -/
def keepMax (score : Fin K → F) (cands : List (Fin K)) : List (Fin K) :=
  cands.filter (fun k => decide (∀ j ∈ cands, score j ≤ score k))

/-- The most frequent labels of an example in increasing order, `multiannotator.py:956-965`. -/
def modes (L : Annotations n M K) (i : Fin n) : List (Fin K) :=
  (List.finRange K).filter (fun k => decide (∀ j, labelCount L i j ≤ labelCount L i k))

/-- The body shared by the tie-break loops: nothing happens to an example that is not tied. -/
def tieBreak (score : Fin K → F) (cands : List (Fin K)) : List (Fin K) :=
  if cands.length = 1 then cands else keepMax score cands

/-- Tie-break 1, `multiannotator.py:980-990`. -/
def afterPredProbs (L : Annotations n M K) (P : Option (Fin n → Fin K → F)) (i : Fin n) : List (Fin K) :=
  match P with
  | none => modes L i
  | some P => tieBreak (P i) (modes L i)

/-- `class_frequencies`, `multiannotator.py:995`. -/
def classFrequency (L : Annotations n M K) (k : Fin K) : ℕ := ∑ i, labelCount L i k

/-- Tie-break 2, `multiannotator.py:992-1004`: the least frequent class. -/
def afterFrequency (L : Annotations n M K) (P : Option (Fin n → Fin K → F)) (i : Fin n) : List (Fin K) :=
  tieBreak (fun k => -(classFrequency L k : F)) (afterPredProbs L P i)

/-- `nontied_idx`, `multiannotator.py:968-970`. -/
def nontiedIdx (L : Annotations n M K) : List (Fin n) :=
  (List.finRange n).filter (fun i => (modes L i).length = 1)

/-- `annotator_agreement_with_consensus` before imputation, `multiannotator.py:1008-1019`; `none` is `NaN`. The
majority vote label of a non-tied example is its only mode. -/
def initialAgreement (L : Annotations n M K) (m : Fin M) : Option F :=
  let rows := (nontiedIdx L).filter (fun i => (L i m).isSome)
  if rows.length = 0 then none
  else some ((rows.countP (fun i => L i m == (modes L i).head?) : F) / rows.length)

/-- `annotator_agreement_with_consensus` after imputation, `multiannotator.py:1021-1024`; `none` (`NaN`) only
remains when no annotator has a value. -/
def imputedAgreement (L : Annotations n M K) (m : Fin M) : Option F :=
  match initialAgreement (F := F) L m with
  | some a => some a
  | none =>
    let known := (List.finRange M).filterMap (fun m => initialAgreement (F := F) L m)
    if known.length = 0 then none else some (known.sum / known.length)

/-- `label_quality_score` of one label, `multiannotator.py:1027-1036`; `none` is `NaN`. -/
def annotatorsScore (L : Annotations n M K) (i : Fin n) (k : Fin K) : Option F :=
  let who := (List.finRange M).filter (fun m => L i m == some k)
  if who.length = 0 then none
  else (who.mapM (fun m => imputedAgreement (F := F) L m)).map (fun s => s.sum / who.length)

/-- `a <= b` on numbers with `NaN`: every comparison with `NaN` is false. -/
def leNaN : Option F → Option F → Bool
  | some a, some b => decide (a ≤ b)
  | _, _ => false

/-- Tie-break 3, `multiannotator.py:1006-1042`. If one score is `NaN`, so is the maximum, and no candidate is
kept. -/
def afterAnnotators (L : Annotations n M K) (P : Option (Fin n → Fin K → F)) (i : Fin n) : List (Fin K) :=
  let cands := afterFrequency L P i
  if cands.length = 1 then cands
  else cands.filter (fun k => cands.all (fun j => leNaN (annotatorsScore (F := F) L i j) (annotatorsScore L i k)))

/-- `get_majority_vote_label`, `multiannotator.py:897-1060`; `rand i` is the random number used for example `i`.
The only exception is that of `np.random.choice` on an empty array. -/
def majorityVote (L : Annotations n M K) (P : Option (Fin n → Fin K → F)) (rand : Fin n → ℕ) :
    Except String (Fin n → Fin K) :=
  if h : ∀ i, 0 < (afterAnnotators L P i).length then
    .ok (fun i => (afterAnnotators L P i)[rand i % (afterAnnotators L P i).length]'(Nat.mod_lt _ (h i)))
  else .error "'a' cannot be empty unless no samples are taken"

/-- `_get_annotator_agreement_with_consensus`, `multiannotator.py:1276-1301`; `none` is `0/0 = NaN`. -/
def agreementWithConsensus (L : Annotations n M K) (c : Fin n → Fin K) (i : Fin n) : Option F :=
  if numAnnotations L i = 0 then none
  else some (((List.finRange M).countP (fun m => L i m == some (c i)) : F) / numAnnotations L i)

/-- The agreement of annotator `m` with the other annotators of example `i`, `multiannotator.py:1379-1388`. -/
def agreementPerExample (L : Annotations n M K) (m : Fin M) (i : Fin n) : F :=
  if numAnnotations L i > 1 then
    (((List.finRange M).countP (fun m' => L i m == L i m') : F) - 1) / ((numAnnotations L i : F) - 1)
  else 0

/-- `_get_single_annotator_agreement` applied to the examples labelled by `m`, `multiannotator.py:1352-1391`;
`none` is `NaN`. -/
def singleAgreement (L : Annotations n M K) (m : Fin M) : Option F :=
  let rows := (List.finRange n).filter (fun i => (L i m).isSome)
  let total := (rows.map (fun i => numAnnotations L i - 1)).sum
  if total = 0 then none
  else some ((rows.map (fun i => agreementPerExample (F := F) L m i * ((numAnnotations L i : F) - 1))).sum / total)

/-- `_get_annotator_agreement_with_annotators`, `multiannotator.py:1304-1349`; `none` is `NaN`. -/
def agreementWithAnnotators (L : Annotations n M K) (m : Fin M) : Option F :=
  match singleAgreement (F := F) L m with
  | some a => some a
  | none =>
    let known := (List.finRange M).filterMap (fun m => singleAgreement (F := F) L m)
    if known.length = 0 then none else some (known.sum / known.length)

/-- The examples with more than one annotation, `mask` in `multiannotator.py:1458`. -/
def multiRows (L : Annotations n M K) : List (Fin n) :=
  (List.finRange n).filter (fun i => numAnnotations L i ≠ 1)

/-- The average over a list, `none` for `NaN` entries or an empty list. -/
def mean? (xs : List (Option F)) : Option F :=
  if xs.length = 0 then none else (xs.mapM id).map (fun s => s.sum / xs.length)

/-- `CLIPPING_LOWER_BOUND`, `internal/constants.py:2`. -/
def lowerBound : F := 1 / 1000000

/-- `most_likely_class_error`, `multiannotator.py:1463-1470`. -/
def mostLikelyClassError [NeZero K] (L : Annotations n M K) (c : Fin n → Fin K) : F :=
  let rows := multiRows L
  let top := argmax (fun k => rows.countP (fun i => c i = k))
  max ((rows.countP (fun i => c i ≠ top) : F) / rows.length) lowerBound

/-- `adjusted_annotator_agreement`, `multiannotator.py:1473-1479`, from the agreement of one annotator. -/
def adjustedAgreement [NeZero K] (L : Annotations n M K) (c : Fin n → Fin K) (a : F) : F :=
  max (1 - (1 - a) / mostLikelyClassError L c) lowerBound

/-- `model_weight`, `multiannotator.py:1481-1484`. -/
def modelWeight [NeZero K] (L : Annotations n M K) (c : Fin n → Fin K) (P : Fin n → Fin K → F) (root : F) : F :=
  let rows := multiRows L
  let err := (rows.countP (fun i => argmax (P i) ≠ c i) : F) / rows.length
  max (1 - err / mostLikelyClassError L c) lowerBound * root

/-- `_get_post_pred_probs_and_weights` for `quality_method="crowdlab"`, `multiannotator.py:1450-1506`: the
posterior, given weights. With one class the code divides by zero for `non_consensus_likelihood`, but then it
never uses it. -/
def posterior (L : Annotations n M K) (P : Fin n → Fin K → F) (cl : F) (modelWeight : F) (annWeight : Fin M → F)
    (i : Fin n) (k : Fin K) : F :=
  let ncl := (1 - cl) / ((K : F) - 1)
  let total := (∑ m, if (L i m).isSome then annWeight m else 0) + modelWeight
  (P i k * modelWeight + ∑ m, match L i m with
    | none => 0
    | some l => if l = k then annWeight m * cl else annWeight m * ncl) / total

/-- What `_get_post_pred_probs_and_weights` returns. -/
structure Posterior (n M K : ℕ) (F : Type) where
  /-- `post_pred_probs` -/
  post : Fin n → Fin K → F
  /-- `model_weight` -/
  modelWeight : F
  /-- `annotator_weight` -/
  annWeight : Fin M → F

/-- `_get_post_pred_probs_and_weights` for `quality_method="crowdlab"`, `multiannotator.py:1450-1506`; an error
stands for a `NaN` result. -/
def postCrowdlab [NeZero K] (L : Annotations n M K) (c : Fin n → Fin K) (P : Fin n → Fin K → F) (root : F) :
    Except String (Posterior n M K F) :=
  match mean? ((multiRows L).map (agreementWithConsensus (F := F) L c)) with
  | none => .error "nan"
  | some cl =>
    if h : ∀ m, (agreementWithAnnotators (F := F) L m).isSome then
      let aw := fun m => adjustedAgreement L c ((agreementWithAnnotators L m).get (h m))
      let mw := modelWeight L c P root
      .ok { post := posterior L P cl mw aw, modelWeight := mw, annWeight := aw }
    else .error "nan"

/-- `_get_post_pred_probs_and_weights` for `quality_method="agreement"`, `multiannotator.py:1508-1514`; `isInt`
is whether `labels_multiannotator` has an integer dtype. -/
def postAgreement (isInt : Bool) (L : Annotations n M K) (i : Fin n) : Except String (List ℚ) := do
  let labels := (List.finRange M).filterMap (fun m => L i m)
  let counts ← valueCounts isInt (labels.map Fin.val) (some K)
  return counts.map (fun c => (c : ℚ) / numAnnotations L i)

/-- The `best_quality` consensus, `multiannotator.py:228-237`: the class with the largest posterior, the majority
vote label if that class is not unique. -/
def bestQuality [NeZero K] (post : Fin n → Fin K → F) (mv : Fin n → Fin K) (i : Fin n) : Fin K :=
  match keepMax (post i) (List.finRange K) with
  | [k] => k
  | _ => mv i

/-- The rows of the `label_quality` table. -/
structure Result (n M K : ℕ) (F : Type) where
  /-- `consensus_label` -/
  consensus : Fin n → Fin K
  /-- `consensus_quality_score` -/
  quality : Fin n → F
  /-- `annotator_agreement` -/
  agreement : Fin n → Option F
  /-- `detailed_label_quality`; `none` is `NaN` -/
  detailed : Fin n → Fin M → Option F
  /-- posterior and weights -/
  posterior : Posterior n M K F

/-- `_get_consensus_stats` with `quality_method="crowdlab"` and default `label_quality_score_kwargs`,
`multiannotator.py:1093-1178`, with `_get_annotator_label_quality_score`, lines 1700-1719. The check of the posterior inside
`get_label_quality_scores` (values between 0 and 1) is left out; it can only fail if `pred_probs` are not probabilities. -/
def consensusStats [NeZero K] (L : Annotations n M K) (P : Fin n → Fin K → F) (c : Fin n → Fin K) (root : F) :
    Except String (Result n M K F) := do
  let p ← postCrowdlab L c P root
  return { consensus := c, quality := selfConfidence c p.post, agreement := agreementWithConsensus L c,
           detailed := fun i m => (L i m).map (p.post i), posterior := p }

/-- `consensus_method`. -/
inductive ConsensusMethod
  | majorityVote
  | bestQuality

/-- `get_label_quality_multiannotator` with one consensus method, `quality_method="crowdlab"`,
`calibrate_probs=False`, `multiannotator.py:46-348`. -/
def labelQualityMultiannotator [NeZero K] (L : Annotations n M K) (P : Fin n → Fin K → F) (rand : Fin n → ℕ)
    (root : F) (method : ConsensusMethod) : Except String (Result n M K F) := do
  assertValidInputs L
  let mv ← majorityVote L (some P) rand
  let r ← consensusStats L P mv root
  match method with
  | .majorityVote => return r
  | .bestQuality => consensusStats L P (bestQuality r.posterior.post mv) root

/-- `annotator_agreement` inside `_get_annotator_quality`, `multiannotator.py:1788-1803`; `none` is `NaN`. -/
def agreementOnMulti (L : Annotations n M K) (c : Fin n → Fin K) (m : Fin M) : Option F :=
  let rows := (multiRows L).filter (fun i => (L i m).isSome)
  if rows.length = 0 then none
  else some ((rows.countP (fun i => L i m == some (c i)) : F) / rows.length)

/-- `annotator_lqs`, `multiannotator.py:1774-1786`: mean label quality score of the labels of annotator `m`. -/
def annotatorLqs (L : Annotations n M K) (post : Fin n → Fin K → F) (m : Fin M) : Option F :=
  mean? (((List.finRange n).filter (fun i => (L i m).isSome)).map (fun i => (L i m).map (post i)))

/-- `_get_annotator_quality` for `quality_method="crowdlab"`, `multiannotator.py:1773-1809`. -/
def annotatorQuality (L : Annotations n M K) (c : Fin n → Fin K) (p : Posterior n M K F) (m : Fin M) : Option F := do
  let lqs ← annotatorLqs L p.post m
  let agr ← agreementOnMulti L c m
  let frac := ((∑ i, (numAnnotations L i : F)) / n) / M
  let adj := (∑ m, p.annWeight m) * frac
  let w := p.modelWeight / (p.modelWeight + adj)
  return w * lqs + (1 - w) * agr

/-- `agreement_with_consensus` in `_get_annotator_stats`, `multiannotator.py:1249-1253`; `none` is `NaN`. -/
def statsAgreement (L : Annotations n M K) (c : Fin n → Fin K) (m : Fin M) : Option F :=
  let rows := (List.finRange n).filter (fun i => (L i m).isSome)
  if rows.length = 0 then none
  else some ((rows.countP (fun i => L i m == some (c i)) : F) / rows.length)

/-- Mean of a quantity over the examples that annotator `m` labelled `k` (`groupby(labels).mean()`). -/
def groupMean (L : Annotations n M K) (m : Fin M) (k : Fin K) (f : Fin n → F) : F :=
  let rows := (List.finRange n).filter (fun i => L i m == some k)
  (rows.map f).sum / rows.length

/-- `_get_single_annotator_worst_class`, `multiannotator.py:1874-1923`; `none` is the exception for an annotator
without labels. -/
def worstClass (L : Annotations n M K) (c : Fin n → Fin K) (quality : Fin n → F) (m : Fin M) : Option (Fin K) :=
  let classes := (List.finRange K).filter (fun k => decide (∃ i, L i m = some k))
  let acc := keepMax (fun k => -(groupMean L m k (fun i => if L i m = some (c i) then (1 : F) else 0))) classes
  if acc.length = 1 then acc.head?
  else
    let cnt := keepMax (fun k => ((List.finRange n).countP (fun i => L i m == some k) : F)) acc
    if cnt.length = 1 then cnt.head?
    else (keepMax (fun k => groupMean L m k quality) cnt).head?

/-- Active-learning score of a labelled example, `multiannotator.py:683-692`. -/
def activeScore (K : ℕ) (L : Annotations n M K) (quality : Fin n → F) (annWeight : Fin M → F) (modelWeight : F)
    (i : Fin n) : F :=
  let avg := (∑ m, annWeight m) / M
  let w := (∑ m, if (L i m).isSome then annWeight m else 0) + modelWeight
  (quality i * w + 1 / K * avg) / (w + avg)

/-- Active-learning score of an unlabelled example, `multiannotator.py:707-721`, from its (calibrated)
probabilities. -/
def activeScoreUnlabeled [NeZero K] (p : Fin K → F) (modelWeight avg : F) : F :=
  (p (argmax p) * modelWeight + 1 / K * avg) / (modelWeight + avg)

end Cleanlab.Multiannotator
