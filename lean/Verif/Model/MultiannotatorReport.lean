import Verif.Model.Multiannotator
import Verif.Np.Collect
import Mathlib.Data.Prod.Lex
import Mathlib.Order.WithBot

/-!
# Model of `get_label_quality_multiannotator` with all its options, `cleanlab/multiannotator.py:46-348`

`Verif.Model.Multiannotator` has the parts for one consensus method and the CROWDLAB scores. The call of
`get_label_quality_scores(..., **label_quality_score_kwargs)` is a parameter (`Scorer`), like the calibration of the
predictions (`cal`). What is printed is not modelled.
-/

namespace Cleanlab.Multiannotator

open Np Cleanlab.Util Cleanlab.Rank

variable {n M K : ℕ} {F : Type} [Field F] [LinearOrder F]

/-- `get_label_quality_scores` with some keyword arguments, for any number of examples. -/
abbrev Scorer (K : ℕ) (F : Type) := (r : ℕ) → (Fin r → Fin K) → (Fin r → Fin K → F) → Except String (Fin r → F)

/-- `get_label_quality_scores(labels, pred_probs, method=...)`, `rank.py:49-155`, with the check that probabilities lie
between 0 and 1. -/
def scorer (m : Method) : Scorer K F := fun _ labels P =>
  if ∀ i k, 0 ≤ P i k ∧ P i k ≤ 1 then labelQualityScores m labels P
  else .error "Values in pred_probs must be between 0 and 1."

/-- The default method. -/
def defaultScorer : Scorer K F := scorer .selfConfidence

/-- The arguments of `get_label_quality_multiannotator`; a single consensus method is a list of one. -/
structure Options where
  methods : List String := ["best_quality"]
  quality : String := "crowdlab"
  calibrate : Bool := false
  detailed : Bool := true
  stats : Bool := true
  weights : Bool := false

/-- What `_get_consensus_stats` returns, with the consensus labels; `weights` is `none` for `None`. -/
structure Consensus (n M K : ℕ) (F : Type) where
  label : Fin n → Fin K
  agreement : Fin n → Option F
  quality : Fin n → F
  post : Fin n → Fin K → F
  weights : Option (F × (Fin M → F))

/-- `_get_post_pred_probs_and_weights` for `quality_method="agreement"`, `multiannotator.py:1508-1514`, on all examples. -/
def agreementPost (isInt : Bool) (L : Annotations n M K) : Except String (Fin n → Fin K → F) :=
  collect (fun i => do
    let labels := (List.finRange M).filterMap (fun m => L i m)
    let counts ← valueCounts isInt (labels.map Fin.val) (some K)
    if h : counts.length = K then return fun k => (counts[k.val]'(h ▸ k.isLt) : F) / numAnnotations L i
    else .error "could not broadcast input array")

/-- `_get_consensus_stats` without ensemble, `multiannotator.py:1093-1178`, with `_get_post_pred_probs_and_weights` and
`_get_consensus_quality_score`, lines 1394-1523 and 1641-1697. An agreement that is `NaN` is an error here. -/
def consensusOf [NeZero K] (isInt : Bool) (score : Scorer K F) (quality : String) (L : Annotations n M K)
    (P : Fin n → Fin K → F) (root : F) (c : Fin n → Fin K) : Except String (Consensus n M K F) :=
  let agreement := agreementWithConsensus (F := F) L c
  if quality = "crowdlab" then do
    let p ← postCrowdlab L c P root
    let q ← score n c p.post
    return { label := c, agreement := agreement, quality := q, post := p.post,
             weights := some (p.modelWeight, p.annWeight) }
  else if quality = "agreement" then do
    let post ← agreementPost isInt L
    if h : ∀ i, (agreement i).isSome then
      return { label := c, agreement := agreement, quality := fun i => (agreement i).get (h i), post := post,
               weights := none }
    else .error "nan"
  else .error "not a valid quality method!"

/-- The examples labelled by an annotator, `mask` in `multiannotator.py:1709` and `1778`. -/
def labelledRows (L : Annotations n M K) (m : Fin M) : List (Fin n) :=
  (List.finRange n).filter (fun i => (L i m).isSome)

/-- `annotator_label[mask]`. -/
def labelOf (L : Annotations n M K) (m : Fin M) (r : Fin (labelledRows L m).length) : Fin K :=
  (L ((labelledRows L m).get r) m).get
    ((List.mem_filter.mp (List.get_mem (labelledRows L m) r)).2)

/-- The scores of the labels of one annotator with some posterior. -/
def columnScores (score : Scorer K F) (L : Annotations n M K) (post : Fin n → Fin K → F) (m : Fin M) :
    Except String (Fin (labelledRows L m).length → F) :=
  score _ (labelOf L m) (fun r => post ((labelledRows L m).get r))

/-- `_get_annotator_label_quality_score`, `multiannotator.py:1700-1719`; `none` is `NaN`. -/
def annotatorColumn (score : Scorer K F) (L : Annotations n M K) (post : Fin n → Fin K → F) (m : Fin M) :
    Except String (Fin n → Option F) := do
  let s ← columnScores score L post m
  return fun i => ((labelledRows L m).zip (List.ofFn s)).lookup i

/-- The mean of some numbers; `none` is `NaN`. -/
def meanOf (xs : List F) : Option F := if xs.length = 0 then none else some (xs.sum / xs.length)

/-- `annotator_lqs`, `multiannotator.py:1774-1786`: from the table of scores if there is one, otherwise from the scores
with default arguments. -/
def lqs (L : Annotations n M K) (post : Fin n → Fin K → F) (detailed : Option (Fin M → Fin n → Option F)) (m : Fin M) :
    Except String (Option F) :=
  match detailed with
  | none => do
    let s ← columnScores defaultScorer L post m
    return meanOf (List.ofFn s)
  | some d => .ok (meanOf ((List.finRange n).filterMap (d m)))

/-- `_get_annotator_quality`, `multiannotator.py:1722-1836`, for one annotator; `none` is `NaN`. There are weights exactly
for the method `crowdlab`. -/
def qualityOf (L : Annotations n M K) (c : Consensus n M K F) (detailed : Option (Fin M → Fin n → Option F)) (m : Fin M) :
    Except String (Option F) :=
  match c.weights with
  | some (mw, aw) => do
    let q ← lqs L c.post detailed m
    let frac := ((∑ i, (numAnnotations L i : F)) / n) / M
    let w := mw / (mw + (∑ m, aw m) * frac)
    return q.bind (fun q => (agreementOnMulti L c.label m).map (fun a => w * q + (1 - w) * a))
  | none => .ok (agreementOnMulti L c.label m)

/-- A row of `annotator_stats`. -/
structure AnnotatorRow (M K : ℕ) (F : Type) where
  annotator : Fin M
  quality : Option F
  agreement : Option F
  worst : Fin K
  numLabeled : ℕ

/-- A number or `NaN`, which is sorted last. -/
def nanLast : Option F → WithTop F
  | none => ⊤
  | some x => x

/-- The key of `sort_values(by=["annotator_quality", "agreement_with_consensus"])`. -/
def AnnotatorRow.key (r : AnnotatorRow M K F) : WithTop F ×ₗ WithTop F := toLex (nanLast r.quality, nanLast r.agreement)

/-- The row of one annotator, `multiannotator.py:1232-1271`. -/
def annotatorRow (L : Annotations n M K) (c : Consensus n M K F) (detailed : Option (Fin M → Fin n → Option F)) (m : Fin M) :
    Except String (AnnotatorRow M K F) := do
  let q ← qualityOf L c detailed m
  match worstClass L c.label c.quality m with
  | none => .error "index 0 is out of bounds"
  | some w => .ok { annotator := m, quality := q, agreement := statsAgreement L c.label m, worst := w,
                    numLabeled := (List.finRange n).countP (fun i => (L i m).isSome) }

/-- `_get_annotator_stats`, `multiannotator.py:1181-1273`; sorting by two columns is stable. -/
def annotatorStats (L : Annotations n M K) (c : Consensus n M K F) (detailed : Option (Fin M → Fin n → Option F)) :
    Except String (List (AnnotatorRow M K F)) := do
  let rows ← (List.finRange M).mapM (annotatorRow L c detailed)
  return rows.insertionSort (fun a b => a.key ≤ b.key)

/-- The three columns of a consensus method in `label_quality`. -/
structure Column (n K : ℕ) (F : Type) where
  label : Fin n → Fin K
  quality : Fin n → F
  agreement : Fin n → Option F

def Consensus.column (c : Consensus n M K F) : Column n K F := ⟨c.label, c.quality, c.agreement⟩

/-- The dictionary that is returned. `main` are the columns without suffix, `extra` those with a suffix. A table or the
weights that were not asked for are `none`. -/
structure Report (n M K : ℕ) (F : Type) where
  numAnnotations : Fin n → ℕ
  main : Option (Column n K F) := none
  extra : List (String × Column n K F) := []
  detailed : Option (Fin M → Fin n → Option F) := none
  stats : Option (List (AnnotatorRow M K F)) := none
  weights : Option (Option (F × (Fin M → F))) := none

/-- `label_quality[...] = ...`: a column with this name is replaced. -/
def setColumn (l : List (String × Column n K F)) (name : String) (c : Column n K F) : List (String × Column n K F) :=
  if name ∈ l.map Prod.fst then l.map (fun x => if x.1 = name then (name, c) else x) else l ++ [(name, c)]

/-- The consensus of one method, `multiannotator.py:218-261`, from the majority vote. -/
def methodConsensus [NeZero K] (isInt : Bool) (score : Scorer K F) (quality : String) (L : Annotations n M K)
    (P : Fin n → Fin K → F) (root : F) (mv : Consensus n M K F) (method : String) : Except String (Consensus n M K F) :=
  if method = "majority_vote" then .ok mv
  else if method = "best_quality" then consensusOf isInt score quality L P root (bestQuality mv.post mv.label)
  else .error "not a valid consensus method!"

/-- The tables about single labels and annotators, `multiannotator.py:292-321`. -/
def tables (score : Scorer K F) (o : Options) (L : Annotations n M K) (c : Consensus n M K F) :
    Except String (Option (Fin M → Fin n → Option F) × Option (List (AnnotatorRow M K F))) := do
  let detailed ← (if o.detailed then (collect (annotatorColumn score L c.post)).map some else .ok none)
  let stats ← (if o.stats then (annotatorStats L c detailed).map some else .ok none)
  return (detailed, stats)

/-- The body of the loop over the methods, `multiannotator.py:217-334`. The variables `model_weight` and `annotator_weight`
are those of the method that was last. -/
def step [NeZero K] (isInt : Bool) (score : Scorer K F) (o : Options) (L : Annotations n M K) (P : Fin n → Fin K → F)
    (root : F) (mv : Consensus n M K F) (r : Report n M K F) (method : String) : Except String (Report n M K F) := do
  let c ← methodConsensus isInt score o.quality L P root mv method
  let weights := if o.weights then some c.weights else none
  match r.main with
  | none => do
    let t ← tables score o L c
    return { r with main := some c.column, detailed := t.1, stats := t.2, weights := weights }
  | some _ => return { r with extra := setColumn r.extra method c.column, weights := weights }

/-- `get_label_quality_multiannotator`, `multiannotator.py:46-348`; `isInt` says whether the labels are an array of
integers, `rand` are the random numbers of the majority vote and `root` is the square root of the mean number of
annotations. -/
def report [NeZero K] (isInt : Bool) (score : Scorer K F)
    (cal : Annotations n M K → (Fin n → Fin K → F) → Except String (Fin n → Fin K → F)) (o : Options)
    (L : Annotations n M K) (P : Fin n → Fin K → F) (rand : Fin n → ℕ) (root : F) : Except String (Report n M K F) :=
  if o.weights = true ∧ o.quality ≠ "crowdlab" then
    .error "Model and annotator weights are only applicable to the crowdlab quality method."
  else do
    assertValidInputs L
    let P ← (if o.calibrate then cal L P else .ok P)
    let start : Report n M K F := { numAnnotations := numAnnotations L }
    if "best_quality" ∈ o.methods ∨ "majority_vote" ∈ o.methods then do
      let mv ← majorityVote L (some P) rand
      let mv ← consensusOf isInt score o.quality L P root mv
      o.methods.foldlM (step isInt score o L P root mv) start
    else match o.methods with
      | [] => if o.detailed ∨ o.stats ∨ o.weights then .error "UnboundLocalError" else .ok start
      | _ :: _ => .error "not a valid consensus method!"

end Cleanlab.Multiannotator
