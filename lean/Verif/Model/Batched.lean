import Verif.Model.Count
import Verif.Model.Rank

/-!
# Model of `cleanlab/experimental/label_issues_batched.py`

A batch is a list of examples, an example is its given label and its row of predicted probabilities. The length
checks of `_batch_check` are part of these types. Reading arrays from files is not modelled.
-/

namespace Cleanlab.Batched

open Np Cleanlab.Util Cleanlab.Count Cleanlab.Rank

variable {K : ℕ}

/-- Given label and predicted probabilities of one example. -/
abbrev Ex (K : ℕ) : Type := Fin K × (Fin K → ℚ)

/-- `labels_batch`. -/
def labelsOf (b : List (Ex K)) (i : Fin b.length) : Fin K := (b.get i).1

/-- `pred_probs_batch`. -/
def probsOf (b : List (Ex K)) (i : Fin b.length) : Fin K → ℚ := (b.get i).2

/-- The attributes of a `LabelInspector`, `label_issues_batched.py:313-355`. The counters of the calibrated and of
the other estimation methods are kept side by side. -/
structure Inspector (K : ℕ) where
  thr : Fin K → ℚ := fun _ => 0
  perClass : Fin K → ℕ := fun _ => 0
  processedThresh : ℕ := 0
  processedQuality : ℕ := 0
  pruneCount : ℕ := 0
  pruneCounts : Fin K → ℕ := fun _ => 0
  classCounts : Fin K → ℕ := fun _ => 0
  normalization : Fin K → ℕ := fun _ => 0
  scores : List ℚ := []

/-- `update_confident_thresholds`, `label_issues_batched.py:487-516`. -/
def updateThresholds (s : Inspector K) (b : List (Ex K)) : Inspector K :=
  let bt := getConfidentThresholds (labelsOf b) (probsOf b)
  let cnt := labelCounts (labelsOf b)
  { s with
    thr := fun k => max ((s.perClass k * s.thr k + cnt k * bt k) / max ((s.perClass k + cnt k : ℕ) : ℚ) 1)
      thresholdsLowerBound
    perClass := fun k => s.perClass k + cnt k
    processedThresh := s.processedThresh + b.length }

/-- `pred_probs[i, pred_class] >= adj_confident_thresholds[pred_class]`, `label_issues_batched.py:607-608`. -/
def reaches [NeZero K] (thr : Fin K → ℚ) (e : Ex K) : Bool :=
  decide (e.2 (argmax e.2) ≥ thr (argmax e.2) - floatingPointComparison)

/-- `pred_class != labels`, `label_issues_batched.py:602`. -/
def disagrees [NeZero K] (e : Ex K) : Bool := decide (argmax e.2 ≠ e.1)

/-- `split_arr`, `label_issues_batched.py:676-680`: consecutive chunks of `c` elements, the last one shorter. `fuel`
bounds the number of chunks. -/
def splitFuel {α : Type} (c : ℕ) : ℕ → List α → List (List α)
  | 0, l => [l]
  | fuel + 1, l => if l.length ≤ c then [l] else l.take c :: splitFuel c fuel (l.drop c)

/-- `split_arr`, `label_issues_batched.py:676-680`. -/
def splitArr {α : Type} (l : List α) (c : ℕ) : List (List α) := splitFuel c l.length l

/-- The chunk size of the worker pool, `label_issues_batched.py:639-643`. -/
def chunksize (n : ℕ) : ℕ := if n ≤ 5000 then 1 else n / 5000

/-- `a[idx] += vals` for index arrays: numpy reads all old values first, so of several additions to one position
only the last one has an effect. -/
def fancyAdd (f : Fin K → ℕ) (kv : List (Fin K × ℕ)) : Fin K → ℕ :=
  kv.foldl (fun g p => Function.update g p.1 (f p.1 + p.2)) f

/-- The order in which `imap_unordered` yields its results. -/
structure Schedule where
  run : {α : Type} → List α → List α
  perm : ∀ {α : Type} (l : List α), (run l).Perm l

/-- `n_jobs == 1`, or more workers with a completion order. -/
inductive Jobs
  | one
  | pool (s : Schedule)

/-- `_compute_num_issues`, `label_issues_batched.py:683-710`. -/
def computeNumIssues [NeZero K] (thr : Fin K → ℚ) (chunk : List (Ex K)) : ℕ :=
  chunk.countP (fun e => reaches thr e && disagrees e)

/-- `int` of a Boolean. -/
def toNat (b : Bool) : ℕ := if b then 1 else 0

/-- `_update_num_label_issues` without calibration, `label_issues_batched.py:604-612` and `661-666`. -/
def updatePruneCount [NeZero K] (j : Jobs) (s : Inspector K) (b : List (Ex K)) : Inspector K :=
  match j with
  | .one => { s with pruneCount := s.pruneCount + computeNumIssues s.thr b }
  | .pool sc => { s with pruneCount := s.pruneCount +
      (sc.run ((splitArr b (chunksize b.length)).map (computeNumIssues s.thr))).sum }

/-- One result of the calibrated pool added to the counters, `label_issues_batched.py:669-673`; the results come
from `_compute_num_issues_calibrated`, `label_issues_batched.py:713-741`. -/
def addCalibrated [NeZero K] (thr : Fin K → ℚ) (s : Inspector K) (chunk : List (Ex K)) : Inspector K :=
  { s with
    classCounts := fancyAdd s.classCounts (chunk.map (fun e => (e.1, 1)))
    normalization := fancyAdd s.normalization (chunk.map (fun e => (e.1, toNat (reaches thr e))))
    pruneCounts := fancyAdd s.pruneCounts (chunk.map (fun e => (e.1, toNat (reaches thr e && disagrees e)))) }

/-- `_update_num_label_issues` with calibration, `label_issues_batched.py:613-629` and `667-673`. -/
def updateCalibrated [NeZero K] (j : Jobs) (s : Inspector K) (b : List (Ex K)) : Inspector K :=
  match j with
  | .one => { s with
      classCounts := fun k => s.classCounts k + labelCounts (labelsOf b) k
      normalization := fun k => s.normalization k + b.countP (fun e => decide (e.1 = k) && reaches s.thr e)
      pruneCounts := fun k => s.pruneCounts k +
        b.countP (fun e => decide (e.1 = k) && reaches s.thr e && disagrees e) }
  | .pool sc => (sc.run (splitArr b (chunksize b.length))).foldl (addCalibrated s.thr) s

/-- `score_label_quality`, `label_issues_batched.py:518-562`. `score` is the label quality score of one example
given the thresholds. -/
def scoreLabelQuality [NeZero K] (score : (Fin K → ℚ) → Ex K → ℚ) (calibrated : Bool) (j : Jobs) (s : Inspector K)
    (b : List (Ex K)) : Except String (Inspector K) :=
  if s.processedThresh < 1 then .error "Have not computed any confident_thresholds yet"
  else
    let s' := if calibrated then updateCalibrated j s b else updatePruneCount j s b
    .ok { s' with processedQuality := s.processedQuality + b.length, scores := s.scores ++ b.map (score s.thr) }

/-- `get_num_issues`, `label_issues_batched.py:400-430`. -/
def getNumIssues (calibrated : Bool) (s : Inspector K) : Except String ℤ :=
  if s.processedQuality < 1 then .error "Have not evaluated any labels yet"
  else if calibrated then
    .ok (rint (∑ k, (s.pruneCounts k : ℚ) * s.classCounts k / max (s.normalization k : ℚ) (1 / 1000000)))
  else .ok s.pruneCount

/-- `get_label_issues`, `label_issues_batched.py:452-485`, with `store_results=True`. -/
def getLabelIssues (A : ArgSort ℚ) (calibrated : Bool) (s : Inspector K) :
    Except String (List (Fin s.scores.length)) := do
  let num ← getNumIssues calibrated s
  return findTopIssues A s.scores.get (some num.toNat)

/-- The batches of the loop `label_issues_batched.py:193-199`; `none` if the loop does not end. `fuel` bounds the
number of batches. -/
def loopBatches {α : Type} (bs : ℕ) : ℕ → List α → Option (List (List α))
  | 0, l => if l = [] then some [] else none
  | fuel + 1, l => if l = [] then some [] else (loopBatches bs fuel (l.drop bs)).map (l.take bs :: ·)

/-- The batches of a data set; the loop ends within `n` rounds or never. -/
def batches {α : Type} (bs : ℕ) (l : List α) : Option (List (List α)) := loopBatches bs l.length l

/-- The state after both loops, `label_issues_batched.py:193-215`. `jobs r` is the schedule of round `r`. -/
def inspect [NeZero K] (score : (Fin K → ℚ) → Ex K → ℚ) (calibrated : Bool) (jobs : ℕ → Jobs)
    (bs : List (List (Ex K))) : Except String (Inspector K) :=
  bs.zipIdx.foldlM (fun s b => scoreLabelQuality score calibrated (jobs b.2) s b.1) (bs.foldl updateThresholds {})

/-- `find_label_issues_batched` with `return_mask=True`, `label_issues_batched.py:181-227`; `none` if it does not
return. -/
def findLabelIssuesBatched [NeZero K] (A : ArgSort ℚ) (score : (Fin K → ℚ) → Ex K → ℚ) (calibrated : Bool)
    (jobs : ℕ → Jobs) (batchSize : ℕ) (data : List (Ex K)) : Option (Except String (Fin data.length → Bool)) :=
  (batches batchSize data).map (fun bs => do
    let s ← inspect score calibrated jobs bs
    let idx ← getLabelIssues A calibrated s
    return fun i => decide (i.val ∈ idx.map Fin.val) && !(reduceIssues (labelsOf data) (probsOf data) i))

/-- `find_label_issues_batched` with `return_mask=False`: `np.where(mask)[0]`, `label_issues_batched.py:227`. -/
def findLabelIssuesBatchedIndices [NeZero K] (A : ArgSort ℚ) (score : (Fin K → ℚ) → Ex K → ℚ) (calibrated : Bool)
    (jobs : ℕ → Jobs) (batchSize : ℕ) (data : List (Ex K)) : Option (Except String (List (Fin data.length))) :=
  (findLabelIssuesBatched A score calibrated jobs batchSize data).map
    (fun r => r.map (fun mask => (List.finRange data.length).filter mask))

/-- The default score, `get_self_confidence_for_each_label`, `rank.py:510-563`. -/
def selfConfidenceScore (_ : Fin K → ℚ) (e : Ex K) : ℚ := e.2 e.1

end Cleanlab.Batched
