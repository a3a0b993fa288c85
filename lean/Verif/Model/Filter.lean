import Verif.Model.Rank

/-!
# Model of `cleanlab/filter.py` (single label)
-/

namespace Cleanlab.Filter

open Np Cleanlab.Util Cleanlab.Count Cleanlab.Rank

variable {n K : ℕ}

/-- The positions selected by `labels == k`. -/
def classIdx (labels : Fin n → Fin K) (k : Fin K) : List (Fin n) :=
  (List.finRange n).filter (fun i => labels i = k)

/-- `pred_probs[labels == k]`, `filter.py:368`. -/
def classProbs (labels : Fin n → Fin K) (P : Fin n → Fin K → ℚ) (k : Fin K) :
    Fin (classIdx labels k).length → Fin K → ℚ :=
  fun r => P ((classIdx labels k).get r)

/-- `_prune_by_class`, `filter.py:829-863`, on the sub-array of one class with `c` rows. -/
def pruneByClass (A : ArgSort ℚ) {c : ℕ} (k : Fin K) (minExamples : ℕ) (sub : Fin c → Fin K → ℚ)
    (pcmCol : Fin K → ℤ) : Fin c → Bool :=
  if c > minExamples then
    let numIssues : ℤ := c - pcmCol k
    if numIssues ≥ 1 then
      let order := A.indices (fun r => sub r k)
      fun r => decide (r ∈ order.take numIssues.toNat)
    else fun _ => false
  else fun _ => false

/-- The loop body of `_prune_by_count`, `filter.py:898-906`. -/
def pruneByCountStep (A : ArgSort ℚ) {c : ℕ} (k : Fin K) (sub : Fin c → Fin K → ℚ) (pcmCol : Fin K → ℤ)
    (mask : Fin c → Bool) (j : Fin K) : Fin c → Bool :=
  if k ≠ j ∧ pcmCol j > 0 then
    let order := A.indices (fun r => -(sub r j - sub r k))
    fun r => mask r || decide (r ∈ order.take (pcmCol j).toNat)
  else mask

/-- `_prune_by_count`, `filter.py:867-907`. -/
def pruneByCount (A : ArgSort ℚ) {c : ℕ} (k : Fin K) (minExamples : ℕ) (sub : Fin c → Fin K → ℚ)
    (pcmCol : Fin K → ℤ) : Fin c → Bool :=
  if c ≤ minExamples then fun _ => false
  else (List.finRange K).foldl (pruneByCountStep A k sub pcmCol) (fun _ => false)

/-- `label_issues_mask[labels == k] = mask`. -/
def assignClass (labels : Fin n → Fin K) (k : Fin K) (mask : Fin (classIdx labels k).length → Bool)
    (old : Fin n → Bool) : Fin n → Bool :=
  fun i => if h : i ∈ classIdx labels k then
    mask ⟨(classIdx labels k).idxOf i, List.idxOf_lt_length_iff.mpr h⟩ else old i

/-- One per-class mask for each class. -/
abbrev ClassMasks (labels : Fin n → Fin K) := (k : Fin K) → Fin (classIdx labels k).length → Bool

/-- The loop combining the per-class masks, `filter.py:394-397` and `417-420`: a mask of length at most
one is ignored. -/
def combineMasks (labels : Fin n → Fin K) (masks : ClassMasks labels) : Fin n → Bool :=
  (List.finRange K).foldl
    (fun m k => if (classIdx labels k).length > 1 then assignClass labels k (masks k) m else m)
    (fun _ => false)

/-- `_reduce_prune_counts`, `filter.py:607-635`: off-diagonal entries times `frac_noise`, the diagonal
increased by what its column lost, then truncated to integers. -/
def reducePruneCountsExact (m : Fin K → Fin K → ℚ) (frac : ℚ) (j k : Fin K) : ℚ :=
  let scaled := fun a b => if a = b then m a b else m a b * frac
  if j = k then m k k + ∑ a, (m a k - scaled a k) else scaled j k

/-- `_reduce_prune_counts` with the final `astype(int)`. -/
def reducePruneCounts (m : Fin K → Fin K → ℚ) (frac : ℚ) (j k : Fin K) : ℤ :=
  trunc (reducePruneCountsExact m frac j k)

/-- `num_noise_rates_per_col`, `filter.py:583-586`. -/
def numNoiseRates (pcm : Fin K → Fin K → ℚ) (k : Fin K) : ℚ :=
  max ((((List.finRange K).countP (fun j => pcm j k ≠ 0) : ℕ) : ℚ) - 1) 1

/-- The matrix before `_reduce_prune_counts`, `filter.py:573-596`. -/
def keepDiagonal (pcm : Fin K → Fin K → ℚ) (minN : ℕ) (j k : Fin K) : ℚ :=
  let newDiag := max (pcm k k) minN
  let diff := newDiag - pcm k k
  let v := pcm j k - diff / numNoiseRates pcm k
  if j = k then newDiag else if v < 0 then 0 else v

/-- `_keep_at_least_n_per_class`, `filter.py:539-604`. -/
def keepAtLeastN (A : ArgSort ℚ) (pcm : Fin K → Fin K → ℚ) (minN : ℕ) (frac : ℚ) : Fin K → Fin K → ℤ :=
  roundRows A (fun j k => (reducePruneCounts (keepDiagonal pcm minN) frac j k : ℚ))

/-- The matrix `psy`, `filter.py:351`. numpy divides column `k` by the sum of *row* `k`. -/
def psy (pcm : Fin K → Fin K → ℤ) (j k : Fin K) : ℚ := (pcm j k : ℚ) / (∑ k', pcm k k' : ℤ)

/-- `noise_per_s`, `filter.py:352`. -/
def noisePerS (pcm : Fin K → Fin K → ℤ) (j : Fin K) : ℚ := ∑ k, psy pcm j k - psy pcm j j

/-- The matrix `tmp`, `filter.py:354-355`. -/
def removalMatrix (pcm : Fin K → Fin K → ℤ) (labels : Fin n → Fin K) (num : Fin K → ℤ) (j k : Fin K) : ℚ :=
  if j = k then (labelCounts labels k : ℚ) - num k
  else psy pcm j k * num j / noisePerS pcm j

/-- The removal matrix rounded by rows, `filter.py:356`. In a row with `noise_per_s = 0` the entries off the diagonal are
`nan`: no adjustment of the row takes place (comparisons with `nan` are false) and `astype(int)` turns them into `nanInt`. -/
def roundRemoval (A : ArgSort ℚ) (nanInt : ℤ) (pcm : Fin K → Fin K → ℤ) (labels : Fin n → Fin K) (num : Fin K → ℤ)
    (j k : Fin K) : ℤ :=
  if noisePerS pcm j = 0 then (if j = k then (labelCounts labels k : ℤ) - num k else nanInt)
  else roundRows A (removalMatrix pcm labels num) j k

/-- The prune count matrix, `filter.py:343-356`. With a removal vector the code divides by row sums; if one of these is
zero (possible for `min_examples_per_class=0` only, or with negative entries) `nan` or infinite values spread over the
matrix, modelled as an error. -/
def pruneCountMatrix (A : ArgSort ℚ) (cj : Fin K → Fin K → ℚ) (labels : Fin n → Fin K) (minN : ℕ)
    (frac : ℚ) (numToRemove : Option (Fin K → ℤ)) (nanInt : ℤ) : Except String (Fin K → Fin K → ℤ) :=
  let pcm := keepAtLeastN A (fun j k => cj k j) minN frac
  match numToRemove with
  | none => .ok pcm
  | some num =>
    if ∀ k, (∑ k', pcm k k') ≠ 0 then .ok (roundRemoval A nanInt pcm labels num)
    else .error "nan in prune_count_matrix"

/-- `filter_by` argument. -/
inductive FilterBy
  | lowNormalizedMargin
  | lowSelfConfidence
  | pruneByNoiseRate
  | pruneByClass
  | both
  | confidentLearning
  | predictedNeqGiven
deriving DecidableEq

/-- The keyword arguments of `find_label_issues` that influence the mask. -/
structure Args (K : ℕ) where
  filterBy : FilterBy
  fracNoise : ℚ := 1
  numToRemove : Option (Fin K → ℤ) := none
  minExamples : ℕ := 1
  confidentJoint : Option (Fin K → Fin K → ℚ) := none
  /-- what `astype(int)` makes of `nan`: depends on the platform, `-2 ** 63` on x86 and `0` on ARM -/
  nanInt : ℤ := -2 ^ 63

/-- Mask by class, `filter.py:379-397`. -/
def maskByClass (A : ArgSort ℚ) (labels : Fin n → Fin K) (P : Fin n → Fin K → ℚ) (minN : ℕ)
    (pcm : Fin K → Fin K → ℤ) : Fin n → Bool :=
  combineMasks labels (fun k => pruneByClass A k minN (classProbs labels P k) (fun j => pcm j k))

/-- Mask by noise rate, `filter.py:402-420`. -/
def maskByCount (A : ArgSort ℚ) (labels : Fin n → Fin K) (P : Fin n → Fin K → ℚ) (minN : ℕ)
    (pcm : Fin K → Fin K → ℤ) : Fin n → Bool :=
  combineMasks labels (fun k => pruneByCount A k minN (classProbs labels P k) (fun j => pcm j k))

/-- The confident joint used for pruning, `filter.py:311-319`. -/
def usedJoint (A : ArgSort ℚ) [NeZero K] (labels : Fin n → Fin K) (P : Fin n → Fin K → ℚ)
    (args : Args K) : Fin K → Fin K → ℚ :=
  match args.confidentJoint with
  | none => fun a b => (computeConfidentJoint A labels P (getConfidentThresholds labels P) true a b : ℚ)
  | some cj => cj

/-- The lowest-scored examples, as many as `num_label_issues`, `filter.py:321-333`. -/
def lowScoreIndices (A : ArgSort ℚ) [NeZero K] (labels : Fin n → Fin K) (P : Fin n → Fin K → ℚ)
    (m : Method) : Except String (List (Fin n)) := do
  let scores ← labelQualityScores m labels P
  let num ← numLabelIssues A labels P none .offDiagonal
  return (A.indices scores).take num.toNat

/-- The mask before the final removal step, `filter.py:321-430`. -/
def rawMask (A : ArgSort ℚ) [NeZero K] (labels : Fin n → Fin K) (P : Fin n → Fin K → ℚ)
    (args : Args K) : Except String (Fin n → Bool) :=
  match args.filterBy with
  | .pruneByClass => do
    let pcm ← pruneCountMatrix A (usedJoint A labels P args) labels args.minExamples args.fracNoise args.numToRemove
      args.nanInt
    return maskByClass A labels P args.minExamples pcm
  | .pruneByNoiseRate => do
    let pcm ← pruneCountMatrix A (usedJoint A labels P args) labels args.minExamples args.fracNoise args.numToRemove
      args.nanInt
    return maskByCount A labels P args.minExamples pcm
  | .both => do
    let pcm ← pruneCountMatrix A (usedJoint A labels P args) labels args.minExamples args.fracNoise args.numToRemove
      args.nanInt
    let byClass := maskByClass A labels P args.minExamples pcm
    let byCount := maskByCount A labels P args.minExamples pcm
    return fun i => byCount i && byClass i
  | .confidentLearning =>
    .ok (fun i => decide (i ∈ offDiagonalIndices labels P (getConfidentThresholds labels P)))
  | .lowNormalizedMargin => do
    let idx ← lowScoreIndices A labels P .normalizedMargin
    return fun i => decide (i ∈ idx)
  | .lowSelfConfidence => do
    let idx ← lowScoreIndices A labels P .selfConfidence
    return fun i => decide (i ∈ idx)
  | .predictedNeqGiven => .ok (fun i => decide (argmax (P i) ≠ labels i))

/-- `find_label_issues(...)` returning a mask, `filter.py:57-450`. -/
def findLabelIssues (A : ArgSort ℚ) [NeZero K] (labels : Fin n → Fin K) (P : Fin n → Fin K → ℚ)
    (args : Args K) : Except String (Fin n → Bool) :=
  -- filter.py:232-245
  if args.numToRemove.isSome ∧ args.filterBy ∈ [FilterBy.confidentLearning, .predictedNeqGiven,
      .lowNormalizedMargin, .lowSelfConfidence] then
    .error "not supported (yet) when setting 'num_to_remove_per_class'"
  else do
    let mask ← rawMask A labels P args
    -- filter.py:432-435
    if args.filterBy ∈ [FilterBy.lowSelfConfidence, .lowNormalizedMargin] then return mask
    else return fun i => mask i && !(reduceIssues labels P i)

/-- `find_label_issues(..., return_indices_ranked_by=...)`, `filter.py:441-449`. -/
def findLabelIssuesRanked {α : Type} [LinearOrder α] (A : ArgSort ℚ) (A' : ArgSort α) [NeZero K]
    (labels : Fin n → Fin K) (P : Fin n → Fin K → ℚ) (args : Args K) (scores : Fin n → α) :
    Except String (List (Fin n)) := do
  let mask ← findLabelIssues A labels P args
  return orderLabelIssues A' mask scores

end Cleanlab.Filter
