import Verif.Model.Batched
import Verif.Model.Multilabel

/-!
# Model of `cleanlab/segmentation/{filter,rank,summary}.py`

An image stack is a function of the image, the row and the column. The shape checks of `_check_input` are part of the
types. With down-sampling the sides are `h * d` and `w * d`, so that the divisibility check holds by type.
-/

namespace Cleanlab.Segmentation

open Np Cleanlab.Util Cleanlab.Count Cleanlab.Rank Cleanlab.Batched

variable {N K h w d : ℕ}

/-- A stack of `N` images of size `h × w` with values in `α`. -/
abbrev Stack (N h w : ℕ) (α : Type) : Type := Fin N → Fin h → Fin w → α

/-- The pixels of one image in the order of `flatten`, `segmentation/filter.py:102-109`. -/
def imagePixels (labels : Stack N h w (Fin K)) (P : Stack N h w (Fin K → ℚ)) (n : Fin N) : List (Ex K) :=
  (List.ofFn fun i => List.ofFn fun j => (labels n i j, P n i j)).flatten

/-- `images_per_batch`, `segmentation/filter.py:138-139`. -/
def imagesPerBatch (K h w batchSize : ℕ) : ℕ := max (batchSize / (K * h * w)) 1

/-- `ranked_label_issues`, `segmentation/filter.py:123-166`: flat pixel indices. -/
def rankedIssues (A : ArgSort ℚ) [NeZero K] (jobs : ℕ → Jobs) (batchSize : ℕ) (labels : Stack N h w (Fin K))
    (P : Stack N h w (Fin K → ℚ)) : Except String (List ℕ) :=
  match batches (imagesPerBatch K h w batchSize) (List.finRange N) with
  | none => .error "unreachable"
  | some imgs => do
    let s ← inspect selfConfidenceScore false jobs (imgs.map (fun b => (b.map (imagePixels labels P)).flatten))
    let idx ← getLabelIssues A false s
    return idx.map Fin.val

/-- `_get_indexes_from_ranked_issues` for one index, `segmentation/filter.py:211-218`. -/
def coords (h w r : ℕ) : ℕ × ℕ × ℕ := (r / (h * w), (r % (h * w)) / w, (r % (h * w)) % w)

/-- Whether the predicted class of a pixel is its label. -/
def agrees [NeZero K] (labels : Stack N h w (Fin K)) (P : Stack N h w (Fin K → ℚ)) (n : Fin N) (i : Fin h) (j : Fin w) :
    Bool := decide (argmax (P n i j) = labels n i j)

/-- `label_issues[image_batch, batch_coor_i, batch_coor_j] = True`, `segmentation/filter.py:179`. -/
def mark (mask : Stack N h w Bool) (batch : List ℕ) : Stack N h w Bool :=
  fun n i j => if (n.val, i.val, j.val) ∈ batch.map (coords h w) then true else mask n i j

/-- `segmentation/filter.py:180-184`. -/
def unmark [NeZero K] (labels : Stack N h w (Fin K)) (P : Stack N h w (Fin K → ℚ)) (mask : Stack N h w Bool)
    (batch : List ℕ) : Stack N h w Bool :=
  fun n i j => if (n.val, i.val, j.val) ∈ batch.map (coords h w) ∧ agrees labels P n i j = true then false
    else mask n i j

/-- `_get_valid_optional_params`, `internal/segmentation_utils.py:10-20`. -/
def validBatchSize (batchSize : ℕ) : Except String ℕ :=
  if batchSize ≤ 0 then .error "Batch size must be greater than 0" else .ok batchSize

/-- The slices `ranked_label_issues[i : i + batch_size]`, `segmentation/filter.py:173-174`. -/
def issueBatches (batchSize : ℕ) (idx : List ℕ) : Except String (List (List ℕ)) :=
  match batches batchSize idx with
  | none => .error "unreachable"
  | some bs => .ok bs

/-- `find_label_issues` with `downsample=1`, `segmentation/filter.py:14-208`. -/
def findIssues (A : ArgSort ℚ) [NeZero K] (jobs : ℕ → Jobs) (batchSize : ℕ) (labels : Stack N h w (Fin K))
    (P : Stack N h w (Fin K → ℚ)) : Except String (Stack N h w Bool) := do
  let batchSize ← validBatchSize batchSize
  let idx ← rankedIssues A jobs batchSize labels P
  let bs ← issueBatches batchSize idx
  return bs.foldl (fun mask b => unmark labels P (mark mask b) b) (fun _ _ _ => false)

/-- Row (or column) `a` of block `i`. -/
def up (i : Fin h) (a : Fin d) : Fin (h * d) := ⟨i.val * d + a.val, by
  have h1 := i.isLt
  have h2 := a.isLt
  calc i.val * d + a.val < i.val * d + d := by omega
    _ = (i.val + 1) * d := by ring
    _ ≤ h * d := Nat.mul_le_mul_right d h1⟩

/-- Mean over the `d × d` block `(i, j)`, `segmentation/filter.py:90` and `92-94`. -/
def blockMean (f : Fin (h * d) → Fin (w * d) → ℚ) (i : Fin h) (j : Fin w) : ℚ :=
  (∑ a : Fin d, ∑ b : Fin d, f (up i a) (up j b)) / (d * d)

theorem blockMean_le (f : Fin (h * d) → Fin (w * d) → ℚ) (i : Fin h) (j : Fin w) (c : ℚ) (hc : 0 ≤ c)
    (hf : ∀ y x, f y x ≤ c) : blockMean f i j ≤ c := by
  unfold blockMean
  rcases Nat.eq_zero_or_pos d with rfl | hd
  · simpa using hc
  · have hd' : (0 : ℚ) < d * d := by positivity
    rw [div_le_iff₀ hd']
    calc _ ≤ ∑ a : Fin d, ∑ b : Fin d, c := Finset.sum_le_sum (fun a _ => Finset.sum_le_sum (fun b _ => hf _ _))
      _ = c * (d * d) := by simp; ring

/-- The label of a block: the rounded mean of its labels, `segmentation/filter.py:89-91`. -/
def smallLabels [NeZero K] (labels : Stack N (h * d) (w * d) (Fin K)) : Stack N h w (Fin K) := fun n i j =>
  ⟨(rint (blockMean (fun y x => ((labels n y x).val : ℚ)) i j)).toNat, by
    have hK : 0 < K := Nat.pos_of_ne_zero (NeZero.ne K)
    have h1 : blockMean (fun y x => ((labels n y x).val : ℚ)) i j ≤ (((K - 1 : ℕ) : ℤ) : ℚ) := by
      refine blockMean_le _ i j _ (by exact_mod_cast Nat.zero_le _) (fun y x => ?_)
      have := (labels n y x).isLt
      push_cast
      exact_mod_cast (by omega : (labels n y x).val ≤ K - 1)
    have h2 := rint_mono h1
    rw [rint_intCast] at h2
    omega⟩

/-- The mean probabilities of a block before renormalisation, `segmentation/filter.py:92-94`. -/
def blockProbs (P : Stack N (h * d) (w * d) (Fin K → ℚ)) : Stack N h w (Fin K → ℚ) :=
  fun n i j k => blockMean (fun y x => P n y x k) i j

/-- `renorm_small_pred_probs`, `segmentation/filter.py:97-98`. -/
def smallProbs (P : Stack N (h * d) (w * d) (Fin K → ℚ)) : Stack N h w (Fin K → ℚ) :=
  fun n i j k => blockProbs P n i j k / ∑ k', blockProbs P n i j k'

/-- `label_issues.repeat(downsample, axis=1).repeat(downsample, axis=2)`, `segmentation/filter.py:187`. -/
def repeatMask (mask : Stack N h w Bool) : Stack N (h * d) (w * d) Bool := fun n y x =>
  mask n y.divNat x.divNat

/-- One batch of the second loop, `segmentation/filter.py:189-206`: pixels of the blocks of the batch that agree with
their prediction are unmarked. -/
def unmarkBlocks [NeZero K] (labels : Stack N (h * d) (w * d) (Fin K)) (P : Stack N (h * d) (w * d) (Fin K → ℚ))
    (mask : Stack N (h * d) (w * d) Bool) (batch : List ℕ) : Stack N (h * d) (w * d) Bool :=
  ((List.range d).flatMap (fun a => (List.range d).map (fun b => (a, b)))).foldl
    (fun mask ab n y x =>
      if (n.val, y.val, x.val) ∈ (batch.map (coords h w)).map (fun c => (c.1, c.2.1 * d + ab.1, c.2.2 * d + ab.2)) ∧
        agrees labels P n y x = true then false else mask n y x) mask

/-- `find_label_issues` with `downsample=d` other than 1, `segmentation/filter.py:14-208`. A block whose
probabilities sum to zero gives `nan`; the model stops with an error there. -/
def findIssuesDown (A : ArgSort ℚ) [NeZero K] (jobs : ℕ → Jobs) (batchSize : ℕ)
    (labels : Stack N (h * d) (w * d) (Fin K)) (P : Stack N (h * d) (w * d) (Fin K → ℚ)) :
    Except String (Stack N (h * d) (w * d) Bool) := do
  let batchSize ← validBatchSize batchSize
  if d = 0 then throw "ZeroDivisionError"
  if ∃ n, ∃ (i : Fin h), ∃ (j : Fin w), ∑ k, blockProbs P n i j k = 0 then throw "nan"
  let idx ← rankedIssues A jobs batchSize (smallLabels labels) (smallProbs P)
  let bs ← issueBatches batchSize idx
  let small : Stack N h w Bool := bs.foldl mark (fun _ _ _ => false)
  return bs.foldl (unmarkBlocks labels P) (repeatMask small)

/-- `issues_from_scores` without pixel scores, `segmentation/rank.py:133-186`. `np.searchsorted` of a sorted array is
the number of smaller entries. -/
def issuesFromScores (A : ArgSort ℚ) (scores : Fin N → ℚ) (threshold : ℚ) : Except String (List (Fin N)) :=
  if threshold < 0 ∨ threshold > 1 then .error "threshold must be between 0 and 1"
  else
    let ranking := A.indices scores
    let cutoff := (ranking.map scores).countP (fun s => decide (s < threshold))
    .ok (ranking.take (cutoff + 1))

/-- `issues_from_scores` with pixel scores, `segmentation/rank.py:181-182`. -/
def issuesFromPixelScores (scores : Stack N h w ℚ) (threshold : ℚ) : Except String (Stack N h w Bool) :=
  if threshold < 0 ∨ threshold > 1 then .error "threshold must be between 0 and 1"
  else .ok (fun n i j => decide (scores n i j < threshold))

/-- The pixel scores of `get_label_quality_scores` with `method="num_pixel_issues"`, `segmentation/rank.py:86-90`. -/
def pixelScoresMasked (labels : Stack N h w (Fin K)) (P : Stack N h w (Fin K → ℚ)) : Stack N h w ℚ :=
  fun n i j => ∑ k, if k = labels n i j then P n i j k else 0

/-- The image scores of `get_label_quality_scores` with `method="num_pixel_issues"`, `segmentation/rank.py:91-100`. -/
def imageScoresNum (mask : Stack N h w Bool) (n : Fin N) : ℚ :=
  1 - (∑ i, ∑ j, if mask n i j then (1 : ℚ) else 0) / (h * w)

/-- The pixel scores of `get_label_quality_scores` with `method="softmin"`, `segmentation/rank.py:119-124`. -/
def pixelScores {F : Type} (labels : Stack N h w (Fin K)) (P : Stack N h w (Fin K → F)) : Stack N h w F :=
  fun n i j => P n i j (labels n i j)

/-- `_get_label_quality_per_image` with `method="softmin"`, `segmentation/rank.py:189-231`, on the flattened scores. -/
noncomputable def imageScoreSoftmin (scores : Stack N h w ℝ) (T : ℝ) (n : Fin N) : Except String ℝ :=
  if hw : h * w = 0 then .error "pixel_scores cannot be None or an empty list"
  else if T = 0 then .error "temperature cannot be zero or None"
  else
    haveI : NeZero (h * w) := ⟨hw⟩
    .ok (Multilabel.softmin (fun r : Fin (h * w) => scores n r.divNat r.modNat) T)

end Cleanlab.Segmentation
