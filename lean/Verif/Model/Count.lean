import Verif.Lemmas.Rounding

/-!
# Model of `cleanlab/count.py`: thresholds, confident joint, calibration, joint, issue count

A data set is `labels : Fin n → Fin K` and `P : Fin n → Fin K → ℚ`.  The checks of
`assert_valid_inputs` that labels lie in `0..K-1` and that shapes agree are part of these types. The check that
probabilities are in [0, 1] and that labels are not all of one class is left out here; `Verif.Model.FilterChecked` has
the functions with it.
-/

namespace Cleanlab.Util

open Np

/-- The rounding loop always ends (`roundPreservingSum_core`), so row-wise rounding
(`internal/util.py:229-248`) is a total function. -/
theorem roundPreservingSum_isSome (A : ArgSort ℚ) {n : ℕ} (x : Fin n → ℚ) :
    (roundPreservingSum A x).isSome := by
  obtain ⟨r, h, _⟩ := roundPreservingSum_core A x
  rw [h]; rfl

/-- `round_preserving_row_totals`, `internal/util.py:229-248`, with its (proved) termination used
to make it total. -/
def roundRows (A : ArgSort ℚ) {m n : ℕ} (cj : Fin m → Fin n → ℚ) : Fin m → Fin n → ℤ :=
  fun k => (roundPreservingSum A (cj k)).get (roundPreservingSum_isSome A (cj k))

end Cleanlab.Util

namespace Cleanlab.Count

open Np Cleanlab.Util

variable {n K : ℕ}

/-- `internal/constants.py`, `CONFIDENT_THRESHOLDS_LOWER_BOUND = 2e-6`. -/
def thresholdsLowerBound : ℚ := 2 / 1000000

/-- `internal/constants.py`, `TINY_VALUE = 1e-100`. -/
def tinyValue : ℚ := 1 / 10 ^ 100

/-- `np.clip(x, a_min=TINY_VALUE, a_max=None)`. -/
def clipTiny (x : ℚ) : ℚ := max x tinyValue

/-- `value_counts_fill_missing_classes(labels, num_classes)`, `internal/util.py:113-177`, for integer
labels below `K` (see `Verif.Model.ValueCounts` for the function with all its branches). -/
def labelCounts (labels : Fin n → Fin K) (k : Fin K) : ℕ := (List.ofFn labels).count k

/-- `np.mean(pred_probs[:, k][labels == k])`, `count.py:1452`. -/
def classMean (labels : Fin n → Fin K) (P : Fin n → Fin K → ℚ) (k : Fin K) : ℚ :=
  let sel := ((List.finRange n).filter (fun i => labels i = k)).map (fun i => P i k)
  sel.sum / sel.length

/-- `get_confident_thresholds`, `count.py:1407-1458`. `BIG_VALUE = 2`. -/
def getConfidentThresholds (labels : Fin n → Fin K) (P : Fin n → Fin K → ℚ) (k : Fin K) : ℚ :=
  max (if k ∈ List.ofFn labels then classMean labels P k else 2) thresholdsLowerBound

/-- `pred_probs_bool = pred_probs >= thresholds - 1e-6`, `count.py:581`. -/
def predProbsBool (P : Fin n → Fin K → ℚ) (thr : Fin K → ℚ) (i : Fin n) (k : Fin K) : Bool :=
  decide (P i k ≥ thr k - 1 / 1000000)

/-- `num_confident_bins = pred_probs_bool.sum(axis=1)`, `count.py:582`. -/
def numConfidentBins (P : Fin n → Fin K → ℚ) (thr : Fin K → ℚ) (i : Fin n) : ℕ :=
  (List.finRange K).countP (predProbsBool P thr i)

/-- `at_least_one_confident`, `count.py:584`. -/
def atLeastOneConfident (P : Fin n → Fin K → ℚ) (thr : Fin K → ℚ) (i : Fin n) : Bool :=
  decide (numConfidentBins P thr i > 0)

/-- `true_label_guess`, `count.py:585-595`: the overall argmax if more than one class is confident,
else the first confident class. -/
def trueLabelGuess [NeZero K] (P : Fin n → Fin K → ℚ) (thr : Fin K → ℚ) (i : Fin n) : Fin K :=
  if numConfidentBins P thr i > 1 then argmax (P i)
  else argmax (fun k => if predProbsBool P thr i k then (1 : ℚ) else 0)

/-- `np.arange(len(labels))[at_least_one_confident]`, the rows kept in `count.py:597-598`. -/
def confidentRows (P : Fin n → Fin K → ℚ) (thr : Fin K → ℚ) : List (Fin n) :=
  (List.finRange n).filter (atLeastOneConfident P thr)

/-- `sklearn.metrics.confusion_matrix(y_true, y_pred, labels=range(K))`: entry `(a, b)` counts the
positions with `y_true = a` and `y_pred = b`. -/
def confusionMatrix (yTrue yPred : List (Fin K)) (a b : Fin K) : ℕ := (yTrue.zip yPred).count (a, b)

/-- The confident joint before calibration, `count.py:597-612`: rows are given labels, columns are
guessed true labels, and the diagonal is clipped to at least 1. When no row is confident the code
uses a zero matrix, which is what counting over no rows gives. -/
def confidentJointRaw [NeZero K] (labels : Fin n → Fin K) (P : Fin n → Fin K → ℚ) (thr : Fin K → ℚ)
    (a b : Fin K) : ℕ :=
  let rows := confidentRows P thr
  let cm := confusionMatrix (rows.map (trueLabelGuess P thr)) (rows.map labels)
  -- `.T`
  let cj := cm b a
  if a = b then max cj 1 else cj

/-- First step of `calibrate_confident_joint`, `count.py:278-282`: rows rescaled to the label counts. -/
def calibrateRows (cj : Fin K → Fin K → ℚ) (labels : Fin n → Fin K) (a b : Fin K) : ℚ :=
  cj a b / clipTiny (∑ b', cj a b') * labelCounts labels a

/-- Second step, `count.py:286-290`: the whole matrix rescaled to the total of the label counts. -/
def calibrateTotal (cj : Fin K → Fin K → ℚ) (labels : Fin n → Fin K) (a b : Fin K) : ℚ :=
  calibrateRows cj labels a b / clipTiny (∑ a', ∑ b', calibrateRows cj labels a' b') *
    ((∑ k, labelCounts labels k : ℕ) : ℚ)

/-- `calibrate_confident_joint`, `count.py:221-291` (single label). -/
def calibrateConfidentJoint (A : ArgSort ℚ) (cj : Fin K → Fin K → ℚ) (labels : Fin n → Fin K) :
    Fin K → Fin K → ℤ :=
  roundRows A (calibrateTotal cj labels)

/-- `compute_confident_joint`, `count.py:445-622` (single label), given thresholds. -/
def computeConfidentJoint (A : ArgSort ℚ) [NeZero K] (labels : Fin n → Fin K) (P : Fin n → Fin K → ℚ)
    (thr : Fin K → ℚ) (calibrate : Bool) : Fin K → Fin K → ℤ :=
  if calibrate then
    calibrateConfidentJoint A (fun a b => (confidentJointRaw labels P thr a b : ℚ)) labels
  else fun a b => (confidentJointRaw labels P thr a b : ℤ)

/-- The indices returned with `return_indices_of_off_diagonals`, `count.py:616-620`. -/
def offDiagonalIndices [NeZero K] (labels : Fin n → Fin K) (P : Fin n → Fin K → ℚ) (thr : Fin K → ℚ) :
    List (Fin n) :=
  (confidentRows P thr).filter (fun i => trueLabelGuess P thr i ≠ labels i)

/-- `estimate_joint`, `count.py:329-399` (single label), when a confident joint is supplied together
with labels. -/
def estimateJointFrom (A : ArgSort ℚ) (cj : Fin K → Fin K → ℚ) (labels : Fin n → Fin K) (a b : Fin K) : ℚ :=
  let cal := calibrateConfidentJoint A cj labels
  (cal a b : ℚ) / clipTiny ((∑ a', ∑ b', cal a' b' : ℤ) : ℚ)

/-- `estimate_joint`, `count.py:329-399`, when no confident joint is supplied. -/
def estimateJoint (A : ArgSort ℚ) [NeZero K] (labels : Fin n → Fin K) (P : Fin n → Fin K → ℚ)
    (a b : Fin K) : ℚ :=
  let cal := computeConfidentJoint A labels P (getConfidentThresholds labels P) true
  (cal a b : ℚ) / clipTiny ((∑ a', ∑ b', cal a' b' : ℤ) : ℚ)

/-- `_reduce_issues`, `count.py:211-218`: true where the given label is the argmax after adding
`FLOATING_POINT_COMPARISON` to its probability. -/
def reduceIssues [NeZero K] (labels : Fin n → Fin K) (P : Fin n → Fin K → ℚ) (i : Fin n) : Bool :=
  decide (argmax (Function.update (P i) (labels i) (P i (labels i) + floatingPointComparison)) = labels i)

/-- `estimation_method` argument of `num_label_issues`. -/
inductive EstimationMethod
  | offDiagonal
  | offDiagonalCalibrated
  | offDiagonalCustom
  | other (name : String)

/-- `num_label_issues`, `count.py:50-173` (single label). -/
def numLabelIssues (A : ArgSort ℚ) [NeZero K] (labels : Fin n → Fin K) (P : Fin n → Fin K → ℚ)
    (confidentJoint : Option (Fin K → Fin K → ℚ)) (method : EstimationMethod) : Except String ℤ :=
  match method with
  | .offDiagonal =>
    let cl := offDiagonalIndices labels P (getConfidentThresholds labels P)
    -- mask[cl_error_indices] = True; mask[reduce] = False; np.sum(mask)
    .ok ((List.finRange n).countP (fun i => decide (i ∈ cl) && !(reduceIssues labels P i)))
  | .offDiagonalCalibrated =>
    let cj := computeConfidentJoint A labels P (getConfidentThresholds labels P) true
    let joint := estimateJointFrom A (fun a b => (cj a b : ℚ)) labels
    .ok (rint ((1 - ∑ k, joint k k) * n))
  | .offDiagonalCustom =>
    match confidentJoint with
    | none => .error "No `confident_joint` provided"
    | some cj =>
      let joint := estimateJointFrom A cj labels
      .ok (rint ((1 - ∑ k, joint k k) * n))
  | .other _ => .error "not a valid estimation method"

end Cleanlab.Count
