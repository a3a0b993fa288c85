import Verif.Props.CleanTwice
import Verif.Props.ClassNumbering

/-!
# C180, C181: label errors are found if the predictions are not too uneven

C151 assumes that every example reaches the average self-confidence of its true class. Here the assumption is about bounds: `lo b`
and `hi b` bound the probability of class `b` for the examples of this class and `q b` bounds it for the other examples.
-/

namespace Cleanlab.Props

open Np Cleanlab.Util Cleanlab.Count Cleanlab.Spec Cleanlab.Filter

variable {n K : ℕ}

/-- The probability of class `b` lies between `lo b` and `hi b` for the examples whose true class is `b` and is at most `q b` for the
others. -/
structure Between (truth : Fin n → Fin K) (P : Fin n → Fin K → ℚ) (lo hi q : Fin K → ℚ) : Prop where
  lower : ∀ i, lo (truth i) ≤ P i (truth i)
  upper : ∀ i, P i (truth i) ≤ hi (truth i)
  other : ∀ i b, b ≠ truth i → P i b ≤ q b

/-- The true class of every example is the most probable one, by more than the tolerance `1e-6` of the code. -/
def Predicted (truth : Fin n → Fin K) (P : Fin n → Fin K → ℚ) : Prop :=
  ∀ i k, k ≠ truth i → P i k + 1 / 1000000 < P i (truth i)

/-- The average probability of a class over the examples given this class: some of them are rightly, the others wrongly so labelled. -/
theorem mean_between {given truth : Fin n → Fin K} {P : Fin n → Fin K → ℚ} {lo hi q : Fin K → ℚ} (h : Between truth P lo hi q)
    (b : Fin K) : ∑ i ∈ Finset.univ.filter (fun i => given i = b), P i b ≤
      numPairs given truth b b * hi b + ((numGiven given b : ℚ) - numPairs given truth b b) * q b := by
  have h1 : ∑ i ∈ Finset.univ.filter (fun i => given i = b), P i b ≤
      ∑ i ∈ Finset.univ.filter (fun i => given i = b), if truth i = b then hi b else q b := by
    apply Finset.sum_le_sum
    intro i _
    split_ifs with hi'
    · have := h.upper i; rwa [hi'] at this
    · exact h.other i b (fun e => hi' e.symm)
  refine h1.trans (le_of_eq ?_)
  rw [Finset.sum_ite, Finset.sum_const, Finset.sum_const, nsmul_eq_mul, nsmul_eq_mul, Finset.filter_filter]
  have h2 : (Finset.univ.filter (fun i => given i = b ∧ truth i = b)).card +
      ((Finset.univ.filter (fun i => given i = b)).filter (fun i => ¬ truth i = b)).card = numGiven given b := by
    rw [← Finset.filter_filter]
    exact Finset.card_filter_add_card_filter_not _
  have h3 : (((Finset.univ.filter (fun i => given i = b)).filter (fun i => ¬ truth i = b)).card : ℚ) =
      (numGiven given b : ℚ) - numPairs given truth b b := by
    unfold numPairs
    rw [← h2]; push_cast; ring
  rw [h3]
  rfl

theorem reduce_predicted [NeZero K] {given truth : Fin n → Fin K} {P : Fin n → Fin K → ℚ} (h : Predicted truth P) (i : Fin n) :
    reduceIssues given P i = decide (given i = truth i) := by
  by_cases hi : given i = truth i
  · rw [decide_eq_true hi, reduceIssues_iff]
    constructor
    · intro j
      by_cases hj : j = given i
      · rw [hj]
      · have := h i j (hi ▸ hj)
        dsimp only
        rw [if_neg hj, if_pos rfl, hi]; linarith
    · intro j hj
      have := h i j (hi ▸ hj.ne)
      dsimp only
      rw [if_neg hj.ne, if_pos rfl, hi]; linarith
  · rw [decide_eq_false hi]
    apply reduceIssues_false
    exact ⟨truth i, fun e => hi e.symm, h i _ hi⟩

/-- Which labels confident learning finds if the predictions are right: those for which some class other than the label reaches its
threshold. -/
theorem confident_predicted (A : ArgSort ℚ) [NeZero K] {given truth : Fin n → Fin K} {P : Fin n → Fin K → ℚ} (h : Predicted truth P)
    (args : Args K) (hf : args.filterBy = .confidentLearning) (hn : args.numToRemove = none) :
    ∃ mask, findLabelIssues A given P args = .ok mask ∧ ∀ i, mask i = true ↔
      given i ≠ truth i ∧ ∃ j, j ≠ given i ∧ Reaches P (getConfidentThresholds given P) i j := by
  obtain ⟨mask, h1, h2⟩ := confident_flag_iff A given P args hf hn
  refine ⟨mask, h1, fun i => ?_⟩
  rw [h2, reduce_predicted h, decide_eq_false_iff_not]

/-- **C180.** Let the predicted class of every example be its true class. Then confident learning flags exactly the wrong labels,
provided that, for every class `b` which is the true class of a wrongly labelled example, the probabilities of `b` are not too uneven:
the average of `hi b`, taken with the weight of the examples rightly given `b`, and `q b`, taken with the weight of those wrongly given
`b`, is at most `lo b`. -/
theorem C180_find (A : ArgSort ℚ) [NeZero K] {given truth : Fin n → Fin K} {P : Fin n → Fin K → ℚ} {lo hi q : Fin K → ℚ}
    (h0 : ∀ i k, 0 ≤ P i k) (h : Predicted truth P) (hb : Between truth P lo hi q)
    (hg : ∀ i, given i ≠ truth i → 0 < numGiven given (truth i) ∧
      numPairs given truth (truth i) (truth i) * hi (truth i) +
        ((numGiven given (truth i) : ℚ) - numPairs given truth (truth i) (truth i)) * q (truth i) ≤
        numGiven given (truth i) * (lo (truth i) + 1 / 1000000))
    (args : Args K) (hn : args.numToRemove = none) (hf : args.filterBy = .confidentLearning ∨ args.filterBy = .predictedNeqGiven) :
    findLabelIssues A given P args = .ok (fun i => decide (given i ≠ truth i)) := by
  rcases hf with hf | hf
  · obtain ⟨mask, h1, h2⟩ := confident_predicted (given := given) A h args hf hn
    rw [h1]
    congr 1
    funext i
    rw [Bool.eq_iff_iff, h2, decide_eq_true_eq]
    refine ⟨fun h => h.1, fun hw => ⟨hw, truth i, fun e => hw e.symm, ?_⟩⟩
    obtain ⟨hpos, hle⟩ := hg i hw
    have hpos' : (0 : ℚ) < numGiven given (truth i) := by exact_mod_cast hpos
    have hm : (∑ s ∈ Finset.univ.filter (fun s => given s = truth i), P s (truth i)) / numGiven given (truth i) ≤
        lo (truth i) + 1 / 1000000 := by
      rw [div_le_iff₀ hpos', mul_comm]
      exact (mean_between hb (truth i)).trans hle
    have hlarge : 1 / 1000000 ≤ P i (truth i) := by
      obtain ⟨k, hk⟩ : ∃ k : Fin K, k ≠ truth i := ⟨given i, hw⟩
      have h3 := h i k hk
      have h4 := h0 i k
      linarith
    obtain ⟨s, hs⟩ : ∃ s, given s = truth i := by
      obtain ⟨s, hs⟩ := Finset.card_pos.mp hpos
      exact ⟨s, by simpa using hs⟩
    unfold Reaches getConfidentThresholds
    rw [if_pos ((mem_ofFn_iff _ _).mpr ⟨s, hs⟩), classMean_eq]
    have h5 := hb.lower i
    unfold thresholdsLowerBound meanSelfConfidence
    apply max_le <;> linarith
  · rw [findLabelIssues_of_raw A given P args (by rw [hf]; decide) (Or.inl hn) _ (by unfold rawMask; rw [hf])]
    congr 1
    funext i
    have hp : argmax (P i) = truth i := by
      rw [argmax_eq_iff_isPrediction]
      constructor
      · intro j
        by_cases hj : j = truth i
        · rw [hj]
        · have := h i j hj; linarith
      · intro j hj
        have := h i j hj.ne; linarith
    rw [reduce_predicted h, hp]
    by_cases hi : given i = truth i
    · simp [hi]
    · simp [hi, Ne.symm hi]

/-- **C180, nearly ideal predictions.** Let no predicted probability differ by more than `ε` from the rate at which examples of the
same true class are given the class in question. If each diagonal entry of this noise matrix exceeds the others of its column by more
than `2 ε` and those of its row by at least `g`, and a fraction of at least `2 ε / g` of the labels of each class is wrong, then
confident learning flags exactly the wrong labels. With `ε = 0` no label needs to be wrong. -/
theorem C180_nearly_ideal (A : ArgSort ℚ) [NeZero K] {given truth : Fin n → Fin K} {P : Fin n → Fin K → ℚ} (N : Fin K → Fin K → ℚ)
    (ε g : ℚ) (h0 : ∀ i k, 0 ≤ P i k) (hP : ∀ i a, |P i a - N a (truth i)| ≤ ε)
    (hcol : ∀ a b, a ≠ b → N a b + 2 * ε + 1 / 1000000 < N b b) (hrow : ∀ b c, c ≠ b → N b c + g ≤ N b b)
    (hw : ∀ b, 0 < numGiven given b ∧
      2 * ε * numGiven given b ≤ g * ((numGiven given b : ℚ) - numPairs given truth b b))
    (args : Args K) (hn : args.numToRemove = none) (hf : args.filterBy = .confidentLearning ∨ args.filterBy = .predictedNeqGiven) :
    findLabelIssues A given P args = .ok (fun i => decide (given i ≠ truth i)) := by
  have hs : ∀ i a, N a (truth i) - ε ≤ P i a ∧ P i a ≤ N a (truth i) + ε := by
    intro i a
    have := abs_le.mp (hP i a)
    constructor <;> linarith [this.1, this.2]
  refine C180_find A (lo := fun b => N b b - ε) (hi := fun b => N b b + ε) (q := fun b => N b b - g + ε) h0 ?_ ?_ ?_ args hn hf
  · intro i k hk
    have h1 := (hs i k).2
    have h2 := (hs i (truth i)).1
    have h3 := hcol k (truth i) hk
    linarith
  · refine ⟨fun i => (hs i _).1, fun i => (hs i _).2, fun i b hb => ?_⟩
    have h1 := (hs i b).2
    have h2 := hrow b (truth i) (fun e => hb e.symm)
    linarith
  · intro i _
    obtain ⟨h1, h2⟩ := hw (truth i)
    refine ⟨h1, ?_⟩
    have h3 : (0 : ℚ) ≤ numGiven given (truth i) := Nat.cast_nonneg _
    nlinarith [h2, h3]

/-- **C181 (partial).** If every true class is predicted with a probability of at least `p` and, for every class which is the true class
of a wrongly labelled example, a fraction `w` of its labels is wrong with `p (1 + w) ≥ 1`, then confident learning flags exactly the wrong
labels. -/
theorem C181_confident_partial (A : ArgSort ℚ) [NeZero K] {given truth : Fin n → Fin K} {P : Fin n → Fin K → ℚ} (p : ℚ)
    (hp : 1 / 2 + 1 / 1000000 ≤ p) (hd : ∀ i, IsDistribution (P i)) (hP : ∀ i, p ≤ P i (truth i))
    (hw : ∀ i, given i ≠ truth i → 0 < numGiven given (truth i) ∧
      (numGiven given (truth i) : ℚ) ≤ p * (numGiven given (truth i) +
        ((numGiven given (truth i) : ℚ) - numPairs given truth (truth i) (truth i))))
    (args : Args K) (hn : args.numToRemove = none) (hf : args.filterBy = .confidentLearning ∨ args.filterBy = .predictedNeqGiven) :
    findLabelIssues A given P args = .ok (fun i => decide (given i ≠ truth i)) := by
  have hsum : ∀ i k, k ≠ truth i → P i k + P i (truth i) ≤ 1 := by
    intro i k hk
    rw [← (hd i).2, ← Finset.sum_pair hk]
    exact Finset.sum_le_sum_of_subset_of_nonneg (Finset.subset_univ _) (fun j _ _ => (hd i).1 j)
  have hone : ∀ i k, P i k ≤ 1 := by
    intro i k
    rw [← (hd i).2]
    exact Finset.single_le_sum (fun j _ => (hd i).1 j) (Finset.mem_univ k)
  refine C180_find A (lo := fun _ => p) (hi := fun _ => 1) (q := fun _ => 1 - p) (fun i k => (hd i).1 k) ?_ ?_ ?_ args hn hf
  · intro i k hk
    have h1 := hsum i k hk
    have h2 := hP i
    by_contra hc
    push Not at hc
    have : p ≤ 1 / 2 + 1 / 2000000 := by linarith
    linarith
  · refine ⟨hP, fun i => hone i _, fun i b hb => ?_⟩
    have h1 := hsum i b hb
    have h2 := hP i
    linarith
  · intro i hi
    obtain ⟨h1, h2⟩ := hw i hi
    refine ⟨h1, ?_⟩
    have h3 : (0 : ℚ) ≤ numGiven given (truth i) := Nat.cast_nonneg _
    nlinarith [h2, h3]

/-- **C181 (partial).** Comparing the labels with the predicted classes, `filter_by="predicted_neq_given"`, finds exactly the wrong
labels if every true class is predicted with a probability above one half. -/
theorem C181_predicted_partial (A : ArgSort ℚ) [NeZero K] {given truth : Fin n → Fin K} {P : Fin n → Fin K → ℚ}
    (h : Predicted truth P) (args : Args K) (hn : args.numToRemove = none) (hf : args.filterBy = .predictedNeqGiven) :
    findLabelIssues A given P args = .ok (fun i => decide (given i ≠ truth i)) := by
  rw [findLabelIssues_of_raw A given P args (by rw [hf]; decide) (Or.inl hn) _ (by unfold rawMask; rw [hf])]
  congr 1
  funext i
  have hp : argmax (P i) = truth i := by
    rw [argmax_eq_iff_isPrediction]
    constructor
    · intro j
      by_cases hj : j = truth i
      · rw [hj]
      · have := h i j hj; linarith
    · intro j hj
      have := h i j hj.ne; linarith
  rw [reduce_predicted h, hp]
  by_cases hi : given i = truth i
  · simp [hi]
  · simp [hi, Ne.symm hi]

/-- Three examples: the model is certain of the first two and predicts class 0 with probability `p` for the third, which is given 1. -/
def unevenGiven : Fin 3 → Fin 2 := ![0, 1, 1]

/-- See `unevenGiven`. -/
def unevenTruth : Fin 3 → Fin 2 := ![0, 1, 0]

/-- See `unevenGiven`. -/
def unevenProbs (p : ℚ) : Fin 3 → Fin 2 → ℚ := ![![1, 0], ![0, 1], ![p, 1 - p]]

theorem uneven_thresholds (p : ℚ) (hp : p ≤ 1) : getConfidentThresholds unevenGiven (unevenProbs p) = ![1, 1 - p / 2] := by
  funext k
  unfold getConfidentThresholds
  have hk : k ∈ List.ofFn unevenGiven := by revert k; decide
  rw [if_pos hk, classMean_eq]
  unfold meanSelfConfidence thresholdsLowerBound
  fin_cases k
  · have h1 : numGiven unevenGiven 0 = 1 := by decide
    have h2 : Finset.univ.filter (fun i => unevenGiven i = 0) = {0} := by decide
    simp only [Fin.zero_eta, Fin.isValue, h1, h2, Finset.sum_singleton]
    simp [unevenProbs]
    norm_num
  · have h1 : numGiven unevenGiven 1 = 2 := by decide
    have h2 : Finset.univ.filter (fun i => unevenGiven i = 1) = {1, 2} := by decide
    simp only [Fin.mk_one, Fin.isValue, h1, h2]
    rw [Finset.sum_pair (by decide)]
    simp [unevenProbs]
    rw [max_eq_left]
    · ring
    · rw [le_div_iff₀ (by norm_num)]; linarith

/-- **C181 is violated.** However confident the model is in every true class, short of certainty, a wrong label may be missed: every
filter except `predicted_neq_given` returns no issue, although the third label is wrong. -/
theorem C181_not_confident (A : ArgSort ℚ) (p : ℚ) (hp : 1 / 2 + 1 / 1000000 < p) (hp1 : p < 1 - 1 / 1000000) :
    (∀ i, IsDistribution (unevenProbs p i)) ∧ (∀ i, p ≤ unevenProbs p i (unevenTruth i)) ∧ unevenGiven 2 ≠ unevenTruth 2 ∧
      ∀ f, f ≠ FilterBy.predictedNeqGiven →
        findLabelIssues A unevenGiven (unevenProbs p) { filterBy := f } = .ok (fun _ => false) := by
  have ht := uneven_thresholds p (by linarith)
  have hP : ∀ i, IsDistribution (unevenProbs p i) := by
    intro i
    constructor
    · intro k
      fin_cases i <;> fin_cases k <;> simp [unevenProbs] <;> linarith
    · fin_cases i <;> simp [unevenProbs]
  have hr : ∀ i j, Reaches (unevenProbs p) (getConfidentThresholds unevenGiven (unevenProbs p)) i j → j = unevenGiven i := by
    intro i j h
    rw [ht] at h
    unfold Reaches at h
    fin_cases i <;> fin_cases j <;> simp [unevenProbs, unevenGiven] at h ⊢ <;> linarith
  have hconf : ∀ args : Args 2, args.filterBy = .confidentLearning → args.numToRemove = none →
      findLabelIssues A unevenGiven (unevenProbs p) args = .ok (fun _ => false) := by
    intro args hf hn
    obtain ⟨mask, h1, h2⟩ := confident_flag_iff A unevenGiven (unevenProbs p) args hf hn
    rw [h1]
    congr 1
    funext i
    rw [Bool.eq_false_iff, ne_eq, h2]
    rintro ⟨-, j, hj, h⟩
    exact hj (hr i j h)
  have hprune : ∀ args : Args 2, args.filterBy = .pruneByNoiseRate ∨ args.filterBy = .pruneByClass → args.numToRemove = none →
      args.confidentJoint = none → args.fracNoise = 1 → args.minExamples = 1 →
      findLabelIssues A unevenGiven (unevenProbs p) args = .ok (fun _ => false) := by
    intro args hf hn hj hfrac hmin
    obtain ⟨raw, h1, hshort, hraw⟩ := prune_two (labels := unevenGiven) A hP args hf hn hj hfrac hmin
    rw [h1]
    congr 1
    funext i
    have : raw i = false := by
      by_cases hi : unevenGiven i = 0
      · exact hshort i (by rw [hi]; decide)
      · have hi1 : unevenGiven i = 1 := other_unique hi (by decide)
        refine (hraw 0 1 (by decide) (by decide)).1 ?_ i hi1
        unfold takenFor
        rw [Finset.card_eq_zero, Finset.filter_eq_empty_iff]
        rintro s - ⟨hs, ⟨b, hb⟩, hg⟩
        rw [trueLabelGuess_of_unique _ _ s b hb (fun l hl => (hr s l hl).trans (hr s b hb).symm)] at hg
        have := hr s b hb
        rw [hs, hg] at this
        exact absurd this (by decide)
    rw [this]; rfl
  have hnum : numLabelIssues A unevenGiven (unevenProbs p) none .offDiagonal = .ok 0 := by
    unfold numLabelIssues
    dsimp only
    congr 1
    rw [Nat.cast_eq_zero, List.countP_eq_zero]
    intro i _
    simp only [Bool.and_eq_true, decide_eq_true_eq, Bool.not_eq_true', not_and]
    intro hi hred
    rw [offDiagonal_reduce_iff _ _ _ _ hred] at hi
    obtain ⟨k, hk, h⟩ := hi
    exact hk (hr i k h)
  refine ⟨hP, ?_, by decide, ?_⟩
  · intro i
    fin_cases i <;> simp [unevenProbs, unevenTruth] <;> linarith
  · intro f hf
    cases f with
    | predictedNeqGiven => exact absurd rfl hf
    | confidentLearning => exact hconf _ rfl rfl
    | pruneByNoiseRate => exact hprune _ (Or.inl rfl) rfl rfl rfl rfl
    | pruneByClass => exact hprune _ (Or.inr rfl) rfl rfl rfl rfl
    | both =>
      obtain ⟨m, hm, hi⟩ := C09_both_is_intersection A unevenGiven (unevenProbs p) { filterBy := .both } _ _
        (hprune _ (Or.inr rfl) rfl rfl rfl rfl) (hprune _ (Or.inl rfl) rfl rfl rfl rfl)
      refine hm.trans ?_
      congr 1
      funext i
      rw [Bool.eq_false_iff, ne_eq, hi]
      simp
    | lowNormalizedMargin =>
      obtain ⟨s, hs, -⟩ := C14_normalized_margin_range (le_refl 2) unevenGiven (unevenProbs p) hP
      unfold findLabelIssues rawMask lowScoreIndices
      rw [if_neg (by simp)]
      simp [hs, hnum, bind, Except.bind, pure, Except.pure]
    | lowSelfConfidence =>
      unfold findLabelIssues rawMask lowScoreIndices
      rw [if_neg (by simp)]
      simp [Rank.labelQualityScores, hnum, bind, Except.bind, pure, Except.pure]

/-- Four examples of two classes, one wrong label in each class; the model is right with probability between 0.7 and 0.9. Since half of
the labels are wrong, confident learning finds both. -/
example : findLabelIssues (stableSort ℚ) ![0, 0, 1, 1] ![![9 / 10, 1 / 10], ![3 / 10, 7 / 10], ![1 / 5, 4 / 5], ![7 / 10, 3 / 10]]
    { filterBy := .confidentLearning } = .ok (fun i => decide ((![0, 0, 1, 1] : Fin 4 → Fin 2) i ≠ ![0, 1, 1, 0] i)) :=
  C181_confident_partial (stableSort ℚ) (7 / 10) (by norm_num) (by
    intro i
    constructor
    · revert i; decide +kernel
    · revert i; decide +kernel) (by decide +kernel) (by decide +kernel) _ rfl (Or.inl rfl)

/-- The same data with the noise matrix `!![0.8, 0.25; 0.2, 0.75]` and errors up to 0.1. -/
example : findLabelIssues (stableSort ℚ) ![0, 0, 1, 1] ![![9 / 10, 1 / 10], ![3 / 10, 7 / 10], ![1 / 5, 4 / 5], ![7 / 10, 3 / 10]]
    { filterBy := .confidentLearning } = .ok (fun i => decide ((![0, 0, 1, 1] : Fin 4 → Fin 2) i ≠ ![0, 1, 1, 0] i)) :=
  C180_nearly_ideal (stableSort ℚ) ![![8 / 10, 1 / 4], ![1 / 5, 3 / 4]] (1 / 10) (55 / 100) (by decide +kernel) (by decide +kernel)
    (by decide +kernel) (by decide +kernel) (by decide +kernel) _ rfl (Or.inl rfl)

end Cleanlab.Props
