import Verif.Lemmas.Filter
import Verif.Props.Count
import Mathlib.Tactic.FinCases

/-!
# C06-C10, C12, C13: `find_label_issues`
-/

namespace Cleanlab.Props

open Np Cleanlab.Util Cleanlab.Count Cleanlab.Rank Cleanlab.Filter Cleanlab.Spec

variable {n K : ℕ}

/-! ## Two concrete data sets, used as witnesses and to show that hypotheses can be met -/

/-- Eight examples, six of them given label 0. -/
def ex8L : Fin 8 → Fin 3 := ![0, 0, 0, 0, 0, 0, 1, 2]

/-- Predicted probabilities for `ex8L`. -/
def ex8P : Fin 8 → Fin 3 → ℚ := ![![1, 0, 0], ![0, 1, 0], ![0, 0, 1], ![0, 0, 1], ![0, 0, 1], ![0, 0, 1],
  ![0, 1, 0], ![0, 0, 1]]

theorem ex8_joint (args : Args 3) (h : args.confidentJoint = none) : usedJoint (stableSort ℚ) ex8L ex8P args =
    fun a b => ((![![1, 1, 4], ![0, 1, 0], ![0, 0, 1]] : Fin 3 → Fin 3 → ℤ) a b : ℚ) := by
  funext a b
  have : computeConfidentJoint (stableSort ℚ) ex8L ex8P (getConfidentThresholds ex8L ex8P) true a b =
      (![![1, 1, 4], ![0, 1, 0], ![0, 0, 1]] : Fin 3 → Fin 3 → ℤ) a b := by
    refine roundRows_intCast (stableSort ℚ) _ a b _ ?_
    revert a b
    decide +kernel
  unfold usedJoint
  simp only [h, this]

theorem ex8_mask : findLabelIssues (stableSort ℚ) ex8L ex8P { filterBy := .pruneByNoiseRate, minExamples := 5 } =
    .ok (fun i => maskByCount (stableSort ℚ) ex8L ex8P 5 ![![5, 0, 0], ![0, 5, 0], ![2, 0, 5]] i &&
      !(reduceIssues ex8L ex8P i)) := by
  have hpcm : keepAtLeastN (stableSort ℚ)
      (fun j k => ((![![1, 1, 4], ![0, 1, 0], ![0, 0, 1]] : Fin 3 → Fin 3 → ℤ) k j : ℚ)) 5 1 =
      ![![5, 0, 0], ![0, 5, 0], ![2, 0, 5]] := by
    funext j k
    rw [keepAtLeastN_eq]
    revert j k
    decide +kernel
  apply findLabelIssues_of_raw _ _ _ _ ⟨by simp, by simp⟩ (Or.inl rfl)
  unfold rawMask
  simp only [ex8_joint { filterBy := .pruneByNoiseRate, minExamples := 5 } rfl, pruneCountMatrix_none, hpcm]
  rfl

/-- Six examples of two classes, two of each confidently predicted as the other class. -/
def ex6L : Fin 6 → Fin 2 := ![0, 0, 0, 1, 1, 1]

/-- Predicted probabilities for `ex6L`. -/
def ex6P : Fin 6 → Fin 2 → ℚ := ![![1, 0], ![0, 1], ![0, 1], ![0, 1], ![1, 0], ![1, 0]]

/-- Two removals wanted from class 0, none from class 1. -/
def ex6N : Fin 2 → ℤ := ![2, 0]

theorem ex6_joint (args : Args 2) (h : args.confidentJoint = none) : usedJoint (stableSort ℚ) ex6L ex6P args =
    fun a b => ((![![1, 2], ![2, 1]] : Fin 2 → Fin 2 → ℤ) a b : ℚ) := by
  funext a b
  have : computeConfidentJoint (stableSort ℚ) ex6L ex6P (getConfidentThresholds ex6L ex6P) true a b =
      (![![1, 2], ![2, 1]] : Fin 2 → Fin 2 → ℤ) a b := by
    refine roundRows_intCast (stableSort ℚ) _ a b _ ?_
    revert a b
    decide +kernel
  unfold usedJoint
  simp only [h, this]

theorem ex6_pcm (nanInt : ℤ) :
    pruneCountMatrix (stableSort ℚ) (fun a b => ((![![1, 2], ![2, 1]] : Fin 2 → Fin 2 → ℤ) a b : ℚ))
    ex6L 1 1 (some ex6N) nanInt = .ok ![![1, 2], ![0, 3]] := by
  have hkeep : keepAtLeastN (stableSort ℚ) (fun j k => ((![![1, 2], ![2, 1]] : Fin 2 → Fin 2 → ℤ) k j : ℚ)) 1 1 =
      fun j k => (![![1, 2], ![2, 1]] : Fin 2 → Fin 2 → ℤ) k j := by
    funext j k
    rw [keepAtLeastN_eq]
    revert j k
    decide +kernel
  have hround : roundRows (stableSort ℚ) (removalMatrix
      (fun j k => (![![1, 2], ![2, 1]] : Fin 2 → Fin 2 → ℤ) k j) ex6L ex6N) = ![![1, 2], ![0, 3]] := by
    funext j k
    refine roundRows_intCast (stableSort ℚ) _ j k _ ?_
    revert j k
    decide +kernel
  have hrem : roundRemoval (stableSort ℚ) nanInt (fun j k => (![![1, 2], ![2, 1]] : Fin 2 → Fin 2 → ℤ) k j) ex6L ex6N =
      ![![1, 2], ![0, 3]] := by
    funext j k
    unfold roundRemoval
    rw [hround, if_neg (by revert j; decide +kernel)]
  unfold pruneCountMatrix
  simp only [hkeep, hrem]
  rw [if_pos (by decide +kernel)]

/-- The mask of the single pruning filters on the second data set. -/
theorem ex6_mask (fb : FilterBy) (hfb : fb = .pruneByNoiseRate ∨ fb = .pruneByClass := by simp) :
    findLabelIssues (stableSort ℚ) ex6L ex6P { filterBy := fb, numToRemove := some ex6N } =
    .ok (fun i => (if fb = .pruneByNoiseRate then
        maskByCount (stableSort ℚ) ex6L ex6P 1 ![![1, 2], ![0, 3]] i
      else maskByClass (stableSort ℚ) ex6L ex6P 1 ![![1, 2], ![0, 3]] i) && !(reduceIssues ex6L ex6P i)) := by
  rcases hfb with rfl | rfl
  all_goals
    apply findLabelIssues_of_raw _ _ _ _ ⟨by simp, by simp⟩ (Or.inr ⟨by simp, by simp⟩)
    unfold rawMask
    simp only
    rw [ex6_joint _ rfl, ex6_pcm]
    rfl

/-! ## C06 -/

/-- **C06.** `num_label_issues` (default method `off_diagonal`) is the number of examples
`find_label_issues(filter_by="confident_learning")` flags, whatever other arguments are given. -/
theorem C06_count_matches_list (A : ArgSort ℚ) [NeZero K] (labels : Fin n → Fin K)
    (P : Fin n → Fin K → ℚ) (args : Args K) (hf : args.filterBy = .confidentLearning)
    (hn : args.numToRemove = none) (cj : Option (Fin K → Fin K → ℚ)) :
    ∃ mask, findLabelIssues A labels P args = .ok mask ∧
      numLabelIssues A labels P cj .offDiagonal =
        .ok ((Finset.univ.filter (fun i => mask i = true)).card : ℤ) := by
  refine ⟨fun i => decide (i ∈ offDiagonalIndices labels P (getConfidentThresholds labels P)) &&
    !(reduceIssues labels P i), ?_, ?_⟩
  · unfold findLabelIssues rawMask
    simp only [hf, hn]
    rfl
  · unfold numLabelIssues
    simp only [countP_finRange]

example : (findLabelIssues (stableSort ℚ) ex6L ex6P { filterBy := .confidentLearning }).toOption.map List.ofFn =
    some [false, true, true, false, true, true] := by decide +kernel

/-- **C06**, `low_*` filters: `find_label_issues` flags exactly `num_label_issues` examples (the documented
"number of issues returned matches"), and no example it leaves has a lower score. -/
theorem C06_low_score_filters (A : ArgSort ℚ) [NeZero K] (labels : Fin n → Fin K)
    (P : Fin n → Fin K → ℚ) (args : Args K) (m : Method) (scores : Fin n → ℚ)
    (hf : (args.filterBy = .lowSelfConfidence ∧ m = .selfConfidence) ∨
      (args.filterBy = .lowNormalizedMargin ∧ m = .normalizedMargin))
    (hs : labelQualityScores m labels P = .ok scores) (mask : Fin n → Bool)
    (h : findLabelIssues A labels P args = .ok mask) :
    numLabelIssues A labels P none .offDiagonal =
        .ok ((Finset.univ.filter (fun i => mask i = true)).card : ℤ) ∧
      ∀ i j, mask i = true → mask j = false → scores i ≤ scores j := by
  have key : ∀ (fb : FilterBy), args.filterBy = fb → fb ∈ [FilterBy.lowSelfConfidence, .lowNormalizedMargin] →
      rawMask A labels P args = .ok mask := by
    intro fb hfb hmem
    unfold findLabelIssues at h
    split at h
    · exact absurd h (by simp)
    · cases hr : rawMask A labels P args with
      | error e => rw [hr] at h; exact absurd h (by simp [bind, Except.bind])
      | ok m =>
        rw [hr] at h
        subst hfb
        simp only [bind, Except.bind, if_pos hmem, pure, Except.pure] at h
        exact h
  have hmask : mask = fun i => decide (i ∈ (A.indices scores).take
      (((List.finRange n).countP (fun i => decide (i ∈ offDiagonalIndices labels P
        (getConfidentThresholds labels P)) && !(reduceIssues labels P i))))) := by
    rcases hf with ⟨hf, rfl⟩ | ⟨hf, rfl⟩
    · have := key _ hf (by simp)
      unfold rawMask lowScoreIndices at this
      simp only [hf, hs, bind, Except.bind, numLabelIssues, pure, Except.pure] at this
      exact (Except.ok.inj this).symm
    · have := key _ hf (by simp)
      unfold rawMask lowScoreIndices at this
      simp only [hf, hs, bind, Except.bind, numLabelIssues, pure, Except.pure] at this
      exact (Except.ok.inj this).symm
  subst hmask
  constructor
  · unfold numLabelIssues
    simp only [decide_eq_true_eq]
    rw [card_take_indices, min_eq_left]
    exact (List.countP_le_length).trans (by simp)
  · intro i j hi hj
    simp only [decide_eq_true_eq] at hi
    rw [decide_eq_false_iff_not] at hj
    exact take_indices_le A scores _ i j hi hj

example : labelQualityScores .normalizedMargin ex8L ex8P =
      .ok ![1, 0, 0, 0, 0, 0, 1, 1] ∧
    (findLabelIssues (stableSort ℚ) ex8L ex8P { filterBy := .lowNormalizedMargin }).toOption.map List.ofFn =
      some [false, true, true, true, true, true, false, false] := by
  refine ⟨?_, by decide +kernel⟩
  unfold labelQualityScores
  simp only
  rw [dif_pos (by decide +kernel)]
  congr 1
  funext i
  revert i
  decide +kernel

/-! ## C07 -/

/-- **C07.** Except for the `low_*` filters, every flagged example has another class whose predicted
probability exceeds that of the given label by at least `1e-6`; so an example whose given label is a
most probable class is never flagged. -/
theorem C07_flagged_has_better_class (A : ArgSort ℚ) [NeZero K] (labels : Fin n → Fin K)
    (P : Fin n → Fin K → ℚ) (args : Args K)
    (hf : args.filterBy ≠ .lowSelfConfidence ∧ args.filterBy ≠ .lowNormalizedMargin)
    (mask : Fin n → Bool) (h : findLabelIssues A labels P args = .ok mask) (i : Fin n)
    (hi : mask i = true) :
    ∃ j, j ≠ labels i ∧ P i (labels i) + 1 / 1000000 ≤ P i j := by
  obtain ⟨m, _, rfl⟩ := raw_of_findLabelIssues A labels P args hf mask h
  simp only [Bool.and_eq_true, Bool.not_eq_true'] at hi
  exact reduceIssues_false_iff labels P i hi.2

/-- Non-vacuity: this call succeeds and flags two examples. -/
example : ∃ mask, findLabelIssues (stableSort ℚ) ex8L ex8P
      { filterBy := .pruneByNoiseRate, minExamples := 5 } = .ok mask ∧
    List.ofFn mask = [false, false, true, true, false, false, false, false] :=
  ⟨_, ex8_mask, by decide +kernel⟩

/-- **C07**, `predicted_neq_given`: an example is flagged iff its given label is not the prediction even
after its probability is raised by `1e-6`. -/
theorem C07_predicted_neq_given_iff (A : ArgSort ℚ) [NeZero K] (labels : Fin n → Fin K)
    (P : Fin n → Fin K → ℚ) (args : Args K) (hf : args.filterBy = .predictedNeqGiven)
    (hn : args.numToRemove = none) :
    ∃ mask, findLabelIssues A labels P args = .ok mask ∧
      ∀ i, mask i = true ↔
        ¬ IsPrediction (fun j => P i j + if j = labels i then 1 / 1000000 else 0) (labels i) := by
  refine ⟨_, findLabelIssues_of_raw A labels P args (by rw [hf]; decide) (Or.inl hn) _
    (by unfold rawMask; rw [hf]), ?_⟩
  intro i
  rw [← reduceIssues_iff]
  simp only [Bool.and_eq_true, decide_eq_true_eq, Bool.not_eq_true', Bool.not_eq_true]
  refine ⟨fun h => h.2, fun h => ⟨?_, h⟩⟩
  intro heq
  obtain ⟨j, hj, h2⟩ := reduceIssues_false_iff labels P i h
  have := le_argmax (P i) j
  rw [heq] at this
  linarith

/-! ## C08 -/

/-- **C08**, `prune_by_class` and `both`: at least `min_examples_per_class` examples of every class with that
many are kept, for every confident joint (also a user supplied one) and every `frac_noise ≤ 1`. -/
theorem C08_min_examples_by_class (A : ArgSort ℚ) [NeZero K] (labels : Fin n → Fin K)
    (P : Fin n → Fin K → ℚ) (args : Args K)
    (hf : args.filterBy = .pruneByClass ∨ args.filterBy = .both) (hfrac : args.fracNoise ≤ 1)
    (hn : args.numToRemove = none) :
    ∃ mask, findLabelIssues A labels P args = .ok mask ∧
      ∀ k, min args.minExamples (numGiven labels k) ≤ numKept labels mask k := by
  have key : ∀ k, min args.minExamples (numGiven labels k) ≤
      numKept labels (maskByClass A labels P args.minExamples
        (keepAtLeastN A (fun j k => usedJoint A labels P args k j) args.minExamples args.fracNoise)) k := by
    intro k
    have h1 := numKept_add labels (maskByClass A labels P args.minExamples
        (keepAtLeastN A (fun j k => usedJoint A labels P args k j) args.minExamples args.fracNoise)) k
    rw [numFlagged_maskByClass] at h1
    have h2 := keepAtLeastN_diag A (fun j k => usedJoint A labels P args k j) args.minExamples
      args.fracNoise hfrac k
    split_ifs at h1 <;> omega
  rcases hf with hf | hf
  · refine ⟨_, findLabelIssues_of_raw A labels P args (by rw [hf]; decide) (Or.inl hn) _
      (by unfold rawMask; rw [hf, hn]; rfl), fun k => (key k).trans (numKept_mono _ _ _ ?_ k)⟩
    intro i hi
    simp only [Bool.and_eq_true] at hi
    exact hi.1
  · refine ⟨_, findLabelIssues_of_raw A labels P args (by rw [hf]; decide) (Or.inl hn) _
      (by unfold rawMask; rw [hf, hn]; rfl), fun k => (key k).trans (numKept_mono _ _ _ ?_ k)⟩
    intro i hi
    simp only [Bool.and_eq_true] at hi
    exact hi.1.2

/-- **C08 (partial)**, `prune_by_noise_rate` with the confident joint computed from the data: the same for
`min_examples_per_class ≤ 1` (the default), and for every class whose calibrated confident joint has at
least `min_examples_per_class` on the diagonal. Missing: other values, see the refutation below. -/
theorem C08_min_examples_by_noise_rate_partial (A : ArgSort ℚ) [NeZero K] (labels : Fin n → Fin K)
    (P : Fin n → Fin K → ℚ) (args : Args K) (hf : args.filterBy = .pruneByNoiseRate)
    (hfrac0 : 0 ≤ args.fracNoise) (hfrac : args.fracNoise ≤ 1)
    (hn : args.numToRemove = none) (hcj : args.confidentJoint = none) :
    ∃ mask, findLabelIssues A labels P args = .ok mask ∧
      ∀ k, (args.minExamples ≤ 1 ∨ (args.minExamples : ℤ) ≤
          computeConfidentJoint A labels P (getConfidentThresholds labels P) true k k) →
        min args.minExamples (numGiven labels k) ≤ numKept labels mask k := by
  refine ⟨_, findLabelIssues_of_raw A labels P args (by rw [hf]; decide) (Or.inl hn) _
      (by unfold rawMask; rw [hf, hn]; rfl), fun k hk => ?_⟩
  refine le_trans ?_ (numKept_mono labels (maskByCount A labels P args.minExamples
        (keepAtLeastN A (fun j k => usedJoint A labels P args k j) args.minExamples args.fracNoise)) _ ?_ k)
  · have h1 := numKept_add labels (maskByCount A labels P args.minExamples
        (keepAtLeastN A (fun j k => usedJoint A labels P args k j) args.minExamples args.fracNoise)) k
    have h2 := numFlagged_maskByCount_le A labels P args.minExamples
        (keepAtLeastN A (fun j k => usedJoint A labels P args k j) args.minExamples args.fracNoise) k
    have hu : (fun j k => usedJoint A labels P args k j) = fun j k =>
      ((computeConfidentJoint A labels P (getConfidentThresholds labels P) true k j : ℤ) : ℚ) := by
      unfold usedJoint; rw [hcj]
    obtain ⟨hnn, hrow, _⟩ := C01_calibrated_confident_joint A labels P (getConfidentThresholds labels P)
    have h3 := offDiagonal_removed_le A (computeConfidentJoint A labels P (getConfidentThresholds labels P) true)
      hnn args.minExamples args.fracNoise hfrac0 hfrac k hk
    rw [hrow k, ← hu] at h3
    omega
  · intro i hi
    simp only [Bool.and_eq_true] at hi
    exact hi.1

example : ((1 : ℕ) ≤ 1 ∨ ((1 : ℕ) : ℤ) ≤ computeConfidentJoint (stableSort ℚ) ex8L ex8P
    (getConfidentThresholds ex8L ex8P) true 0 0) ∧ min 1 (numGiven ex8L 0) = 1 := ⟨Or.inl le_rfl, by decide⟩

/-- **C08 (refuted as stated).** With `prune_by_noise_rate` (the default filter) and
`min_examples_per_class=5` a class with six examples can be left with four. -/
theorem C08_not_min_examples_by_noise_rate :
    ¬ ∀ (n K : ℕ) (_ : NeZero K) (A : ArgSort ℚ) (labels : Fin n → Fin K) (P : Fin n → Fin K → ℚ)
      (minExamples : ℕ) (mask : Fin n → Bool), RowStochastic P →
      findLabelIssues A labels P { filterBy := .pruneByNoiseRate, minExamples := minExamples } = .ok mask →
      ∀ k, min minExamples (numGiven labels k) ≤ numKept labels mask k := by
  intro h
  have h2 := h 8 3 inferInstance (stableSort ℚ) ex8L ex8P 5 _ (by unfold RowStochastic; decide +kernel)
    ex8_mask 0
  revert h2
  decide +kernel

/-! ## C09 -/

/-- **C09.** If the two single filters succeed, so does `filter_by="both"`, and it flags exactly the examples both flag. -/
theorem C09_both_is_intersection (A : ArgSort ℚ) [NeZero K] (labels : Fin n → Fin K)
    (P : Fin n → Fin K → ℚ) (args : Args K) (m1 m2 : Fin n → Bool)
    (h1 : findLabelIssues A labels P { args with filterBy := .pruneByClass } = .ok m1)
    (h2 : findLabelIssues A labels P { args with filterBy := .pruneByNoiseRate } = .ok m2) :
    ∃ m, findLabelIssues A labels P { args with filterBy := .both } = .ok m ∧
      ∀ i, m i = true ↔ m1 i = true ∧ m2 i = true := by
  obtain ⟨r1, hr1, rfl⟩ := raw_of_findLabelIssues A labels P _ ⟨by simp, by simp⟩ m1 h1
  obtain ⟨r2, hr2, rfl⟩ := raw_of_findLabelIssues A labels P _ ⟨by simp, by simp⟩ m2 h2
  have hraw : rawMask A labels P { args with filterBy := .both } = .ok (fun i => r2 i && r1 i) := by
    unfold rawMask at hr1 hr2 ⊢
    simp only at hr1 hr2 ⊢
    have hu : ∀ fb, usedJoint A labels P { args with filterBy := fb } = usedJoint A labels P args :=
      fun fb => rfl
    rw [hu] at hr1 hr2 ⊢
    cases hp : pruneCountMatrix A (usedJoint A labels P args) labels args.minExamples args.fracNoise
        args.numToRemove args.nanInt with
    | error e => rw [hp] at hr1; exact absurd hr1 (by simp [bind, Except.bind])
    | ok pcm =>
      rw [hp] at hr1 hr2
      simp only [bind, Except.bind, pure, Except.pure] at hr1 hr2 ⊢
      rw [← Except.ok.inj hr1, ← Except.ok.inj hr2]
  refine ⟨_, findLabelIssues_of_raw A labels P _ ⟨by simp, by simp⟩ (Or.inr ⟨by simp, by simp⟩) _ hraw, ?_⟩
  intro i
  simp only [Bool.and_eq_true]
  tauto

/-- **C09.** The three filters raise the same exceptions for the same arguments. -/
theorem C09_errors (A : ArgSort ℚ) [NeZero K] (labels : Fin n → Fin K) (P : Fin n → Fin K → ℚ) (args : Args K)
    (f g : FilterBy) (hf : f = .both ∨ f = .pruneByClass ∨ f = .pruneByNoiseRate)
    (hg : g = .both ∨ g = .pruneByClass ∨ g = .pruneByNoiseRate) (e : String)
    (h : findLabelIssues A labels P { args with filterBy := f } = .error e) :
    findLabelIssues A labels P { args with filterBy := g } = .error e := by
  have key : ∀ f, (f = .both ∨ f = .pruneByClass ∨ f = .pruneByNoiseRate) →
      ((∃ m, findLabelIssues A labels P { args with filterBy := f } = .ok m) ∧
        ∃ pcm, pruneCountMatrix A (usedJoint A labels P args) labels args.minExamples args.fracNoise args.numToRemove
          args.nanInt = .ok pcm) ∨
      ∃ e, findLabelIssues A labels P { args with filterBy := f } = .error e ∧
        pruneCountMatrix A (usedJoint A labels P args) labels args.minExamples args.fracNoise args.numToRemove
          args.nanInt = .error e := by
    intro f hf
    have hu : ∀ fb, usedJoint A labels P { args with filterBy := fb } = usedJoint A labels P args := fun fb => rfl
    unfold findLabelIssues rawMask
    cases hp : pruneCountMatrix A (usedJoint A labels P args) labels args.minExamples args.fracNoise
        args.numToRemove args.nanInt with
    | error e =>
      right
      refine ⟨e, ?_, rfl⟩
      rcases hf with rfl | rfl | rfl <;> simp only [hu, hp] <;> simp [bind, Except.bind]
    | ok pcm =>
      left
      refine ⟨?_, pcm, rfl⟩
      rcases hf with rfl | rfl | rfl <;> simp only [hu, hp] <;> simp [bind, Except.bind, pure, Except.pure]
  rcases key f hf with ⟨⟨m, hm⟩, -⟩ | ⟨e', he', hp⟩
  · rw [hm] at h; cases h
  · rw [he'] at h
    cases h
    rcases key g hg with ⟨-, pcm, hq⟩ | ⟨e', he', hq⟩
    · rw [hp] at hq; cases hq
    · rw [hp] at hq; cases hq; exact he'

example : ∃ m1 m2, findLabelIssues (stableSort ℚ) ex6L ex6P
      { filterBy := .pruneByClass, numToRemove := some ex6N } = .ok m1 ∧
    findLabelIssues (stableSort ℚ) ex6L ex6P { filterBy := .pruneByNoiseRate, numToRemove := some ex6N } = .ok m2 ∧
    List.ofFn m1 = [false, true, true, false, false, false] ∧
    List.ofFn m2 = [false, false, false, false, true, true] :=
  ⟨_, _, ex6_mask _, ex6_mask _, by decide +kernel, by decide +kernel⟩

/-! ## C10 -/

/-- **C10.** With `return_indices_ranked_by` the result lists every flagged index exactly once and nothing
else, in order of increasing score. -/
theorem C10_ranked_indices {α : Type} [LinearOrder α] (A : ArgSort ℚ) (A' : ArgSort α) [NeZero K]
    (labels : Fin n → Fin K) (P : Fin n → Fin K → ℚ) (args : Args K) (scores : Fin n → α)
    (mask : Fin n → Bool) (h : findLabelIssues A labels P args = .ok mask) :
    ∃ l, findLabelIssuesRanked A A' labels P args scores = .ok l ∧ l.Nodup ∧
      (∀ i, i ∈ l ↔ mask i = true) ∧ l.Pairwise (fun i j => scores i ≤ scores j) := by
  refine ⟨orderLabelIssues A' mask scores, ?_, ?_, ?_, orderLabelIssues_sorted A' mask scores⟩
  · unfold findLabelIssuesRanked
    rw [h]; rfl
  · exact (orderLabelIssues_perm A' mask scores).nodup_iff.mpr ((List.nodup_finRange n).filter _)
  · intro i
    rw [(orderLabelIssues_perm A' mask scores).mem_iff]
    simp

example : (findLabelIssuesRanked (stableSort ℚ) (stableSort ℚ) ex6L ex6P { filterBy := .predictedNeqGiven }
    ![0, 4, 3, 0, 1, 2]).toOption = some [4, 5, 2, 1] := by decide +kernel

/-! ## C12 -/

/-- **C12 (refuted as stated).** With `prune_by_noise_rate`, `num_to_remove_per_class` is applied to the
(unknown) true class instead of the given one: asking for two removals from class 0 and none from class 1
flags two examples of class 1. -/
theorem C12_not_num_to_remove_by_noise_rate :
    ¬ ∀ (n K : ℕ) (_ : NeZero K) (A : ArgSort ℚ) (labels : Fin n → Fin K) (P : Fin n → Fin K → ℚ)
      (num : Fin K → ℤ) (mask : Fin n → Bool), RowStochastic P →
      findLabelIssues A labels P { filterBy := .pruneByNoiseRate, numToRemove := some num } = .ok mask →
      ∀ k, (numFlagged labels mask k : ℤ) ≤ num k + 1 := by
  intro h
  have h2 := h 6 2 inferInstance (stableSort ℚ) ex6L ex6P ex6N _ (by unfold RowStochastic; decide +kernel)
    (ex6_mask .pruneByNoiseRate) 1
  revert h2
  decide +kernel

/-- **C12 (partial)**, `prune_by_class`: at most `num_to_remove_per_class[k]` examples of class `k` are flagged,
and they are the ones with the lowest self-confidence among the examples of this class whose label is not
already (within `1e-6`) the prediction. Missing: `prune_by_noise_rate`, refuted above. -/
theorem C12_num_to_remove_by_class_partial (A : ArgSort ℚ) [NeZero K] (labels : Fin n → Fin K)
    (P : Fin n → Fin K → ℚ) (args : Args K) (hf : args.filterBy = .pruneByClass) (num : Fin K → ℤ)
    (hnum : args.numToRemove = some num) (mask : Fin n → Bool)
    (h : findLabelIssues A labels P args = .ok mask) (k : Fin K) :
    (numFlagged labels mask k : ℤ) ≤ max (num k) 0 ∧
    (∀ i j, labels i = k → labels j = k → mask i = true → mask j = false →
      (∃ l, l ≠ k ∧ P j k + 1 / 1000000 < P j l) → P i k ≤ P j k) ∧
    ((args.minExamples < numGiven labels k ∧ 2 ≤ numGiven labels k ∧ num k ≤ numGiven labels k) →
      (∀ i, labels i = k → ∃ l, l ≠ k ∧ P i k + 1 / 1000000 < P i l) →
      (numFlagged labels mask k : ℤ) = max (num k) 0) := by
  obtain ⟨m, hm, rfl⟩ := raw_of_findLabelIssues A labels P args (by rw [hf]; decide) mask h
  obtain ⟨pcm, hdiag, rfl⟩ : ∃ pcm : Fin K → Fin K → ℤ, (∀ k, pcm k k = numGiven labels k - num k) ∧
      m = maskByClass A labels P args.minExamples pcm := by
    unfold rawMask at hm
    simp only [hf, hnum] at hm
    unfold pruneCountMatrix at hm
    simp only at hm
    split_ifs at hm with hc
    · simp only [bind, Except.bind, pure, Except.pure] at hm
      refine ⟨_, ?_, (Except.ok.inj hm).symm⟩
      intro k
      unfold roundRemoval
      rw [if_pos rfl]
      split_ifs
      · rw [labelCounts_eq]
      · apply roundRows_intCast
        unfold removalMatrix
        rw [if_pos rfl, labelCounts_eq]
        push_cast
        rfl
    · exact absurd hm (by simp [bind, Except.bind])
  have hcount := numFlagged_maskByClass A labels P args.minExamples pcm k
  rw [hdiag] at hcount
  have hle : numFlagged labels (fun i => maskByClass A labels P args.minExamples pcm i &&
      !reduceIssues labels P i) k ≤ numFlagged labels (maskByClass A labels P args.minExamples pcm) k := by
    apply Finset.card_le_card
    intro i
    simp only [Finset.mem_filter, Finset.mem_univ, true_and, Bool.and_eq_true]
    exact fun h => ⟨h.1, h.2.1⟩
  refine ⟨?_, ?_, ?_⟩
  · split_ifs at hcount <;> omega
  · intro i j hi hj hmi hmj hbetter
    simp only [Bool.and_eq_true] at hmi
    have hrj : reduceIssues labels P j = false := reduceIssues_false labels P j (by rw [hj]; exact hbetter)
    simp only [hrj, Bool.not_false, Bool.and_true] at hmj
    obtain ⟨r, rfl⟩ := exists_get_of labels i k hi
    obtain ⟨s, rfl⟩ := exists_get_of labels j k hj
    have hr := (maskByClass_get A labels P args.minExamples pcm k r).mp hmi.1
    have hs : s ∉ (A.indices (fun r => classProbs labels P k r k)).take
        ((numGiven labels k : ℤ) - pcm k k).toNat := by
      intro hs
      have := (maskByClass_get A labels P args.minExamples pcm k s).mpr ⟨hr.1, hr.2.1, hs⟩
      rw [hmj] at this
      exact absurd this (by simp)
    exact take_indices_le A _ _ r s hr.2.2 hs
  · rintro ⟨h1, h2, h3⟩ hall
    have : numFlagged labels (fun i => maskByClass A labels P args.minExamples pcm i &&
        !reduceIssues labels P i) k = numFlagged labels (maskByClass A labels P args.minExamples pcm) k := by
      unfold numFlagged
      congr 1
      ext i
      simp only [Finset.mem_filter, Finset.mem_univ, true_and, Bool.and_eq_true]
      constructor
      · exact fun h => ⟨h.1, h.2.1⟩
      · intro h
        refine ⟨h.1, h.2, ?_⟩
        rw [reduceIssues_false labels P i (by rw [h.1]; exact hall i h.1)]
        rfl
    rw [this, hcount, if_pos ⟨by omega, h1⟩]
    omega

/-- **C12 (partial)**, `prune_by_noise_rate`: the removals asked for class `j` are split among the given classes `k ≠ j` in
proportion to `count j k / count k`, up to rounding, where the counts are those used without `num_to_remove_per_class` and
`count k` is the sum of their row `k`; the computation is possible exactly if none of these sums is zero. -/
theorem C12_split_partial (A : ArgSort ℚ) (cj : Fin K → Fin K → ℚ) (labels : Fin n → Fin K) (minN : ℕ) (frac : ℚ)
    (num : Fin K → ℤ) (nanInt : ℤ) (count : Fin K → Fin K → ℤ)
    (hc : pruneCountMatrix A cj labels minN frac none nanInt = .ok count) :
    ((∃ r, pruneCountMatrix A cj labels minN frac (some num) nanInt = .ok r) ↔ ∀ k, ∑ k', count k k' ≠ 0) ∧
    ∀ r, pruneCountMatrix A cj labels minN frac (some num) nanInt = .ok r → ∀ j,
      ∑ k ∈ Finset.univ.erase j, (count j k : ℚ) / ((∑ k', count k k' : ℤ) : ℚ) ≠ 0 →
        r j j = numGiven labels j - num j ∧ ∑ k, r j k = numGiven labels j ∧
        ∀ k, k ≠ j → |(r j k : ℚ) - num j * ((count j k : ℚ) / ((∑ k', count k k' : ℤ) : ℚ)) /
          ∑ k ∈ Finset.univ.erase j, (count j k : ℚ) / ((∑ k', count k k' : ℤ) : ℚ)| ≤ 1 := by
  rw [pruneCountMatrix_none] at hc
  have hc := Except.ok.inj hc
  unfold pruneCountMatrix
  dsimp only
  rw [hc]
  constructor
  · constructor
    · rintro ⟨r, hr⟩
      by_contra h
      rw [if_neg h] at hr
      cases hr
    · intro h
      rw [if_pos h]
      exact ⟨_, rfl⟩
  · intro r hr j htot
    split_ifs at hr with h
    have hr := Except.ok.inj hr
    have hn : noisePerS count j = ∑ k ∈ Finset.univ.erase j, (count j k : ℚ) / ((∑ k', count k k' : ℤ) : ℚ) := by
      unfold noisePerS psy
      rw [← Finset.add_sum_erase Finset.univ _ (Finset.mem_univ j)]
      ring
    have hrow : r j = roundRows A (removalMatrix count labels num) j := by
      rw [← hr]
      funext k
      unfold roundRemoval
      rw [if_neg (by rw [hn]; exact htot)]
    obtain ⟨h1, h2⟩ := roundRows_spec A (removalMatrix count labels num) j
    refine ⟨?_, ?_, ?_⟩
    · rw [hrow]
      apply roundRows_intCast
      unfold removalMatrix
      rw [if_pos rfl, labelCounts_eq]
      push_cast
      rfl
    · rw [hrow, h1]
      have : ∑ i, removalMatrix count labels num j i = ((numGiven labels j : ℤ) : ℚ) := by
        rw [← Finset.add_sum_erase Finset.univ _ (Finset.mem_univ j)]
        have hoff : ∑ k ∈ Finset.univ.erase j, removalMatrix count labels num j k = num j := by
          have : ∀ k ∈ Finset.univ.erase j, removalMatrix count labels num j k =
              (count j k : ℚ) / ((∑ k', count k k' : ℤ) : ℚ) * (num j / noisePerS count j) := by
            intro k hk
            unfold removalMatrix psy
            rw [if_neg (Ne.symm (Finset.ne_of_mem_erase hk)), mul_div_assoc]
          rw [Finset.sum_congr rfl this, ← Finset.sum_mul, ← hn, mul_div_cancel₀ _ (by rw [hn]; exact htot)]
        rw [hoff]
        unfold removalMatrix
        rw [if_pos rfl, labelCounts_eq]
        push_cast
        ring
      rw [this, rint_intCast]
    · intro k hk
      have hx : removalMatrix count labels num j k = num j * ((count j k : ℚ) / ((∑ k', count k k' : ℤ) : ℚ)) /
          ∑ k ∈ Finset.univ.erase j, (count j k : ℚ) / ((∑ k', count k k' : ℤ) : ℚ) := by
        unfold removalMatrix psy
        rw [if_neg (Ne.symm hk), hn]
        ring
      rw [← hx, hrow, abs_le]
      have e1 := sub_rint_le (removalMatrix count labels num j k)
      have e2 := rint_sub_le (removalMatrix count labels num j k)
      rcases h2 k with e | ⟨e, e3⟩ | ⟨e, e3⟩ <;> rw [e] <;> push_cast <;> constructor <;> linarith

/-- Non-vacuity: on this data set all hypotheses hold for class 0 and its two removals are made. -/
example : ∃ mask, findLabelIssues (stableSort ℚ) ex6L ex6P
      { filterBy := .pruneByClass, numToRemove := some ex6N } = .ok mask ∧ numFlagged ex6L mask 0 = 2 ∧
      numFlagged ex6L mask 1 = 0 :=
  ⟨_, ex6_mask _, by decide +kernel, by decide +kernel⟩

/-! ## C13 -/

/-- **C13.** Reducing `frac_noise` only removes examples from the result, for all three pruning filters. -/
theorem C13_frac_noise_monotone (A : ArgSort ℚ) [NeZero K] (labels : Fin n → Fin K)
    (P : Fin n → Fin K → ℚ) (args : Args K) (hn : args.numToRemove = none)
    (hf : args.filterBy = .pruneByClass ∨ args.filterBy = .pruneByNoiseRate ∨ args.filterBy = .both)
    (f1 f2 : ℚ) (hle : f1 ≤ f2) :
    ∃ m1 m2, findLabelIssues A labels P { args with fracNoise := f1 } = .ok m1 ∧
      findLabelIssues A labels P { args with fracNoise := f2 } = .ok m2 ∧
      ∀ i, m1 i = true → m2 i = true := by
  have hmono : ∀ k, _ := fun k => reducePruneCounts_mono
    (keepDiagonal (fun j k => usedJoint A labels P args k j) args.minExamples) f1 f2 hle k
    (fun j hj => keepDiagonal_off_nonneg _ _ j k hj)
  have hclass : ∀ i, maskByClass A labels P args.minExamples
      (keepAtLeastN A (fun j k => usedJoint A labels P args k j) args.minExamples f1) i = true →
      maskByClass A labels P args.minExamples
      (keepAtLeastN A (fun j k => usedJoint A labels P args k j) args.minExamples f2) i = true := by
    intro i
    obtain ⟨r, hr⟩ := exists_get labels i
    rw [← hr, maskByClass_get, maskByClass_get]
    rintro ⟨h1, h2, h3⟩
    refine ⟨h1, h2, mem_take_mono _ ?_ _ h3⟩
    rw [keepAtLeastN_eq, keepAtLeastN_eq]
    have := (hmono (labels i)).2
    omega
  have hcount : ∀ i, maskByCount A labels P args.minExamples
      (keepAtLeastN A (fun j k => usedJoint A labels P args k j) args.minExamples f1) i = true →
      maskByCount A labels P args.minExamples
      (keepAtLeastN A (fun j k => usedJoint A labels P args k j) args.minExamples f2) i = true := by
    intro i
    obtain ⟨r, hr⟩ := exists_get labels i
    rw [← hr, maskByCount_get, maskByCount_get]
    rintro ⟨h1, h2, j, hj, h3, h4⟩
    have := (hmono (labels i)).1 j (Ne.symm hj)
    rw [keepAtLeastN_eq] at h3 h4
    refine ⟨h1, h2, j, hj, ?_, mem_take_mono _ ?_ _ h4⟩
    · rw [keepAtLeastN_eq]; omega
    · rw [keepAtLeastN_eq]; omega
  rcases hf with hf | hf | hf
  all_goals
    refine ⟨_, _, findLabelIssues_of_raw A labels P { args with fracNoise := f1 }
        (by simp only [hf]; exact ⟨by simp, by simp⟩) (Or.inl hn) _
        (by unfold rawMask; simp only [hf, hn]; rfl),
      findLabelIssues_of_raw A labels P { args with fracNoise := f2 }
        (by simp only [hf]; exact ⟨by simp, by simp⟩) (Or.inl hn) _
        (by unfold rawMask; simp only [hf, hn]; rfl), ?_⟩
    intro i
    simp only [Bool.and_eq_true]
  · exact fun h => ⟨hclass i h.1, h.2⟩
  · exact fun h => ⟨hcount i h.1, h.2⟩
  · exact fun h => ⟨⟨hcount i h.1.1, hclass i h.1.2⟩, h.2⟩

/-- **C13.** `frac_noise=0` flags nothing by noise rate. -/
theorem C13_frac_noise_zero (A : ArgSort ℚ) [NeZero K] (labels : Fin n → Fin K)
    (P : Fin n → Fin K → ℚ) (args : Args K) (hn : args.numToRemove = none) (h0 : args.fracNoise = 0)
    (hf : args.filterBy = .pruneByNoiseRate ∨ args.filterBy = .both) :
    findLabelIssues A labels P args = .ok (fun _ => false) := by
  have hcount : ∀ i, maskByCount A labels P args.minExamples
      (keepAtLeastN A (fun j k => usedJoint A labels P args k j) args.minExamples 0) i = false := by
    intro i
    rw [← Bool.not_eq_true]
    obtain ⟨r, hr⟩ := exists_get labels i
    rw [← hr, maskByCount_get]
    rintro ⟨_, _, j, hj, h3, _⟩
    rw [keepAtLeastN_eq] at h3
    unfold reducePruneCounts reducePruneCountsExact at h3
    simp only [if_neg (Ne.symm hj), mul_zero] at h3
    simp [trunc] at h3
  rcases hf with hf | hf
  · rw [findLabelIssues_of_raw A labels P args (by rw [hf]; decide) (Or.inl hn) _
      (by unfold rawMask; rw [hf, hn, h0]; rfl)]
    congr 1
    funext i
    rw [hcount]; rfl
  · rw [findLabelIssues_of_raw A labels P args (by rw [hf]; decide) (Or.inl hn) _
      (by unfold rawMask; rw [hf, hn, h0]; rfl)]
    congr 1
    funext i
    rw [hcount]; rfl

/-- **C13.** Before truncation the column totals of the count matrix are kept, and `frac_noise=1` keeps an
integer matrix as it is. -/
theorem C13_column_totals (m : Fin K → Fin K → ℚ) (frac : ℚ) (k : Fin K) :
    ∑ j, reducePruneCountsExact m frac j k = ∑ j, m j k := by
  unfold reducePruneCountsExact
  simp only
  have h : ∀ j, (if j = k then m k k + ∑ a, (m a k - if a = k then m a k else m a k * frac)
      else if j = k then m j k else m j k * frac) =
      (if j = k then ∑ a, (m a k - if a = k then m a k else m a k * frac) else 0) +
        (if j = k then m j k else m j k * frac) := by
    intro j
    split_ifs with hj
    · subst hj; ring
    · ring
  rw [Finset.sum_congr rfl (fun j _ => h j), Finset.sum_add_distrib, Finset.sum_ite_eq' Finset.univ k]
  simp only [Finset.mem_univ, if_true]
  rw [Finset.sum_sub_distrib]
  ring

theorem C13_frac_noise_one (m : Fin K → Fin K → ℤ) (j k : Fin K) :
    reducePruneCounts (fun a b => (m a b : ℚ)) 1 j k = m j k := by
  unfold reducePruneCounts reducePruneCountsExact
  simp only [mul_one, ite_self, sub_self, Finset.sum_const_zero, add_zero]
  split_ifs with h
  · subst h; exact trunc_intCast _
  · exact trunc_intCast _

end Cleanlab.Props
