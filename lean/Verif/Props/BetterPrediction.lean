import Verif.Props.ClassNumbering
import Verif.Props.Parts

/-!
# C138: a better prediction never makes an example an issue

Predictions `P'` are at least as good as `P` if every example's given label is at least as probable and every other class
at most as probable.
-/

namespace Cleanlab.Props

open Np Cleanlab.Util Cleanlab.Count Cleanlab.Rank Cleanlab.Filter Cleanlab.Spec

variable {n K : ℕ}

/-- The predictions `P'` support the given labels at least as much as `P`. -/
def Better (labels : Fin n → Fin K) (P P' : Fin n → Fin K → ℚ) : Prop :=
  ∀ i, P i (labels i) ≤ P' i (labels i) ∧ ∀ k, k ≠ labels i → P' i k ≤ P i k

/-- Only the predictions for example `i` are better. -/
def BetterAt (labels : Fin n → Fin K) (P P' : Fin n → Fin K → ℚ) (i : Fin n) : Prop :=
  (P i (labels i) ≤ P' i (labels i) ∧ ∀ k, k ≠ labels i → P' i k ≤ P i k) ∧ ∀ j, j ≠ i → P' j = P j

theorem BetterAt.better {labels : Fin n → Fin K} {P P' : Fin n → Fin K → ℚ} {i : Fin n} (h : BetterAt labels P P' i) :
    Better labels P P' := by
  intro j
  by_cases hj : j = i
  · subst hj; exact h.1
  · rw [h.2 j hj]; exact ⟨le_rfl, fun _ _ => le_rfl⟩

/-- Better predictions do not lower a threshold. -/
theorem thresholds_better {labels : Fin n → Fin K} {P P' : Fin n → Fin K → ℚ} (h : Better labels P P') (k : Fin K) :
    getConfidentThresholds labels P k ≤ getConfidentThresholds labels P' k := by
  unfold getConfidentThresholds
  apply max_le_max _ le_rfl
  by_cases hk : k ∈ List.ofFn labels
  · rw [if_pos hk, if_pos hk, classMean_eq, classMean_eq]
    unfold meanSelfConfidence
    apply div_le_div_of_nonneg_right _ (Nat.cast_nonneg _)
    apply Finset.sum_le_sum
    intro i hi
    have := (h i).1
    rwa [(Finset.mem_filter.mp hi).2] at this
  · rw [if_neg hk, if_neg hk]

variable [NeZero K]

theorem isPrediction_better {labels : Fin n → Fin K} {P P' : Fin n → Fin K → ℚ} (h : Better labels P P') (i : Fin n)
    (hp : argmax (P i) = labels i) : argmax (P' i) = labels i := by
  rw [argmax_eq_iff_isPrediction] at hp ⊢
  refine ⟨fun j => ?_, fun j hj => ?_⟩
  · by_cases hj : j = labels i
    · rw [hj]
    · exact ((h i).2 j hj).trans ((hp.1 j).trans (h i).1)
  · exact lt_of_le_of_lt ((h i).2 j hj.ne) (lt_of_lt_of_le (hp.2 j hj) (h i).1)

theorem reduceIssues_better {labels : Fin n → Fin K} {P P' : Fin n → Fin K → ℚ} (h : Better labels P P') (i : Fin n)
    (hp : reduceIssues labels P i = true) : reduceIssues labels P' i = true := by
  rw [reduceIssues_iff] at hp ⊢
  refine ⟨fun j => ?_, fun j hj => ?_⟩
  · by_cases hj : j = labels i
    · rw [hj]
    · have h1 := hp.1 j
      simp only [if_neg hj, if_true] at h1 ⊢
      linarith [(h i).1, (h i).2 j hj]
  · have h1 := hp.2 j hj
    simp only [if_neg hj.ne, if_true] at h1 ⊢
    linarith [(h i).1, (h i).2 j hj.ne]

theorem confident_better {labels : Fin n → Fin K} {P P' : Fin n → Fin K → ℚ} (h : Better labels P P') (i : Fin n)
    (hr : reduceIssues labels P' i = false)
    (ho : i ∈ offDiagonalIndices labels P' (getConfidentThresholds labels P')) :
    reduceIssues labels P i = false ∧ i ∈ offDiagonalIndices labels P (getConfidentThresholds labels P) := by
  have hr' : reduceIssues labels P i = false := by
    by_contra hc
    rw [Bool.not_eq_false] at hc
    rw [reduceIssues_better h i hc] at hr
    cases hr
  refine ⟨hr', ?_⟩
  rw [offDiagonal_reduce_iff labels P' _ i hr] at ho
  rw [offDiagonal_reduce_iff labels P _ i hr']
  obtain ⟨k, hk, hreach⟩ := ho
  refine ⟨k, hk, ?_⟩
  unfold Reaches at hreach ⊢
  linarith [thresholds_better h k, (h i).2 k hk]

/-- **C138.** With `filter_by="confident_learning"` or `"predicted_neq_given"`, better predictions for any of the examples
make no example an issue. -/
theorem C138_find (A : ArgSort ℚ) (labels : Fin n → Fin K) (P P' : Fin n → Fin K → ℚ) (h : Better labels P P')
    (args : Args K) (hf : args.filterBy = .confidentLearning ∨ args.filterBy = .predictedNeqGiven)
    (mask mask' : Fin n → Bool) (hm : Filter.findLabelIssues A labels P args = .ok mask)
    (hm' : Filter.findLabelIssues A labels P' args = .ok mask') (i : Fin n) (hi : mask i = false) : mask' i = false := by
  have hfb : args.filterBy ≠ .lowSelfConfidence ∧ args.filterBy ≠ .lowNormalizedMargin := by
    rcases hf with h | h <;> rw [h] <;> exact ⟨by decide, by decide⟩
  obtain ⟨m, h1, rfl⟩ := raw_of_findLabelIssues A labels P args hfb mask hm
  obtain ⟨m', h1', rfl⟩ := raw_of_findLabelIssues A labels P' args hfb mask' hm'
  by_contra hc
  rw [Bool.not_eq_false] at hc
  dsimp only at hi hc
  rw [Bool.and_eq_true, Bool.not_eq_true'] at hc
  suffices hs : m i = true ∧ reduceIssues labels P i = false by
    rw [hs.1, hs.2] at hi; cases hi
  unfold rawMask at h1 h1'
  rcases hf with hf | hf <;> rw [hf] at h1 h1' <;> dsimp only at h1 h1' <;>
    rw [← Except.ok.inj h1'] at hc <;> rw [← Except.ok.inj h1] <;> simp only [decide_eq_true_eq] at hc ⊢
  · exact (confident_better h i hc.2 hc.1).symm
  · refine ⟨fun hp => hc.1 (isPrediction_better h i hp), ?_⟩
    by_contra hr
    rw [Bool.not_eq_false] at hr
    rw [reduceIssues_better h i hr] at hc
    cases hc.2

/-- **C138.** Better predictions do not raise the number of label issues. -/
theorem C138_number (A : ArgSort ℚ) (labels : Fin n → Fin K) (P P' : Fin n → Fin K → ℚ) (h : Better labels P P')
    (N N' : ℤ) (hN : numLabelIssues A labels P none .offDiagonal = .ok N)
    (hN' : numLabelIssues A labels P' none .offDiagonal = .ok N') : N' ≤ N := by
  unfold numLabelIssues at hN hN'
  dsimp only at hN hN'
  rw [← Except.ok.inj hN, ← Except.ok.inj hN']
  rw [Nat.cast_le]
  apply List.countP_mono_left
  intro i _ hc
  simp only [Bool.and_eq_true, decide_eq_true_eq, Bool.not_eq_true'] at hc ⊢
  exact (confident_better h i hc.2 hc.1).symm

omit [NeZero K] in
/-- **C138.** Better predictions for an example do not lower its score. -/
theorem C138_scores (mth : Method) (labels : Fin n → Fin K) (P P' : Fin n → Fin K → ℚ) (h : Better labels P P')
    (s s' : Fin n → ℚ) (hs : Rank.labelQualityScores mth labels P = .ok s)
    (hs' : Rank.labelQualityScores mth labels P' = .ok s') (i : Fin n) : s i ≤ s' i := by
  rw [labelQualityScores_iff] at hs hs'
  have h1 := hs i
  have h2 := hs' i
  cases mth with
  | selfConfidence =>
    rw [show s i = _ from h1, show s' i = _ from h2]
    exact (h i).1
  | normalizedMargin =>
    obtain ⟨k, hk, hmax, e1⟩ := h1
    obtain ⟨k', hk', hmax', e2⟩ := h2
    rw [e1, e2]
    linarith [(h i).1, (h i).2 k' hk', hmax k' hk']

omit [NeZero K] in
theorem take_indices_card {α : Type} [LinearOrder α] (A : ArgSort α) {c : ℕ} (v : Fin c → α) (m : ℕ) (r : Fin c)
    (hr : r ∈ (A.indices v).take m) : (Finset.univ.filter (fun s => v s < v r)).card < m := by
  have hcard := card_take_indices A v m
  have hsub : Finset.univ.filter (fun s => v s < v r) ⊂ Finset.univ.filter (fun s => s ∈ (A.indices v).take m) := by
    refine (Finset.ssubset_iff_of_subset (fun s hs => ?_)).mpr ⟨r, by simpa using hr, by simp⟩
    by_contra hn
    have h1 := take_indices_le A v m r s hr (by simpa using hn)
    exact absurd (by simpa using hs : v s < v r) (not_lt.mpr h1)
  have := Finset.card_lt_card hsub
  omega

/-- **C138 (partial).** With the filters by the lowest scores, a better prediction for an example that is no issue does not
make it an issue, if no other example has the same score. (Missing: equal scores, where the sort decides.) -/
theorem C138_low_scores_partial (A : ArgSort ℚ) (labels : Fin n → Fin K) (P P' : Fin n → Fin K → ℚ) (i : Fin n)
    (h : BetterAt labels P P' i) (args : Args K) (mth : Method)
    (hf : args.filterBy = .lowSelfConfidence ∧ mth = .selfConfidence ∨
      args.filterBy = .lowNormalizedMargin ∧ mth = .normalizedMargin)
    (ht : ∀ s, Rank.labelQualityScores mth labels P = .ok s → ∀ j, j ≠ i → s j ≠ s i)
    (mask mask' : Fin n → Bool) (hm : Filter.findLabelIssues A labels P args = .ok mask)
    (hm' : Filter.findLabelIssues A labels P' args = .ok mask') (hi : mask i = false) : mask' i = false := by
  have key : ∀ (Q : Fin n → Fin K → ℚ) (m : Fin n → Bool), Filter.findLabelIssues A labels Q args = .ok m →
      ∃ s N, Rank.labelQualityScores mth labels Q = .ok s ∧ numLabelIssues A labels Q none .offDiagonal = .ok N ∧
        ∀ j, m j = true ↔ j ∈ (A.indices s).take N.toNat := by
    intro Q m hq
    unfold Filter.findLabelIssues at hq
    split at hq
    · cases hq
    · have hmem : args.filterBy ∈ [FilterBy.lowSelfConfidence, .lowNormalizedMargin] := by
        rcases hf with ⟨h, -⟩ | ⟨h, -⟩ <;> rw [h] <;> decide
      simp only [hmem, if_true] at hq
      have hraw : rawMask A labels Q args = .ok m := by
        cases hr : rawMask A labels Q args with
        | error e => rw [hr] at hq; cases hq
        | ok m0 => rw [hr] at hq; exact congrArg _ (Except.ok.inj hq)
      have hlow : (do let idx ← lowScoreIndices A labels Q mth; return fun i => decide (i ∈ idx) :
          Except String (Fin n → Bool)) = .ok m := by
        rw [← hraw]
        unfold rawMask
        rcases hf with ⟨h, rfl⟩ | ⟨h, rfl⟩ <;> rw [h]
      unfold lowScoreIndices at hlow
      cases hs : Rank.labelQualityScores mth labels Q with
      | error e => rw [hs] at hlow; cases hlow
      | ok s =>
        cases hN : numLabelIssues A labels Q none .offDiagonal with
        | error e => rw [hs, hN] at hlow; cases hlow
        | ok N =>
          rw [hs, hN] at hlow
          refine ⟨s, N, rfl, rfl, fun j => ?_⟩
          rw [← Except.ok.inj hlow, decide_eq_true_eq]
  obtain ⟨s, N, h1, h2, h3⟩ := key P mask hm
  obtain ⟨s', N', h1', h2', h3'⟩ := key P' mask' hm'
  by_contra hc
  rw [Bool.not_eq_false, h3'] at hc
  have hlt := take_indices_card A s' _ i hc
  have hN := C138_number A labels P P' h.better N N' h2 h2'
  have hsc := C138_scores mth labels P P' h.better s s' h1 h1'
  have hother : ∀ j, j ≠ i → s' j = s j := by
    intro j hj
    rw [labelQualityScores_iff] at h1 h1'
    have e1 := h1 j
    have e2 := h1' j
    rw [h.2 j hj] at e2
    cases mth with
    | selfConfidence => rw [show s j = _ from e1, show s' j = _ from e2]
    | normalizedMargin =>
      obtain ⟨k, hk, hmax, e1⟩ := e1
      obtain ⟨k', hk', hmax', e2⟩ := e2
      rw [e1, e2, le_antisymm (hmax k' hk') (hmax' k hk)]
  have hsub : Finset.univ.filter (fun j => s j < s i) ⊆ Finset.univ.filter (fun j => s' j < s' i) := by
    intro j hj
    simp only [Finset.mem_filter, Finset.mem_univ, true_and] at hj ⊢
    have hne : j ≠ i := by rintro rfl; exact lt_irrefl _ hj
    rw [hother j hne]
    exact lt_of_lt_of_le hj (hsc i)
  have hle := Finset.card_le_card hsub
  have hin : i ∈ (A.indices s).take N.toNat :=
    (mem_take_indices_iff A s N.toNat i (ht s h1)).mpr (by omega)
  rw [← h3, hi] at hin
  cases hin

/-- **C138 (partial).** The filters that prune by counts, with a given confident joint and different scores. (Missing: the
confident joint estimated from the predictions, see `C138_not_estimated`, and equal scores.) -/
theorem C138_counts_partial (A : ArgSort ℚ) (labels : Fin n → Fin K) (P P' : Fin n → Fin K → ℚ) (i : Fin n)
    (h : BetterAt labels P P' i) (args : Args K) (cj : Fin K → Fin K → ℚ) (hcj : args.confidentJoint = some cj)
    (hf : args.filterBy = .pruneByClass ∨ args.filterBy = .pruneByNoiseRate ∨ args.filterBy = .both)
    (ht : NoTies args.filterBy labels P) (ht' : NoTies args.filterBy labels P')
    (mask mask' : Fin n → Bool) (hm : Filter.findLabelIssues A labels P args = .ok mask)
    (hm' : Filter.findLabelIssues A labels P' args = .ok mask') (hi : mask i = false) : mask' i = false := by
  have hfb : args.filterBy ≠ .lowSelfConfidence ∧ args.filterBy ≠ .lowNormalizedMargin := by
    rcases hf with h | h | h <;> rw [h] <;> exact ⟨by decide, by decide⟩
  obtain ⟨m, h1, rfl⟩ := raw_of_findLabelIssues A labels P args hfb mask hm
  obtain ⟨m', h1', rfl⟩ := raw_of_findLabelIssues A labels P' args hfb mask' hm'
  have hj : ∀ Q, usedJoint A labels Q args = cj := by
    intro Q; unfold usedJoint; rw [hcj]
  by_contra hc
  rw [Bool.not_eq_false] at hc
  dsimp only at hi hc
  rw [Bool.and_eq_true, Bool.not_eq_true'] at hc
  have hr : reduceIssues labels P i = false := by
    by_contra hr
    rw [Bool.not_eq_false] at hr
    rw [reduceIssues_better h.better i hr] at hc
    cases hc.2
  rw [hr] at hi
  simp only [Bool.not_false, Bool.and_true] at hi
  have hclass : ∀ pcm, ProbsDiffer labels P → ProbsDiffer labels P' →
      maskByClass A labels P' args.minExamples pcm i = true → maskByClass A labels P args.minExamples pcm i = true := by
    intro pcm d d' hh
    rw [maskByClass_iff A _ _ _ _ _ (d' i)] at hh
    rw [maskByClass_iff A _ _ _ _ _ (d i)]
    refine ⟨hh.1, hh.2.1, lt_of_le_of_lt ?_ hh.2.2⟩
    rw [Nat.cast_le]
    apply Finset.card_le_card
    intro j hj
    simp only [Finset.mem_filter, Finset.mem_univ, true_and] at hj ⊢
    have hne : j ≠ i := by rintro rfl; exact lt_irrefl _ hj.2
    rw [h.2 j hne]
    exact ⟨hj.1, lt_of_lt_of_le hj.2 h.1.1⟩
  have hcount : ∀ pcm, MarginsDiffer labels P → MarginsDiffer labels P' →
      maskByCount A labels P' args.minExamples pcm i = true → maskByCount A labels P args.minExamples pcm i = true := by
    intro pcm d d' hh
    rw [maskByCount_iff A _ _ _ _ _ (d' i)] at hh
    rw [maskByCount_iff A _ _ _ _ _ (d i)]
    obtain ⟨a1, a2, k, hk, a3⟩ := hh
    refine ⟨a1, a2, k, hk, lt_of_le_of_lt ?_ a3⟩
    rw [Nat.cast_le]
    apply Finset.card_le_card
    intro j hj
    simp only [Finset.mem_filter, Finset.mem_univ, true_and] at hj ⊢
    have hne : j ≠ i := by rintro rfl; exact lt_irrefl _ hj.2
    rw [h.2 j hne]
    exact ⟨hj.1, by linarith [h.1.1, h.1.2 k hk, hj.2]⟩
  unfold rawMask at h1 h1'
  have hpcm : ∃ pcm, pruneCountMatrix A cj labels args.minExamples args.fracNoise args.numToRemove args.nanInt = .ok pcm := by
    cases hp : pruneCountMatrix A cj labels args.minExamples args.fracNoise args.numToRemove args.nanInt with
    | ok pcm => exact ⟨pcm, rfl⟩
    | error e => rcases hf with hf | hf | hf <;> rw [hf] at h1 <;> dsimp only at h1 <;> rw [hj, hp] at h1 <;> cases h1
  obtain ⟨pcm, hp⟩ := hpcm
  rcases hf with hf | hf | hf <;> rw [hf] at h1 h1' ht ht' <;> dsimp only at h1 h1' <;> rw [hj, hp] at h1 h1' <;>
    rw [← Except.ok.inj h1] at hi <;> rw [← Except.ok.inj h1'] at hc
  · rw [hclass pcm ht ht' hc.1] at hi; cases hi
  · rw [hcount pcm ht ht' hc.1] at hi; cases hi
  · dsimp only at hc hi
    rw [Bool.and_eq_true] at hc
    rw [hcount pcm ht.2 ht'.2 hc.1.1, hclass pcm ht.1 ht'.1 hc.1.2] at hi
    cases hi

/-! ### What fails -/

/-- Six examples labelled 0 and one labelled 1. -/
def betterLabels : Fin 7 → Fin 2 := ![0, 0, 0, 0, 0, 0, 1]

/-- Predictions; the third example has probability `p` of its label. -/
def betterProbs (p : ℚ) : Fin 7 → Fin 2 → ℚ :=
  ![![1 / 10, 9 / 10], ![2 / 10, 8 / 10], ![p, 1 - p], ![35 / 100, 65 / 100], ![39 / 100, 61 / 100], ![1, 0],
    ![1 / 10, 9 / 10]]

theorem betterProbs_at : BetterAt betterLabels (betterProbs (30 / 100)) (betterProbs (33 / 100)) 2 := by
  refine ⟨⟨by decide +kernel, by decide +kernel⟩, fun j hj => ?_⟩
  funext k
  revert j k
  decide +kernel

theorem betterProbs_joint : ∀ a b, computeConfidentJoint (stableSort ℚ) betterLabels (betterProbs (30 / 100))
    (getConfidentThresholds betterLabels (betterProbs (30 / 100))) true a b =
      (![![4, 2], ![0, 1]] : Fin 2 → Fin 2 → ℤ) a b := by
  intro a b
  refine roundRows_intCast (stableSort ℚ) _ a b _ ?_
  revert a b
  decide +kernel

theorem betterProbs_joint' : ∀ a b, computeConfidentJoint (stableSort ℚ) betterLabels (betterProbs (33 / 100))
    (getConfidentThresholds betterLabels (betterProbs (33 / 100))) true a b =
      (![![3, 3], ![0, 1]] : Fin 2 → Fin 2 → ℤ) a b := by
  intro a b
  refine roundRows_intCast (stableSort ℚ) _ a b _ ?_
  revert a b
  decide +kernel

/-- What the filters by counts return, from the confident joint. -/
theorem better_find (p : ℚ) (M M' : Fin 2 → Fin 2 → ℤ) (hM : ∀ a b, computeConfidentJoint (stableSort ℚ) betterLabels
      (betterProbs p) (getConfidentThresholds betterLabels (betterProbs p)) true a b = M a b)
    (hk : ∀ j k, reducePruneCounts (keepDiagonal (fun j k => (M k j : ℚ)) 1) 1 j k = M' j k) :
    Filter.findLabelIssues (stableSort ℚ) betterLabels (betterProbs p) { filterBy := .pruneByNoiseRate } =
      .ok (fun i => maskByCount (stableSort ℚ) betterLabels (betterProbs p) 1 M' i &&
        !(reduceIssues betterLabels (betterProbs p) i)) ∧
    Filter.findLabelIssues (stableSort ℚ) betterLabels (betterProbs p) { filterBy := .pruneByClass } =
      .ok (fun i => maskByClass (stableSort ℚ) betterLabels (betterProbs p) 1 M' i &&
        !(reduceIssues betterLabels (betterProbs p) i)) ∧
    Filter.findLabelIssues (stableSort ℚ) betterLabels (betterProbs p) { filterBy := .both } =
      .ok (fun i => (maskByCount (stableSort ℚ) betterLabels (betterProbs p) 1 M' i &&
        maskByClass (stableSort ℚ) betterLabels (betterProbs p) 1 M' i) &&
        !(reduceIssues betterLabels (betterProbs p) i)) := by
  have hpcm : keepAtLeastN (stableSort ℚ) (fun j k => (M k j : ℚ)) 1 1 = M' := by
    funext j k
    rw [keepAtLeastN_eq, hk]
  have hu : ∀ f, usedJoint (stableSort ℚ) betterLabels (betterProbs p) { filterBy := f } =
      fun a b => (M a b : ℚ) := by
    intro f
    funext a b
    unfold usedJoint
    dsimp only
    rw [hM]
  refine ⟨?_, ?_, ?_⟩ <;> unfold Filter.findLabelIssues rawMask pruneCountMatrix <;> simp only [hu, hpcm] <;> rfl

/-- **C138 fails for the filters by counts**, whose counts are estimated from the predictions. Raising the probability of the
given label of the third example from 0.30 to 0.33 makes it an issue: the threshold of its class rises, so that one example
fewer is counted as right, and the calibration then takes three instead of two of the six labels to be wrong. -/
theorem C138_not_estimated : BetterAt betterLabels (betterProbs (30 / 100)) (betterProbs (33 / 100)) 2 ∧
    ∀ f, f = FilterBy.pruneByNoiseRate ∨ f = .pruneByClass ∨ f = .both → ∃ mask mask',
      Filter.findLabelIssues (stableSort ℚ) betterLabels (betterProbs (30 / 100)) { filterBy := f } = .ok mask ∧
      Filter.findLabelIssues (stableSort ℚ) betterLabels (betterProbs (33 / 100)) { filterBy := f } = .ok mask' ∧
      mask 2 = false ∧ mask' 2 = true := by
  refine ⟨betterProbs_at, ?_⟩
  obtain ⟨a1, a2, a3⟩ := better_find (30 / 100) _ ![![4, 0], ![2, 1]] betterProbs_joint (by decide +kernel)
  obtain ⟨b1, b2, b3⟩ := better_find (33 / 100) _ ![![3, 0], ![3, 1]] betterProbs_joint' (by decide +kernel)
  rintro f (rfl | rfl | rfl)
  · exact ⟨_, _, a1, b1, by decide +kernel, by decide +kernel⟩
  · exact ⟨_, _, a2, b2, by decide +kernel, by decide +kernel⟩
  · exact ⟨_, _, a3, b3, by decide +kernel, by decide +kernel⟩

/-- **C138 fails for the estimated number of issues** of `estimation_method="off_diagonal_calibrated"`: it rises from 2 to 3. -/
theorem C138_not_number_calibrated :
    numLabelIssues (stableSort ℚ) betterLabels (betterProbs (30 / 100)) none .offDiagonalCalibrated = .ok 2 ∧
    numLabelIssues (stableSort ℚ) betterLabels (betterProbs (33 / 100)) none .offDiagonalCalibrated = .ok 3 := by
  have key : ∀ (p : ℚ) (M : Fin 2 → Fin 2 → ℤ) (N : ℤ), (∀ a b, computeConfidentJoint (stableSort ℚ) betterLabels
      (betterProbs p) (getConfidentThresholds betterLabels (betterProbs p)) true a b = M a b) →
      (∀ a b, calibrateConfidentJoint (stableSort ℚ) (fun a b => (M a b : ℚ)) betterLabels a b = M a b) →
      rint ((1 - ∑ k, (M k k : ℚ) / clipTiny ((∑ a', ∑ b', M a' b' : ℤ) : ℚ)) * 7) = N →
      numLabelIssues (stableSort ℚ) betterLabels (betterProbs p) none .offDiagonalCalibrated = .ok N := by
    intro p M N hM hcal hN
    unfold numLabelIssues estimateJointFrom
    dsimp only
    simp only [hM, hcal]
    rw [← hN]
    rfl
  refine ⟨key _ ![![4, 2], ![0, 1]] 2 betterProbs_joint ?_ (by decide +kernel),
    key _ ![![3, 3], ![0, 1]] 3 betterProbs_joint' ?_ (by decide +kernel)⟩ <;>
  · intro a b
    refine roundRows_intCast (stableSort ℚ) _ a b _ ?_
    revert a b
    decide +kernel

/-- **C138 fails for `confidence_weighted_entropy`**: raising the probability of the given label from 1/2 to 1 lowers the
score to 0. -/
theorem C138_not_entropy : ∃ s s' : Fin 1 → ℝ,
    confidenceWeightedEntropy (fun _ : Fin 1 => (0 : Fin 2)) (fun _ => ![1 / 2, 1 / 2]) = .ok s ∧
    confidenceWeightedEntropy (fun _ : Fin 1 => (0 : Fin 2)) (fun _ => ![1, 0]) = .ok s' ∧ s' 0 < s 0 := by
  have d1 : ∀ _i : Fin 1, IsDistribution (![1 / 2, 1 / 2] : Fin 2 → ℝ) := fun _ =>
    ⟨fun k => by fin_cases k <;> norm_num, by rw [Fin.sum_univ_two]; norm_num⟩
  have d2 : ∀ _i : Fin 1, IsDistribution (![1, 0] : Fin 2 → ℝ) := fun _ =>
    ⟨fun k => by fin_cases k <;> norm_num, by rw [Fin.sum_univ_two]; norm_num⟩
  obtain ⟨s, e1, r⟩ := C14_confidence_weighted_entropy_range le_rfl (fun _ : Fin 1 => (0 : Fin 2))
    (fun _ => ![1 / 2, 1 / 2]) d1
  obtain ⟨s', e2, -⟩ := C14_confidence_weighted_entropy_range le_rfl (fun _ : Fin 1 => (0 : Fin 2)) (fun _ => ![1, 0]) d2
  refine ⟨s, s', e1, e2, ?_⟩
  have z := (C57_zero_iff_one_hot_partial le_rfl _ _ d2 _ e2 0).mpr ⟨0, by simp⟩
  have nz := mt (C57_zero_iff_one_hot_partial le_rfl _ _ d1 _ e1 0).mp (by
    rintro ⟨k, hk⟩; fin_cases k <;> norm_num at hk)
  rw [z]
  exact lt_of_le_of_ne (r 0).1 (Ne.symm nz)

/-- The hypotheses hold for data with issues, and better predictions may remove one. -/
example : ∃ mask mask', Filter.findLabelIssues (stableSort ℚ) betterLabels (betterProbs (30 / 100))
      { filterBy := .predictedNeqGiven } = .ok mask ∧
    Filter.findLabelIssues (stableSort ℚ) betterLabels (betterProbs (60 / 100)) { filterBy := .predictedNeqGiven } = .ok mask' ∧
    mask 2 = true ∧ mask' 2 = false ∧ mask' 1 = true :=
  ⟨_, _, rfl, rfl, by decide +kernel, by decide +kernel, by decide +kernel⟩

/-- Three classes with one example each; the first example has probability `p` of its label. -/
def adjustProbs (p : ℚ) : Fin 3 → Fin 3 → ℚ := ![![p, 1 - p, 0], ![1 / 10, 9 / 10, 0], ![1 / 10, 0, 9 / 10]]

/-- **C138 fails with `adjust_pred_probs`.** Raising the probability of the given label from 0.95 to 1 lowers the adjusted
self-confidence from 19/22 to 5/6: the threshold of the class rises as well, and all other classes are shifted by it. -/
theorem C138_not_adjusted : BetterAt (fun i : Fin 3 => i) (adjustProbs (95 / 100)) (adjustProbs 1) 0 ∧
    (∃ s, scoresAdjusted .selfConfidence true (fun i : Fin 3 => i) (adjustProbs (95 / 100)) = .ok s ∧ s 0 = 19 / 22) ∧
    ∃ s, scoresAdjusted .selfConfidence true (fun i : Fin 3 => i) (adjustProbs 1) = .ok s ∧ s 0 = 5 / 6 := by
  refine ⟨⟨⟨by decide +kernel, by decide +kernel⟩, fun j hj => ?_⟩, ?_⟩
  · funext k
    revert j k
    decide +kernel
  have h1 : getConfidentThresholds (fun i : Fin 3 => i) (adjustProbs (95 / 100)) = ![95 / 100, 9 / 10, 9 / 10] := by
    funext k; revert k; decide +kernel
  have h2 : getConfidentThresholds (fun i : Fin 3 => i) (adjustProbs 1) = ![1, 9 / 10, 9 / 10] := by
    funext k; revert k; decide +kernel
  have v1 : validate true (fun i : Fin 3 => i) (adjustProbs (95 / 100)) = .ok () :=
    (validate_iff _ _ _).mpr ⟨by decide, Or.inl rfl, by unfold InRange; decide +kernel⟩
  have v2 : validate true (fun i : Fin 3 => i) (adjustProbs 1) = .ok () :=
    (validate_iff _ _ _).mpr ⟨by decide, Or.inl rfl, by unfold InRange; decide +kernel⟩
  unfold scoresAdjusted
  rw [v1, v2, h1, h2]
  exact ⟨⟨_, rfl, by decide +kernel⟩, ⟨_, rfl, by decide +kernel⟩⟩

end Cleanlab.Props
