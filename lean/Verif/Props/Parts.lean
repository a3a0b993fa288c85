import Verif.Model.RankAdjusted
import Verif.Model.RegressionRank
import Verif.Props.FilterChecked
import Verif.Props.MultilabelScore
import Verif.Props.Token
import Verif.Props.Segmentation
import Verif.Props.DetectionScore
import Verif.Props.Rank

/-!
# C136: the score of an example does not depend on the other examples

A selection of the examples is a function `e : Fin m → Fin n`.
-/

namespace Cleanlab.Props

open Np Cleanlab.Count Cleanlab.Rank Cleanlab.Filter Cleanlab.Token Cleanlab.Batched

variable {n m K : ℕ}

/-! ### Classification -/

/-- The score of one example, from its label and its probabilities only: the probability of the label, or half of one plus
the distance to the most probable other class. -/
def OwnScore (mth : Method) (y : Fin K) (p : Fin K → ℚ) (v : ℚ) : Prop :=
  match mth with
  | .selfConfidence => v = p y
  | .normalizedMargin => ∃ k, k ≠ y ∧ (∀ j, j ≠ y → p j ≤ p k) ∧ v = (p y - p k + 1) / 2

theorem maxProbNotLabel_spec (p : Fin K → ℚ) (y : Fin K) (v : ℚ) :
    maxProbNotLabel p y = some v ↔ ∃ k, k ≠ y ∧ (∀ j, j ≠ y → p j ≤ p k) ∧ v = p k := by
  unfold maxProbNotLabel
  rw [List.max?_eq_some_iff]
  constructor
  · rintro ⟨h1, h2⟩
    obtain ⟨k, hk, rfl⟩ := List.mem_map.mp h1
    refine ⟨k, by simpa using hk, fun j hj => h2 _ (List.mem_map.mpr ⟨j, by simpa using hj, rfl⟩), rfl⟩
  · rintro ⟨k, hk, h, rfl⟩
    refine ⟨List.mem_map.mpr ⟨k, by simpa using hk, rfl⟩, fun b hb => ?_⟩
    obtain ⟨j, hj, rfl⟩ := List.mem_map.mp hb
    exact h j (by simpa using hj)

theorem labelQualityScores_iff (mth : Method) (labels : Fin n → Fin K) (P : Fin n → Fin K → ℚ) (s : Fin n → ℚ) :
    Rank.labelQualityScores mth labels P = .ok s ↔ ∀ i, OwnScore mth (labels i) (P i) (s i) := by
  unfold Rank.labelQualityScores OwnScore
  cases mth with
  | selfConfidence =>
    dsimp only
    constructor
    · intro h i
      rw [← Except.ok.inj h]
      rfl
    · intro h
      congr 1
      funext i
      exact (h i).symm
  | normalizedMargin =>
    dsimp only
    have key : ∀ i v, normalizedMargin labels P i = some v ↔
        ∃ k, k ≠ labels i ∧ (∀ j, j ≠ labels i → P i j ≤ P i k) ∧ v = (P i (labels i) - P i k + 1) / 2 := by
      intro i v
      unfold normalizedMargin
      rw [Option.map_eq_some_iff]
      constructor
      · rintro ⟨a, ha, rfl⟩
        obtain ⟨k, h1, h2, rfl⟩ := (maxProbNotLabel_spec _ _ _).mp ha
        exact ⟨k, h1, h2, rfl⟩
      · rintro ⟨k, h1, h2, rfl⟩
        exact ⟨P i k, (maxProbNotLabel_spec _ _ _).mpr ⟨k, h1, h2, rfl⟩, rfl⟩
    constructor
    · intro h i
      split_ifs at h with hs
      rw [← Except.ok.inj h]
      exact (key i _).mp (Option.some_get (hs i)).symm
    · intro h
      have hs : ∀ i, (normalizedMargin labels P i).isSome := fun i => by rw [(key i _).mpr (h i)]; rfl
      rw [dif_pos hs]
      congr 1
      funext i
      have := (key i _).mpr (h i)
      simp only [this, Option.get_some]

/-- **C136.** Each score of `get_label_quality_scores` is determined by the label and the probabilities of its example. -/
theorem C136_own_score (mth : Method) (labels : Fin n → Fin K) (P : Fin n → Fin K → ℚ) (s : Fin n → ℚ) :
    scoresChecked mth labels P = .ok s ↔ 0 < n ∧ InRange P ∧ ∀ i, OwnScore mth (labels i) (P i) (s i) := by
  unfold scoresChecked
  cases hv : validate true labels P with
  | error e =>
    have : ¬ (0 < n ∧ (true = true ∨ ∃ i j, labels i ≠ labels j) ∧ InRange P) := by
      rw [← validate_iff, hv]
      exact fun h => by cases h
    constructor
    · intro h; cases h
    · rintro ⟨h1, h2, -⟩
      exact absurd ⟨h1, Or.inl rfl, h2⟩ this
  | ok u =>
    obtain ⟨h1, -, h2⟩ := (validate_iff _ _ _).mp hv
    change Rank.labelQualityScores mth labels P = .ok s ↔ _
    rw [labelQualityScores_iff]
    exact ⟨fun h => ⟨h1, h2, h⟩, fun h => h.2.2⟩

/-- **C136.** Scoring any non-empty selection of the examples gives every selected example the score that scoring all of
them gives. -/
theorem C136_scores (mth : Method) (labels : Fin n → Fin K) (P : Fin n → Fin K → ℚ) (s : Fin n → ℚ)
    (h : scoresChecked mth labels P = .ok s) (e : Fin m → Fin n) (hm : 0 < m) :
    scoresChecked mth (fun j => labels (e j)) (fun j => P (e j)) = .ok (fun j => s (e j)) := by
  rw [C136_own_score] at h ⊢
  exact ⟨hm, fun j => h.2.1 (e j), fun j => h.2.2 (e j)⟩

/-- **C136.** Scoring a data set in two parts gives the scores of the whole. -/
theorem C136_two_parts (mth : Method) {a b : ℕ} (labels : Fin (a + b) → Fin K) (P : Fin (a + b) → Fin K → ℚ)
    (s : Fin a → ℚ) (t : Fin b → ℚ)
    (hs : scoresChecked mth (fun i => labels (Fin.castAdd b i)) (fun i => P (Fin.castAdd b i)) = .ok s)
    (ht : scoresChecked mth (fun i => labels (Fin.natAdd a i)) (fun i => P (Fin.natAdd a i)) = .ok t) :
    scoresChecked mth labels P = .ok (Fin.append s t) := by
  rw [C136_own_score] at hs ht ⊢
  refine ⟨by have := hs.1; omega, fun i => ?_, fun i => ?_⟩
  · refine Fin.addCases (fun i => ?_) (fun i => ?_) i
    · exact hs.2.1 i
    · exact ht.2.1 i
  · refine Fin.addCases (fun i => ?_) (fun i => ?_) i
    · rw [Fin.append_left]; exact hs.2.2 i
    · rw [Fin.append_right]; exact ht.2.2 i

/-- Three examples. -/
def partLabels : Fin 3 → Fin 2 := ![0, 1, 1]

def partProbs : Fin 3 → Fin 2 → ℚ := ![![3 / 4, 1 / 4], ![1 / 4, 3 / 4], ![1 / 2, 1 / 2]]

example : scoresChecked .normalizedMargin partLabels partProbs = .ok ![3 / 4, 3 / 4, 1 / 2] := by
  rw [C136_own_score]
  refine ⟨by decide, by unfold InRange; decide +kernel, ?_⟩
  unfold OwnScore
  decide +kernel

/-- **C136 fails with `adjust_pred_probs`.** The thresholds are computed from the examples that are scored: the score of the
first of three examples, 2/3, is 8/9 if it is scored alone. -/
theorem C136_not_adjusted :
    (∃ s, scoresAdjusted .selfConfidence true partLabels partProbs = .ok s ∧ s 0 = 2 / 3) ∧
    ∃ s, scoresAdjusted .selfConfidence true (fun _ : Fin 1 => partLabels 0) (fun _ => partProbs 0) = .ok s ∧ s 0 = 8 / 9 := by
  have h1 : getConfidentThresholds partLabels partProbs = ![3 / 4, 5 / 8] := by
    funext k; revert k; decide +kernel
  have h2 : getConfidentThresholds (fun _ : Fin 1 => partLabels 0) (fun _ => partProbs 0) = ![3 / 4, 2] := by
    funext k; revert k; decide +kernel
  have v1 : validate true partLabels partProbs = .ok () :=
    (validate_iff _ _ _).mpr ⟨by decide, Or.inl rfl, by unfold InRange; decide +kernel⟩
  have v2 : validate true (fun _ : Fin 1 => partLabels 0) (fun _ => partProbs 0) = .ok () :=
    (validate_iff _ _ _).mpr ⟨by decide, Or.inl rfl, by unfold InRange; decide +kernel⟩
  unfold scoresAdjusted
  rw [v1, v2, h1, h2]
  exact ⟨⟨_, rfl, by decide +kernel⟩, ⟨_, rfl, by decide +kernel⟩⟩

/-! ### Entropy and ensembles -/

/-- **C136.** The scores with `confidence_weighted_entropy` (after the check of the inputs, `rank.py:112-117`). -/
theorem C136_entropy (labels : Fin n → Fin K) (P : Fin n → Fin K → ℝ) (s : Fin n → ℝ)
    (h : (do checkReal true labels P; confidenceWeightedEntropy labels P) = .ok s) (e : Fin m → Fin n) (hm : 0 < m) :
    (do checkReal true (fun j => labels (e j)) (fun j => P (e j))
        confidenceWeightedEntropy (fun j => labels (e j)) (fun j => P (e j))) = .ok (fun j => s (e j)) := by
  unfold checkReal confidenceWeightedEntropy normalizedEntropy at h ⊢
  dsimp only [bind, Except.bind, pure, Except.pure] at h ⊢
  by_cases h0 : n = 0
  · rw [if_pos h0] at h; cases h
  rw [if_neg h0] at h
  rw [if_neg (by omega), if_neg (by rintro ⟨h, -⟩; cases h)]
  rw [if_neg (by rintro ⟨h, -⟩; cases h)] at h
  by_cases h1 : ∃ i k, P i k < -(1 / 10 ^ 6) ∨ P i k > 1 + 1 / 10 ^ 6
  · rw [if_pos h1] at h; cases h
  rw [if_neg h1] at h
  rw [if_neg (by rintro ⟨i, k, hk⟩; exact h1 ⟨e i, k, hk⟩)]
  dsimp only at h ⊢
  by_cases h2 : ∃ i k, P i k < 0 ∨ P i k > 1
  · rw [if_pos h2] at h; cases h
  rw [if_neg h2] at h
  rw [if_neg (by rintro ⟨i, k, hk⟩; exact h2 ⟨e i, k, hk⟩)]
  by_cases h3 : K ≤ 1
  · rw [if_pos h3] at h; cases h
  rw [if_neg h3] at h ⊢
  rw [← Except.ok.inj h]
  rfl

/-- **C136 (partial).** The ensemble scores with equal or given weights, of a score that only looks at the example. Missing:
the selected examples must have two different labels, see `C136_not_ensemble_one_class`, and with weights computed from
the data the scores change, see `C136_not_ensemble_weights`. -/
theorem C136_ensemble_partial [NeZero K] {M : ℕ} (own : Fin K → (Fin K → ℝ) → ℝ)
    (logLoss : (Fin n → Fin K) → (Fin n → Fin K → ℝ) → ℝ) (logLoss' : (Fin m → Fin K) → (Fin m → Fin K → ℝ) → ℝ)
    (labels : Fin n → Fin K) (Ps : Fin M → Fin n → Fin K → ℝ) (wt : Weighting M)
    (hw : wt = .uniform ∨ ∃ w, wt = .custom w) (s : Fin n → ℝ)
    (h : ensembleScores logLoss (fun P i => own (labels i) (P i)) labels Ps wt = .ok s)
    (e : Fin m → Fin n) (he : ∃ a b, labels (e a) ≠ labels (e b)) :
    ensembleScores logLoss' (fun P j => own (labels (e j)) (P j)) (fun j => labels (e j)) (fun k j => Ps k (e j)) wt =
      .ok (fun j => s (e j)) := by
  unfold ensembleScores at h ⊢
  by_cases hM : M = 0
  · rw [if_pos hM] at h; cases h
  rw [if_neg hM] at h ⊢
  by_cases hv : ∃ k, checkReal false labels (Ps k) ≠ .ok ()
  · rw [if_pos hv] at h; cases h
  rw [if_neg hv] at h
  have hv' : ¬ ∃ k, checkReal false (fun j => labels (e j)) (fun j => Ps k (e j)) ≠ .ok () := by
    rintro ⟨k, hk⟩
    apply hk
    have hok : checkReal false labels (Ps k) = .ok () := by
      by_contra hc
      exact hv ⟨k, hc⟩
    unfold checkReal at hok ⊢
    obtain ⟨a, b, hab⟩ := he
    rw [if_neg (by have := a.isLt; omega), if_neg (by rintro ⟨-, h⟩; exact hab (h a b))]
    by_cases h0 : n = 0
    · rw [if_pos h0] at hok; cases hok
    rw [if_neg h0] at hok
    rw [if_neg (by rintro ⟨-, h⟩; exact hab (h _ _))] at hok
    by_cases h1 : ∃ i k', Ps k i k' < -(1 / 10 ^ 6) ∨ Ps k i k' > 1 + 1 / 10 ^ 6
    · rw [if_pos h1] at hok; cases hok
    rw [if_neg (by rintro ⟨i, k', hk'⟩; exact h1 ⟨e i, k', hk'⟩)]
  rw [if_neg hv']
  rcases hw with rfl | ⟨w, rfl⟩
  · rw [← Except.ok.inj h]
  · rw [← Except.ok.inj h]

/-- **C136 fails for ensembles and one class.** A selection with a single label is refused. -/
theorem C136_not_ensemble_one_class [NeZero K] {M : ℕ} (logLoss : (Fin m → Fin K) → (Fin m → Fin K → ℝ) → ℝ)
    (score : (Fin m → Fin K → ℝ) → Fin m → ℝ) (labels : Fin m → Fin K) (h : ∀ i j, labels i = labels j)
    (Ps : Fin M → Fin m → Fin K → ℝ) (wt : Weighting M) : ∃ msg, ensembleScores logLoss score labels Ps wt = .error msg := by
  unfold ensembleScores
  by_cases hM : M = 0
  · rw [if_pos hM]; exact ⟨_, rfl⟩
  rw [if_neg hM, if_pos]
  · exact ⟨_, rfl⟩
  · refine ⟨⟨0, by omega⟩, ?_⟩
    unfold checkReal
    by_cases h0 : m = 0
    · rw [if_pos h0]; exact fun h => by cases h
    · rw [if_neg h0, if_pos ⟨rfl, h⟩]; exact fun h => by cases h

/-- The probabilities of two models for three examples: the second model is wrong about the third example. -/
noncomputable def memberProbs : Fin 2 → Fin 3 → Fin 2 → ℝ :=
  ![![![1, 0], ![0, 1], ![0, 1]], ![![3 / 4, 1 / 4], ![0, 1], ![1, 0]]]

/-- **C136 fails for ensembles weighted by accuracy.** The first of three examples has the score 9/10; scored together with the
second only, its score is 7/8. -/
theorem C136_not_ensemble_weights (logLoss : (Fin 3 → Fin 2) → (Fin 3 → Fin 2 → ℝ) → ℝ)
    (logLoss' : (Fin 2 → Fin 2) → (Fin 2 → Fin 2 → ℝ) → ℝ) :
    (∃ s, ensembleScores logLoss (fun P i => P i (partLabels i)) partLabels memberProbs .accuracy = .ok s ∧ s 0 = 9 / 10) ∧
    ∃ s, ensembleScores logLoss' (fun P i => P i (partLabels i.castSucc)) (fun i => partLabels i.castSucc)
      (fun k i => memberProbs k i.castSucc) .accuracy = .ok s ∧ s 0 = 7 / 8 := by
  have g : ∀ p : Fin 2 → ℝ, p 1 < p 0 → argmax p = 0 := fun p h => by
    rw [argmax_eq_iff]
    refine ⟨fun i => ?_, fun i hi => absurd hi (by omega)⟩
    fin_cases i
    · exact le_refl _
    · exact h.le
  have g' : ∀ p : Fin 2 → ℝ, p 0 < p 1 → argmax p = 1 := fun p h => by
    rw [argmax_eq_iff]
    refine ⟨fun i => ?_, fun i hi => ?_⟩
    · fin_cases i
      · exact h.le
      · exact le_refl _
    · have : i = 0 := by omega
      subst this
      exact h
  have m00 : argmax (memberProbs 0 0) = 0 := g _ (by norm_num [memberProbs])
  have m01 : argmax (memberProbs 0 1) = 1 := g' _ (by norm_num [memberProbs])
  have m02 : argmax (memberProbs 0 2) = 1 := g' _ (by show (0 : ℝ) < 1; norm_num)
  have m10 : argmax (memberProbs 1 0) = 0 := g _ (by norm_num [memberProbs])
  have m11 : argmax (memberProbs 1 1) = 1 := g' _ (by norm_num [memberProbs])
  have m12 : argmax (memberProbs 1 2) = 0 := g _ (by show (0 : ℝ) < 1; norm_num)
  have a0 : accuracy partLabels (memberProbs 0) = 1 := by
    simp [accuracy, List.finRange_succ, m00, m01, m02, partLabels]
  have a1 : accuracy partLabels (memberProbs 1) = 2 / 3 := by
    simp [accuracy, List.finRange_succ, m10, m11, m12, partLabels]
  have b0 : accuracy (fun i : Fin 2 => partLabels i.castSucc) (fun i => memberProbs 0 i.castSucc) = 1 := by
    simp [accuracy, List.finRange_succ, m00, m01, partLabels]
  have b1 : accuracy (fun i : Fin 2 => partLabels i.castSucc) (fun i => memberProbs 1 i.castSucc) = 1 := by
    simp [accuracy, List.finRange_succ, m10, m11, partLabels]
  have hr : ∀ k i j, ¬ (memberProbs k i j < -(1 / 10 ^ 6) ∨ memberProbs k i j > 1 + 1 / 10 ^ 6) := by
    intro k i j
    fin_cases k <;> fin_cases i <;> fin_cases j <;> norm_num [memberProbs]
  have hc : ¬ ∃ k, checkReal false partLabels (memberProbs k) ≠ .ok () := by
    rintro ⟨k, hk⟩
    apply hk
    unfold checkReal
    rw [if_neg (by decide), if_neg (by decide), if_neg (by rintro ⟨i, j, h⟩; exact hr k i j h)]
  have hc' : ¬ ∃ k, checkReal false (fun i : Fin 2 => partLabels i.castSucc) (fun i => memberProbs k i.castSucc) ≠ .ok () := by
    rintro ⟨k, hk⟩
    apply hk
    unfold checkReal
    rw [if_neg (by decide), if_neg (by decide), if_neg (by rintro ⟨i, j, h⟩; exact hr k _ j h)]
  constructor
  · unfold ensembleScores
    rw [if_neg (by decide), if_neg hc]
    dsimp only
    simp only [Fin.sum_univ_two, a0, a1]
    rw [if_neg (by norm_num)]
    refine ⟨_, rfl, ?_⟩
    norm_num [memberProbs, partLabels]
  · unfold ensembleScores
    rw [if_neg (by decide), if_neg hc']
    dsimp only
    simp only [Fin.sum_univ_two, b0, b1]
    rw [if_neg (by norm_num)]
    refine ⟨_, rfl, ?_⟩
    norm_num [memberProbs, partLabels]

/-! ### Multi-label data -/

/-- **C136 (partial).** The scores of multi-label data. Missing: the selection must contain a label that is present and one
that is absent, see `C136_not_multilabel`. -/
theorem C136_multilabel_partial (mth : Method) (y : Fin n → Fin K → Bool) (P : Fin n → Fin K → ℚ) (s : Fin n → ℚ)
    (h : Multilabel.scorer (scoresChecked mth) y P = .ok s) (e : Fin m → Fin n)
    (h1 : ∃ j k, y (e j) k = true) (h0 : ∃ j k, y (e j) k = false) :
    Multilabel.scorer (scoresChecked mth) (fun j => y (e j)) (fun j => P (e j)) = .ok (fun j => s (e j)) := by
  unfold Multilabel.scorer at h ⊢
  by_cases hm : Multilabel.isMultilabel y = true
  swap
  · rw [if_neg hm] at h; cases h
  rw [if_pos hm] at h
  have hK : 1 < K := by
    unfold Multilabel.isMultilabel at hm
    exact (of_decide_eq_true hm).1
  rw [if_pos (by unfold Multilabel.isMultilabel; exact decide_eq_true ⟨hK, h1, h0⟩)]
  cases hc : Multilabel.classScores (scoresChecked mth) y P with
  | error _ => rw [hc] at h; cases h
  | ok c =>
    rw [hc] at h
    have hc' : Multilabel.classScores (scoresChecked mth) (fun j => y (e j)) (fun j => P (e j)) =
        .ok (fun k j => c k (e j)) := by
      unfold Multilabel.classScores at hc ⊢
      rw [collect_ok_iff] at hc ⊢
      intro k
      exact C136_scores mth _ _ _ (hc k) e (by obtain ⟨j, -⟩ := h1; have := j.isLt; omega)
    rw [hc']
    dsimp only [bind, Except.bind] at h ⊢
    rw [collect_ok_iff] at h ⊢
    exact fun j => h (e j)

example : Multilabel.scorer (scoresChecked .selfConfidence) ![![true, false], ![true, true]]
    ![![(3 / 4 : ℚ), 1 / 4], ![1 / 2, 1 / 2]] = .ok ![3 / 4, 1 / 2] := by
  have hc : Multilabel.classScores (scoresChecked .selfConfidence) ![![true, false], ![true, true]]
      ![![(3 / 4 : ℚ), 1 / 4], ![1 / 2, 1 / 2]] = .ok ![![3 / 4, 1 / 2], ![3 / 4, 1 / 2]] := by
    unfold Multilabel.classScores
    rw [collect_ok_iff]
    intro k
    rw [C136_own_score]
    refine ⟨by decide, ?_, ?_⟩
    · unfold InRange; revert k; decide +kernel
    · unfold OwnScore; revert k; decide +kernel
  unfold Multilabel.scorer
  rw [if_pos (by decide), hc]
  dsimp only [bind, Except.bind]
  rw [collect_ok_iff]
  decide +kernel

/-- **C136 fails for multi-label data.** Of two examples with scores the second alone, which has all labels, is refused. -/
theorem C136_not_multilabel :
    (∃ s, Multilabel.scorer (scoresChecked .selfConfidence) ![![true, false], ![true, true]]
      ![![(3 / 4 : ℚ), 1 / 4], ![1 / 2, 1 / 2]] = .ok s) ∧
    ∃ msg, Multilabel.scorer (scoresChecked .selfConfidence) (fun _ : Fin 1 => ![true, true])
      (fun _ => ![(1 / 2 : ℚ), 1 / 2]) = .error msg := by
  refine ⟨?_, "Labels must be in multi-label format.", ?_⟩
  · refine ⟨![3 / 4, 1 / 2], ?_⟩
    have hc : Multilabel.classScores (scoresChecked .selfConfidence) ![![true, false], ![true, true]]
        ![![(3 / 4 : ℚ), 1 / 4], ![1 / 2, 1 / 2]] = .ok ![![3 / 4, 1 / 2], ![3 / 4, 1 / 2]] := by
      unfold Multilabel.classScores
      rw [collect_ok_iff]
      intro k
      rw [C136_own_score]
      refine ⟨by decide, ?_, ?_⟩
      · unfold InRange; revert k; decide +kernel
      · unfold OwnScore; revert k; decide +kernel
    unfold Multilabel.scorer
    rw [if_pos (by decide), hc]
    dsimp only [bind, Except.bind]
    rw [collect_ok_iff]
    decide +kernel
  · unfold Multilabel.scorer
    rw [if_neg (by decide)]

/-! ### Tokens -/

theorem nested_unique {α : Type} (a b : List (List α)) (h : a.flatten = b.flatten) (hl : a.map List.length = b.map List.length) :
    a = b := by
  induction a generalizing b with
  | nil => simpa [eq_comm] using hl
  | cons x a ih =>
    cases b with
    | nil => simp at hl
    | cons y b =>
      rw [List.map_cons, List.map_cons, List.cons.injEq] at hl
      rw [List.flatten_cons, List.flatten_cons] at h
      obtain ⟨h1, h2⟩ := List.append_inj h hl.1
      rw [h1, ih b h2 hl.2]

theorem tokenScores_iff (mth : Method) (labels : List (List (Fin K))) (probs : List (List (Fin K → ℚ)))
    (hshape : labels.map List.length = probs.map List.length) (t : List (List ℚ)) :
    tokenScores (methodScorer mth) labels probs = .ok t ↔
      labels.flatten ≠ [] ∧ (∀ x ∈ labels.flatten.zip probs.flatten, ∀ k, -(1 / 10 ^ 6) ≤ x.2 k ∧ x.2 k ≤ 1 + 1 / 10 ^ 6) ∧
      t.map List.length = labels.map List.length ∧
      List.Forall₂ (fun x v => OwnScore mth x.1 x.2 v) (labels.flatten.zip probs.flatten) t.flatten := by
  obtain ⟨hd, hlen⟩ := flattenData_eq labels probs hshape
  unfold tokenScores
  rw [hd]
  dsimp only [bind, Except.bind]
  set data := labels.flatten.zip probs.flatten with hdata
  have hpos : 0 < data.length ↔ labels.flatten ≠ [] := by
    rw [hlen]; exact List.length_pos_iff_ne_nil
  have hrange : InRange (probsOf data) ↔ ∀ x ∈ data, ∀ k, -(1 / 10 ^ 6) ≤ x.2 k ∧ x.2 k ≤ 1 + 1 / 10 ^ 6 := by
    constructor
    · intro h x hx k
      obtain ⟨i, rfl⟩ := List.get_of_mem hx
      exact h i k
    · intro h i k
      exact h _ (List.get_mem _ _) k
  constructor
  · intro h
    cases hs : methodScorer mth data.length (labelsOf data) (probsOf data) with
    | error _ => rw [hs] at h; cases h
    | ok s =>
      rw [hs] at h
      obtain ⟨h1, h2, h3⟩ := (C136_own_score _ _ _ _).mp hs
      obtain ⟨t', e1, e2, e3⟩ := nestedList_spec labels (List.ofFn s) (by rw [List.length_ofFn, hlen])
      have ht : t' = t := Except.ok.inj (e1.symm.trans h)
      subst ht
      refine ⟨hpos.mp h1, hrange.mp h2, e3, ?_⟩
      rw [e2, List.forall₂_iff_get]
      refine ⟨by simp, fun i hi hi' => ?_⟩
      have := h3 ⟨i, hi⟩
      rw [List.get_ofFn]
      exact this
  · rintro ⟨h1, h2, h3, h4⟩
    rw [List.forall₂_iff_get] at h4
    have hs : methodScorer mth data.length (labelsOf data) (probsOf data) =
        .ok (fun i => t.flatten.get (Fin.cast h4.1 i)) := by
      unfold methodScorer
      rw [C136_own_score]
      exact ⟨hpos.mpr h1, hrange.mpr h2, fun i => h4.2 i i.isLt (by rw [← h4.1]; exact i.isLt)⟩
    rw [hs]
    have ho : List.ofFn (fun i => t.flatten.get (Fin.cast h4.1 i)) = t.flatten := by
      apply List.ext_get
      · simp [h4.1]
      · intro i hi hi'
        simp
    obtain ⟨t', e1, e2, e3⟩ := nestedList_spec labels t.flatten (by rw [← h4.1, hlen])
    dsimp only
    rw [ho, e1, nested_unique t' t e2 (e3.trans h3.symm)]

/-- **C136.** Token scores: scoring two lists of sentences gives the scores of all sentences together. -/
theorem C136_tokens (mth : Method) (labels labels' : List (List (Fin K))) (probs probs' : List (List (Fin K → ℚ)))
    (hshape : labels.map List.length = probs.map List.length) (hshape' : labels'.map List.length = probs'.map List.length)
    (t t' : List (List ℚ)) (h : tokenScores (methodScorer mth) labels probs = .ok t)
    (h' : tokenScores (methodScorer mth) labels' probs' = .ok t') :
    tokenScores (methodScorer mth) (labels ++ labels') (probs ++ probs') = .ok (t ++ t') := by
  have hz : (labels ++ labels').flatten.zip (probs ++ probs').flatten =
      labels.flatten.zip probs.flatten ++ labels'.flatten.zip probs'.flatten := by
    rw [List.flatten_append, List.flatten_append, List.zip_append]
    rw [List.length_flatten, List.length_flatten, hshape]
  rw [tokenScores_iff _ _ _ hshape] at h
  rw [tokenScores_iff _ _ _ hshape'] at h'
  rw [tokenScores_iff _ _ _ (by rw [List.map_append, List.map_append, hshape, hshape']), hz]
  obtain ⟨a1, a2, a3, a4⟩ := h
  obtain ⟨b1, b2, b3, b4⟩ := h'
  refine ⟨?_, ?_, ?_, ?_⟩
  · rw [List.flatten_append]
    exact fun hc => a1 (List.append_eq_nil_iff.mp hc).1
  · intro x hx
    rcases List.mem_append.mp hx with hx | hx
    · exact a2 x hx
    · exact b2 x hx
  · rw [List.map_append, List.map_append, a3, b3]
  · rw [List.flatten_append]
    exact List.rel_append a4 b4

/-- **C136.** Sentence scores: those of two lists of sentences are the scores of all sentences together. -/
theorem C136_sentences (t t' : List (List ℝ)) (v v' : List ℝ) (T : Temperature) :
    (sentenceScoresMin t = .ok v → sentenceScoresMin t' = .ok v' → sentenceScoresMin (t ++ t') = .ok (v ++ v')) ∧
    (sentenceScoresSoftmin t T = .ok v → sentenceScoresSoftmin t' T = .ok v' →
      sentenceScoresSoftmin (t ++ t') T = .ok (v ++ v')) := by
  constructor
  · intro h h'
    unfold sentenceScoresMin at h h' ⊢
    rw [List.mapM_append, h, h']
    rfl
  · intro h h'
    unfold sentenceScoresSoftmin at h h' ⊢
    rw [List.mapM_append, h, h']
    rfl

/-! ### Segmentation -/

/-- **C136.** Segmentation with `softmin`: pixel and image scores of a selection of the images. -/
theorem C136_segmentation {N M h w : ℕ} (labels : Segmentation.Stack N h w (Fin K)) (P : Segmentation.Stack N h w (Fin K → ℝ))
    (T : ℝ) (e : Fin M → Fin N) (j : Fin M) :
    (∀ a b, Segmentation.pixelScores (fun j => labels (e j)) (fun j => P (e j)) j a b =
      P (e j) a b (labels (e j) a b)) ∧
    Segmentation.imageScoreSoftmin (Segmentation.pixelScores (fun j => labels (e j)) (fun j => P (e j))) T j =
      Segmentation.imageScoreSoftmin (Segmentation.pixelScores labels P) T (e j) := ⟨fun _ _ => rfl, rfl⟩

/-! ### Regression -/

/-- **C136.** Residual scores: those of two lists of examples are the scores of all examples together. -/
theorem C136_residual (y y' p p' : List ℝ) (h : y.length = p.length) :
    Regression.residualScores (y ++ y') (p ++ p') = Regression.residualScores y p ++ Regression.residualScores y' p' := by
  unfold Regression.residualScores
  rw [List.zipWith_append h]

/-- **C136 fails for regression.** A single example is refused. -/
theorem C136_not_residual (outre : List ℝ → List ℝ → List ℝ) (y p : ℝ) :
    ∃ msg, Regression.getLabelQualityScores outre [some y] [some p] "residual" = .error msg := ⟨_, rfl⟩

/-! ### Object detection -/

section Detection

open Cleanlab.Detection

open Classical in
/-- An image without the predictions of negative probability. -/
noncomputable def keepNonneg (im : Image ℝ K) : Image ℝ K :=
  { im with preds := fun k => (im.preds k).filter (fun p => p.prob ≥ 0) }

theorem detection_scores (w : Option Weights) (check : Bool) (images : List (Image ℝ K)) (s : List ℝ)
    (h : Detection.labelQualityScores w check images = .ok s) :
    ∃ w', aggregationWeights w = .ok w' ∧
      s = images.map (fun im => imageScore w' check (minSimilarity (images.map keepNonneg)) (keepNonneg im)) := by
  unfold Detection.labelQualityScores at h
  cases h1 : Detection.checkInputs images with
  | error _ => rw [h1] at h; cases h
  | ok _ =>
  cases h3 : aggregationWeights w with
  | error _ => rw [h1, h3] at h; cases h
  | ok w' =>
  rw [h1, h3] at h
  refine ⟨w', rfl, ?_⟩
  rw [← Except.ok.inj h, List.map_map]
  rfl

/-- **C136 (partial).** Object detection: an image has the same score in two data sets with the same minimum similarity. Missing:
other data sets, see `C136_not_detection`. -/
theorem C136_detection_partial (w : Option Weights) (check : Bool) (images images' : List (Image ℝ K))
    (hmin : minSimilarity (images.map keepNonneg) = minSimilarity (images'.map keepNonneg))
    (s s' : List ℝ) (h : Detection.labelQualityScores w check images = .ok s)
    (h' : Detection.labelQualityScores w check images' = .ok s') (i j : ℕ) (im : Image ℝ K) (hi : images[i]? = some im)
    (hj : images'[j]? = some im) : s[i]? = s'[j]? := by
  obtain ⟨w1, e1, rfl⟩ := detection_scores w check images s h
  obtain ⟨w2, e2, rfl⟩ := detection_scores w check images' s' h'
  have : w1 = w2 := Except.ok.inj (e1.symm.trans e2)
  subst this
  rw [List.getElem?_map, List.getElem?_map, hi, hj, hmin]

/-- An image with a sure prediction and no annotated box. -/
noncomputable def emptyImage : Image ℝ 1 := { labels := [], preds := fun _ => [⟨⟨0, 0, 1, 1⟩, 19 / 20⟩] }

/-- An image whose annotated box is far from the predicted one. -/
noncomputable def farImage : Image ℝ 1 := { labels := [(⟨2, 2, 3, 3⟩, 0)], preds := fun _ => [⟨⟨0, 0, 1, 1⟩, 19 / 20⟩] }

/-- **C136 fails for object detection.** The score of the image with an overlooked box is proportional to the minimum similarity
in the whole data set: it changes if another image is added. -/
theorem C136_not_detection :
    ∃ (w : Weights) (s t : List ℝ), Detection.labelQualityScores (some w) true [emptyImage] = .ok s ∧
      Detection.labelQualityScores (some w) true [emptyImage, farImage] = .ok t ∧ t[0]? ≠ s[0]? := by
  have hk : keepNonneg emptyImage = emptyImage := by
    unfold keepNonneg emptyImage
    congr 1
    funext k
    rw [List.filter_eq_self]
    intro p hp
    rw [List.mem_singleton] at hp
    subst hp
    simp only [decide_eq_true_eq]
    norm_num
  have hkf : keepNonneg farImage = farImage := by
    unfold keepNonneg farImage
    congr 1
    funext k
    rw [List.filter_eq_self]
    intro p hp
    rw [List.mem_singleton] at hp
    subst hp
    simp only [decide_eq_true_eq]
    norm_num
  have hw : aggregationWeights (some ⟨1, 0, 0⟩) = .ok ⟨1, 0, 0⟩ := by
    unfold aggregationWeights
    dsimp only
    rw [if_neg (by norm_num)]
  have hscore : ∀ m : ℝ, 0 < m → imageScore ⟨1, 0, 0⟩ true m emptyImage = m / 20 := by
    intro m hm
    have ho : overlookedScores m emptyImage = [some (m / 20)] := by
      have : ¬ ((19 : ℝ) / 20 < 95 / 100) := by norm_num
      simp [overlookedScores, emptyImage, allPreds, List.finRange_succ, maxOr, this]
      ring
    have hv : validScore temperature [some (m / 20)] = m / 20 := by
      have hb := softmin1d_between temperature [m / 20] (by simp) (m / 20) (m / 20) (by simp)
      unfold validScore
      rw [dif_pos (by simp)]
      exact le_antisymm hb.2 hb.1
    unfold imageScore
    dsimp only
    rw [ho, hv]
    unfold addTiny
    rw [if_neg (by positivity)]
    rw [one_mul, zero_mul, zero_mul, add_zero, add_zero, Real.exp_log (by positivity)]
  refine ⟨⟨1, 0, 0⟩, _, _, by unfold Detection.labelQualityScores; rw [hw]; rfl,
    by unfold Detection.labelQualityScores; rw [hw]; rfl, ?_⟩
  change some (imageScore _ true (minSimilarity [keepNonneg emptyImage, keepNonneg farImage]) (keepNonneg emptyImage)) ≠
    some (imageScore _ true (minSimilarity [keepNonneg emptyImage]) (keepNonneg emptyImage))
  rw [hk, hkf, hscore _ (minSimilarity_range _).1, hscore _ (minSimilarity_range _).1]
  have h1 : minSimilarity [emptyImage] = 1 := by
    simp [minSimilarity, similarities, emptyImage, minOr]
  have h2 : minSimilarity [emptyImage, farImage] ≤ 1 / 10 := by
    have hs : similarity ⟨2, 2, 3, 3⟩ ⟨0, 0, 1, 1⟩ ≤ 1 / 10 := by
      have hi : iou (⟨2, 2, 3, 3⟩ : Box ℝ) ⟨0, 0, 1, 1⟩ = 0 := by simp [iou]
      have := (closeness_range ⟨2, 2, 3, 3⟩ ⟨0, 0, 1, 1⟩).2
      unfold similarity
      rw [hi]
      linarith
    have hne : similarity ⟨2, 2, 3, 3⟩ ⟨0, 0, 1, 1⟩ ≠ 0 := (similarity_range _ _).1.ne'
    unfold minSimilarity
    rw [List.foldl_cons, List.foldl_cons, List.foldl_nil]
    refine (min_le_right _ _).trans ?_
    have : (similarities farImage).filter (fun s => s ≠ 0) = [similarity ⟨2, 2, 3, 3⟩ ⟨0, 0, 1, 1⟩] := by
      simp [similarities, farImage, allPreds, List.finRange_succ, hne]
    rw [this]
    exact hs
  rw [h1]
  intro h
  have := Option.some.inj h
  linarith

end Detection

end Cleanlab.Props
