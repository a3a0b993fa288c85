import Verif.Props.TwoClassesAgree
import Verif.Model.Multilabel

/-!
# C238: the ways to score and to prune agree for multi-label data
-/

namespace Cleanlab.Props

open Np Cleanlab.Util Cleanlab.Count Cleanlab.Rank Cleanlab.Filter Cleanlab.Multilabel Cleanlab.Spec

variable {n K : ℕ}

theorem complement_sum {F : Type} [Field F] [LinearOrder F] [IsStrictOrderedRing F] (P : Fin n → Fin K → F) (k : Fin K)
    (i : Fin n) : ∑ c, stackComplement P k i c = 1 := by
  rw [Fin.sum_univ_two]
  show 1 - P i k + P i k = 1
  ring

/-- The filters that prune by counts. -/
def ByCounts (f : FilterBy) : Prop := f = .pruneByClass ∨ f = .pruneByNoiseRate ∨ f = .both

theorem binary_agree {A : ArgSort ℚ} (hA : OrderBased A) (labels : Fin n → Fin 2) (P : Fin n → Fin 2 → ℚ)
    (hP : ∀ i, ∑ k, P i k = 1) (f : FilterBy) (hf : ByCounts f) :
    findChecked A labels P { filterBy := f } = findChecked A labels P { filterBy := .pruneByNoiseRate } := by
  have h := C235_prune hA labels P hP
  unfold findChecked
  rcases hf with rfl | rfl | rfl
  · rw [h.1]; rfl
  · rfl
  · rw [h.2]; rfl

/-- **C238, per class.** With the default settings `prune_by_class`, `prune_by_noise_rate` and `both` flag the same examples in
every class. -/
theorem C238_per_class {A : ArgSort ℚ} (hA : OrderBased A) (y : Fin n → Fin K → Bool) (P : Fin n → Fin K → ℚ) (f : FilterBy)
    (hf : ByCounts f) : issuesPerClass A y P { filterBy := f } = issuesPerClass A y P { filterBy := .pruneByNoiseRate } := by
  unfold issuesPerClass
  congr 1
  funext k
  exact binary_agree hA _ _ (complement_sum P k) f hf

/-- **C238, masks.** The same examples are flagged. -/
theorem C238_mask {A A' : ArgSort ℚ} (hA : OrderBased A) (y : Fin n → Fin K → Bool) (P : Fin n → Fin K → ℚ) (f : FilterBy)
    (hf : ByCounts f) :
    multilabelIssues A A' y P { filterBy := f } = multilabelIssues A A' y P { filterBy := .pruneByNoiseRate } := by
  have hlow : isLow ({ filterBy := f } : MLArgs K) = false := by rcases hf with rfl | rfl | rfl <;> rfl
  unfold multilabelIssues
  rw [hlow]
  show unionMask A y P _ = unionMask A y P _
  unfold unionMask
  rw [C238_per_class hA y P f hf]

/-- **C238, ranked.** The same examples are listed in the same order, whatever scores they are ranked by. -/
theorem C238_ranked {A A' : ArgSort ℚ} (hA : OrderBased A)
    (base : (m : ℕ) → (Fin m → Fin 2) → (Fin m → Fin 2 → ℚ) → Except String (Fin m → ℚ))
    (y : Fin n → Fin K → Bool) (P : Fin n → Fin K → ℚ) (f : FilterBy) (hf : ByCounts f) :
    multilabelIssuesRanked A A' base y P { filterBy := f } =
      multilabelIssuesRanked A A' base y P { filterBy := .pruneByNoiseRate } := by
  have hlow : isLow ({ filterBy := f } : MLArgs K) = false := by rcases hf with rfl | rfl | rfl <;> rfl
  have hper : issuesPerClassRanked A A' (base n) y P { filterBy := f } =
      issuesPerClassRanked A A' (base n) y P { filterBy := .pruneByNoiseRate } := by
    unfold issuesPerClassRanked
    congr 1
    funext k
    congr 1
    funext s
    unfold findRankedChecked
    have := binary_agree hA (binaryLabels y k) _ (complement_sum P k) f hf
    show (findChecked A (binaryLabels y k) (stackComplement P k) { filterBy := f } >>= _) =
      (findChecked A (binaryLabels y k) (stackComplement P k) { filterBy := .pruneByNoiseRate } >>= _)
    rw [this]
  unfold multilabelIssuesRanked
  rw [hlow]
  show unionRanked A A' base y P _ = unionRanked A A' base y P _
  unfold unionRanked
  rw [hper]

/-- **C238, scores.** `normalized_margin` and `self_confidence` give the same scores, per class and per example. -/
theorem C238_scores {F : Type} [Field F] [LinearOrder F] [IsStrictOrderedRing F] (y : Fin n → Fin K → Bool)
    (P : Fin n → Fin K → F) :
    classScores (labelQualityScores .normalizedMargin) y P = classScores (labelQualityScores .selfConfidence) y P ∧
      scorer (labelQualityScores .normalizedMargin) y P = scorer (labelQualityScores .selfConfidence) y P := by
  have h : classScores (labelQualityScores .normalizedMargin) y P = classScores (labelQualityScores .selfConfidence) y P := by
    unfold classScores
    congr 1
    funext k
    exact C235_scores _ _ (complement_sum P k)
  refine ⟨h, ?_⟩
  unfold scorer
  rw [h]

/-- **C238, filters by scores.** In every class, and for whole examples, `low_normalized_margin` and `low_self_confidence` flag the
same examples. -/
theorem C238_low_scores (A A' : ArgSort ℚ) (y : Fin n → Fin K → Bool) (P : Fin n → Fin K → ℚ) (args : MLArgs K) :
    issuesPerClass A y P { args with filterBy := .lowNormalizedMargin } =
        issuesPerClass A y P { args with filterBy := .lowSelfConfidence } ∧
      multilabelIssues A A' y P { args with filterBy := .lowNormalizedMargin } =
        multilabelIssues A A' y P { args with filterBy := .lowSelfConfidence } := by
  constructor
  · unfold issuesPerClass
    congr 1
    funext k
    have h := C235_low_scores A (binaryLabels y k) (stackComplement P k) (complement_sum P k)
      (({ args with filterBy := .lowSelfConfidence } : MLArgs K).binary k)
    unfold findChecked
    rw [show findLabelIssues A (binaryLabels y k) (stackComplement P k)
      (({ args with filterBy := .lowNormalizedMargin } : MLArgs K).binary k) = findLabelIssues A (binaryLabels y k)
        (stackComplement P k) (({ args with filterBy := .lowSelfConfidence } : MLArgs K).binary k) from h]
    rfl
  · rfl

/-- The conditions are met by the stable sort and the filter `both`. -/
example : OrderBased (stableSort ℚ) ∧ ByCounts .both := ⟨orderBased_stableSort ℚ, Or.inr (Or.inr rfl)⟩

end Cleanlab.Props
