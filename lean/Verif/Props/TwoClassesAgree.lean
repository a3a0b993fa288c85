import Verif.Props.SurerLabel
import Verif.Props.CleanTwice
import Verif.Props.TargetUnits

/-!
# C235, C236: with two classes the ways to score and to prune agree
-/

namespace Cleanlab.Props

open Np Cleanlab.Util Cleanlab.Count Cleanlab.Rank Cleanlab.Filter Cleanlab.Spec

variable {n : ℕ}

theorem margin_two {F : Type} [Field F] [LinearOrder F] [IsStrictOrderedRing F] (p : Fin 2 → F) (hp : ∑ k, p k = 1)
    (k : Fin 2) : maxProbNotLabel p k = some (1 - p k) := by
  have h := hp
  rw [Fin.sum_univ_two] at h
  have hk : k = 0 ∨ k = 1 := by omega
  rcases hk with rfl | rfl
  · have : (List.finRange 2).filter (fun j => j ≠ 0) = [1] := by decide
    unfold maxProbNotLabel
    rw [this]
    show some (p 1) = _
    rw [← h, add_sub_cancel_left]
  · have : (List.finRange 2).filter (fun j => j ≠ 1) = [0] := by decide
    unfold maxProbNotLabel
    rw [this]
    show some (p 0) = _
    rw [← h, add_sub_cancel_right]

/-- **C235, scores.** With two classes `normalized_margin` gives every example the score that `self_confidence` gives
it. -/
theorem C235_scores {F : Type} [Field F] [LinearOrder F] [IsStrictOrderedRing F] (labels : Fin n → Fin 2)
    (P : Fin n → Fin 2 → F) (hP : ∀ i, ∑ k, P i k = 1) :
    labelQualityScores .normalizedMargin labels P = labelQualityScores .selfConfidence labels P := by
  have h : ∀ i, normalizedMargin labels P i = some (P i (labels i)) := by
    intro i
    unfold normalizedMargin
    rw [margin_two (P i) (hP i)]
    show some ((P i (labels i) - (1 - P i (labels i)) + 1) / 2) = _
    congr 1
    ring
  have hall : ∀ i, (normalizedMargin labels P i).isSome := fun i => by rw [h i]; rfl
  show (if h : ∀ i, (normalizedMargin labels P i).isSome then _ else _) = _
  rw [dif_pos hall]
  show Except.ok _ = Except.ok _
  congr 1
  funext i
  exact Option.get_of_eq_some _ (h i)

/-- **C235, filters by scores.** With two classes `low_normalized_margin` and `low_self_confidence` flag the same
examples. -/
theorem C235_low_scores (A : ArgSort ℚ) (labels : Fin n → Fin 2) (P : Fin n → Fin 2 → ℚ)
    (hP : ∀ i, ∑ k, P i k = 1) (args : Args 2) :
    findLabelIssues A labels P { args with filterBy := .lowNormalizedMargin } =
      findLabelIssues A labels P { args with filterBy := .lowSelfConfidence } := by
  have h : lowScoreIndices A labels P .normalizedMargin = lowScoreIndices A labels P .selfConfidence := by
    unfold lowScoreIndices
    rw [C235_scores labels P hP]
  have hraw : rawMask A labels P { args with filterBy := .lowNormalizedMargin } =
      rawMask A labels P { args with filterBy := .lowSelfConfidence } := by
    unfold rawMask
    dsimp only
    rw [h]
  unfold findLabelIssues
  rw [hraw]
  dsimp only
  refine if_congr (and_congr Iff.rfl (by decide)) rfl ?_
  congr 1

/-- The two pruning masks are the same. -/
theorem prune_agree {A : ArgSort ℚ} (hA : OrderBased A) (labels : Fin n → Fin 2) (P : Fin n → Fin 2 → ℚ)
    (hP : ∀ i, ∑ k, P i k = 1) (args : Args 2) (hj : args.confidentJoint = none) :
    maskByClass A labels P 1 (keepAtLeastN A (fun j k => Filter.usedJoint A labels P args k j) 1 1) =
      maskByCount A labels P 1 (keepAtLeastN A (fun j k => Filter.usedJoint A labels P args k j) 1 1) := by
  funext i
  obtain ⟨r, hr⟩ := exists_get labels i
  rw [Bool.eq_iff_iff, ← hr, maskByClass_get, maskByCount_get]
  generalize labels i = k at r hr
  have hord : ∀ j, k ≠ j → A.indices (fun r => -(classProbs labels P k r j - classProbs labels P k r k)) =
      A.indices (fun r => classProbs labels P k r k) := by
    intro j hjk
    apply hA
    intro a b
    have e : ∀ r, -(classProbs labels P k r j - classProbs labels P k r k) = 2 * classProbs labels P k r k - 1 := by
      intro r
      have := hP ((classIdx labels k).get r)
      rw [sum_two hjk.symm] at this
      unfold classProbs
      linarith
    rw [e, e]
    constructor <;> intro h <;> linarith
  constructor
  · rintro ⟨h1, -, hm⟩
    obtain ⟨j, hjk⟩ : ∃ j, j ≠ k := ⟨1 - k, (by decide : ∀ k : Fin 2, 1 - k ≠ k) k⟩
    obtain ⟨q, h2, h3, -, -⟩ := removal_two (labels := labels) (P := P) A hjk h1 args hj
    rw [h3, Int.toNat_natCast] at hm
    refine ⟨h1, h1, j, hjk.symm, ?_, ?_⟩
    · rw [h2]
      have : q ≠ 0 := by rintro rfl; simp at hm
      omega
    · rw [h2, Int.toNat_natCast, hord j hjk.symm]
      exact hm
  · rintro ⟨h1, -, j, hjk, -, hm⟩
    obtain ⟨q, h2, h3, -, -⟩ := removal_two (labels := labels) (P := P) A hjk.symm h1 args hj
    rw [h2, Int.toNat_natCast, hord j hjk] at hm
    exact ⟨h1, h1, by rw [h3, Int.toNat_natCast]; exact hm⟩

/-- **C235, pruning.** With two classes and the default settings `prune_by_class`, `prune_by_noise_rate` and `both` flag the
same examples, if the sorting algorithm looks at comparisons only. -/
theorem C235_prune {A : ArgSort ℚ} (hA : OrderBased A) (labels : Fin n → Fin 2) (P : Fin n → Fin 2 → ℚ)
    (hP : ∀ i, ∑ k, P i k = 1) :
    findLabelIssues A labels P { filterBy := .pruneByClass } = findLabelIssues A labels P { filterBy := .pruneByNoiseRate } ∧
      findLabelIssues A labels P { filterBy := .both } = findLabelIssues A labels P { filterBy := .pruneByNoiseRate } := by
  have e1 := prune_agree hA labels P hP { filterBy := .pruneByClass } rfl
  have e2 := prune_agree hA labels P hP { filterBy := .both } rfl
  have hr1 : rawMask A labels P { filterBy := .pruneByClass } = rawMask A labels P { filterBy := .pruneByNoiseRate } := by
    show Except.ok (maskByClass A labels P 1 _) = Except.ok (maskByCount A labels P 1 _)
    exact congrArg Except.ok e1
  have hr2 : rawMask A labels P { filterBy := .both } = rawMask A labels P { filterBy := .pruneByNoiseRate } := by
    show Except.ok (fun i => maskByCount A labels P 1 _ i && maskByClass A labels P 1 _ i) =
      Except.ok (maskByCount A labels P 1 _)
    congr 1
    funext i
    have := congrFun e2 i
    dsimp only at this ⊢
    rw [this, Bool.and_self]
    rfl
  constructor
  · unfold findLabelIssues
    rw [hr1]
    rfl
  · unfold findLabelIssues
    rw [hr2]
    rfl

/-- The entropy terms of a row of two classes, by the probability of one class. -/
theorem entropy_two {p : Fin 2 → ℝ} (hp : IsDistribution p) (l : Fin 2) :
    -∑ k, p k * Real.log (p k) = Real.negMulLog (p l) + Real.negMulLog (1 - p l) := by
  have h := hp.2
  rw [Fin.sum_univ_two] at h ⊢
  unfold Real.negMulLog
  have hl : l = 0 ∨ l = 1 := by omega
  rcases hl with rfl | rfl
  · rw [show 1 - p 0 = p 1 by linarith]; ring
  · rw [show 1 - p 1 = p 0 by linarith]; ring

theorem entropy_ratio_two {x y : ℝ} (hx : 0 < x) (hxy : x ≤ y) (hy : y ≤ 1) :
    x * (Real.negMulLog y + Real.negMulLog (1 - y)) ≤ y * (Real.negMulLog x + Real.negMulLog (1 - x)) := by
  have hd : ∀ z : ℝ, 0 ≤ z → z ≤ 1 → IsDistribution (fun k : Fin 2 => if k = 0 then z else 1 - z) := by
    intro z h0 h1
    refine ⟨fun k => ?_, ?_⟩
    · dsimp only
      split_ifs <;> linarith
    · rw [Fin.sum_univ_two]; simp
  have := entropy_ratio (a := (0 : Fin 2)) (hd x hx.le (hxy.trans hy)) (hd y (hx.le.trans hxy) hy)
    ⟨by simpa using hxy, fun k hk => by
        have : k = 1 := by omega
        subst this
        rw [if_neg (by decide), if_neg (by decide)]
        linarith, by rw [Fin.sum_univ_two, Fin.sum_univ_two]; simp⟩ (by simpa using hx)
  simpa [Fin.sum_univ_two] using this

/-- **C236, partially.** With two classes, an example whose given label is predicted with a higher probability than that of
another one does not get a lower score by `confidence_weighted_entropy`, if the lower of the two probabilities is at
least a millionth and the entropy of the better prediction at least a millionth of its probability. -/
theorem C236_order_partial (labels : Fin n → Fin 2) (P : Fin n → Fin 2 → ℝ) (hP : ∀ i, IsDistribution (P i))
    (s : Fin n → ℝ) (hs : confidenceWeightedEntropy labels P = .ok s) (i j : Fin n)
    (hi : 1 / 1000000 ≤ P i (labels i)) (hij : P i (labels i) ≤ P j (labels j))
    (hent : P j (labels j) / 1000000 ≤ (-∑ k, P j k * Real.log (P j k)) / Real.log 2) : s i ≤ s j := by
  rw [C57_formula le_rfl labels P hP] at hs
  rw [← Except.ok.inj hs]
  have hj : 1 / 1000000 ≤ P j (labels j) := hi.trans hij
  have hp0 : 0 < P i (labels i) := lt_of_lt_of_le (by norm_num) hi
  have hq0 : 0 < P j (labels j) := lt_of_lt_of_le (by norm_num) hj
  have hlog : 0 < Real.log (2 : ℕ) := Real.log_pos (by norm_num)
  have hr := entropy_ratio_two hp0 hij (isDistribution_le_one (hP j) _)
  rw [← entropy_two (hP j), ← entropy_two (hP i)] at hr
  dsimp only
  rw [max_eq_left hi, max_eq_left hj]
  have hxy : (-∑ k, P j k * Real.log (P j k)) / Real.log (2 : ℕ) / P j (labels j) ≤
      (-∑ k, P i k * Real.log (P i k)) / Real.log (2 : ℕ) / P i (labels i) := by
    rw [div_le_div_iff₀ hq0 hp0, div_mul_eq_mul_div, div_mul_eq_mul_div]
    exact div_le_div_of_nonneg_right (by linarith) hlog.le
  have hy : 1 / 1000000 ≤ (-∑ k, P j k * Real.log (P j k)) / Real.log (2 : ℕ) / P j (labels j) := by
    rw [le_div_iff₀ hq0]
    push_cast
    linarith
  rw [max_eq_left hy, max_eq_left (hy.trans hxy)]
  exact log_ratio_antitone (lt_of_lt_of_le (by norm_num) hy) hxy

/-- **C236 fails** for a certain prediction: of two examples with the same label, the one predicted with probability 1 gets
the score 0, the one predicted with probability 1/2 a positive one. -/
theorem C236_not_certain : ∃ s : Fin 2 → ℝ,
    confidenceWeightedEntropy (fun _ : Fin 2 => (0 : Fin 2))
      (fun i k => if i = 0 then (if k = 0 then 1 else 0) else 1 / 2) = .ok s ∧ s 0 < s 1 := by
  have hP : ∀ i : Fin 2, IsDistribution ((fun i k => if i = 0 then (if k = 0 then 1 else 0) else 1 / 2 : Fin 2 → Fin 2 → ℝ) i) := by
    intro i
    refine ⟨fun k => ?_, ?_⟩
    · dsimp only; split_ifs <;> norm_num
    · rw [Fin.sum_univ_two]
      dsimp only
      split_ifs <;> norm_num at *
  refine ⟨_, C57_formula le_rfl _ _ hP, ?_⟩
  have hlog : 0 < Real.log 2 := Real.log_pos (by norm_num)
  have e0 : (-∑ k : Fin 2, (if k = 0 then (1 : ℝ) else 0) * Real.log (if k = 0 then 1 else 0)) = 0 := by
    rw [Fin.sum_univ_two]; simp
  have e1 : (-∑ _k : Fin 2, (1 / 2 : ℝ) * Real.log (1 / 2)) / Real.log (2 : ℕ) = 1 := by
    rw [Fin.sum_univ_two, one_div, Real.log_inv]
    push_cast
    field_simp
    norm_num
  simp only [if_true, Fin.isValue, one_ne_zero, if_false, e0, e1]
  norm_num
  exact Real.log_pos (by norm_num)

/-- Two examples of each class, of which the second is labelled 0 but predicted to be 1, and a sort that looks at
comparisons only. -/
example : OrderBased (stableSort ℚ) ∧ (∀ i : Fin 4, ∑ k, (fun i k => if i = 0 ↔ k = (0 : Fin 2) then 9/10 else 1/10 :
    Fin 4 → Fin 2 → ℚ) i k = 1) ∧
    reduceIssues (fun i : Fin 4 => if i.val < 2 then (0 : Fin 2) else 1)
      (fun i k => if i = 0 ↔ k = (0 : Fin 2) then 9/10 else 1/10) 1 = false := by
  refine ⟨orderBased_stableSort ℚ, fun i => ?_, ?_⟩
  · revert i; decide +kernel
  · decide +kernel

end Cleanlab.Props
