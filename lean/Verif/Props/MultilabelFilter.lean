import Verif.Lemmas.Except
import Verif.Props.MultilabelScore
import Verif.Props.FilterChecked

/-!
# C24: multi-label issues
-/

namespace Cleanlab.Props

open Np Cleanlab.Util Cleanlab.Count Cleanlab.Rank Cleanlab.Filter Cleanlab.Multilabel

variable {n K : ℕ}


theorem unionMask_iff (A : ArgSort ℚ) (y : Fin n → Fin K → Bool) (P : Fin n → Fin K → ℚ) (args : MLArgs K)
    (per : Fin K → Fin n → Bool)
    (h : ∀ k, findChecked A (binaryLabels y k) (stackComplement P k) (args.binary k) = .ok (per k)) :
    ∃ mask, unionMask A y P args = .ok mask ∧ ∀ i, mask i = true ↔ ∃ k, per k i = true := by
  have hp : issuesPerClass A y P args = .ok per := (collect_ok_iff _ _).mpr h
  refine ⟨_, by unfold unionMask; rw [hp]; rfl, fun i => ?_⟩
  simp only [decide_eq_true_eq, Nat.one_le_iff_ne_zero, ← Nat.pos_iff_ne_zero, List.countP_pos_iff]
  simp

/-- **C24**: for every filter but the `low_*` ones, the multi-label function succeeds exactly if every one-vs-rest
problem does, and then flags the examples flagged in at least one of these. -/
theorem C24_union (A A' : ArgSort ℚ) (y : Fin n → Fin K → Bool) (P : Fin n → Fin K → ℚ) (args : MLArgs K)
    (hf : args.filterBy ≠ .lowNormalizedMargin ∧ args.filterBy ≠ .lowSelfConfidence) (mask : Fin n → Bool) :
    multilabelIssues A A' y P args = .ok mask ↔
      ∃ per : Fin K → Fin n → Bool,
        (∀ k, findChecked A (binaryLabels y k) (stackComplement P k) (args.binary k) = .ok (per k)) ∧
        ∀ i, mask i = true ↔ ∃ k, per k i = true := by
  have hl : isLow args = false := by unfold isLow; simp [hf.1, hf.2]
  unfold multilabelIssues
  rw [hl, if_neg (by simp)]
  constructor
  · intro h
    cases hp : issuesPerClass A y P args with
    | error e => unfold unionMask at h; rw [hp] at h; cases h
    | ok per =>
      have hper := (collect_ok_iff _ _).mp hp
      obtain ⟨m, hm, hi⟩ := unionMask_iff A y P args per hper
      rw [h] at hm
      cases hm
      exact ⟨per, hper, hi⟩
  · rintro ⟨per, hper, hi⟩
    obtain ⟨m, hm, hi'⟩ := unionMask_iff A y P args per hper
    rw [hm]
    congr 1
    funext i
    rw [Bool.eq_iff_iff, hi', hi]

theorem inRange_stackComplement (P : Fin n → Fin K → ℚ) (hP : InRange P) (k : Fin K) : InRange (stackComplement P k) := by
  intro i c
  have := hP i k
  fin_cases c
  · show _ ≤ 1 - P i k ∧ 1 - P i k ≤ _
    constructor <;> linarith [this.1, this.2]
  · exact this

theorem inRange_of_stackComplement (P : Fin n → Fin K → ℚ) (k : Fin K) (h : InRange (stackComplement P k)) (i : Fin n) :
    -(1 / 10 ^ 6) ≤ P i k ∧ P i k ≤ 1 + 1 / 10 ^ 6 := h i 1

theorem binaryLabels_ne (y : Fin n → Fin K → Bool) (k : Fin K) :
    (∃ i j, binaryLabels y k i ≠ binaryLabels y k j) ↔ (∃ i, y i k = true) ∧ ∃ i, y i k = false := by
  unfold binaryLabels
  constructor
  · rintro ⟨i, j, h⟩
    cases hi : y i k <;> cases hj : y j k <;> simp [hi, hj] at h
    · exact ⟨⟨j, hj⟩, ⟨i, hi⟩⟩
    · exact ⟨⟨i, hi⟩, ⟨j, hj⟩⟩
  · rintro ⟨⟨i, hi⟩, ⟨j, hj⟩⟩
    exact ⟨i, j, by simp [hi, hj]⟩

/-- **C24** for `predicted_neq_given`, in terms of the probabilities: if every class is given to some example and not
given to some other, an example is flagged exactly if some class
was given although the model finds it less likely than not, or not given although the model finds it more likely
than not (by a margin of `1e-6`). Missing: a class that all or no examples have, see `C115_not_multilabel`. -/
theorem C24_predicted_neq_given_partial (A A' : ArgSort ℚ) (y : Fin n → Fin K → Bool) (P : Fin n → Fin K → ℚ)
    (hP : InRange P) (hy : ∀ k, (∃ i, y i k = true) ∧ ∃ i, y i k = false) :
    ∃ mask, multilabelIssues A A' y P { filterBy := .predictedNeqGiven } = .ok mask ∧
      ∀ i, mask i = true ↔ ∃ k, (y i k = true ∧ P i k + 1 / 1000000 ≤ 1 - P i k) ∨
        (y i k = false ∧ 1 - P i k + 1 / 1000000 < P i k) := by
  have hbin : ∀ k, ∃ per : Fin n → Bool, findChecked A (binaryLabels y k) (stackComplement P k)
      (({ filterBy := .predictedNeqGiven } : MLArgs K).binary k) = .ok per ∧
      ∀ i, per i = true ↔ (y i k = true ∧ P i k + 1 / 1000000 ≤ 1 - P i k) ∨
        (y i k = false ∧ 1 - P i k + 1 / 1000000 < P i k) := by
    intro k
    rw [(C115_accepts_partial A _ _ ((binaryLabels_ne y k).mpr (hy k)) (inRange_stackComplement P hP k)).1]
    refine ⟨_, findLabelIssues_of_raw A _ _ _ ⟨by simp [MLArgs.binary], by simp [MLArgs.binary]⟩ (Or.inl rfl) _ rfl,
      fun i => ?_⟩
    have hr := reduceIssues_iff (binaryLabels y k) (stackComplement P k) i
    have ha : argmax (stackComplement P k i) = 0 ↔ P i k ≤ 1 - P i k := by
      rw [argmax_eq_iff]
      constructor
      · intro h; simpa [stackComplement] using h.1 1
      · intro h
        refine ⟨fun j => ?_, fun j hj => absurd hj (Fin.not_lt_zero j)⟩
        fin_cases j
        · exact le_rfl
        · simpa [stackComplement] using h
    rw [Bool.and_eq_true, decide_eq_true_eq, Bool.not_eq_true', ← Bool.not_eq_true, hr]
    unfold Cleanlab.Spec.IsPrediction
    cases hy : y i k
    · have hb : binaryLabels y k i = 0 := by unfold binaryLabels; simp [hy]
      rw [hb, ne_eq, ha]
      simp only [Fin.forall_fin_two, stackComplement, Matrix.cons_val_zero, Matrix.cons_val_one]
      simp
      intro h
      linarith
    · have hb : binaryLabels y k i = 1 := by unfold binaryLabels; simp [hy]
      have h01 : ∀ j : Fin 2, j = 0 ∨ j = 1 := by decide
      have ha' : argmax (stackComplement P k i) ≠ 1 ↔ P i k ≤ 1 - P i k := by
        rw [← ha]
        constructor
        · intro h
          exact (h01 _).resolve_right h
        · intro h; rw [h]; decide
      rw [hb, ha']
      simp only [Fin.forall_fin_two, stackComplement, Matrix.cons_val_zero, Matrix.cons_val_one]
      simp
      constructor
      · rintro ⟨h1, h2⟩
        by_contra h3
        push Not at h3
        have := h2 (by linarith)
        linarith
      · intro h
        exact ⟨by linarith, fun _ => h⟩
  choose per hper hi using hbin
  obtain ⟨mask, hm, hmi⟩ := unionMask_iff A y P _ per hper
  refine ⟨mask, ?_, fun i => ?_⟩
  · unfold multilabelIssues
    rw [if_neg (by simp [isLow]), hm]
  · rw [hmi]
    simp only [hi]

example : (multilabelIssues (stableSort ℚ) (stableSort ℚ) (![![true, false], ![false, true]] : Fin 2 → Fin 2 → Bool)
    ![![1, 0], ![0, 1/4]] { filterBy := .predictedNeqGiven }).toOption = some ![false, true] := by decide +kernel

/-- **C24**, ranked output, for every filter but the `low_*` ones: it lists every flagged example exactly once and
nothing else, in order of increasing label quality. Missing: the `low_*` filters, see below. -/
theorem C24_ranked_partial (A A' : ArgSort ℚ)
    (base : (m : ℕ) → (Fin m → Fin 2) → (Fin m → Fin 2 → ℚ) → Except String (Fin m → ℚ))
    (y : Fin n → Fin K → Bool) (P : Fin n → Fin K → ℚ) (args : MLArgs K)
    (hf : args.filterBy ≠ .lowNormalizedMargin ∧ args.filterBy ≠ .lowSelfConfidence) (mask : Fin n → Bool)
    (s : Fin n → ℚ) (hm : multilabelIssues A A' y P args = .ok mask) (hs : scorer (base n) y P = .ok s) :
    ∃ l, multilabelIssuesRanked A A' base y P args = .ok l ∧ l.Nodup ∧ (∀ i, i ∈ l ↔ mask i = true) ∧
      l.Pairwise (fun i j => s i ≤ s j) := by
  have hl : isLow args = false := by unfold isLow; simp [hf.1, hf.2]
  obtain ⟨per, hper, hmask⟩ := (C24_union A A' y P args hf mask).mp hm
  have hbase : ∃ t, classScores (base n) y P = .ok t := by
    unfold scorer at hs
    split_ifs at hs with h
    cases hc : classScores (base n) y P with
    | error e => rw [hc] at hs; cases hs
    | ok t => exact ⟨t, rfl⟩
  obtain ⟨t, ht⟩ := hbase
  have ht' := (collect_ok_iff _ _).mp ht
  have hlists : issuesPerClassRanked A A' (base n) y P args = .ok (fun k => orderLabelIssues A' (per k) (t k)) := by
    unfold issuesPerClassRanked
    rw [collect_ok_iff]
    intro k
    rw [ht' k]
    show findRankedChecked A A' _ _ _ _ = _
    exact findRankedChecked_ok A A' _ _ _ _ _ (hper k)
  have hmem : ∀ i, (∃ k, i ∈ orderLabelIssues A' (per k) (t k)) ↔ mask i = true := by
    intro i
    rw [hmask]
    refine exists_congr (fun k => ?_)
    rw [(orderLabelIssues_perm A' (per k) (t k)).mem_iff]
    simp
  have hres : multilabelIssuesRanked A A' base y P args = .ok (orderLabelIssues A' mask s) := by
    unfold multilabelIssuesRanked
    rw [hl, if_neg (by simp)]
    unfold unionRanked
    rw [hlists]
    simp only [bind, Except.bind, hs, pure, Except.pure]
    congr 1
    have : (fun i => decide (∃ k, i ∈ orderLabelIssues A' (per k) (t k))) = mask := by
      funext i
      rw [Bool.eq_iff_iff, decide_eq_true_eq, hmem]
    rw [this]
    rfl
  refine ⟨_, hres, ?_, ?_, orderLabelIssues_sorted A' mask s⟩
  · exact (orderLabelIssues_perm A' mask s).nodup_iff.mpr ((List.nodup_finRange n).filter _)
  · intro i
    rw [(orderLabelIssues_perm A' mask s).mem_iff]
    simp

/-- **C24**, mask output of the `low_*` filters: they flag exactly as many examples as `confident_learning` flags,
and no flagged example has a higher label quality than an unflagged one. -/
theorem C24_low_filters (A A' : ArgSort ℚ) (y : Fin n → Fin K → Bool) (P : Fin n → Fin K → ℚ) (args : MLArgs K)
    (hf : args.filterBy = .lowNormalizedMargin ∨ args.filterBy = .lowSelfConfidence) (cl : Fin n → Bool)
    (s : Fin n → ℚ)
    (hcl : multilabelIssues A A' y P { filterBy := .confidentLearning, confidentJoint := args.confidentJoint } = .ok cl)
    (hs : scorer selfConf y P = .ok s) :
    ∃ mask, multilabelIssues A A' y P args = .ok mask ∧
      (Finset.univ.filter (fun i => mask i = true)).card = (Finset.univ.filter (fun i => cl i = true)).card ∧
      ∀ i j, mask i = true → mask j = false → s i ≤ s j := by
  have hl : isLow args = true := by unfold isLow; rcases hf with h | h <;> simp [h]
  have hu : unionMask A y P { filterBy := .confidentLearning, confidentJoint := args.confidentJoint } = .ok cl := by
    unfold multilabelIssues at hcl
    rw [if_neg (by simp [isLow])] at hcl
    exact hcl
  have hidx : lowIndices A A' y P args = .ok ((A'.indices s).take ((List.finRange n).countP cl)) := by
    unfold lowIndices numErrors
    rw [hu]
    simp only [bind, Except.bind, pure, Except.pure, hs]
  refine ⟨_, by unfold multilabelIssues; rw [if_pos hl, hidx]; rfl, ?_, ?_⟩
  · simp only [decide_eq_true_eq]
    rw [card_take_indices, countP_finRange]
    apply min_eq_left
    exact (Finset.card_filter_le _ _).trans (by simp)
  · intro i j hi hj
    exact take_indices_le A' s _ i j (by simpa using hi) (by simpa using hj)

/-- Five examples with two classes; the first two labels of class 0 are wrong. -/
def mlY : Fin 5 → Fin 2 → Bool := ![![true, false], ![true, false], ![true, false], ![true, false], ![false, false]]

/-- Predicted probabilities for `mlY`. -/
def mlP : Fin 5 → Fin 2 → ℚ := ![![1/5, 0], ![0, 0], ![1, 0], ![1, 0], ![1/2, 0]]

theorem ml_cl : unionMask (stableSort ℚ) mlY mlP { filterBy := .confidentLearning } =
    .ok ![true, true, false, false, false] := by
  obtain ⟨m, hm, hi⟩ := unionMask_iff (stableSort ℚ) mlY mlP { filterBy := .confidentLearning }
    ![![true, true, false, false, false], ![false, false, false, false, false]] (fun k => ok_of_toOption (by
      revert k; decide +kernel))
  rw [hm]
  congr 1
  funext i
  rw [Bool.eq_iff_iff, hi]
  revert i
  decide

theorem ml_scores : scorer selfConf mlY mlP = .ok ![9/25, 1/5, 1, 1, 3/5] := by
  unfold scorer
  rw [if_pos (by decide +kernel), classScores_selfConf]
  refine (collect_ok_iff _ _).mpr (fun i => ok_of_toOption ?_)
  revert i
  decide +kernel

theorem ml_low (f : FilterBy) : lowIndices (stableSort ℚ) (stableSort ℚ) mlY mlP { filterBy := f } = .ok [1, 0] := by
  unfold lowIndices numErrors
  rw [ml_cl]
  simp only [bind, Except.bind, pure, Except.pure, ml_scores]
  congr 1
  decide +kernel

/-- **C24** fails for the ranked output of `low_self_confidence`: here example 0 is listed before example 1
although example 1 has the lower quality. -/
theorem C24_not_ranked_low : ∃ s : Fin 5 → ℚ, scorer selfConf mlY mlP = .ok s ∧
    multilabelIssuesRanked (stableSort ℚ) (stableSort ℚ) (fun _ => selfConf) mlY mlP
      { filterBy := .lowSelfConfidence } = .ok [0, 1] ∧ s 1 < s 0 := by
  refine ⟨_, ml_scores, ?_, by decide +kernel⟩
  unfold multilabelIssuesRanked
  rw [if_pos (by decide)]
  unfold lowRanked
  rw [ml_low]
  have hsel : (List.finRange 5).filter (fun i => decide (i ∈ ([1, 0] : List (Fin 5)))) = [0, 1] := by decide +kernel
  simp only [bind, Except.bind]
  rw [hsel]
  have hs : scorer selfConf (fun r => mlY (([0, 1] : List (Fin 5)).get r)) (fun r => mlP (([0, 1] : List (Fin 5)).get r)) =
      .ok (![9/25, 1/5] : Fin 2 → ℚ) := by
    unfold scorer
    rw [if_pos (by decide +kernel), classScores_selfConf]
    refine (collect_ok_iff _ _).mpr (fun i => ok_of_toOption ?_)
    revert i
    decide +kernel
  rw [hs]
  simp only
  have ho : (stableSort ℚ).indices (![9/25, 1/5] : Fin 2 → ℚ) = [1, 0] := by decide +kernel
  rw [ho]
  rfl

/-- **C24** also fails there for data without issues: when no example is flagged, the ranked output of the `low_*`
filters raises instead of returning an empty array. -/
theorem C24_not_ranked_low_empty (A A' : ArgSort ℚ)
    (base : (m : ℕ) → (Fin m → Fin 2) → (Fin m → Fin 2 → ℚ) → Except String (Fin m → ℚ))
    (y : Fin n → Fin K → Bool) (P : Fin n → Fin K → ℚ) (args : MLArgs K)
    (hf : args.filterBy = .lowNormalizedMargin ∨ args.filterBy = .lowSelfConfidence) (s : Fin n → ℚ)
    (hcl : multilabelIssues A A' y P { filterBy := .confidentLearning, confidentJoint := args.confidentJoint } =
      .ok (fun _ => false))
    (hs : scorer selfConf y P = .ok s) :
    multilabelIssues A A' y P args = .ok (fun _ => false) ∧
      ∃ e, multilabelIssuesRanked A A' base y P args = .error e := by
  have hl : isLow args = true := by unfold isLow; rcases hf with h | h <;> simp [h]
  have hu : unionMask A y P { filterBy := .confidentLearning, confidentJoint := args.confidentJoint } =
      .ok (fun _ => false) := by
    unfold multilabelIssues at hcl
    rw [if_neg (by simp [isLow])] at hcl
    exact hcl
  have hidx : lowIndices A A' y P args = .ok [] := by
    unfold lowIndices numErrors
    rw [hu]
    simp only [bind, Except.bind, pure, Except.pure, hs]
    simp
  constructor
  · unfold multilabelIssues
    rw [if_pos hl, hidx]
    simp [bind, Except.bind, pure, Except.pure]
  · refine ⟨"Labels must be in multi-label format.", ?_⟩
    unfold multilabelIssuesRanked
    rw [if_pos hl]
    unfold lowRanked
    rw [hidx]
    simp only [bind, Except.bind]
    have hemp : (List.finRange n).filter (fun i => decide (i ∈ ([] : List (Fin n)))) = [] := by simp
    rw [hemp]
    unfold scorer
    rw [if_neg]
    unfold isMultilabel
    simp

/-- The hypotheses of the previous theorem are met by two correctly labelled examples. -/
example : (multilabelIssues (stableSort ℚ) (stableSort ℚ) (![![true, false], ![false, true]] : Fin 2 → Fin 2 → Bool)
    ![![1, 0], ![0, 1]] { filterBy := .confidentLearning }).toOption = some (fun _ => false) := by decide +kernel

end Cleanlab.Props
