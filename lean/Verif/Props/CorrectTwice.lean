import Verif.Props.CleanTwice

/-!
# C172, C173: whether correcting the labels once is enough

`find_label_issues` after every flagged label has been replaced by the predicted one, with the same options and predicted
probabilities.
-/

namespace Cleanlab.Props

open Np Cleanlab.Util Cleanlab.Count Cleanlab.Spec Cleanlab.Filter Cleanlab.Rank

variable {n K : ℕ}

/-- `labels'` are the labels after every flagged one has been replaced by a most probable class. -/
structure LabelsCorrected (mask : Fin n → Bool) (labels : Fin n → Fin K) (P : Fin n → Fin K → ℚ) (labels' : Fin n → Fin K) : Prop where
  flagged : ∀ i, mask i = true → ∀ l, P i l ≤ P i (labels' i)
  rest : ∀ i, mask i = false → labels' i = labels i

variable {mask : Fin n → Bool} {labels labels' : Fin n → Fin K} {P : Fin n → Fin K → ℚ}

/-- A corrected label is never flagged. -/
theorem LabelsCorrected.wrong [NeZero K] (h : LabelsCorrected mask labels P labels') {i : Fin n}
    (hr : reduceIssues labels' P i = false) : mask i = false ∧ labels' i = labels i ∧ reduceIssues labels P i = false := by
  have hm : mask i = false := by
    by_contra hm
    rw [Bool.not_eq_false] at hm
    obtain ⟨j, _, hlt⟩ := reduceIssues_false_iff labels' P i hr
    have := h.flagged i hm j
    linarith
  refine ⟨hm, h.rest i hm, ?_⟩
  unfold reduceIssues at hr ⊢
  rw [h.rest i hm] at hr
  exact hr

/-- If the labels taken away from a class are at most average in it and those added reach its threshold, its threshold does
not go down. -/
theorem threshold_corrected (h : LabelsCorrected mask labels P labels') (hP : ∀ i k, P i k ≤ 1) (k : Fin K)
    (hle : ∀ i, mask i = true → labels i = k → P i k ≤ meanSelfConfidence labels P k)
    (hge : ∀ i, mask i = true → labels' i = k → getConfidentThresholds labels P k ≤ P i k) :
    getConfidentThresholds labels P k ≤ getConfidentThresholds labels' P k := by
  by_cases h1 : ∃ i, labels' i = k
  · by_cases h2 : ∃ i, labels i = k
    · have hN : (0 : ℚ) < numGiven labels k := by
        obtain ⟨i, hi⟩ := h2
        have : 0 < numGiven labels k := Finset.card_pos.mpr ⟨i, Finset.mem_filter.mpr ⟨Finset.mem_univ _, hi⟩⟩
        exact_mod_cast this
      have hN' : (0 : ℚ) < numGiven labels' k := by
        obtain ⟨i, hi⟩ := h1
        have : 0 < numGiven labels' k := Finset.card_pos.mpr ⟨i, Finset.mem_filter.mpr ⟨Finset.mem_univ _, hi⟩⟩
        exact_mod_cast this
      have hmax : getConfidentThresholds labels P k = max (meanSelfConfidence labels P k) thresholdsLowerBound := by
        unfold getConfidentThresholds
        rw [if_pos ((mem_ofFn_iff _ _).mpr h2), classMean_eq]
      have hmax' : getConfidentThresholds labels' P k = max (meanSelfConfidence labels' P k) thresholdsLowerBound := by
        unfold getConfidentThresholds
        rw [if_pos ((mem_ofFn_iff _ _).mpr h1), classMean_eq]
      rw [hmax] at hge
      rw [hmax, hmax']
      apply max_le_max _ le_rfl
      set μ := meanSelfConfidence labels P k with hμ
      have hS : ∑ i, (if labels i = k then P i k - μ else 0) = 0 := by
        rw [← Finset.sum_filter, Finset.sum_sub_distrib, Finset.sum_const, nsmul_eq_mul]
        have : ∑ i ∈ Finset.univ.filter (fun i => labels i = k), P i k = μ * numGiven labels k := by
          rw [hμ]; unfold meanSelfConfidence; rw [div_mul_cancel₀ _ hN.ne']
        rw [this]; unfold numGiven; ring
      have hS' : 0 ≤ ∑ i, (if labels' i = k then P i k - μ else 0) := by
        refine hS.symm.le.trans (Finset.sum_le_sum (fun i _ => ?_))
        cases hm : mask i with
        | false => rw [h.rest i hm]
        | true =>
          have ha : (if labels i = k then P i k - μ else 0) ≤ 0 := by
            split_ifs with hl
            · linarith [hle i hm hl]
            · exact le_rfl
          have hb : 0 ≤ (if labels' i = k then P i k - μ else 0) := by
            split_ifs with hl
            · linarith [hge i hm hl, le_max_left μ thresholdsLowerBound]
            · exact le_rfl
          linarith
      rw [← Finset.sum_filter, Finset.sum_sub_distrib, Finset.sum_const, nsmul_eq_mul] at hS'
      unfold meanSelfConfidence
      rw [le_div_iff₀ hN']
      unfold numGiven
      linarith
    · exfalso
      obtain ⟨i, hi⟩ := h1
      cases hm : mask i with
      | false => exact h2 ⟨i, by rw [← h.rest i hm]; exact hi⟩
      | true =>
        have h3 := hge i hm hi
        unfold getConfidentThresholds at h3
        rw [if_neg (fun hk => h2 ((mem_ofFn_iff _ _).mp hk))] at h3
        have := le_max_left (2 : ℚ) thresholdsLowerBound
        linarith [hP i k]
  · unfold getConfidentThresholds
    rw [if_neg (show k ∉ List.ofFn labels' from fun hm => h1 ((mem_ofFn_iff _ _).mp hm))]
    apply max_le_max _ le_rfl
    split_ifs with h2
    · rw [classMean_eq]
      unfold meanSelfConfidence
      obtain ⟨i, hi⟩ := (mem_ofFn_iff _ _).mp h2
      have hN : (0 : ℚ) < numGiven labels k := by
        have : 0 < numGiven labels k := Finset.card_pos.mpr ⟨i, Finset.mem_filter.mpr ⟨Finset.mem_univ _, hi⟩⟩
        exact_mod_cast this
      rw [div_le_iff₀ hN]
      have : ∑ i ∈ Finset.univ.filter (fun i => labels i = k), P i k ≤ (numGiven labels k) • (1 : ℚ) :=
        Finset.sum_le_card_nsmul _ _ _ (fun i _ => hP i k)
      rw [nsmul_eq_mul, mul_one] at this
      linarith
    · exact le_rfl

/-- **C172, `predicted_neq_given`.** After correcting the flagged labels nothing is flagged. -/
theorem C172_predicted (A : ArgSort ℚ) [NeZero K] (args : Args K)
    (hf : args.filterBy = .predictedNeqGiven) (hn : args.numToRemove = none)
    (hm : findLabelIssues A labels P args = .ok mask) (hc : LabelsCorrected mask labels P labels') :
    findLabelIssues A labels' P args = .ok (fun _ => false) := by
  have h0 := fun (labels : Fin n → Fin K) =>
    findLabelIssues_of_raw A labels P args (by rw [hf]; decide) (Or.inl hn) _ (by unfold rawMask; rw [hf])
  rw [h0] at hm ⊢
  congr 1
  funext i
  rw [Bool.eq_false_iff]
  intro hi
  rw [Bool.and_eq_true, Bool.not_eq_true'] at hi
  obtain ⟨h1, h2, h3⟩ := hc.wrong hi.2
  rw [← Except.ok.inj hm] at h1
  rw [h2] at hi
  simp only [hi.1, h3] at h1
  simp at h1

/-- Three classes: the label 2 of the second example is flagged; corrected to 0, nothing is flagged. -/
example : ∃ mask, findLabelIssues (stableSort ℚ) ![1, 2] (![![1/4, 1/2, 1/4], ![3/4, 1/4, 0]] : Fin 2 → Fin 3 → ℚ)
      { filterBy := .predictedNeqGiven } = .ok mask ∧ mask 1 = true ∧
    findLabelIssues (stableSort ℚ) ![1, 0] (![![1/4, 1/2, 1/4], ![3/4, 1/4, 0]] : Fin 2 → Fin 3 → ℚ)
      { filterBy := .predictedNeqGiven } = .ok (fun _ => false) := by
  have hm := findLabelIssues_of_raw (stableSort ℚ) ![1, 2] (![![1/4, 1/2, 1/4], ![3/4, 1/4, 0]] : Fin 2 → Fin 3 → ℚ)
    { filterBy := .predictedNeqGiven } (by decide) (Or.inl rfl) _ rfl
  exact ⟨_, hm, by decide +kernel, C172_predicted (stableSort ℚ) _ rfl rfl hm ⟨by decide +kernel, by decide +kernel⟩⟩

/-- **C173 (partial), `confident_learning`.** If every flagged example is at most average in its class and reaches the
threshold of the predicted class, then after correcting the flagged labels nothing is flagged. -/
theorem C173_confident_partial (A : ArgSort ℚ) [NeZero K] (hP : ∀ i k, P i k ≤ 1) (args : Args K)
    (hf : args.filterBy = .confidentLearning) (hn : args.numToRemove = none)
    (hm : findLabelIssues A labels P args = .ok mask) (hc : LabelsCorrected mask labels P labels')
    (havg : ∀ i, mask i = true → P i (labels i) ≤ meanSelfConfidence labels P (labels i))
    (hreach : ∀ i, mask i = true → getConfidentThresholds labels P (labels' i) ≤ P i (labels' i)) :
    findLabelIssues A labels' P args = .ok (fun _ => false) := by
  obtain ⟨m1, h1, hi1⟩ := confident_flag_iff A labels P args hf hn
  obtain ⟨m2, h2, hi2⟩ := confident_flag_iff A labels' P args hf hn
  rw [h1] at hm
  obtain rfl := Except.ok.inj hm
  rw [h2]
  congr 1
  funext i
  rw [Bool.eq_false_iff]
  intro hr
  obtain ⟨ha, j, hj, hrj⟩ := (hi2 i).mp hr
  obtain ⟨hu, hl, ha'⟩ := hc.wrong ha
  rw [Bool.eq_false_iff, ne_eq, hi1] at hu
  apply hu
  refine ⟨ha', j, by rwa [← hl], ?_⟩
  have := threshold_corrected hc hP j (fun i hmi hl => by subst hl; exact havg i hmi)
    (fun i hmi hl => by subst hl; exact hreach i hmi)
  unfold Reaches at hrj ⊢
  linarith

/-- **C172, `confident_learning` for two classes.** If no probability is below the threshold of its class by a millionth or
less, then after correcting the flagged labels nothing is flagged. -/
theorem C172_two_confident (A : ArgSort ℚ) {labels labels' : Fin n → Fin 2} {P : Fin n → Fin 2 → ℚ}
    (hP : ∀ i, IsDistribution (P i)) (args : Args 2)
    (hf : args.filterBy = .confidentLearning) (hn : args.numToRemove = none)
    (hgap : ∀ i k, Reaches P (getConfidentThresholds labels P) i k → getConfidentThresholds labels P k ≤ P i k)
    (hm : findLabelIssues A labels P args = .ok mask) (hc : LabelsCorrected mask labels P labels') :
    findLabelIssues A labels' P args = .ok (fun _ => false) := by
  have hle1 : ∀ i k, P i k ≤ 1 := fun i k => by
    rw [← (hP i).2]
    exact Finset.single_le_sum (fun b _ => (hP i).1 b) (Finset.mem_univ k)
  obtain ⟨m1, h1, hi1⟩ := confident_flag_iff A labels P args hf hn
  obtain ⟨m2, h2, hi2⟩ := confident_flag_iff A labels' P args hf hn
  rw [h1] at hm
  obtain rfl := Except.ok.inj hm
  rw [h2]
  congr 1
  funext i
  rw [Bool.eq_false_iff]
  intro hr
  obtain ⟨ha, j, hj, hrj⟩ := (hi2 i).mp hr
  obtain ⟨hu, hl, ha'⟩ := hc.wrong ha
  rw [Bool.eq_false_iff, ne_eq, hi1] at hu
  apply hu
  refine ⟨ha', j, by rwa [← hl], ?_⟩
  have hhalf := (wrong_half (i := i) hP (by rwa [← hl] : j ≠ labels i) ha').1
  by_cases ht : 1 / 2 < getConfidentThresholds labels P j
  · have := threshold_corrected hc hle1 j (fun s hms hls => by
        obtain ⟨hs, b, hb, _⟩ := (hi1 s).mp hms
        have h3 := (wrong_half hP hb hs).2
        rw [hls] at h3
        unfold getConfidentThresholds at ht
        rw [if_pos ((mem_ofFn_iff _ _).mpr ⟨s, hls⟩), classMean_eq] at ht
        rcases lt_max_iff.mp ht with h4 | h4
        · linarith
        · unfold thresholdsLowerBound at h4; norm_num at h4)
      (fun s hms hls => by
        obtain ⟨hs, b, hb, hrb⟩ := (hi1 s).mp hms
        have h3 := wrong_half hP hb hs
        have h4 : b = j := by
          by_contra hbj
          have h5 := hc.flagged s hms b
          rw [hls] at h5
          have h6 : j = labels s := by
            by_contra hjs
            exact hbj (other_unique hb hjs)
          rw [h6] at h5
          linarith
        subst h4
        exact hgap s b hrb)
    unfold Reaches at hrj ⊢
    linarith
  · unfold Reaches
    linarith

/-- What a user sees: the corrected labels are checked again and example `i` is flagged. -/
def FoundAfterCorrection [NeZero K] (labels labels' : Fin n → Fin K) (P : Fin n → Fin K → ℚ) (args : Args K) (i : Fin n) : Prop :=
  (∀ i, IsDistribution (P i)) ∧ ∃ mask mask', findLabelIssues (stableSort ℚ) labels P args = .ok mask ∧ LabelsCorrected mask labels P labels' ∧
    findLabelIssues (stableSort ℚ) labels' P args = .ok mask' ∧ mask' i = true

theorem foundAfterCorrection_of [NeZero K] {labels labels' : Fin n → Fin K} {P : Fin n → Fin K → ℚ} {args : Args K} {i : Fin n}
    (hd : ∀ i, IsDistribution (P i)) (m : Fin n → Bool)
    (h1 : (findLabelIssues (stableSort ℚ) labels P args).toOption.map List.ofFn = some (List.ofFn m))
    (hc : LabelsCorrected m labels P labels')
    (h2 : (findLabelIssues (stableSort ℚ) labels' P args).toOption.map (fun m => m i) = some true) :
    FoundAfterCorrection labels labels' P args i := by
  refine ⟨hd, ?_⟩
  cases ha : findLabelIssues (stableSort ℚ) labels P args with
  | error e => rw [ha] at h1; cases h1
  | ok mask =>
    cases hb : findLabelIssues (stableSort ℚ) labels' P args with
    | error e => rw [hb] at h2; cases h2
    | ok mask' =>
      rw [ha] at h1
      rw [hb] at h2
      rw [← List.ofFn_injective (Option.some.inj h1)] at hc
      exact ⟨mask, mask', rfl, hc, rfl, Option.some.inj h2⟩

/-- **C173, refuted for `confident_learning` and three classes.** The only example of class 2 becomes the only one of class 0, so
that the threshold of class 0 is 2/5, which the other example reaches. -/
theorem C173_not_confident : FoundAfterCorrection ![2, 1] ![0, 1]
    (![![2/5, 3/10, 3/10], ![7/10, 1/5, 1/10]] : Fin 2 → Fin 3 → ℚ) { filterBy := .confidentLearning } 1 :=
  foundAfterCorrection_of (fun i => isDistribution_of (by revert i; decide +kernel)) ![true, false] (by decide +kernel)
    ⟨by decide +kernel, by decide +kernel⟩ (by decide +kernel)

/-- **C173, refuted for `confident_learning` and two classes** if probabilities are less than a millionth below a threshold:
the corrected example was counted as reaching the threshold of class 1 and pulls it down. -/
theorem C173_not_millionth : FoundAfterCorrection ![1, 0, 0] ![1, 1, 0]
    (![![1/5, 4/5], ![1/5 + 10/10000000, 4/5 - 10/10000000], ![1/5 + 13/10000000, 4/5 - 13/10000000]] : Fin 3 → Fin 2 → ℚ)
    { filterBy := .confidentLearning } 2 :=
  foundAfterCorrection_of (fun i => isDistribution_of (by revert i; decide +kernel)) ![false, true, false] (by decide +kernel)
    ⟨by decide +kernel, by decide +kernel⟩ (by decide +kernel)

/-- Three examples of two classes. -/
def singleProbs : Fin 3 → Fin 2 → ℚ := ![![1/5, 4/5], ![7/10, 3/10], ![1/5, 4/5]]

/-- **C173, refuted for the default filter and `prune_by_class`, already for two classes.** The first example is the only one of
class 0 and therefore not flagged, whatever its probabilities; once the second has been corrected to class 0, it is. -/
theorem C173_not_default (f : FilterBy) (hf : f = .pruneByNoiseRate ∨ f = .pruneByClass) :
    FoundAfterCorrection ![0, 1, 1] ![0, 0, 1] singleProbs { filterBy := f } 0 := by
  have hd : ∀ i, IsDistribution (singleProbs i) := fun i => isDistribution_of (by revert i; decide +kernel)
  obtain ⟨raw, h1, hshort, hraw⟩ := prune_two (labels := ![0, 1, 1]) (stableSort ℚ) hd { filterBy := f } hf rfl rfl rfl rfl
  obtain ⟨raw', h2, hshort', hraw'⟩ := prune_two (labels := ![0, 0, 1]) (stableSort ℚ) hd { filterBy := f } hf rfl rfl rfl rfl
  refine ⟨hd, _, _, h1, ⟨?_, ?_⟩, h2, ?_⟩
  · intro i hi
    have hr : reduceIssues ![0, 1, 1] singleProbs i = false := by
      rw [Bool.and_eq_true, Bool.not_eq_true'] at hi; exact hi.2
    have h0 : i = 0 → raw i = false := fun h => by rw [h]; exact hshort 0 (by decide)
    have h0' : raw i = true := by rw [Bool.and_eq_true] at hi; exact hi.1
    have hne : i ≠ 0 := fun h => by rw [h0 h] at h0'; cases h0'
    clear hi h0 h0'
    revert i
    decide +kernel
  · have hb : raw 1 = true := (hraw 0 1 (by decide) (by decide)).2.1 ⟨2, rfl, by decide +kernel⟩ 1 rfl (by decide +kernel)
    intro i hi
    have h1 : i ≠ 1 := by
      rintro rfl
      have : reduceIssues ![0, 1, 1] singleProbs 1 = false := by decide +kernel
      rw [hb, this] at hi
      cases hi
    clear hi
    revert i
    decide
  · have hb : raw' 0 = true := (hraw' 1 0 (by decide) (by decide)).2.1 ⟨1, rfl, by decide +kernel⟩ 0 rfl (by decide +kernel)
    have : reduceIssues ![0, 0, 1] singleProbs 0 = false := by decide +kernel
    rw [hb, this]; rfl

/-- Two classes, six examples: `confident_learning` flags the third and the last; corrected, nothing is flagged. The
hypotheses of `C172_two_confident` hold. -/
example : ∃ mask, findLabelIssues (stableSort ℚ) onceLabels onceProbs { filterBy := .confidentLearning } = .ok mask ∧ mask 2 = true ∧
    mask 5 = true ∧ LabelsCorrected mask onceLabels onceProbs ![0, 0, 1, 1, 1, 0] ∧
    findLabelIssues (stableSort ℚ) ![0, 0, 1, 1, 1, 0] onceProbs { filterBy := .confidentLearning } = .ok (fun _ => false) := by
  obtain ⟨mask, hm, hi⟩ := confident_flag_iff (stableSort ℚ) onceLabels onceProbs { filterBy := .confidentLearning } rfl rfl
  have hmask : mask = ![false, false, true, false, false, true] := by
    funext i
    rw [Bool.eq_iff_iff, hi i]
    clear hi hm
    revert i
    decide +kernel
  subst hmask
  have hc : LabelsCorrected ![false, false, true, false, false, true] onceLabels onceProbs ![0, 0, 1, 1, 1, 0] :=
    ⟨by decide +kernel, by decide +kernel⟩
  exact ⟨_, hm, rfl, rfl, hc, C172_two_confident (stableSort ℚ) once_dist _ rfl rfl (by decide +kernel) hm hc⟩

end Cleanlab.Props
