import Verif.Props.CleanTwice

/-!
# C182-C186: models without a preference, and what a single example can change

What `find_label_issues` returns if the model agrees with every label or makes no difference between the examples, how far
the result depends on one example, and whether a label that is flipped is noticed.
-/

namespace Cleanlab.Props

open Np Cleanlab.Util Cleanlab.Count Cleanlab.Spec Cleanlab.Filter Cleanlab.Rank

variable {n K : ℕ}

/-! ## C182 -/

/-- No class is more probable than the given one. -/
def Undisputed (labels : Fin n → Fin K) (P : Fin n → Fin K → ℚ) : Prop := ∀ i j, P i j ≤ P i (labels i)

theorem reduce_undisputed [NeZero K] {labels : Fin n → Fin K} {P : Fin n → Fin K → ℚ} (h : Undisputed labels P) (i : Fin n) :
    reduceIssues labels P i = true := by
  rw [← Bool.not_eq_false]
  intro hr
  obtain ⟨j, _, hj⟩ := reduceIssues_false_iff labels P i hr
  have := h i j
  linarith

/-- **C182.** The number of label issues is 0. -/
theorem C182_number (A : ArgSort ℚ) [NeZero K] {labels : Fin n → Fin K} {P : Fin n → Fin K → ℚ} (h : Undisputed labels P)
    (cj : Option (Fin K → Fin K → ℚ)) : numLabelIssues A labels P cj .offDiagonal = .ok 0 := by
  unfold numLabelIssues
  dsimp only
  rw [List.countP_eq_zero.mpr]
  · rfl
  · intro i _
    rw [reduce_undisputed h]
    simp

/-- **C182.** Whatever the filter and the other arguments, nothing is flagged. -/
theorem C182_find (A : ArgSort ℚ) [NeZero K] {labels : Fin n → Fin K} {P : Fin n → Fin K → ℚ} (h : Undisputed labels P)
    (args : Args K) (mask : Fin n → Bool) (hm : findLabelIssues A labels P args = .ok mask) : mask = fun _ => false := by
  by_cases hf : args.filterBy ≠ .lowSelfConfidence ∧ args.filterBy ≠ .lowNormalizedMargin
  · obtain ⟨m, -, rfl⟩ := raw_of_findLabelIssues A labels P args hf mask hm
    funext i
    rw [reduce_undisputed h]
    simp
  · have hx : ∃ m : Rank.Method, ((args.filterBy = .lowSelfConfidence ∧ m = .selfConfidence) ∨
        (args.filterBy = .lowNormalizedMargin ∧ m = .normalizedMargin)) := by
      by_cases h1 : args.filterBy = .lowSelfConfidence
      · exact ⟨_, Or.inl ⟨h1, rfl⟩⟩
      · exact ⟨_, Or.inr ⟨not_not.mp fun h2 => hf ⟨h1, h2⟩, rfl⟩⟩
    obtain ⟨m, hfm⟩ := hx
    cases hs : labelQualityScores m labels P with
    | error e =>
      exfalso
      unfold findLabelIssues at hm
      split at hm
      · cases hm
      · have hr : rawMask A labels P args = .error e := by
          unfold rawMask lowScoreIndices
          rcases hfm with ⟨h1, rfl⟩ | ⟨h1, rfl⟩ <;> rw [h1] <;> simp only [hs] <;> rfl
        rw [hr] at hm
        cases hm
    | ok scores =>
      have h1 := (C06_low_score_filters A labels P args m scores hfm hs mask hm).1
      rw [C182_number A h] at h1
      have h2 : (Finset.univ.filter (fun i => mask i = true)).card = 0 := by
        have := Except.ok.inj h1
        exact_mod_cast this.symm
      rw [Finset.card_eq_zero, Finset.filter_eq_empty_iff] at h2
      funext i
      exact Bool.eq_false_iff.mpr (h2 (Finset.mem_univ i))

/-- **C182.** In particular nothing is flagged if all classes are equally probable for every example. -/
theorem C182_uniform (A : ArgSort ℚ) [NeZero K] {labels : Fin n → Fin K} {P : Fin n → Fin K → ℚ} (h : ∀ i j, P i j = 1 / K)
    (args : Args K) (mask : Fin n → Bool) (hm : findLabelIssues A labels P args = .ok mask) : mask = fun _ => false :=
  C182_find A (fun i j => by rw [h, h]) args mask hm

theorem margin_scores (hK : 2 ≤ K) (labels : Fin n → Fin K) (P : Fin n → Fin K → ℚ) :
    ∃ s, labelQualityScores .normalizedMargin labels P = .ok s := by
  have hall : ∀ i, (normalizedMargin labels P i).isSome := by
    intro i
    obtain ⟨j, hj⟩ : ∃ j, j ≠ labels i := by
      have : Nontrivial (Fin K) := Fin.nontrivial_iff_two_le.mpr hK
      exact exists_ne _
    have hne : ((List.finRange K).filter (fun j => j ≠ labels i)).map (P i) ≠ [] := by
      rw [Ne, List.map_eq_nil_iff]
      exact List.ne_nil_of_mem (List.mem_filter.mpr ⟨List.mem_finRange j, by simpa using hj⟩)
    unfold normalizedMargin maxProbNotLabel
    rcases hl : ((List.finRange K).filter (fun j => j ≠ labels i)).map (P i) with _ | ⟨a, t⟩
    · exact absurd hl hne
    · rfl
  exact ⟨_, dif_pos hall⟩

/-- **C182.** With the default arguments there is a result for every filter if there are several classes. -/
theorem C182_returns (A : ArgSort ℚ) [NeZero K] (hK : 2 ≤ K) {labels : Fin n → Fin K} {P : Fin n → Fin K → ℚ}
    (h : Undisputed labels P) (f : FilterBy) : findLabelIssues A labels P { filterBy := f } = .ok (fun _ => false) := by
  have hex : ∃ mask, findLabelIssues A labels P { filterBy := f } = .ok mask := by
    obtain ⟨s, hs⟩ := margin_scores hK labels P
    cases f
    case lowNormalizedMargin =>
      refine ⟨fun i => decide (i ∈ (A.indices s).take (0 : ℤ).toNat), ?_⟩
      unfold findLabelIssues rawMask lowScoreIndices
      simp only [hs, C182_number A h]
      rfl
    case lowSelfConfidence =>
      refine ⟨fun i => decide (i ∈ (A.indices (selfConfidence labels P)).take (0 : ℤ).toNat), ?_⟩
      unfold findLabelIssues rawMask lowScoreIndices
      simp only [labelQualityScores, C182_number A h]
      rfl
    all_goals exact ⟨_, rfl⟩
  obtain ⟨mask, hm⟩ := hex
  rw [hm, C182_find A h _ mask hm]

/-- Three examples with two classes: the model is uncertain about the first, and agrees with the other two. -/
example (A : ArgSort ℚ) (f : FilterBy) :
    findLabelIssues A (fun i : Fin 3 => if i = 2 then (1 : Fin 2) else 0)
      (fun i k => if i = 0 then 1 / 2 else if i = 1 then (if k = 0 then 3 / 5 else 2 / 5) else if k = 0 then 1 / 10 else 9 / 10)
      { filterBy := f } = .ok (fun _ => false) :=
  C182_returns A le_rfl (by unfold Undisputed; decide +kernel) f

/-! ## C183 -/

theorem mean_constant (labels : Fin n → Fin K) (p : Fin K → ℚ) (k : Fin K) (hk : ∃ i, labels i = k) :
    meanSelfConfidence labels (fun _ => p) k = p k := by
  unfold meanSelfConfidence numGiven
  obtain ⟨i, hi⟩ := hk
  have hpos : (0 : ℚ) < ((Finset.univ.filter (fun i => labels i = k)).card : ℚ) := by
    exact_mod_cast Finset.card_pos.mpr ⟨i, by simpa using hi⟩
  rw [Finset.sum_const, nsmul_eq_mul, mul_comm, mul_div_assoc, div_self hpos.ne', mul_one]

theorem threshold_constant (labels : Fin n → Fin K) (p : Fin K → ℚ) (k : Fin K) (hk : ∃ i, labels i = k) :
    getConfidentThresholds labels (fun _ => p) k = max (p k) thresholdsLowerBound := by
  unfold getConfidentThresholds
  rw [if_pos ((mem_ofFn_iff _ _).mpr hk), classMean_eq, mean_constant labels p k hk]

/-- **C183 fails for a model that has a preference for a class.** It gives every example the same probabilities, for instance
the frequencies of the classes, so it knows nothing about the examples: all examples of the other classes are flagged. -/
theorem C183_not_prior (A : ArgSort ℚ) [NeZero K] (labels : Fin n → Fin K) (p : Fin K → ℚ) (c : Fin K) (h0 : ∀ k, 0 ≤ p k)
    (hc : ∃ i, labels i = c) (hp : ∀ k, k ≠ c → p k + 1 / 1000000 < p c) (args : Args K) (hn : args.numToRemove = none)
    (hf : args.filterBy = .confidentLearning ∨ args.filterBy = .predictedNeqGiven) :
    findLabelIssues A labels (fun _ => p) args = .ok (fun i => decide (labels i ≠ c)) := by
  have hred : ∀ i, labels i ≠ c → reduceIssues labels (fun _ => p) i = false := fun i hi =>
    reduceIssues_false labels _ i ⟨c, fun e => hi e.symm, hp _ hi⟩
  have hred' : ∀ i, reduceIssues labels (fun _ => p) i = false → labels i ≠ c := by
    intro i hi he
    obtain ⟨j, hj, hle⟩ := reduceIssues_false_iff labels _ i hi
    have := hp j (fun e => hj (e.trans he.symm))
    rw [he] at hle
    linarith
  rcases hf with hf | hf
  · obtain ⟨mask, h1, h2⟩ := confident_flag_iff A labels (fun _ => p) args hf hn
    rw [h1]
    congr 1
    funext i
    rw [Bool.eq_iff_iff, h2, decide_eq_true_eq]
    refine ⟨fun h => hred' i h.1, fun h => ⟨hred i h, c, fun e => h e.symm, ?_⟩⟩
    have h3 := hp _ h
    have h4 := h0 (labels i)
    unfold Reaches
    rw [threshold_constant labels p c hc]
    unfold thresholdsLowerBound
    apply max_le <;> linarith
  · obtain ⟨mask, h1, h2⟩ := C07_predicted_neq_given_iff A labels (fun _ => p) args hf hn
    rw [h1]
    congr 1
    funext i
    rw [Bool.eq_iff_iff, h2, decide_eq_true_eq, ← reduceIssues_iff labels (fun _ => p), Bool.not_eq_true]
    exact ⟨hred' i, hred i⟩

/-- **C183 fails with the default filter as well**: with two classes all examples of the other class but at most one are flagged. -/
theorem C183_not_default (A : ArgSort ℚ) (labels : Fin n → Fin 2) (p : Fin 2 → ℚ) (hd : IsDistribution p) (c : Fin 2)
    (hc : ∃ i, labels i = c) (hp : ∀ k, k ≠ c → p k + 1 / 1000000 < p c) (f : FilterBy)
    (hf : f = .pruneByNoiseRate ∨ f = .pruneByClass) :
    ∃ mask, findLabelIssues A labels (fun _ => p) { filterBy := f } = .ok mask ∧
      (Finset.univ.filter (fun i => labels i ≠ c ∧ mask i = false)).card ≤ 1 := by
  obtain ⟨raw, h1, hshort, hraw⟩ := prune_two (labels := labels) (P := fun _ => p) A (fun _ => hd) { filterBy := f } hf rfl rfl rfl rfl
  refine ⟨_, h1, ?_⟩
  have hred : ∀ i, labels i ≠ c → reduceIssues labels (fun _ => p) i = false := fun i hi =>
    reduceIssues_false labels _ i ⟨c, fun e => hi e.symm, hp _ hi⟩
  have hreach : ∀ i, labels i ≠ c → Confused labels (fun _ => p) c i := by
    intro i hi
    refine ⟨hred i hi, ?_⟩
    have h3 := hp _ hi
    have h4 := hd.1 (labels i)
    unfold Reaches
    rw [threshold_constant labels p c hc]
    unfold thresholdsLowerBound
    apply max_le <;> linarith
  obtain ⟨k, hk⟩ : ∃ k : Fin 2, k ≠ c := by
    clear hreach hred hp hc
    revert c; decide
  have hkc : ∀ l : Fin 2, l ≠ c ↔ l = k := by
    clear hreach hred hp hc
    revert c k; decide
  have hset : (Finset.univ.filter (fun i => labels i ≠ c ∧ (raw i && !(reduceIssues labels (fun _ => p) i)) = false)) =
      Finset.univ.filter (fun i => labels i = k ∧ raw i = false) := by
    ext i
    simp only [Finset.mem_filter, Finset.mem_univ, true_and]
    rw [hkc]
    refine and_congr_right fun hi => ?_
    rw [hred i ((hkc _).mpr hi)]
    simp
  rw [hset]
  by_cases hlt : 1 < numGiven labels k
  · exact (hraw c k hk.symm hlt).2.2 (fun i hi => hreach i ((hkc _).mpr hi))
  · refine le_trans (Finset.card_le_card ?_) (not_lt.mp hlt)
    intro i hi
    simp only [Finset.mem_filter, Finset.mem_univ, true_and] at hi ⊢
    exact hi.1

/-- **C183 (partial).** Nothing is flagged if no class is more probable than another by more than the tolerance of the code. -/
theorem C183_flat_partial (A : ArgSort ℚ) [NeZero K] (labels : Fin n → Fin K) (P : Fin n → Fin K → ℚ)
    (h : ∀ i k l, P i k < P i l + 1 / 1000000) (args : Args K)
    (hf : args.filterBy ≠ .lowSelfConfidence ∧ args.filterBy ≠ .lowNormalizedMargin) (mask : Fin n → Bool)
    (hm : findLabelIssues A labels P args = .ok mask) : mask = fun _ => false := by
  obtain ⟨m, -, rfl⟩ := raw_of_findLabelIssues A labels P args hf mask hm
  funext i
  have : reduceIssues labels P i = true := by
    rw [← Bool.not_eq_false]
    intro hr
    obtain ⟨j, _, hj⟩ := reduceIssues_false_iff labels P i hr
    have := h i j (labels i)
    linarith
  rw [this]
  simp

/-- Ten examples, three of the smaller class: a model that always answers 70 % and 30 % has these three flagged. -/
example (A : ArgSort ℚ) : findLabelIssues A (fun i : Fin 10 => if i < 7 then (0 : Fin 2) else 1)
    (fun _ k => if k = 0 then 7 / 10 else 3 / 10) { filterBy := .confidentLearning } = .ok (fun i => decide (7 ≤ i)) := by
  have := C183_not_prior A (fun i : Fin 10 => if i < 7 then (0 : Fin 2) else 1) (fun k => if k = 0 then 7 / 10 else 3 / 10) 0
    (by decide +kernel) ⟨0, by decide +kernel⟩ (by decide +kernel) { filterBy := .confidentLearning } rfl (Or.inl rfl)
  rw [this]
  congr 1
  funext i
  revert i
  decide +kernel

/-! ## C184 -/

/-- The data sets differ in the example `s` only, in its label, its probabilities or both. -/
def DifferAt (s : Fin n) (labels labels' : Fin n → Fin K) (P P' : Fin n → Fin K → ℚ) : Prop :=
  ∀ i, i ≠ s → labels' i = labels i ∧ P' i = P i

theorem DifferAt.symm {s : Fin n} {labels labels' : Fin n → Fin K} {P P' : Fin n → Fin K → ℚ}
    (h : DifferAt s labels labels' P P') : DifferAt s labels' labels P' P := fun i hi => ⟨(h i hi).1.symm, (h i hi).2.symm⟩

/-- Sum and number for the examples labelled `k` other than `s`. -/
def restSum (s : Fin n) (labels : Fin n → Fin K) (P : Fin n → Fin K → ℚ) (k : Fin K) : ℚ :=
  ∑ i ∈ Finset.univ.erase s, if labels i = k then P i k else 0

def restCount (s : Fin n) (labels : Fin n → Fin K) (k : Fin K) : ℚ :=
  ∑ i ∈ Finset.univ.erase s, if labels i = k then 1 else 0

theorem count_split (s : Fin n) (labels : Fin n → Fin K) (k : Fin K) :
    (numGiven labels k : ℚ) = restCount s labels k + if labels s = k then 1 else 0 := by
  unfold numGiven restCount
  rw [Finset.sum_erase_add _ _ (Finset.mem_univ s), Finset.sum_boole]

theorem mean_split (s : Fin n) (labels : Fin n → Fin K) (P : Fin n → Fin K → ℚ) (k : Fin K) :
    meanSelfConfidence labels P k = (restSum s labels P k + if labels s = k then P s k else 0) / numGiven labels k := by
  unfold meanSelfConfidence restSum
  rw [Finset.sum_erase_add _ (fun i => if labels i = k then P i k else 0) (Finset.mem_univ s), Finset.sum_filter]

theorem restCount_congr {s : Fin n} {labels labels' : Fin n → Fin K} {P P' : Fin n → Fin K → ℚ}
    (h : DifferAt s labels labels' P P') (k : Fin K) : restCount s labels' k = restCount s labels k :=
  Finset.sum_congr rfl fun i hi => by rw [(h i (Finset.ne_of_mem_erase hi)).1]

theorem restSum_congr {s : Fin n} {labels labels' : Fin n → Fin K} {P P' : Fin n → Fin K → ℚ}
    (h : DifferAt s labels labels' P P') (k : Fin K) : restSum s labels' P' k = restSum s labels P k :=
  Finset.sum_congr rfl fun i hi => by rw [(h i (Finset.ne_of_mem_erase hi)).1, (h i (Finset.ne_of_mem_erase hi)).2]

theorem restSum_nonneg (s : Fin n) (labels : Fin n → Fin K) (P : Fin n → Fin K → ℚ) (h0 : ∀ i k, 0 ≤ P i k) (k : Fin K) :
    0 ≤ restSum s labels P k := Finset.sum_nonneg fun i _ => by split_ifs <;> [exact h0 i k; exact le_rfl]

theorem restSum_le (s : Fin n) (labels : Fin n → Fin K) (P : Fin n → Fin K → ℚ) (h1 : ∀ i k, P i k ≤ 1) (k : Fin K) :
    restSum s labels P k ≤ restCount s labels k :=
  Finset.sum_le_sum fun i _ => by split_ifs <;> [exact h1 i k; exact le_rfl]

/-- Removing one value from a mean of values in `[0, 1]`. -/
theorem mean_drop_one {S m p : ℚ} (hS : 0 ≤ S) (hSm : S ≤ m) (hm : 0 < m) (hp0 : 0 ≤ p) (hp1 : p ≤ 1) :
    |(S + p) / (m + 1) - S / m| ≤ 1 / (m + 1) := by
  have hm1 : 0 < m + 1 := by linarith
  have e : (S + p) / (m + 1) - S / m = (m * p - S) / m / (m + 1) := by
    field_simp
    ring
  rw [e, abs_div, abs_of_pos hm1]
  apply div_le_div_of_nonneg_right _ hm1.le
  rw [abs_div, abs_of_pos hm, div_le_one hm, abs_le]
  constructor <;> nlinarith

/-- **C184.** The thresholds of classes that `s` is not labelled with do not change. -/
theorem C184_other_thresholds {s : Fin n} {labels labels' : Fin n → Fin K} {P P' : Fin n → Fin K → ℚ}
    (h : DifferAt s labels labels' P P') (k : Fin K) (hk : k ≠ labels s) (hk' : k ≠ labels' s) :
    getConfidentThresholds labels' P' k = getConfidentThresholds labels P k := by
  have hpres : k ∈ List.ofFn labels' ↔ k ∈ List.ofFn labels := by
    rw [mem_ofFn_iff, mem_ofFn_iff]
    constructor
    · rintro ⟨i, hi⟩
      exact ⟨i, by rw [← (h i (fun e => hk' (by rw [← e, hi]))).1, hi]⟩
    · rintro ⟨i, hi⟩
      exact ⟨i, by rw [(h i (fun e => hk (by rw [← e, hi]))).1, hi]⟩
  have hc : numGiven labels' k = numGiven labels k := by
    have h1 := count_split s labels k
    have h2 := count_split s labels' k
    rw [if_neg (Ne.symm hk)] at h1
    rw [if_neg (Ne.symm hk'), restCount_congr h, ← h1] at h2
    exact_mod_cast h2
  have hmean : classMean labels' P' k = classMean labels P k := by
    rw [classMean_eq, classMean_eq, mean_split s, mean_split s, restSum_congr h, hc, if_neg (Ne.symm hk), if_neg (Ne.symm hk')]
  unfold getConfidentThresholds
  rw [hmean, if_congr hpres rfl rfl]

/-- **C184.** The threshold of a class that is given in both data sets changes by at most 1 / (number of its examples), where
the larger of the two numbers counts. -/
theorem C184_thresholds {s : Fin n} {labels labels' : Fin n → Fin K} {P P' : Fin n → Fin K → ℚ}
    (h : DifferAt s labels labels' P P') (h0 : ∀ i k, 0 ≤ P i k) (h1 : ∀ i k, P i k ≤ 1) (h0' : ∀ k, 0 ≤ P' s k)
    (h1' : ∀ k, P' s k ≤ 1) (k : Fin K) (hk : ∃ i, labels i = k) (hk' : ∃ i, labels' i = k) :
    |getConfidentThresholds labels' P' k - getConfidentThresholds labels P k| ≤
      1 / (max (numGiven labels k) (numGiven labels' k) : ℕ) := by
  unfold getConfidentThresholds
  rw [if_pos ((mem_ofFn_iff _ _).mpr hk), if_pos ((mem_ofFn_iff _ _).mpr hk'), classMean_eq, classMean_eq]
  refine le_trans (abs_max_sub_max_le_abs _ _ _) ?_
  have hS := restSum_nonneg s labels P h0 k
  have hSm := restSum_le s labels P h1 k
  have pos : ∀ l : Fin n → Fin K, (∃ i, l i = k) → (0 : ℚ) < numGiven l k := fun l ⟨i, hi⟩ => by
    unfold numGiven
    exact_mod_cast Finset.card_pos.mpr ⟨i, by simpa using hi⟩
  have hp := pos labels hk
  have hp' := pos labels' hk'
  rw [Nat.cast_max, mean_split s labels P, mean_split s labels' P', restSum_congr h]
  have hc := count_split s labels k
  have hc' := count_split s labels' k
  rw [restCount_congr h] at hc'
  by_cases ha : labels s = k <;> by_cases hb : labels' s = k
  · simp only [if_pos ha] at hc ⊢
    simp only [if_pos hb] at hc' ⊢
    rw [hc', ← hc, max_self, ← sub_div, abs_div, abs_of_pos hp]
    apply div_le_div_of_nonneg_right _ hp.le
    rw [abs_le]
    constructor <;> linarith [h0 s k, h1 s k, h0' k, h1' k]
  · simp only [if_pos ha] at hc ⊢
    simp only [if_neg hb, add_zero] at hc' ⊢
    rw [hc'] at hp' ⊢
    rw [hc, max_eq_left (by linarith), abs_sub_comm]
    exact mean_drop_one hS hSm hp' (h0 s k) (h1 s k)
  · simp only [if_neg ha, add_zero] at hc ⊢
    simp only [if_pos hb] at hc' ⊢
    rw [hc] at hp ⊢
    rw [hc', max_eq_right (by linarith)]
    exact mean_drop_one hS hSm hp (h0' k) (h1' k)
  · simp only [if_neg ha, add_zero] at hc ⊢
    simp only [if_neg hb, add_zero] at hc' ⊢
    rw [hc', ← hc, sub_self, abs_zero]
    positivity

theorem reduce_congr [NeZero K] {labels labels' : Fin n → Fin K} {P P' : Fin n → Fin K → ℚ} {i : Fin n}
    (h : labels' i = labels i) (hP : P' i = P i) : reduceIssues labels' P' i = reduceIssues labels P i := by
  unfold reduceIssues
  rw [h, hP]

/-- **C184.** With `predicted_neq_given` the other examples keep their flags. -/
theorem C184_predicted (A : ArgSort ℚ) [NeZero K] {s : Fin n} {labels labels' : Fin n → Fin K} {P P' : Fin n → Fin K → ℚ}
    (h : DifferAt s labels labels' P P') (args : Args K) (hf : args.filterBy = .predictedNeqGiven) (hn : args.numToRemove = none) :
    ∃ mask mask', findLabelIssues A labels P args = .ok mask ∧ findLabelIssues A labels' P' args = .ok mask' ∧
      ∀ i, i ≠ s → mask' i = mask i := by
  obtain ⟨mask, h1, h2⟩ := C07_predicted_neq_given_iff A labels P args hf hn
  obtain ⟨mask', h1', h2'⟩ := C07_predicted_neq_given_iff A labels' P' args hf hn
  refine ⟨mask, mask', h1, h1', fun i hi => ?_⟩
  rw [Bool.eq_iff_iff, h2, h2', (h i hi).1, (h i hi).2]

/-- The probability of `k` for example `i` is so close to the threshold of class `k` that `s` may make a difference. -/
def AtRisk (s : Fin n) (labels labels' : Fin n → Fin K) (P : Fin n → Fin K → ℚ) (i : Fin n) : Prop :=
  ∃ k, (k = labels s ∨ k = labels' s) ∧ k ≠ labels i ∧
    ((¬ ∃ j, labels j = k) ∨ (¬ ∃ j, labels' j = k) ∨
      |P i k + 1 / 1000000 - getConfidentThresholds labels P k| ≤ 1 / (max (numGiven labels k) (numGiven labels' k) : ℕ))

/-- **C184.** With `confident_learning` the other examples keep their flags unless one of their probabilities is close to the
threshold of a class that `s` is labelled with. -/
theorem C184_flags (A : ArgSort ℚ) [NeZero K] {s : Fin n} {labels labels' : Fin n → Fin K} {P P' : Fin n → Fin K → ℚ}
    (h : DifferAt s labels labels' P P') (h0 : ∀ i k, 0 ≤ P i k) (h1 : ∀ i k, P i k ≤ 1) (h0' : ∀ k, 0 ≤ P' s k)
    (h1' : ∀ k, P' s k ≤ 1) (args : Args K) (hf : args.filterBy = .confidentLearning) (hn : args.numToRemove = none) :
    ∃ mask mask', findLabelIssues A labels P args = .ok mask ∧ findLabelIssues A labels' P' args = .ok mask' ∧
      ∀ i, i ≠ s → ¬ AtRisk s labels labels' P i → mask' i = mask i := by
  obtain ⟨mask, hm, hi⟩ := confident_flag_iff A labels P args hf hn
  obtain ⟨mask', hm', hi'⟩ := confident_flag_iff A labels' P' args hf hn
  refine ⟨mask, mask', hm, hm', fun i his hr => ?_⟩
  rw [Bool.eq_iff_iff, hi, hi', reduce_congr (h i his).1 (h i his).2, (h i his).1]
  refine and_congr_right fun _ => exists_congr fun k => and_congr_right fun hk => ?_
  unfold Reaches
  rw [(h i his).2]
  by_cases hs : k = labels s ∨ k = labels' s
  · have hne : ¬ ((¬ ∃ j, labels j = k) ∨ (¬ ∃ j, labels' j = k) ∨
      |P i k + 1 / 1000000 - getConfidentThresholds labels P k| ≤ 1 / (max (numGiven labels k) (numGiven labels' k) : ℕ)) :=
      fun hc => hr ⟨k, hs, hk, hc⟩
    rw [not_or, not_or, not_not, not_not, not_le] at hne
    have hb := C184_thresholds h h0 h1 h0' h1' k hne.1 hne.2.1
    have hlt := lt_of_le_of_lt hb hne.2.2
    rw [abs_le] at hb
    rcases lt_or_ge (P i k + 1 / 1000000) (getConfidentThresholds labels P k) with hx | hx
    · rw [abs_of_neg (by linarith)] at hne
      constructor <;> intro <;> linarith [hne.2.2]
    · rw [abs_of_nonneg (by linarith)] at hne
      constructor <;> intro <;> linarith [hne.2.2]
  · rw [not_or] at hs
    rw [C184_other_thresholds h k hs.1 hs.2]

open Classical in
/-- **C184.** The number of label issues changes by at most 1 plus the number of other examples at risk. -/
theorem C184_number (A : ArgSort ℚ) [NeZero K] {s : Fin n} {labels labels' : Fin n → Fin K} {P P' : Fin n → Fin K → ℚ}
    (h : DifferAt s labels labels' P P') (h0 : ∀ i k, 0 ≤ P i k) (h1 : ∀ i k, P i k ≤ 1) (h0' : ∀ k, 0 ≤ P' s k)
    (h1' : ∀ k, P' s k ≤ 1) :
    ∃ N N' : ℤ, numLabelIssues A labels P none .offDiagonal = .ok N ∧ numLabelIssues A labels' P' none .offDiagonal = .ok N' ∧
      |N' - N| ≤ 1 + (Finset.univ.filter (fun i => i ≠ s ∧ AtRisk s labels labels' P i)).card := by
  obtain ⟨mask, mask', hm, hm', heq⟩ := C184_flags A h h0 h1 h0' h1' { filterBy := .confidentLearning } rfl rfl
  obtain ⟨m, e1, e2⟩ := C06_count_matches_list A labels P { filterBy := .confidentLearning } rfl rfl none
  obtain ⟨m', e1', e2'⟩ := C06_count_matches_list A labels' P' { filterBy := .confidentLearning } rfl rfl none
  rw [hm] at e1
  rw [hm'] at e1'
  rw [← Except.ok.inj e1] at e2
  rw [← Except.ok.inj e1'] at e2'
  refine ⟨_, _, e2, e2', ?_⟩
  have key : ∀ a b : Fin n → Bool, (∀ i, i ≠ s → ¬ AtRisk s labels labels' P i → a i = b i) →
      (Finset.univ.filter (fun i => a i = true)).card ≤ (Finset.univ.filter (fun i => b i = true)).card +
        (1 + (Finset.univ.filter (fun i => i ≠ s ∧ AtRisk s labels labels' P i)).card) := by
    intro a b hab
    refine le_trans (Finset.card_le_card (t := Finset.univ.filter (fun i => b i = true) ∪
      ({s} ∪ Finset.univ.filter (fun i => i ≠ s ∧ AtRisk s labels labels' P i))) ?_) ?_
    · intro i hi
      simp only [Finset.mem_filter, Finset.mem_univ, true_and, Finset.mem_union, Finset.mem_singleton] at hi ⊢
      by_cases h1 : i = s
      · exact Or.inr (Or.inl h1)
      · by_cases h2 : AtRisk s labels labels' P i
        · exact Or.inr (Or.inr ⟨h1, h2⟩)
        · exact Or.inl (by rw [← hab i h1 h2]; exact hi)
    · refine le_trans (Finset.card_union_le _ _) (Nat.add_le_add_left ?_ _)
      refine le_trans (Finset.card_union_le _ _) ?_
      rw [Finset.card_singleton]
  have k1 := key mask' mask heq
  have k2 := key mask mask' (fun i a b => (heq i a b).symm)
  rw [abs_le]
  constructor <;> omega

/-- Six examples of two classes, predicted with probability 9/10 each. If the label of the first is changed, none of the others
is at risk. -/
example : ∀ i : Fin 6, i ≠ 0 → ¬ AtRisk 0 (fun i => if i < 3 then (0 : Fin 2) else 1) (fun i => if i < 3 ∧ i ≠ 0 then (0 : Fin 2) else 1)
    (fun i k => if (i < 3 ↔ k = 0) then 9 / 10 else 1 / 10) i := by
  unfold AtRisk
  decide +kernel

/-- The bound for the threshold is reached: of two examples one changes from 1 to 0. -/
example : getConfidentThresholds (fun _ : Fin 2 => (0 : Fin 2)) (fun _ k => if k = 0 then 1 else 0) 0 -
    getConfidentThresholds (fun _ : Fin 2 => (0 : Fin 2)) (fun i k => if (i = 0 ↔ k = 0) then 1 else 0) 0 = 1 / 2 := by
  decide +kernel

/-! ## C185 -/

/-- **C185.** If the label of an example is flipped which the model predicts with at least average confidence, and whose old
class has other examples, `confident_learning` flags it. -/
theorem C185_confident (A : ArgSort ℚ) [NeZero K] (labels : Fin n → Fin K) (P : Fin n → Fin K → ℚ) (s : Fin n) (z : Fin K)
    (hconf : getConfidentThresholds labels P (labels s) ≤ P s (labels s)) (hz : P s z + 1 / 1000000 < P s (labels s))
    (hother : ∃ i, i ≠ s ∧ labels i = labels s) (args : Args K) (hf : args.filterBy = .confidentLearning)
    (hn : args.numToRemove = none) :
    ∃ mask, findLabelIssues A (Function.update labels s z) P args = .ok mask ∧ mask s = true := by
  obtain ⟨mask, hm, hi⟩ := confident_flag_iff A (Function.update labels s z) P args hf hn
  have hne : labels s ≠ z := fun e => by rw [e] at hz; linarith
  refine ⟨mask, hm, (hi s).mpr ⟨reduceIssues_false _ _ _ ⟨labels s, ?_, ?_⟩, labels s, ?_, ?_⟩⟩
  · rw [Function.update_self]; exact hne
  · rw [Function.update_self]; exact hz
  · rw [Function.update_self]; exact hne
  · have hd : DifferAt s labels (Function.update labels s z) P P := fun i hi => ⟨Function.update_of_ne hi _ _, rfl⟩
    obtain ⟨i, his, hil⟩ := hother
    have hi' : Function.update labels s z i = labels s := by rw [Function.update_of_ne his, hil]
    unfold Reaches getConfidentThresholds
    unfold getConfidentThresholds at hconf
    rw [if_pos ((mem_ofFn_iff _ _).mpr ⟨s, rfl⟩), classMean_eq, mean_split s, if_pos rfl, count_split s, if_pos rfl] at hconf
    rw [if_pos ((mem_ofFn_iff _ _).mpr ⟨i, hi'⟩), classMean_eq, mean_split s, restSum_congr hd]
    have hc := count_split s (Function.update labels s z) (labels s)
    have hpos : (0 : ℚ) < numGiven (Function.update labels s z) (labels s) := by
      unfold numGiven
      exact_mod_cast Finset.card_pos.mpr ⟨i, by simpa using hi'⟩
    rw [restCount_congr hd, Function.update_self, if_neg hne.symm, add_zero] at hc
    rw [Function.update_self, if_neg hne.symm, add_zero, hc]
    rw [hc] at hpos
    have h1 := le_trans (le_max_left _ _) hconf
    have h2 := le_trans (le_max_right _ _) hconf
    rw [div_le_iff₀ (by linarith)] at h1
    apply max_le
    · rw [div_le_iff₀ hpos]
      nlinarith
    · linarith

/-- **C185.** With `predicted_neq_given` it is enough that the model prefers the old label. -/
theorem C185_predicted (A : ArgSort ℚ) [NeZero K] (labels : Fin n → Fin K) (P : Fin n → Fin K → ℚ) (s : Fin n) (z : Fin K)
    (hz : P s z + 1 / 1000000 < P s (labels s)) (args : Args K) (hf : args.filterBy = .predictedNeqGiven)
    (hn : args.numToRemove = none) :
    ∃ mask, findLabelIssues A (Function.update labels s z) P args = .ok mask ∧ mask s = true := by
  obtain ⟨mask, hm, hi⟩ := C07_predicted_neq_given_iff A (Function.update labels s z) P args hf hn
  refine ⟨mask, hm, (hi s).mpr ?_⟩
  rw [← reduceIssues_iff, Bool.not_eq_true]
  have hne : labels s ≠ z := fun e => by rw [e] at hz; linarith
  exact reduceIssues_false _ _ _ ⟨labels s, by rw [Function.update_self]; exact hne, by rw [Function.update_self]; exact hz⟩

/-! ## C186 -/

/-- **C186 fails if nothing else has the new label**: whatever the probabilities, the three pruning filters never flag the only
example of a class. -/
theorem C186_not_alone (A : ArgSort ℚ) [NeZero K] (labels : Fin n → Fin K) (P : Fin n → Fin K → ℚ) (s : Fin n) (z : Fin K)
    (halone : ∀ i, i ≠ s → labels i ≠ z) (args : Args K)
    (hf : args.filterBy = .pruneByNoiseRate ∨ args.filterBy = .pruneByClass ∨ args.filterBy = .both) (mask : Fin n → Bool)
    (hm : findLabelIssues A (Function.update labels s z) P args = .ok mask) : mask s = false := by
  have hs : Function.update labels s z s = z := Function.update_self ..
  have hcount : ¬ 1 < numGiven (Function.update labels s z) z := by
    rw [not_lt]
    unfold numGiven
    rw [Finset.card_le_one]
    have : ∀ i, Function.update labels s z i = z → i = s := fun i hi => by
      by_contra hne
      rw [Function.update_of_ne hne] at hi
      exact halone i hne hi
    intro a ha b hb
    simp only [Finset.mem_filter, Finset.mem_univ, true_and] at ha hb
    rw [this a ha, this b hb]
  obtain ⟨r, hr⟩ := exists_get_of (Function.update labels s z) s z hs
  have hcl : ∀ pcm, maskByClass A (Function.update labels s z) P args.minExamples pcm s = false := fun pcm => by
    rw [← Bool.not_eq_true]
    intro h
    have h2 := maskByClass_get A (Function.update labels s z) P args.minExamples pcm z r
    rw [hr] at h2
    exact hcount (h2.mp h).1
  have hco : ∀ pcm, maskByCount A (Function.update labels s z) P args.minExamples pcm s = false := fun pcm => by
    rw [← Bool.not_eq_true]
    intro h
    have h2 := maskByCount_get A (Function.update labels s z) P args.minExamples pcm z r
    rw [hr] at h2
    exact hcount (h2.mp h).1
  obtain ⟨raw, h1, rfl⟩ := raw_of_findLabelIssues A _ P args (by rcases hf with h | h | h <;> rw [h] <;> decide) mask hm
  have hraw : raw s = false := by
    unfold rawMask at h1
    cases hp : pruneCountMatrix A (Filter.usedJoint A (Function.update labels s z) P args) (Function.update labels s z)
      args.minExamples args.fracNoise args.numToRemove args.nanInt with
    | error e =>
      rcases hf with h | h | h <;> rw [h] at h1 <;> dsimp only at h1 <;> rw [hp] at h1 <;> cases h1
    | ok pcm =>
      rcases hf with h | h | h <;> rw [h] at h1 <;> dsimp only at h1 <;> rw [hp] at h1 <;> rw [← Except.ok.inj h1]
      · exact hco pcm
      · exact hcl pcm
      · show (_ && _) = false
        rw [hcl, Bool.and_false]
  show (raw s && _) = false
  rw [hraw, Bool.false_and]

theorem two_values : ∀ z y k : Fin 2, y ≠ z → k ≠ z → k = y := by decide

/-- **C186 (partial).** With two classes the default filter and `prune_by_class` flag the example if some other example of its
new class is not confused with the old class. -/
theorem C186_two_classes_partial (A : ArgSort ℚ) (labels : Fin n → Fin 2) (P : Fin n → Fin 2 → ℚ) (hP : ∀ i, IsDistribution (P i))
    (s : Fin n) (z : Fin 2) (hconf : getConfidentThresholds labels P (labels s) ≤ P s (labels s))
    (hz : P s z + 1 / 1000000 < P s (labels s)) (hother : ∃ i, i ≠ s ∧ labels i = labels s)
    (hgood : ∃ i, i ≠ s ∧ labels i = z ∧ P i (labels s) ≤ P i z) (f : FilterBy)
    (hf : f = .pruneByNoiseRate ∨ f = .pruneByClass) :
    ∃ mask, findLabelIssues A (Function.update labels s z) P { filterBy := f } = .ok mask ∧ mask s = true := by
  obtain ⟨raw, h1, -, h3⟩ := prune_two (labels := Function.update labels s z) A hP { filterBy := f } hf rfl rfl rfl rfl
  refine ⟨_, h1, ?_⟩
  have hne : labels s ≠ z := fun e => by rw [e] at hz; linarith
  obtain ⟨i, his, hi, hle⟩ := hgood
  have hi' : Function.update labels s z i = z := by rw [Function.update_of_ne his, hi]
  have hs : Function.update labels s z s = z := Function.update_self ..
  have hlt : 1 < numGiven (Function.update labels s z) z := by
    unfold numGiven
    rw [Finset.one_lt_card]
    exact ⟨i, by simpa using hi', s, by simp, his⟩
  obtain ⟨m, hm, hms⟩ := C185_confident A labels P s z hconf hz hother { filterBy := .confidentLearning } rfl rfl
  obtain ⟨m', hm', hmi⟩ := confident_flag_iff A (Function.update labels s z) P { filterBy := .confidentLearning } rfl rfl
  rw [hm] at hm'
  rw [Except.ok.inj hm', hmi, hs] at hms
  obtain ⟨hred, k, hk, hreach⟩ := hms
  have hk' : k = labels s := by
    exact two_values _ _ _ hne hk
  subst hk'
  have hc : ¬ Confused (Function.update labels s z) P (labels s) i := by
    intro hc
    obtain ⟨j, hj, hjl⟩ := reduceIssues_false_iff _ _ _ hc.1
    rw [hi'] at hj hjl
    have hj' : j = labels s := two_values _ _ _ hne hj
    rw [hj'] at hjl
    linarith
  have := (h3 (labels s) z hne hlt).2.1 ⟨i, hi', hc⟩ s hs ⟨hred, hreach⟩
  rw [this, hred]
  rfl

/-- The six examples above: the first is flagged after its label is changed, with `confident_learning` and with the default
filter. -/
example (A : ArgSort ℚ) : ∃ mask, findLabelIssues A (Function.update (fun i : Fin 6 => if i < 3 then (0 : Fin 2) else 1) 0 1)
    (fun i k => if (i < 3 ↔ k = 0) then 9 / 10 else 1 / 10) { filterBy := .confidentLearning } = .ok mask ∧ mask 0 = true :=
  C185_confident A _ _ 0 1 (by decide +kernel) (by decide +kernel) ⟨1, by decide, by decide⟩ _ rfl rfl

example (A : ArgSort ℚ) : ∃ mask, findLabelIssues A (Function.update (fun i : Fin 6 => if i < 3 then (0 : Fin 2) else 1) 0 1)
    (fun i k => if (i < 3 ↔ k = 0) then 9 / 10 else 1 / 10) { filterBy := .pruneByNoiseRate } = .ok mask ∧ mask 0 = true :=
  C186_two_classes_partial A _ _ (by unfold IsDistribution; decide +kernel) 0 1 (by decide +kernel) (by decide +kernel)
    ⟨1, by decide, by decide⟩ ⟨3, by decide, by decide, by decide +kernel⟩ _ (Or.inl rfl)

/-- Three examples of the first class: the third is given the label 1, although the model is certain that it is 0. It is not
flagged by the default filter. -/
example (A : ArgSort ℚ) (mask : Fin 3 → Bool) (hm : findLabelIssues A (Function.update (fun _ => (0 : Fin 2)) 2 1)
    (fun _ k => if k = 0 then 1 else 0) { filterBy := .pruneByNoiseRate } = .ok mask) : mask 2 = false :=
  C186_not_alone A _ _ 2 1 (by decide) _ (Or.inl rfl) mask hm

end Cleanlab.Props
