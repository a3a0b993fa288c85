import Verif.Model.RankReal
import Verif.Lemmas.Filter
import Mathlib.Tactic.FinCases

/-!
# C14, C15, C16, C57: label quality scores
-/

namespace Cleanlab.Props

open Np Cleanlab.Count Cleanlab.Rank Cleanlab.Spec

variable {n K M : ℕ} {F : Type} [Field F] [LinearOrder F] [IsStrictOrderedRing F]

/-! ## C14 -/

theorem isDistribution_le_one {p : Fin K → F} (h : IsDistribution p) (k : Fin K) : p k ≤ 1 := by
  rw [← h.2]
  exact Finset.single_le_sum (f := p) (fun j _ => h.1 j) (Finset.mem_univ k)

/-- **C14**, self-confidence. -/
theorem C14_self_confidence_range (labels : Fin n → Fin K) (P : Fin n → Fin K → F)
    (hP : ∀ i, IsDistribution (P i)) :
    ∃ s, labelQualityScores .selfConfidence labels P = .ok s ∧ ∀ i, s i = P i (labels i) ∧ 0 ≤ s i ∧ s i ≤ 1 :=
  ⟨_, rfl, fun i => ⟨rfl, (hP i).1 _, isDistribution_le_one (hP i) _⟩⟩

/-- **C14**, normalized margin: with at least two classes the scores exist, lie in `[0, 1]`, and a score is
at least `1/2` iff no class is more probable than the given label. -/
theorem C14_normalized_margin_range (hK : 2 ≤ K) (labels : Fin n → Fin K) (P : Fin n → Fin K → F)
    (hP : ∀ i, IsDistribution (P i)) :
    ∃ s, labelQualityScores .normalizedMargin labels P = .ok s ∧
      ∀ i, 0 ≤ s i ∧ s i ≤ 1 ∧ (1 / 2 ≤ s i ↔ ∀ j, P i j ≤ P i (labels i)) := by
  have hex : ∀ i, ∃ m, maxProbNotLabel (P i) (labels i) = some m ∧
      (∃ j, j ≠ labels i ∧ P i j = m) ∧ ∀ j, j ≠ labels i → P i j ≤ m := by
    intro i
    have hne : ((List.finRange K).filter (fun j => j ≠ labels i)).map (P i) ≠ [] := by
      obtain ⟨j, hj⟩ : ∃ j : Fin K, j ≠ labels i := by
        by_cases h0 : labels i = ⟨0, by omega⟩
        · exact ⟨⟨1, by omega⟩, by rw [h0]; simp⟩
        · exact ⟨_, fun h => h0 h.symm⟩
      intro h
      have hm : P i j ∈ ((List.finRange K).filter (fun j => j ≠ labels i)).map (P i) :=
        List.mem_map_of_mem (List.mem_filter.mpr ⟨List.mem_finRange j, by simpa using hj⟩)
      rw [h] at hm
      simp at hm
    obtain ⟨m, hm⟩ := Option.ne_none_iff_exists'.mp (fun h => hne (List.max?_eq_none_iff.mp h))
    have hspec := (List.max?_eq_some_iff (xs := ((List.finRange K).filter (fun j => j ≠ labels i)).map (P i))).mp hm
    refine ⟨m, hm, ?_, ?_⟩
    · obtain ⟨j, hj, hjm⟩ := List.mem_map.mp hspec.1
      exact ⟨j, by simpa using (List.mem_filter.mp hj).2, hjm⟩
    · intro j hj
      exact hspec.2 _ (List.mem_map_of_mem (List.mem_filter.mpr ⟨List.mem_finRange j, by simpa using hj⟩))
  have hall : ∀ i, (normalizedMargin labels P i).isSome := by
    intro i
    obtain ⟨m, hm, _⟩ := hex i
    unfold normalizedMargin
    rw [hm]; rfl
  refine ⟨_, dif_pos hall, ?_⟩
  intro i
  obtain ⟨m, hm, ⟨j, hj, hjm⟩, hmax⟩ := hex i
  have hs : (normalizedMargin labels P i).get (hall i) = (P i (labels i) - m + 1) / 2 := by
    apply Option.get_of_eq_some
    unfold normalizedMargin
    rw [hm]; rfl
  rw [hs]
  have h1 := (hP i).1 (labels i)
  have h2 := isDistribution_le_one (hP i) (labels i)
  have h3 := (hP i).1 j
  have h4 := isDistribution_le_one (hP i) j
  rw [hjm] at h3 h4
  refine ⟨by linarith, by linarith, ?_⟩
  constructor
  · intro h k
    by_cases hk : k = labels i
    · rw [hk]
    · have := hmax k hk
      linarith
  · intro h
    have := h j
    linarith

omit [IsStrictOrderedRing F] in
/-- With a single class the margin does not exist and the call fails. -/
theorem C14_normalized_margin_one_class (labels : Fin n → Fin 1) (P : Fin n → Fin 1 → F) (hn : 0 < n) :
    ∃ e, labelQualityScores .normalizedMargin labels P = .error e := by
  refine ⟨_, dif_neg ?_⟩
  intro h
  have := h ⟨0, hn⟩
  unfold normalizedMargin maxProbNotLabel at this
  have h0 : ((List.finRange 1).filter (fun j => j ≠ labels ⟨0, hn⟩)) = [] := by
    rw [List.filter_eq_nil_iff]
    intro a _
    simp [Subsingleton.elim a (labels ⟨0, hn⟩)]
  rw [h0] at this
  simp at this

/-- **C14**: the normalized entropy itself lies in `[0, 1]`. -/
theorem C14_normalized_entropy_range (hK : 2 ≤ K) (p : Fin K → ℝ) (hp : IsDistribution p) :
    0 ≤ rowEntropy p ∧ rowEntropy p ≤ 1 := by
  have hlog : 0 < Real.log K := Real.log_pos (by exact_mod_cast hK)
  have hterm : ∀ k, -(p k * Real.log (p k)) = Real.negMulLog (p k) := by
    intro k; unfold Real.negMulLog; ring
  have hsum : -(∑ k, p k * Real.log (p k)) = ∑ k, Real.negMulLog (p k) := by
    rw [← Finset.sum_neg_distrib]
    exact Finset.sum_congr rfl (fun k _ => hterm k)
  unfold rowEntropy
  rw [hsum]
  constructor
  · apply div_nonneg _ hlog.le
    exact Finset.sum_nonneg (fun k _ => Real.negMulLog_nonneg (hp.1 k) (isDistribution_le_one hp k))
  · rw [div_le_one hlog]
    have hK0 : (0 : ℝ) < K := by exact_mod_cast (by omega : 0 < K)
    have hj := Real.concaveOn_negMulLog.le_map_sum (t := Finset.univ) (w := fun _ : Fin K => (1 : ℝ) / K)
      (p := p) (fun _ _ => by positivity) (by simp; field_simp) (fun k _ => hp.1 k)
    simp only [smul_eq_mul, ← Finset.mul_sum, hp.2, mul_one] at hj
    have he : Real.negMulLog (1 / K) = 1 / K * Real.log K := by
      unfold Real.negMulLog
      rw [one_div, Real.log_inv]; ring
    rw [he] at hj
    exact le_of_mul_le_mul_left hj (by positivity)

theorem weightedEntropy_range (e c : ℝ) (he : 0 ≤ e) :
    0 ≤ Real.log (e / max c clippingLowerBound + 1) / max (e / max c clippingLowerBound) clippingLowerBound ∧
    Real.log (e / max c clippingLowerBound + 1) / max (e / max c clippingLowerBound) clippingLowerBound ≤ 1 := by
  have hb : 0 < clippingLowerBound := by unfold clippingLowerBound; norm_num
  have hc : 0 < max c clippingLowerBound := lt_max_of_lt_right hb
  set x := e / max c clippingLowerBound with hx
  have hx0 : 0 ≤ x := div_nonneg he hc.le
  have hm : 0 < max x clippingLowerBound := lt_max_of_lt_right hb
  constructor
  · exact div_nonneg (Real.log_nonneg (by linarith)) hm.le
  · rw [div_le_one hm]
    have := Real.log_le_sub_one_of_pos (show 0 < x + 1 by linarith)
    exact le_trans (by linarith) (le_max_left x clippingLowerBound)

/-- **C14**, confidence weighted entropy: with at least two classes the scores exist and lie in `[0, 1]`. -/
theorem C14_confidence_weighted_entropy_range (hK : 2 ≤ K) (labels : Fin n → Fin K) (P : Fin n → Fin K → ℝ)
    (hP : ∀ i, IsDistribution (P i)) :
    ∃ s, confidenceWeightedEntropy labels P = .ok s ∧ ∀ i, 0 ≤ s i ∧ s i ≤ 1 := by
  have hent : normalizedEntropy P = .ok (fun i => rowEntropy (P i)) := by
    unfold normalizedEntropy
    rw [if_neg, if_neg (by omega)]
    rintro ⟨i, k, h | h⟩
    · exact absurd ((hP i).1 k) (not_le.mpr h)
    · exact absurd (isDistribution_le_one (hP i) k) (not_le.mpr h)
  refine ⟨_, by unfold confidenceWeightedEntropy; rw [hent]; rfl, ?_⟩
  intro i
  exact weightedEntropy_range _ _ (C14_normalized_entropy_range hK (P i) (hP i)).1

/-- **C14**, `adjust_pred_probs`: subtracting thresholds turns distributions into distributions, so the score
ranges above also hold with the adjustment. -/
theorem C14_adjusted_is_distribution [NeZero K] (P : Fin n → Fin K → F) (thr : Fin K → F)
    (hP : ∀ i, IsDistribution (P i)) (i : Fin n) :
    IsDistribution (subtractConfidentThresholds P thr i) := by
  have hnn : ∀ k, 0 ≤ P i k - thr k + thr (argmax thr) := by
    intro k
    have := (hP i).1 k
    have := le_argmax thr k
    linarith
  have hge : (1 : F) ≤ ∑ k, (P i k - thr k + thr (argmax thr)) := by
    rw [← (hP i).2]
    apply Finset.sum_le_sum
    intro k _
    have := le_argmax thr k
    linarith
  have hpos : 0 < ∑ k, (P i k - thr k + thr (argmax thr)) := lt_of_lt_of_le one_pos hge
  constructor
  · intro k
    exact div_nonneg (hnn k) hpos.le
  · unfold subtractConfidentThresholds
    simp only
    rw [← Finset.sum_div, div_self hpos.ne']

example : IsDistribution (![1/2, 1/3, 1/6] : Fin 3 → ℚ) := by unfold IsDistribution; decide +kernel

/-! ## C15 -/

/-- **C15.** `find_top_issues` returns `min(top, n)` distinct indices in order of increasing score, and no
omitted example has a lower score than a returned one. -/
theorem C15_top_issues {α : Type} [LinearOrder α] (A : ArgSort α) (scores : Fin n → α) (top : ℕ) :
    (findTopIssues A scores (some top)).length = min top n ∧
    (findTopIssues A scores (some top)).Nodup ∧
    (findTopIssues A scores (some top)).Pairwise (fun i j => scores i ≤ scores j) ∧
    ∀ i ∈ findTopIssues A scores (some top), ∀ j ∉ findTopIssues A scores (some top), scores i ≤ scores j := by
  have h : findTopIssues A scores (some top) = (A.indices scores).take (min top n) := by
    unfold findTopIssues
    simp only
    congr 1
    split_ifs <;> omega
  rw [h]
  refine ⟨by simp, (A.nodup_indices scores).sublist (List.take_sublist _ _),
    (A.pairwise_indices scores).sublist (List.take_sublist _ _), ?_⟩
  intro i hi j hj
  exact take_indices_le A scores _ i j hi hj

/-- **C15**: without `top` every index is returned. -/
theorem C15_all_issues {α : Type} [LinearOrder α] (A : ArgSort α) (scores : Fin n → α) :
    findTopIssues A scores none = findTopIssues A scores (some n) := by
  unfold findTopIssues
  simp

example : findTopIssues (stableSort ℚ) ![3/4, 1/4, 1/2, 1] (some 2) = [1, 2] := by decide +kernel

/-! ## C16 -/

theorem weighted_between (s w : Fin M → ℝ) (hw : ∀ m, 0 ≤ w m) (hsum : ∑ m, w m = 1) :
    ∃ a b, s a ≤ ∑ m, s m * w m ∧ ∑ m, s m * w m ≤ s b := by
  have hne : (Finset.univ : Finset (Fin M)).Nonempty := by
    rw [Finset.nonempty_iff_ne_empty]
    intro h
    rw [h] at hsum
    simp at hsum
  obtain ⟨a, _, ha⟩ := Finset.exists_min_image Finset.univ s hne
  obtain ⟨b, _, hb⟩ := Finset.exists_max_image Finset.univ s hne
  refine ⟨a, b, ?_, ?_⟩
  · calc s a = ∑ m, s a * w m := by rw [← Finset.mul_sum, hsum, mul_one]
      _ ≤ _ := Finset.sum_le_sum (fun m hm => mul_le_mul_of_nonneg_right (ha m hm) (hw m))
  · calc _ ≤ ∑ m, s b * w m := Finset.sum_le_sum (fun m hm => mul_le_mul_of_nonneg_right (hb m hm) (hw m))
      _ = s b := by rw [← Finset.mul_sum, hsum, mul_one]

/-- The inputs accepted by `assert_valid_inputs` without `allow_one_class`: at least two different labels, and
probabilities in `[0, 1]` up to the tolerance. -/
def Accepted (labels : Fin n → Fin K) (P : Fin n → Fin K → ℝ) : Prop :=
  (∃ i j, labels i ≠ labels j) ∧ ∀ i k, -(1 / 10 ^ 6) ≤ P i k ∧ P i k ≤ 1 + 1 / 10 ^ 6

theorem checkReal_iff (allowOne : Bool) (labels : Fin n → Fin K) (P : Fin n → Fin K → ℝ) :
    checkReal allowOne labels P = .ok () ↔ 0 < n ∧ (allowOne = true ∨ ∃ i j, labels i ≠ labels j) ∧
      ∀ i k, -(1 / 10 ^ 6) ≤ P i k ∧ P i k ≤ 1 + 1 / 10 ^ 6 := by
  unfold checkReal
  constructor
  · intro h
    split_ifs at h with h1 h2 h3
    refine ⟨Nat.pos_of_ne_zero h1, ?_, ?_⟩
    · by_contra hc
      push Not at hc
      exact h2 ⟨by simpa using hc.1, hc.2⟩
    · intro i k
      by_contra hc
      exact h3 ⟨i, k, by
        by_contra hd
        push Not at hd
        exact hc hd⟩
  · rintro ⟨h1, h2, h3⟩
    rw [if_neg (by omega), if_neg, if_neg]
    · rintro ⟨i, k, h | h⟩
      · exact absurd (h3 i k).1 (not_le.mpr h)
      · exact absurd (h3 i k).2 (not_le.mpr h)
    · rintro ⟨ha, hb⟩
      rcases h2 with h2 | ⟨i, j, hij⟩
      · rw [h2] at ha; cases ha
      · exact hij (hb i j)

theorem checkReal_accepted (labels : Fin n → Fin K) (P : Fin n → Fin K → ℝ) :
    checkReal false labels P = .ok () ↔ Accepted labels P := by
  rw [checkReal_iff]
  constructor
  · rintro ⟨-, h | h, h'⟩
    · cases h
    · exact ⟨h, h'⟩
  · rintro ⟨⟨i, h⟩, h'⟩
    exact ⟨i.pos, Or.inr ⟨i, h⟩, h'⟩

theorem not_checkReal (labels : Fin n → Fin K) (Ps : Fin M → Fin n → Fin K → ℝ) (hv : ∀ m, Accepted labels (Ps m)) :
    ¬ ∃ m, checkReal false labels (Ps m) ≠ .ok () := by
  rintro ⟨m, h⟩
  exact h ((checkReal_accepted _ _).mpr (hv m))

/-- **C16**, uniform weights. -/
theorem C16_uniform_between [NeZero K] (logLoss : (Fin n → Fin K) → (Fin n → Fin K → ℝ) → ℝ)
    (score : (Fin n → Fin K → ℝ) → Fin n → ℝ) (labels : Fin n → Fin K)
    (Ps : Fin M → Fin n → Fin K → ℝ) (hM : 0 < M) (hv : ∀ m, Accepted labels (Ps m)) :
    ∃ r, ensembleScores logLoss score labels Ps .uniform = .ok r ∧
      ∀ i, ∃ a b, score (Ps a) i ≤ r i ∧ r i ≤ score (Ps b) i := by
  refine ⟨_, by unfold ensembleScores; rw [if_neg (by omega), if_neg (not_checkReal labels Ps hv)], ?_⟩
  intro i
  have hM' : (0 : ℝ) < M := by exact_mod_cast hM
  have h := weighted_between (fun m => score (Ps m) i) (fun _ => 1 / (M : ℝ)) (fun _ => by positivity)
    (by simp; field_simp)
  simp only [mul_one_div, ← Finset.sum_div] at h
  exact h

/-- **C16**, weights by accuracy, provided some model predicts some given label. -/
theorem C16_accuracy_between [NeZero K] (logLoss : (Fin n → Fin K) → (Fin n → Fin K → ℝ) → ℝ)
    (score : (Fin n → Fin K → ℝ) → Fin n → ℝ) (labels : Fin n → Fin K)
    (Ps : Fin M → Fin n → Fin K → ℝ) (hv : ∀ m, Accepted labels (Ps m))
    (hacc : ∃ m i, IsPrediction (Ps m i) (labels i)) :
    ∃ r, ensembleScores logLoss score labels Ps .accuracy = .ok r ∧
      ∀ i, ∃ a b, score (Ps a) i ≤ r i ∧ r i ≤ score (Ps b) i := by
  obtain ⟨m, i, hmi⟩ := hacc
  have hn : 0 < n := i.pos
  have hn' : (0 : ℝ) < n := by exact_mod_cast hn
  have hnn : ∀ m, 0 ≤ accuracy labels (Ps m) := fun m => by unfold accuracy; positivity
  have hpos : 0 < accuracy labels (Ps m) := by
    unfold accuracy
    apply div_pos _ hn'
    rw [Nat.cast_pos, List.countP_pos_iff]
    exact ⟨i, List.mem_finRange i, by simpa using (argmax_eq_iff _ _).mpr hmi⟩
  have hsum : 0 < ∑ m, accuracy labels (Ps m) :=
    Finset.sum_pos' (fun m _ => hnn m) ⟨m, Finset.mem_univ m, hpos⟩
  refine ⟨_, by
    unfold ensembleScores
    rw [if_neg (by have := m.pos; omega), if_neg (not_checkReal labels Ps hv)]
    simp only
    rw [if_neg hsum.ne'], ?_⟩
  intro i
  exact weighted_between (fun m => score (Ps m) i) _ (fun m => div_nonneg (hnn m) hsum.le)
    (by rw [← Finset.sum_div, div_self hsum.ne'])

/-- **C16**: when no model predicts any given label, weighting by accuracy divides by zero and the scores are
not numbers. -/
theorem C16_accuracy_undefined [NeZero K] (logLoss : (Fin n → Fin K) → (Fin n → Fin K → ℝ) → ℝ)
    (score : (Fin n → Fin K → ℝ) → Fin n → ℝ) (labels : Fin n → Fin K)
    (Ps : Fin M → Fin n → Fin K → ℝ) (hM : 0 < M) (hv : ∀ m, Accepted labels (Ps m))
    (hacc : ∀ m i, ¬ IsPrediction (Ps m i) (labels i)) :
    ensembleScores logLoss score labels Ps .accuracy = .error "nan" := by
  unfold ensembleScores
  rw [if_neg (by omega), if_neg (not_checkReal labels Ps hv)]
  simp only
  rw [if_pos]
  apply Finset.sum_eq_zero
  intro m _
  unfold accuracy
  have : (List.finRange n).countP (fun i => decide (argmax (Ps m i) = labels i)) = 0 := by
    rw [List.countP_eq_zero]
    intro i _ h
    exact hacc m i ((argmax_eq_iff _ _).mp (by simpa using h))
  rw [this]
  simp

theorem temperatureWeights_spec (logLoss : (Fin n → Fin K) → (Fin n → Fin K → ℝ) → ℝ)
    (labels : Fin n → Fin K) (Ps : Fin M → Fin n → Fin K → ℝ) (hM : 0 < M) (t : ℝ) :
    (∀ m, 0 ≤ temperatureWeights logLoss labels Ps t m) ∧
      ∑ m, temperatureWeights logLoss labels Ps t m = 1 := by
  have hpos : 0 < ∑ m : Fin M, Real.exp (-t * logLoss labels (clipRows (Ps m))) :=
    Finset.sum_pos (fun m _ => Real.exp_pos _) ⟨⟨0, hM⟩, Finset.mem_univ _⟩
  unfold temperatureWeights
  simp only
  refine ⟨fun m => div_nonneg (Real.exp_pos _).le hpos.le, ?_⟩
  rw [← Finset.sum_div, div_self hpos.ne']

/-- **C16**, weights by log-loss search: for every non-empty list of temperatures, if every class is given to some
example. -/
theorem C16_log_loss_between [NeZero K] (logLoss : (Fin n → Fin K) → (Fin n → Fin K → ℝ) → ℝ)
    (score : (Fin n → Fin K → ℝ) → Fin n → ℝ) (labels : Fin n → Fin K)
    (Ps : Fin M → Fin n → Fin K → ℝ) (hM : 0 < M) (hv : ∀ m, Accepted labels (Ps m))
    (hc : ∀ k, ∃ i, labels i = k) (ts : List ℝ) (hts : ts ≠ []) :
    ∃ r, ensembleScores logLoss score labels Ps (.logLossSearch ts) = .ok r ∧
      ∀ i, ∃ a b, score (Ps a) i ≤ r i ∧ r i ≤ score (Ps b) i := by
  have key : ∀ (l : List ℝ) (s : Option (ℝ × (Fin M → ℝ))), (l ≠ [] ∨ s.isSome) →
      (∀ b w, s = some (b, w) → (∀ m, 0 ≤ w m) ∧ ∑ m, w m = 1) →
      ∃ b w, l.foldl (searchStep logLoss labels Ps) s = some (b, w) ∧ (∀ m, 0 ≤ w m) ∧ ∑ m, w m = 1 := by
    intro l
    induction l with
    | nil =>
      intro s h1 h2
      rcases h1 with h1 | h1
      · exact absurd rfl h1
      · obtain ⟨⟨b, w⟩, hbw⟩ := Option.isSome_iff_exists.mp h1
        exact ⟨b, w, hbw, h2 b w hbw⟩
    | cons t l ih =>
      intro s _ h2
      rw [List.foldl_cons]
      have hw := temperatureWeights_spec logLoss labels Ps hM t
      apply ih
      · right
        unfold searchStep
        cases s with
        | none => rfl
        | some p => simp only; split_ifs <;> rfl
      · intro b w hbw
        unfold searchStep at hbw
        cases s with
        | none =>
          simp only [Option.some.injEq, Prod.mk.injEq] at hbw
          rw [← hbw.2]; exact hw
        | some p =>
          simp only at hbw
          split_ifs at hbw
          · simp only [Option.some.injEq, Prod.mk.injEq] at hbw
            rw [← hbw.2]; exact hw
          · exact h2 b w hbw
  obtain ⟨b, w, h1, h2, h3⟩ := key ts none (Or.inl hts) (by simp)
  refine ⟨fun i => ∑ m, score (Ps m) i * w m, ?_, fun i => weighted_between _ w h2 h3⟩
  have hc' : ¬(ts ≠ [] ∧ ∃ k, ∀ i, labels i ≠ k) := fun ⟨_, k, hk⟩ => (hc k).elim (fun i hi => hk i hi)
  unfold ensembleScores
  rw [if_neg (by omega), if_neg (not_checkReal labels Ps hv)]
  simp only [if_neg hc', h1]

/-- **C16**, log-loss search: if some class is given to no example, the function always raises. -/
theorem C16_log_loss_missing_class [NeZero K] (logLoss : (Fin n → Fin K) → (Fin n → Fin K → ℝ) → ℝ)
    (score : (Fin n → Fin K → ℝ) → Fin n → ℝ) (labels : Fin n → Fin K)
    (Ps : Fin M → Fin n → Fin K → ℝ) (ts : List ℝ) (hc : ∃ k, ∀ i, labels i ≠ k) :
    ∃ e, ensembleScores logLoss score labels Ps (.logLossSearch ts) = .error e := by
  unfold ensembleScores
  by_cases h1 : M = 0
  · rw [if_pos h1]; exact ⟨_, rfl⟩
  rw [if_neg h1]
  by_cases h2 : ∃ m, checkReal false labels (Ps m) ≠ .ok ()
  · rw [if_pos h2]; exact ⟨_, rfl⟩
  rw [if_neg h2]
  dsimp only
  by_cases hts : ts = []
  · subst hts
    rw [if_neg (by simp)]
    exact ⟨_, rfl⟩
  · rw [if_pos ⟨hts, hc⟩]; exact ⟨_, rfl⟩

/-- The loss of the combined predictions for the weights of temperature `t`. -/
noncomputable def temperatureLoss (logLoss : (Fin n → Fin K) → (Fin n → Fin K → ℝ) → ℝ) (labels : Fin n → Fin K)
    (Ps : Fin M → Fin n → Fin K → ℝ) (t : ℝ) : ℝ :=
  logLoss labels (fun i k => ∑ m, temperatureWeights logLoss labels Ps t m * Ps m i k)

/-- **C16**, weights by log-loss search: the weights are those of a temperature in the list whose combined predictions have
the smallest loss, the first such temperature. -/
theorem C16_log_loss_best [NeZero K] (logLoss : (Fin n → Fin K) → (Fin n → Fin K → ℝ) → ℝ)
    (score : (Fin n → Fin K → ℝ) → Fin n → ℝ) (labels : Fin n → Fin K)
    (Ps : Fin M → Fin n → Fin K → ℝ) (hc : ∀ k, ∃ i, labels i = k)
    (ts : List ℝ) (hts : ts ≠ []) :
    ∃ before t after, ts = before ++ t :: after ∧
      (∀ t' ∈ before, temperatureLoss logLoss labels Ps t < temperatureLoss logLoss labels Ps t') ∧
      (∀ t' ∈ after, temperatureLoss logLoss labels Ps t ≤ temperatureLoss logLoss labels Ps t') ∧
      ensembleScores logLoss score labels Ps (.logLossSearch ts) =
        ensembleScores logLoss score labels Ps (.custom (temperatureWeights logLoss labels Ps t)) := by
  have key : ∀ l : List ℝ, l ≠ [] → ∃ before t after, l = before ++ t :: after ∧
      (∀ t' ∈ before, temperatureLoss logLoss labels Ps t < temperatureLoss logLoss labels Ps t') ∧
      (∀ t' ∈ after, temperatureLoss logLoss labels Ps t ≤ temperatureLoss logLoss labels Ps t') ∧
      l.foldl (searchStep logLoss labels Ps) none =
        some (temperatureLoss logLoss labels Ps t, temperatureWeights logLoss labels Ps t) := by
    intro l
    induction l using List.reverseRecOn with
    | nil => intro h; exact absurd rfl h
    | append_singleton l x ih =>
      intro _
      rw [List.foldl_append]
      by_cases hl : l = []
      · subst hl
        exact ⟨[], x, [], rfl, by simp, by simp, rfl⟩
      · obtain ⟨b, t, a, h1, h2, h3, h4⟩ := ih hl
        rw [h4]
        by_cases hx : temperatureLoss logLoss labels Ps t > temperatureLoss logLoss labels Ps x
        · refine ⟨l, x, [], rfl, ?_, by simp, ?_⟩
          · intro t' ht'
            rw [h1, List.mem_append, List.mem_cons] at ht'
            rcases ht' with ht' | rfl | ht'
            · exact lt_trans hx (h2 t' ht')
            · exact hx
            · exact lt_of_lt_of_le hx (h3 t' ht')
          · simp only [List.foldl_cons, List.foldl_nil]
            unfold searchStep
            dsimp only
            exact if_pos hx
        · refine ⟨b, t, a ++ [x], by rw [h1]; simp, h2, ?_, ?_⟩
          · intro t' ht'
            rcases List.mem_append.mp ht' with ht' | ht'
            · exact h3 t' ht'
            · rw [List.mem_singleton.mp ht']
              exact not_lt.mp hx
          · simp only [List.foldl_cons, List.foldl_nil]
            unfold searchStep
            dsimp only
            exact if_neg hx
  obtain ⟨b, t, a, h1, h2, h3, h4⟩ := key ts hts
  refine ⟨b, t, a, h1, h2, h3, ?_⟩
  have hc' : ¬(ts ≠ [] ∧ ∃ k, ∀ i, labels i ≠ k) := fun ⟨_, k, hk⟩ => (hc k).elim (fun i hi => hk i hi)
  unfold ensembleScores
  simp only [if_neg hc', h4]

/-- **C16**: the weights only depend on what the loss says about predictions that are positive distributions. -/
theorem C16_clipped (logLoss logLoss' : (Fin n → Fin K) → (Fin n → Fin K → ℝ) → ℝ) (labels : Fin n → Fin K)
    (Ps : Fin M → Fin n → Fin K → ℝ)
    (h : ∀ Q : Fin n → Fin K → ℝ, (∀ i k, 0 < Q i k) → (∀ i, ∑ k, Q i k = 1) → logLoss labels Q = logLoss' labels Q) (t : ℝ) :
    temperatureWeights logLoss labels Ps t = temperatureWeights logLoss' labels Ps t := by
  have hclip : ∀ m, logLoss labels (clipRows (Ps m)) = logLoss' labels (clipRows (Ps m)) := by
    intro m
    have hp : ∀ i k, 0 < max (Ps m i k) clippingLowerBound := fun i k =>
      lt_of_lt_of_le (by unfold clippingLowerBound; norm_num) (le_max_right _ _)
    have hs : ∀ i, Fin K → 0 < ∑ k', max (Ps m i k') clippingLowerBound := fun i k =>
      Finset.sum_pos (fun k _ => hp i k) ⟨k, Finset.mem_univ k⟩
    refine h _ (fun i k => div_pos (hp i k) (hs i k)) (fun i => ?_)
    unfold clipRows
    rw [← Finset.sum_div, div_self (hs i (labels i)).ne']
  funext m
  unfold temperatureWeights
  simp only [hclip]

/-- **C16 (partial)**, custom weights: they must sum to 1. Missing for the full property: the code does not
normalise the weights, see the refutation below. -/
theorem C16_custom_between_partial [NeZero K] (logLoss : (Fin n → Fin K) → (Fin n → Fin K → ℝ) → ℝ)
    (score : (Fin n → Fin K → ℝ) → Fin n → ℝ) (labels : Fin n → Fin K)
    (Ps : Fin M → Fin n → Fin K → ℝ) (w : Fin M → ℝ) (hv : ∀ m, Accepted labels (Ps m)) (hw : ∀ m, 0 ≤ w m)
    (hsum : ∑ m, w m = 1) :
    ∃ r, ensembleScores logLoss score labels Ps (.custom w) = .ok r ∧
      ∀ i, ∃ a b, score (Ps a) i ≤ r i ∧ r i ≤ score (Ps b) i := by
  have hM : M ≠ 0 := by
    rintro rfl
    simp at hsum
  refine ⟨_, by unfold ensembleScores; rw [if_neg hM, if_neg (not_checkReal labels Ps hv)], ?_⟩
  intro i
  exact weighted_between _ w hw hsum

/-- **C16 (refuted as stated).** Non-negative custom weights with positive sum can give a score outside the
range of the models' scores, and outside the documented `[0, 1]`: one model, weight 2. -/
theorem C16_not_custom_between :
    ¬ ∀ (n K M : ℕ) (_ : NeZero K) (logLoss : (Fin n → Fin K) → (Fin n → Fin K → ℝ) → ℝ)
      (labels : Fin n → Fin K) (Ps : Fin M → Fin n → Fin K → ℝ) (w : Fin M → ℝ) (r : Fin n → ℝ),
      (∀ m i, IsDistribution (Ps m i)) → (∀ m, 0 ≤ w m) → 0 < ∑ m, w m →
      ensembleScores logLoss (fun P i => selfConfidence labels P i) labels Ps (.custom w) = .ok r →
      ∀ i, r i ≤ 1 := by
  intro h
  have hacc : Accepted (n := 2) (K := 2) id (fun i k => if k = i then 1 else 0) :=
    ⟨⟨0, 1, by decide⟩, fun i k => by dsimp only; split_ifs <;> norm_num⟩
  have := h 2 2 1 inferInstance (fun _ _ => 0) id (fun _ i k => if k = i then 1 else 0) (fun _ => 2) (fun _ => 2)
    (by intro m i; exact ⟨fun k => by dsimp only; split_ifs <;> norm_num, by simp⟩) (by simp) (by simp)
    (by
      unfold ensembleScores selfConfidence
      rw [if_neg (by norm_num), if_neg (not_checkReal _ _ (fun _ => hacc))]
      simp) 0
  norm_num at this

example : ∃ (Ps : Fin 2 → Fin 1 → Fin 2 → ℝ) (m : Fin 2) (i : Fin 1), IsPrediction (Ps m i) 1 :=
  ⟨fun _ _ k => k.val, 0, 0, by
    refine ⟨fun j => ?_, fun j hj => ?_⟩ <;> fin_cases j <;> simp at *⟩

/-! ## C57 -/

/-- The entropy of a distribution is 0 exactly for one-hot distributions. -/
theorem rowEntropy_eq_zero_iff (hK : 2 ≤ K) (p : Fin K → ℝ) (hp : IsDistribution p) :
    rowEntropy p = 0 ↔ ∃ k, p k = 1 := by
  have hlog : 0 < Real.log K := Real.log_pos (by exact_mod_cast hK)
  have hsum : -(∑ k, p k * Real.log (p k)) = ∑ k, Real.negMulLog (p k) := by
    rw [← Finset.sum_neg_distrib]
    refine Finset.sum_congr rfl (fun k _ => ?_)
    unfold Real.negMulLog; ring
  unfold rowEntropy
  rw [div_eq_zero_iff, or_iff_left hlog.ne', hsum,
    Finset.sum_eq_zero_iff_of_nonneg (fun k _ => Real.negMulLog_nonneg (hp.1 k) (isDistribution_le_one hp k))]
  constructor
  · intro hz
    by_contra hne
    push Not at hne
    have hz' : ∀ k, p k = 0 := by
      intro k
      have := hz k (Finset.mem_univ k)
      unfold Real.negMulLog at this
      have h2 := hp.1 k
      rcases mul_eq_zero.mp this with h3 | h3
      · linarith
      · rcases Real.log_eq_zero.mp h3 with h4 | h4 | h4
        · exact h4
        · exact absurd h4 (hne k)
        · linarith
    have := hp.2
    simp [hz'] at this
  · rintro ⟨k, hk⟩ j _
    by_cases hjk : j = k
    · rw [hjk, hk]; simp [Real.negMulLog]
    · have : p j = 0 := by
        have h2 := hp.2
        rw [← Finset.add_sum_erase _ _ (Finset.mem_univ k), hk] at h2
        have h3 : ∑ x ∈ Finset.univ.erase k, p x = 0 := by linarith
        exact (Finset.sum_eq_zero_iff_of_nonneg (fun x _ => hp.1 x)).mp h3 j (by simp [hjk])
      rw [this]; simp [Real.negMulLog]

/-- **C57 (partial).** What holds: the score is 0 exactly for predictions without uncertainty (whether or
not they agree with the given label). -/
theorem C57_zero_iff_one_hot_partial (hK : 2 ≤ K) (labels : Fin n → Fin K) (P : Fin n → Fin K → ℝ)
    (hP : ∀ i, IsDistribution (P i)) (s : Fin n → ℝ)
    (h : confidenceWeightedEntropy labels P = .ok s) (i : Fin n) :
    s i = 0 ↔ ∃ k, P i k = 1 := by
  have hent : normalizedEntropy P = .ok (fun i => rowEntropy (P i)) := by
    unfold normalizedEntropy
    rw [if_neg, if_neg (by omega)]
    rintro ⟨i, k, h | h⟩
    · exact absurd ((hP i).1 k) (not_le.mpr h)
    · exact absurd (isDistribution_le_one (hP i) k) (not_le.mpr h)
  unfold confidenceWeightedEntropy at h
  rw [hent] at h
  have hs := congrFun (Except.ok.inj h) i
  simp only at hs
  rw [← hs]
  have hb : 0 < clippingLowerBound := by unfold clippingLowerBound; norm_num
  have hc : 0 < max (selfConfidence labels P i) clippingLowerBound := lt_max_of_lt_right hb
  have he := (C14_normalized_entropy_range hK (P i) (hP i)).1
  have hx0 : 0 ≤ rowEntropy (P i) / max (selfConfidence labels P i) clippingLowerBound := div_nonneg he hc.le
  have hm : max (rowEntropy (P i) / max (selfConfidence labels P i) clippingLowerBound) clippingLowerBound ≠ 0 :=
    (lt_max_of_lt_right hb).ne'
  have hlog : 0 < Real.log K := Real.log_pos (by exact_mod_cast hK)
  rw [div_eq_zero_iff, or_iff_left hm]
  have h1 : Real.log (rowEntropy (P i) / max (selfConfidence labels P i) clippingLowerBound + 1) = 0 ↔
      rowEntropy (P i) = 0 := by
    constructor
    · intro h0
      rcases Real.log_eq_zero.mp h0 with h2 | h2 | h2
      · linarith
      · have : rowEntropy (P i) / max (selfConfidence labels P i) clippingLowerBound = 0 := by linarith
        exact (div_eq_zero_iff.mp this).resolve_right hc.ne'
      · linarith
    · intro h0
      rw [h0]; simp
  rw [h1]
  exact rowEntropy_eq_zero_iff hK (P i) (hP i)

/-- **C57.** The score as documented: with `x` the normalised entropy over the probability of the given label (at least a
millionth), it is `log (1 + x) / x`, the denominator being at least a millionth. -/
theorem C57_formula (hK : 2 ≤ K) (labels : Fin n → Fin K) (P : Fin n → Fin K → ℝ) (hP : ∀ i, IsDistribution (P i)) :
    confidenceWeightedEntropy labels P = .ok (fun i =>
      let x := (-∑ k, P i k * Real.log (P i k)) / Real.log K / max (P i (labels i)) (1 / 1000000)
      Real.log (x + 1) / max x (1 / 1000000)) := by
  unfold confidenceWeightedEntropy
  have h : normalizedEntropy P = .ok (fun i => rowEntropy (P i)) := by
    unfold normalizedEntropy
    rw [if_neg, if_neg (by omega)]
    rintro ⟨i, k, h | h⟩ <;> linarith [(hP i).1 k, isDistribution_le_one (hP i) k]
  simp only [h, bind, Except.bind, pure, Except.pure]
  rfl

/-- **C57 (refuted as stated).** It is not the case that under `confidence_weighted_entropy` an example whose
given label is predicted with probability 1 scores at least as high as one whose label is predicted with a
probability below 1/2: the perfect prediction gets the lowest possible score 0. -/
theorem C57_not_perfect_prediction_scores_best :
    ¬ ∀ (n K : ℕ) (labels : Fin n → Fin K) (P : Fin n → Fin K → ℝ) (s : Fin n → ℝ) (i j : Fin n),
      2 ≤ K → (∀ i, IsDistribution (P i)) → confidenceWeightedEntropy labels P = .ok s →
      P i (labels i) = 1 → P j (labels j) < 1 / 2 → s j ≤ s i := by
  intro h
  have hP : ∀ i, IsDistribution ((![![1, 0], ![1/4, 3/4]] : Fin 2 → Fin 2 → ℝ) i) := by
    intro i
    fin_cases i
    · refine ⟨fun k => ?_, by simp⟩
      fin_cases k <;> simp
    · refine ⟨fun k => ?_, by simp; norm_num⟩
      fin_cases k <;> simp <;> norm_num
  obtain ⟨s, hs, hr⟩ := C14_confidence_weighted_entropy_range le_rfl (fun _ => 0) _ hP
  have h1 := h 2 2 _ _ s 0 1 le_rfl hP hs (by simp) (by simp; norm_num)
  have h0 := (C57_zero_iff_one_hot_partial le_rfl _ _ hP s hs 0).mpr ⟨0, by simp⟩
  have h2 := (C57_zero_iff_one_hot_partial le_rfl _ _ hP s hs 1).mp (le_antisymm (h0 ▸ h1) (hr 1).1)
  obtain ⟨k, hk⟩ := h2
  fin_cases k <;> simp at hk <;> norm_num at hk

end Cleanlab.Props
