import Verif.Model.OutlierCheck
import Verif.Props.Outlier
import Verif.Lemmas.Count
import Mathlib.Tactic.FinCases
import Mathlib.Tactic.NormNum

/-!
# C87: which examples the outlier check flags
-/

namespace Cleanlab.Props

open Np Cleanlab.Outlier Cleanlab.OutlierCheck Cleanlab.Count

variable {n : ℕ}

/-- The parts of a successful check. -/
theorem checkDistances_ok (A : ArgSort ℝ) (t : ℝ) (sc : Option ℝ) (m : Option Metric) (avg : Fin n → ℝ)
    (thr : Option ℝ) (r : Result n) (h : checkDistances A t sc m avg thr = .ok r) :
    ∃ scale, chosen thr = .ok r.threshold ∧ issueThreshold A avg r.threshold = .ok r.cutoff ∧
      r.flags = above avg r.cutoff ∧ scalingFactor A avg sc = .ok scale ∧
      r.scores = fun i => featureScore (m.getD .other) t scale (avg i) := by
  unfold checkDistances fromDistances at h
  cases h1 : chosen thr with
  | error e => rw [h1] at h; cases h
  | ok v =>
    rw [h1] at h
    dsimp only [bind, Except.bind, pure, Except.pure] at h
    cases h2 : issueThreshold A avg v with
    | error e => rw [h2] at h; cases h
    | ok c =>
      rw [h2] at h
      dsimp only at h
      cases h3 : scalingFactor A avg sc with
      | error e => rw [h3] at h; cases h
      | ok s =>
        rw [h3] at h
        cases h
        refine ⟨s, rfl, h2, rfl, rfl, ?_⟩
        cases m <;> rfl

theorem issueThreshold_ok (A : ArgSort ℝ) (avg : Fin n → ℝ) (v : ℝ) (c : Option ℝ) (h : issueThreshold A avg v = .ok c) :
    ∃ q1 q3, percentile A (1 / 4) (List.ofFn avg) = some q1 ∧ percentile A (3 / 4) (List.ofFn avg) = some q3 ∧
      (v = 0 → c = none) ∧ (v ≠ 0 → c = some (q3 + (1 / v - 1) * (q3 - q1))) := by
  unfold issueThreshold at h
  cases h3 : percentile A (3 / 4) (List.ofFn avg) with
  | none => rw [h3] at h; cases h
  | some q3 =>
    cases h1 : percentile A (1 / 4) (List.ofFn avg) with
    | none => rw [h3, h1] at h; cases h
    | some q1 =>
      rw [h3, h1] at h
      refine ⟨q1, q3, rfl, rfl, fun hv => ?_, fun hv => ?_⟩
      · simp only [if_pos hv] at h; cases h; rfl
      · simp only [if_neg hv] at h; cases h; rfl

theorem chosen_ok (thr : Option ℝ) (v : ℝ) (h : chosen thr = .ok v) :
    v = thr.getD (37037 / 100000) ∧ 0 ≤ v ∧ v ≤ 1 := by
  cases thr with
  | none => cases h; unfold defaultFeatures; refine ⟨rfl, by norm_num, by norm_num⟩
  | some t =>
    unfold chosen at h
    simp only at h
    by_cases hc : t ≠ 0 ∧ ¬(0 ≤ t ∧ t ≤ 1)
    · rw [if_pos hc] at h; cases h
    · rw [if_neg hc] at h
      cases h
      refine ⟨rfl, ?_⟩
      by_cases h0 : v = 0
      · subst h0; norm_num
      · by_contra h1; exact hc ⟨h0, h1⟩

/-- **C87**, the rule: with quartiles `q1` and `q3` of the average distances and threshold `v ≠ 0` (0.37037 unless given), an
example is flagged exactly if its average distance exceeds `q3 + (1/v - 1) (q3 - q1)`. -/
theorem C87_rule (A : ArgSort ℝ) (t : ℝ) (sc : Option ℝ) (m : Option Metric) (avg : Fin n → ℝ) (thr : Option ℝ)
    (r : Result n) (h : checkDistances A t sc m avg thr = .ok r) :
    r.threshold = thr.getD (37037 / 100000) ∧
    ∃ q1 q3, percentile A (1 / 4) (List.ofFn avg) = some q1 ∧ percentile A (3 / 4) (List.ofFn avg) = some q3 ∧ q1 ≤ q3 ∧
      (thr = some 0 → ∀ i, r.flags i = false) ∧
      (thr ≠ some 0 → r.cutoff = some (q3 + (1 / thr.getD (37037 / 100000) - 1) * (q3 - q1)) ∧
        ∀ i, r.flags i = true ↔ q3 + (1 / thr.getD (37037 / 100000) - 1) * (q3 - q1) < avg i) := by
  obtain ⟨s, h1, h2, h3, -, -⟩ := checkDistances_ok A t sc m avg thr r h
  obtain ⟨hv, -, -⟩ := chosen_ok _ _ h1
  obtain ⟨q1, q3, e1, e3, hz, hnz⟩ := issueThreshold_ok A avg _ _ h2
  refine ⟨hv, q1, q3, e1, e3, percentile_mono A _ _ _ (by norm_num) (by norm_num) (by norm_num) _ _ e1 e3, ?_, ?_⟩
  · rintro rfl i
    rw [h3, hz hv]
    rfl
  · intro hne
    have hr : r.threshold ≠ 0 := by
      rw [hv]
      cases thr with
      | none => norm_num
      | some x => intro hx; exact hne (congrArg some hx)
    rw [← hv, hnz hr]
    refine ⟨rfl, fun i => ?_⟩
    rw [h3, hnz hr]
    simp [above]

/-- The cut-off is not below the upper quartile. -/
theorem quartile_le_cutoff (A : ArgSort ℝ) (t : ℝ) (sc : Option ℝ) (m : Option Metric) (avg : Fin n → ℝ) (thr : Option ℝ)
    (r : Result n) (h : checkDistances A t sc m avg thr = .ok r) (i : Fin n) (hi : r.flags i = true) :
    ∃ q3, percentile A (3 / 4) (List.ofFn avg) = some q3 ∧ q3 < avg i := by
  obtain ⟨hv, q1, q3, e1, e3, hle, hz, hnz⟩ := C87_rule A t sc m avg thr r h
  obtain ⟨s, h1, -⟩ := checkDistances_ok A t sc m avg thr r h
  obtain ⟨-, h0, h1'⟩ := chosen_ok _ _ h1
  by_cases hthr : thr = some 0
  · rw [hz hthr i] at hi; cases hi
  · have := ((hnz hthr).2 i).mp hi
    refine ⟨q3, e3, ?_⟩
    rw [← hv] at this
    have hpos : 0 < r.threshold := by
      refine lt_of_le_of_ne h0 (fun h => hthr ?_)
      rw [hv] at h
      cases thr with
      | none => norm_num at h
      | some x => exact congrArg some h.symm
    have h6 : 1 ≤ 1 / r.threshold := by rw [le_div_iff₀ hpos]; linarith
    nlinarith [mul_nonneg (sub_nonneg.mpr h6) (sub_nonneg.mpr hle)]

/-- **C87**: at most about a quarter of the examples is flagged, whatever the distances and the threshold. -/
theorem C87_at_most_quarter (A : ArgSort ℝ) (t : ℝ) (sc : Option ℝ) (m : Option Metric) (avg : Fin n → ℝ)
    (thr : Option ℝ) (r : Result n) (h : checkDistances A t sc m avg thr = .ok r) :
    4 * (Finset.univ.filter (fun i => r.flags i = true)).card ≤ n + 2 := by
  classical
  obtain ⟨-, q1, q3, e1, e3, -⟩ := C87_rule A t sc m avg thr r h
  have hne : List.ofFn avg ≠ [] := by
    intro h0
    rw [h0] at e3
    have : (sortOn A id ([] : List ℝ)) = [] := List.length_eq_zero_iff.mp (by rw [length_sortOn]; rfl)
    simp [percentile, this] at e3
  have hn : 0 < n := by
    rcases Nat.eq_zero_or_pos n with h0 | h0
    · subst h0; simp at hne
    · exact h0
  have hc := percentile_above A (3 / 4) (List.ofFn avg) hne (by norm_num) (by norm_num) q3 e3
  have hsub : (Finset.univ.filter (fun i => r.flags i = true)).card ≤
      (List.ofFn avg).countP (fun x => decide (q3 < x)) := by
    rw [List.ofFn_eq_map, List.countP_map, countP_finRange]
    apply Finset.card_le_card
    intro i hi
    rw [Finset.mem_filter] at hi ⊢
    obtain ⟨q, hq, hlt⟩ := quartile_le_cutoff A t sc m avg thr r h i hi.2
    rw [e3] at hq
    cases hq
    simpa using hlt
  rw [List.length_ofFn] at hc
  have hfl : ((3 * (n - 1) / 4 : ℕ) : ℤ) ≤ ⌊percentilePos n (3 / 4)⌋ := by
    rw [Int.le_floor]
    unfold percentilePos
    have h1 : 4 * (3 * (n - 1) / 4) ≤ 3 * (n - 1) := Nat.mul_div_le _ _
    have h2 : ((4 * (3 * (n - 1) / 4) : ℕ) : ℚ) ≤ ((3 * (n - 1) : ℕ) : ℚ) := by exact_mod_cast h1
    have h3 : ((n - 1 : ℕ) : ℚ) = (n : ℚ) - 1 := by rw [Nat.cast_sub hn]; simp
    rw [Nat.cast_mul, Nat.cast_mul, h3] at h2
    rw [Int.cast_natCast]
    push_cast at h2
    linarith
  omega

/-- **C87**: every flagged example has a score at most that of every unflagged one, and scores lie in `(0, 1]`. -/
theorem C87_flags_follow_scores (A : ArgSort ℝ) (t : ℝ) (ht : 0 ≤ t) (sc : Option ℝ) (m : Option Metric) (avg : Fin n → ℝ)
    (havg : ∀ i, 0 ≤ avg i) (thr : Option ℝ) (r : Result n) (h : checkDistances A t sc m avg thr = .ok r) :
    (∀ i, 0 < r.scores i ∧ r.scores i ≤ 1) ∧
      ∀ i j, r.flags i = true → r.flags j = false → avg j < avg i ∧ r.scores i ≤ r.scores j := by
  obtain ⟨s, h1, h2, h3, h4, h5⟩ := checkDistances_ok A t sc m avg thr r h
  have hs := C38_score_antitone (m.getD .other) t s ht
  rw [h5]
  refine ⟨fun i => hs.1 _ (havg i), fun i j hi hj => ?_⟩
  rw [h3] at hi hj
  unfold above at hi hj
  cases hc : r.cutoff with
  | none => rw [hc] at hi; cases hi
  | some c =>
    rw [hc] at hi hj
    simp only [decide_eq_true_eq, decide_eq_false_iff_not, not_lt] at hi hj
    have hlt : avg j < avg i := lt_of_le_of_lt hj hi
    exact ⟨hlt, hs.2 _ _ (havg j) hlt.le⟩

/-- **C87**: a larger threshold flags at least the same examples. -/
theorem C87_monotone (A : ArgSort ℝ) (t : ℝ) (sc : Option ℝ) (m : Option Metric) (avg : Fin n → ℝ) (v w : ℝ)
    (hvw : v ≤ w) (r r' : Result n) (h : checkDistances A t sc m avg (some v) = .ok r)
    (h' : checkDistances A t sc m avg (some w) = .ok r') (i : Fin n) (hi : r.flags i = true) : r'.flags i = true := by
  obtain ⟨-, q1, q3, e1, e3, hle, hz, hnz⟩ := C87_rule A t sc m avg _ r h
  obtain ⟨-, q1', q3', e1', e3', -, hz', hnz'⟩ := C87_rule A t sc m avg _ r' h'
  obtain ⟨s, h1, -⟩ := checkDistances_ok A t sc m avg _ r h
  obtain ⟨hv, h0, -⟩ := chosen_ok _ _ h1
  rw [e1] at e1'; rw [e3] at e3'
  cases e1'; cases e3'
  by_cases hv0 : v = 0
  · rw [hz (by rw [hv0]) i] at hi; cases hi
  · have hvp : 0 < v := lt_of_le_of_ne (by rw [hv] at h0; exact h0) (Ne.symm hv0)
    have hw0 : w ≠ 0 := (lt_of_lt_of_le hvp hvw).ne'
    have := ((hnz (by simpa using hv0)).2 i).mp hi
    rw [(hnz' (by simpa using hw0)).2 i]
    simp only [Option.getD_some] at this ⊢
    have h6 : 1 / w ≤ 1 / v := one_div_le_one_div_of_le hvp hvw
    nlinarith [mul_le_mul_of_nonneg_right h6 (sub_nonneg.mpr hle)]

/-- **C87**: equal distances give no outliers. -/
theorem C87_equal_distances (A : ArgSort ℝ) (t : ℝ) (sc : Option ℝ) (m : Option Metric) (avg : Fin n → ℝ)
    (thr : Option ℝ) (r : Result n) (h : checkDistances A t sc m avg thr = .ok r) (c : ℝ) (hc : ∀ i, avg i = c) (i : Fin n) :
    r.flags i = false := by
  by_contra hf
  obtain ⟨q3, e3, hlt⟩ := quartile_le_cutoff A t sc m avg thr r h i (by simpa using hf)
  rw [percentile_const A (3 / 4) _ (by
    intro h0
    have := congrArg List.length h0
    rw [List.length_ofFn] at this
    exact absurd i.2 (by simp at this; omega)) (by norm_num) (by norm_num) c (by
    intro x hx
    obtain ⟨j, rfl⟩ := (List.mem_ofFn' _ _).mp hx
    exact hc j)] at e3
  cases e3
  rw [hc i] at hlt
  exact lt_irrefl _ hlt

/-- **C87**: multiplying all distances by a positive constant does not change the flags. -/
theorem C87_scale (A : ArgSort ℝ) (t t' : ℝ) (sc sc' : Option ℝ) (m m' : Option Metric) (avg : Fin n → ℝ) (c : ℝ)
    (hc : 0 < c) (thr : Option ℝ) (r r' : Result n) (h : checkDistances A t sc m avg thr = .ok r)
    (h' : checkDistances A t' sc' m' (fun i => c * avg i) thr = .ok r') : r'.flags = r.flags := by
  obtain ⟨-, q1, q3, e1, e3, -, hz, hnz⟩ := C87_rule A t sc m avg thr r h
  obtain ⟨-, q1', q3', e1', e3', -, hz', hnz'⟩ := C87_rule A t' sc' m' _ thr r' h'
  have hmap : List.ofFn (fun i => c * avg i) = (List.ofFn avg).map (fun x => c * x) := by
    rw [List.map_ofFn]; rfl
  rw [hmap, percentile_scale A _ _ c hc.le, e1] at e1'
  rw [hmap, percentile_scale A _ _ c hc.le, e3] at e3'
  simp only [Option.map_some, Option.some.injEq] at e1' e3'
  funext i
  by_cases hthr : thr = some 0
  · rw [hz hthr i, hz' hthr i]
  · rw [Bool.eq_iff_iff, (hnz hthr).2 i, (hnz' hthr).2 i, ← e1', ← e3']
    have : c * q3 + (1 / thr.getD (37037 / 100000) - 1) * (c * q3 - c * q1) =
        c * (q3 + (1 / thr.getD (37037 / 100000) - 1) * (q3 - q1)) := by ring
    rw [this, mul_lt_mul_iff_right₀ hc]

/-- **C87**: thresholds outside `[0, 1]` are refused; with at least one example all others are accepted. -/
theorem C87_refused (A : ArgSort ℝ) (t : ℝ) (sc : Option ℝ) (m : Option Metric) (avg : Fin n → ℝ) (thr : Option ℝ)
    (hn : 0 < n) : (∃ r, checkDistances A t sc m avg thr = .ok r) ↔ ∀ v, thr = some v → 0 ≤ v ∧ v ≤ 1 := by
  constructor
  · rintro ⟨r, h⟩ v rfl
    obtain ⟨s, h1, -⟩ := checkDistances_ok A t sc m avg _ r h
    obtain ⟨hv, h0, h1'⟩ := chosen_ok _ _ h1
    rw [hv] at h0 h1'
    exact ⟨h0, h1'⟩
  · intro hthr
    have hne : List.ofFn avg ≠ [] := by
      intro h0
      have := congrArg List.length h0
      simp at this
      omega
    have h1 : chosen thr = .ok (thr.getD defaultFeatures) := by
      cases thr with
      | none => rfl
      | some v =>
        unfold chosen
        simp only
        rw [if_neg (fun h => h.2 (hthr v rfl))]
        rfl
    obtain ⟨_, _, e1⟩ := percentile_eq A (1 / 4) (List.ofFn avg) hne (by norm_num) (by norm_num)
    obtain ⟨_, _, e3⟩ := percentile_eq A (3 / 4) (List.ofFn avg) hne (by norm_num) (by norm_num)
    have h2 : ∃ c, issueThreshold A avg (thr.getD defaultFeatures) = .ok c := by
      unfold issueThreshold
      rw [e1, e3]
      simp only
      by_cases h0 : thr.getD defaultFeatures = 0
      · rw [if_pos h0]; exact ⟨_, rfl⟩
      · rw [if_neg h0]; exact ⟨_, rfl⟩
    have h3 : ∃ s, scalingFactor A avg sc = .ok s := by
      unfold scalingFactor
      cases sc with
      | some s => exact ⟨s, rfl⟩
      | none =>
        obtain ⟨md, hmd⟩ := Option.isSome_iff_exists.mp (npMedian_isSome A _ hne)
        rw [hmd]
        exact ⟨_, rfl⟩
    obtain ⟨c, h2⟩ := h2
    obtain ⟨s, h3⟩ := h3
    unfold checkDistances fromDistances
    rw [h1]
    dsimp only [bind, Except.bind, pure, Except.pure]
    rw [h2]
    dsimp only
    rw [h3]
    exact ⟨_, rfl⟩

/-- **C87**, without features: an example is flagged exactly if its score is below the threshold (0.13 unless given) times
the median score; a negative threshold is refused; with a threshold of at most 1 and non-negative scores at most half of the
examples is flagged, and a score of at least the median is never flagged. -/
theorem C87_pred_probs (A : ArgSort ℝ) (scores : Fin n → ℝ) (thr : Option ℝ) :
    (∀ v, thr = some v → v < 0 → ∃ e, checkPredProbs A scores thr = .error e) ∧
    ∀ r, checkPredProbs A scores thr = .ok r → r.threshold = thr.getD (13 / 100) ∧ 0 ≤ r.threshold ∧ r.scores = scores ∧
      ∃ md, npMedian A (List.ofFn scores) = some md ∧ IsMedian (List.ofFn scores) md ∧
        r.cutoff = some (thr.getD (13 / 100) * md) ∧
        (∀ i, r.flags i = true ↔ scores i < thr.getD (13 / 100) * md) ∧
        ((∀ i, 0 ≤ scores i) → r.threshold ≤ 1 →
          (∀ i, md ≤ scores i → r.flags i = false) ∧
          2 * (Finset.univ.filter (fun i => r.flags i = true)).card ≤ n) := by
  classical
  constructor
  · rintro v rfl hv
    exact ⟨_, by unfold checkPredProbs; simp [hv]; rfl⟩
  · intro r h
    unfold checkPredProbs at h
    simp only at h
    by_cases h0 : thr.getD defaultPredProbs < 0
    · rw [if_pos h0] at h; cases h
    rw [if_neg h0] at h
    cases hm : npMedian A (List.ofFn scores) with
    | none => rw [hm] at h; cases h
    | some md =>
      rw [hm] at h
      cases h
      have hmed := npMedian_isMedian A _ _ hm
      have hfl : ∀ i, below scores (thr.getD defaultPredProbs * md) i = true ↔ scores i < thr.getD (13 / 100) * md := by
        intro i
        unfold below defaultPredProbs
        exact decide_eq_true_iff
      refine ⟨rfl, not_lt.mp h0, rfl, md, rfl, hmed, rfl, hfl, fun hs ht => ?_⟩
      have hmd : ∀ i, below scores (thr.getD defaultPredProbs * md) i = true → scores i < md := by
        intro i hi
        have h1 := (hfl i).mp hi
        have h2 : 0 ≤ thr.getD (13 / 100) := not_lt.mp h0
        have h3 : thr.getD (13 / 100) ≤ 1 := ht
        have h4 : 0 < md := by
          by_contra h5
          have := mul_nonpos_of_nonneg_of_nonpos h2 (not_lt.mp h5)
          linarith [hs i]
        nlinarith
      refine ⟨fun i hi => ?_, ?_⟩
      · by_contra hf
        exact absurd (hmd i (by simpa using hf)) (not_lt.mpr hi)
      · refine le_trans (Nat.mul_le_mul_left 2 ?_) (by simpa using hmed.1)
        rw [List.ofFn_eq_map, List.countP_map, countP_finRange]
        apply Finset.card_le_card
        intro i hi
        rw [Finset.mem_filter] at hi ⊢
        exact ⟨hi.1, by simpa using hmd i hi.2⟩

/-- Five examples, the last far away: accepted, and only the last is flagged. -/
example (A : ArgSort ℝ) : ∃ r, checkDistances A 1 none (some .euclidean) (![1, 2, 1, 2, 9] : Fin 5 → ℝ) none = .ok r ∧
    r.flags = ![false, false, false, false, true] := by
  obtain ⟨r, hr⟩ := (C87_refused A 1 none (some .euclidean) (![1, 2, 1, 2, 9] : Fin 5 → ℝ) none (by norm_num)).mpr
    (fun _ h => by cases h)
  refine ⟨r, hr, ?_⟩
  obtain ⟨-, q1, q3, e1, e3, -, -, hf⟩ := C87_rule A 1 none _ _ none r hr
  have hl : List.ofFn (![1, 2, 1, 2, 9] : Fin 5 → ℝ) = [1, 2, 1, 2, 9] := by simp [List.ofFn_succ]
  have hs : sortOn A id ([1, 2, 1, 2, 9] : List ℝ) = [1, 1, 2, 2, 9] := by
    have h2 : (sortOn A id ([1, 2, 1, 2, 9] : List ℝ)).Pairwise (fun x y => x ≤ y) := sortOn_sorted A id _
    refine List.Perm.eq_of_pairwise' h2 (by norm_num) ((sortOn_perm A id _).trans ?_)
    exact List.Perm.cons _ (List.Perm.swap _ _ _)
  rw [hl] at e1 e3
  have f1 : ⌊(((5 : ℕ) : ℚ) - 1) * (1 / 4)⌋ = 1 := by norm_num
  have f3 : ⌊(((5 : ℕ) : ℚ) - 1) * (3 / 4)⌋ = 3 := by norm_num
  simp only [percentile, hs, List.length_cons, List.length_nil, zero_add, Nat.reduceAdd, f1, f3] at e1 e3
  norm_num at e1 e3
  have e3 : q3 = 2 := by rw [← e3]; rfl
  subst e1 e3
  have hf := (hf (by simp)).2
  have key : ∀ i, r.flags i = (![false, false, false, false, true] : Fin 5 → Bool) i := by
    intro i
    rw [Bool.eq_iff_iff, hf i]
    fin_cases i <;> norm_num
  exact funext key

end Cleanlab.Props
