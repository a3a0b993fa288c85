import Verif.Model.Outre
import Verif.Props.Outlier
import Verif.Lemmas.Count
import Mathlib.Tactic.FinCases

/-!
# C104: OUTRE label quality scores; C105: Datalab's label check for regression
-/

namespace Cleanlab.Props

open Np Cleanlab.Outlier Cleanlab.Regression

variable {n : ℕ}

theorem sortOn_id_congr (A : ArgSort ℝ) (l l' : List ℝ) (h : l.Perm l') : sortOn A id l = sortOn A id l' :=
  (((sortOn_perm A id l).trans h).trans (sortOn_perm A id l').symm).eq_of_pairwise
    (fun _ _ _ _ h1 h2 => le_antisymm h1 h2) (sortOn_sorted A id l) (sortOn_sorted A id l')

theorem npMedian_congr (A : ArgSort ℝ) (l l' : List ℝ) (h : l.Perm l') : npMedian A l = npMedian A l' := by
  unfold npMedian
  rw [sortOn_id_congr A l l' h, h.length_eq]

theorem ofFn_perm {α : Type} (f : Fin n → α) (σ : Equiv.Perm (Fin n)) :
    (List.ofFn (fun i => f (σ i))).Perm (List.ofFn f) := by
  simpa [Function.comp_def] using Equiv.Perm.ofFn_comp_perm σ f

theorem mean_perm (x : Fin n → ℝ) (σ : Equiv.Perm (Fin n)) : mean (fun i => x (σ i)) = mean x := by
  unfold mean
  rw [Equiv.sum_comp σ x]

theorem standardize_perm (x : Fin n → ℝ) (σ : Equiv.Perm (Fin n)) (i : Fin n) :
    standardize (fun j => x (σ j)) i = standardize x (σ i) := by
  unfold standardize std
  rw [mean_perm, Equiv.sum_comp σ (fun j => (x j - mean x) ^ 2)]

theorem outreDist_perm (y p : Fin n → ℝ) (σ : Equiv.Perm (Fin n)) (i j : Fin n) :
    outreDist (fun r => y (σ r)) (fun r => p (σ r)) i j = outreDist y p (σ i) (σ j) := by
  unfold outreDist
  rw [standardize_perm, standardize_perm, standardize_perm (fun r => p r - y r), standardize_perm (fun r => p r - y r)]

theorem outreAvg_perm (A : ArgSort ℝ) (y p : Fin n → ℝ) (σ : Equiv.Perm (Fin n)) (i : Fin n) :
    outreAvg A (fun r => y (σ r)) (fun r => p (σ r)) i = outreAvg A y p (σ i) := by
  have h : outreNearest A (fun r => y (σ r)) (fun r => p (σ r)) i = outreNearest A y p (σ i) := by
    unfold outreNearest
    congr 1
    apply sortOn_id_congr
    have : outreDist (fun r => y (σ r)) (fun r => p (σ r)) i = fun j => outreDist y p (σ i) (σ j) := by
      funext j; exact outreDist_perm y p σ i j
    rw [this]
    exact ofFn_perm (outreDist y p (σ i)) σ
  unfold outreAvg
  rw [h]

theorem outreDist_nonneg (y p : Fin n → ℝ) (i j : Fin n) : 0 ≤ outreDist y p i j := Real.sqrt_nonneg _

theorem outreAvg_nonneg (A : ArgSort ℝ) (y p : Fin n → ℝ) (i : Fin n) : 0 ≤ outreAvg A y p i := by
  apply div_nonneg _ (Nat.cast_nonneg _)
  apply List.sum_nonneg
  intro x hx
  have := (mem_sortOn A id _ x).mp (List.mem_of_mem_take hx)
  obtain ⟨j, rfl⟩ := (List.mem_ofFn' _ _).mp this
  exact outreDist_nonneg y p i j

/-- **C104**: with two or more examples there is one score per example, between 0 and 1 (and never 0); one example is
refused. -/
theorem C104_range (A : ArgSort ℝ) (y p : Fin n → ℝ) :
    (2 ≤ n → ∃ s, outreScores A y p = .ok s) ∧ (n = 1 → ∃ e, outreScores A y p = .error e) ∧
      ∀ s, outreScores A y p = .ok s → ∀ i, 0 < s i ∧ s i ≤ 1 := by
  refine ⟨fun h => ?_, fun h => ?_, fun s hs i => ?_⟩
  · unfold outreScores
    rw [if_neg (by unfold outreNeighbors; omega)]
    have hm := npMedian_isSome A (List.ofFn (outreAvg A y p)) (by
      intro h0
      have := congrArg List.length h0
      rw [List.length_ofFn, List.length_nil] at this
      omega)
    obtain ⟨m, hm⟩ := Option.isSome_iff_exists.mp hm
    rw [hm]
    exact ⟨_, rfl⟩
  · unfold outreScores
    rw [if_pos (by unfold outreNeighbors; omega)]
    exact ⟨_, rfl⟩
  · unfold outreScores at hs
    split_ifs at hs
    split at hs
    · cases hs
    · cases hs
      exact (C38_score_antitone .euclidean 1 _ zero_le_one).1 _ (outreAvg_nonneg A y p i)

/-- **C104**: the scores do not depend on the order of the examples. -/
theorem C104_order (A : ArgSort ℝ) (y p : Fin n → ℝ) (σ : Equiv.Perm (Fin n)) (s : Fin n → ℝ)
    (h : outreScores A y p = .ok s) :
    outreScores A (fun i => y (σ i)) (fun i => p (σ i)) = .ok (fun i => s (σ i)) := by
  unfold outreScores at h ⊢
  split_ifs at h ⊢
  have hm : npMedian A (List.ofFn (outreAvg A (fun i => y (σ i)) (fun i => p (σ i)))) =
      npMedian A (List.ofFn (outreAvg A y p)) := by
    apply npMedian_congr
    have : outreAvg A (fun i => y (σ i)) (fun i => p (σ i)) = fun i => outreAvg A y p (σ i) := by
      funext i; exact outreAvg_perm A y p σ i
    rw [this]
    exact ofFn_perm (outreAvg A y p) σ
  rw [hm]
  split at h
  · cases h
  · cases h
    congr 1
    funext i
    rw [outreAvg_perm]

/-- **C104**: examples with the same label and the same prediction have the same score. -/
theorem C104_same (A : ArgSort ℝ) (y p : Fin n → ℝ) (s : Fin n → ℝ) (h : outreScores A y p = .ok s) (i j : Fin n)
    (hy : y i = y j) (hp : p i = p j) : s i = s j := by
  have hd : outreDist y p i = outreDist y p j := by
    funext r
    unfold outreDist standardize
    simp only
    rw [hy, hp]
  have ha : outreAvg A y p i = outreAvg A y p j := by
    unfold outreAvg outreNearest
    rw [hd]
  unfold outreScores at h
  split_ifs at h
  split at h
  · cases h
  · cases h
    simp only [ha]

theorem mean_add (x : Fin n → ℝ) (c : ℝ) (hn : 0 < n) : mean (fun i => x i + c) = mean x + c := by
  unfold mean
  rw [Finset.sum_add_distrib]
  simp only [Finset.sum_const, Finset.card_univ, Fintype.card_fin, nsmul_eq_mul]
  have : (n : ℝ) ≠ 0 := by exact_mod_cast hn.ne'
  field_simp

theorem standardize_add (x : Fin n → ℝ) (c : ℝ) (i : Fin n) :
    standardize (fun j => x j + c) i = standardize x i := by
  have hn : 0 < n := lt_of_le_of_lt (Nat.zero_le _) i.isLt
  unfold standardize std
  rw [mean_add x c hn]
  simp

/-- **C104**: a constant added to all the predictions does not change the scores: the score does not say how far a label
is from its prediction, only how unusual its residual is. -/
theorem C104_shift (A : ArgSort ℝ) (y p : Fin n → ℝ) (c : ℝ) :
    outreScores A y (fun i => p i + c) = outreScores A y p := by
  have hd : ∀ i j, outreDist y (fun i => p i + c) i j = outreDist y p i j := by
    intro i j
    have : (fun r => p r + c - y r) = fun r => (fun r => p r - y r) r + c := by funext r; ring
    unfold outreDist
    simp only [this]
    rw [standardize_add (fun r => p r - y r), standardize_add (fun r => p r - y r)]
  have ha : outreAvg A y (fun i => p i + c) = outreAvg A y p := by
    funext i
    unfold outreAvg outreNearest
    rw [show outreDist y (fun i => p i + c) i = outreDist y p i from funext (hd i)]
  unfold outreScores
  rw [ha]

/-- Non-vacuity: four examples are scored. -/
example (A : ArgSort ℝ) : ∃ s, outreScores A (![1, 2, 3, 4] : Fin 4 → ℝ) ![2, 2, 5, 4.1] = .ok s :=
  (C104_range A _ _).1 (by norm_num)

theorem take_eq_zero (s : List ℝ) (hs : s.Pairwise (fun a b => a ≤ b)) (h0 : ∀ x ∈ s, 0 ≤ x) (k : ℕ)
    (hk : k ≤ s.countP (fun x => decide (x = 0))) : ∀ x ∈ s.take k, x = 0 := by
  intro x hx
  obtain ⟨i, hi, rfl⟩ := List.mem_iff_getElem.mp hx
  rw [List.length_take] at hi
  rw [List.getElem_take]
  by_contra hne
  have hpos : 0 < s[i]'(by omega) := lt_of_le_of_ne (h0 _ (List.getElem_mem _)) (Ne.symm hne)
  have hle := countP_le_of_drop s (fun x => decide (x = 0)) i (fun z hz => by
    have := (sorted_split s hs i (by omega)).2 z hz
    simp only [decide_eq_false_iff_not]
    intro hz0
    rw [hz0] at this
    linarith)
  omega

theorem tolerance_euclidean : 0 < Real.sqrt (100 * floatEps) ∧ Real.sqrt (100 * floatEps) < 1 / 2 := by
  unfold floatEps
  constructor
  · apply Real.sqrt_pos.mpr; norm_num
  · rw [Real.sqrt_lt' (by norm_num)]; norm_num

theorem score_of_avg_zero (A : ArgSort ℝ) (y p : Fin n → ℝ) (s : Fin n → ℝ) (h : outreScores A y p = .ok s) (i : Fin n)
    (ha : outreAvg A y p i = 0) : s i = 1 := by
  unfold outreScores at h
  split_ifs at h
  split at h
  · cases h
  · cases h
    simp only [ha]
    unfold correctPrecision tolerance
    simp only
    rw [if_pos tolerance_euclidean.1]

/-- **C104**: as soon as half of the examples have the same label and the same prediction, each of them gets the perfect
score 1, however wrong the prediction is. -/
theorem C104_half (A : ArgSort ℝ) (y p : Fin n → ℝ) (s : Fin n → ℝ) (h : outreScores A y p = .ok s) (i : Fin n)
    (hi : n ≤ 2 * (Finset.univ.filter (fun j => y j = y i ∧ p j = p i)).card) : s i = 1 := by
  apply score_of_avg_zero A y p s h i
  have hz : ∀ x ∈ outreNearest A y p i, x = 0 := by
    apply take_eq_zero
    · exact sortOn_sorted A id _
    · intro x hx
      obtain ⟨j, rfl⟩ := (List.mem_ofFn' _ _).mp ((mem_sortOn A id _ x).mp hx)
      exact outreDist_nonneg y p i j
    · rw [(sortOn_perm A id _).countP_eq, List.ofFn_eq_map, List.countP_map, Np.countP_finRange]
      have hsub : (Finset.univ.filter (fun j => y j = y i ∧ p j = p i)).card ≤
          (Finset.univ.filter (fun j => ((fun x => decide (x = 0)) ∘ outreDist y p i) j = true)).card := by
        apply Finset.card_le_card
        intro j hj
        rw [Finset.mem_filter] at hj ⊢
        refine ⟨Finset.mem_univ _, ?_⟩
        simp only [Function.comp_apply, decide_eq_true_eq]
        unfold outreDist standardize
        simp only
        rw [hj.2.1, hj.2.2]
        simp
      unfold outreNeighbors
      omega
  unfold outreAvg
  rw [List.sum_eq_zero hz, zero_div]

/-- **C104** fails for two examples: both get the perfect score 1, whatever the labels and the predictions. -/
theorem C104_not_two (A : ArgSort ℝ) (y p : Fin 2 → ℝ) : ∃ s, outreScores A y p = .ok s ∧ ∀ i, s i = 1 := by
  obtain ⟨s, hs⟩ := (C104_range A y p).1 le_rfl
  refine ⟨s, hs, fun i => C104_half A y p s hs i ?_⟩
  have : 0 < (Finset.univ.filter (fun j => y j = y i ∧ p j = p i)).card :=
    Finset.card_pos.mpr ⟨i, by simp⟩
  omega

theorem score_of_avg_large (A : ArgSort ℝ) (y p : Fin n → ℝ) (s : Fin n → ℝ) (h : outreScores A y p = .ok s) (i : Fin n)
    (ha : 1 / 2 ≤ outreAvg A y p i) : s i < 1 := by
  unfold outreScores at h
  split_ifs at h
  split at h
  · cases h
  · cases h
    unfold correctPrecision tolerance
    simp only
    rw [if_neg (by have := tolerance_euclidean.2; linarith)]
    unfold transformScore
    rw [Real.exp_lt_one_iff]
    apply div_neg_of_neg_of_pos (by linarith)
    exact lt_max_of_lt_right (by norm_num)

theorem far_example (j : Fin 4) (hj : j ≠ 3) : 1 ≤ outreDist (fun _ => 0) (![5, 5, 5, 0] : Fin 4 → ℝ) 3 j := by
  have hm : mean (fun r => (![5, 5, 5, 0] : Fin 4 → ℝ) r - 0) = 15 / 4 := by
    unfold mean; simp [Fin.sum_univ_four]; norm_num
  have hs : std (fun r => (![5, 5, 5, 0] : Fin 4 → ℝ) r - 0) ≤ 3 := by
    unfold std
    rw [hm, Real.sqrt_le_left (by norm_num)]
    simp [Fin.sum_univ_four]; norm_num
  have hs0 : 0 ≤ std (fun r => (![5, 5, 5, 0] : Fin 4 → ℝ) r - 0) := Real.sqrt_nonneg _
  have ht : 0 < tiny ∧ tiny ≤ 1 := by unfold tiny; constructor <;> norm_num
  have h5 : (![5, 5, 5, 0] : Fin 4 → ℝ) j = 5 := by
    fin_cases j <;> first | rfl | exact absurd rfl hj
  unfold outreDist
  rw [Real.one_le_sqrt]
  have h1 : (standardize (fun _ : Fin 4 => (0 : ℝ)) 3 - standardize (fun _ : Fin 4 => (0 : ℝ)) j) ^ 2 = 0 := by
    unfold standardize; simp
  rw [h1, zero_add]
  unfold standardize
  rw [hm]
  beta_reduce
  rw [h5]
  have h3 : (![5, 5, 5, 0] : Fin 4 → ℝ) 3 = 0 := rfl
  rw [h3]
  have hd : 0 < std (fun r => (![5, 5, 5, 0] : Fin 4 → ℝ) r - 0) + tiny := by linarith [ht.1]
  have hd4 : std (fun r => (![5, 5, 5, 0] : Fin 4 → ℝ) r - 0) + tiny ≤ 4 := by linarith [ht.2]
  generalize std (fun r => (![5, 5, 5, 0] : Fin 4 → ℝ) r - 0) + tiny = d at *
  have : (5 * ((0 - 0 - 15 / 4) / d) - 5 * ((5 - 0 - 15 / 4) / d)) ^ 2 = 625 / d ^ 2 := by
    field_simp; norm_num
  rw [this, le_div_iff₀ (by positivity)]
  nlinarith

/-- **C104** fails for the natural reading of the score: a label that equals its prediction is scored below labels that
are 5 away from theirs. -/
theorem C104_not_residual (A : ArgSort ℝ) : ∃ (y p s : Fin 4 → ℝ) (i j : Fin 4), outreScores A y p = .ok s ∧
    p i = y i ∧ p j = y j + 5 ∧ s j = 1 ∧ s i < s j := by
  obtain ⟨s, hs⟩ := (C104_range A (fun _ : Fin 4 => (0 : ℝ)) ![5, 5, 5, 0]).1 (by norm_num)
  have h0 : s 0 = 1 := by
    apply C104_half A _ _ s hs 0
    have : ({0, 1, 2} : Finset (Fin 4)) ⊆
        Finset.univ.filter (fun j => (0 : ℝ) = 0 ∧ (![5, 5, 5, 0] : Fin 4 → ℝ) j = (![5, 5, 5, 0] : Fin 4 → ℝ) 0) := by
      intro j hj
      fin_cases hj <;> simp
    have := Finset.card_le_card this
    have h3 : ({0, 1, 2} : Finset (Fin 4)).card = 3 := by decide
    omega
  have h3 : s 3 < 1 := by
    apply score_of_avg_large A _ _ s hs 3
    have hlen : (outreNearest A (fun _ : Fin 4 => (0 : ℝ)) ![5, 5, 5, 0] 3).length = 2 := by
      unfold outreNearest outreNeighbors
      rw [List.length_take, length_sortOn, List.length_ofFn]
      rfl
    unfold outreAvg
    rw [hlen]
    have hsum : 1 ≤ (outreNearest A (fun _ : Fin 4 => (0 : ℝ)) ![5, 5, 5, 0] 3).sum := by
      have hc : (outreNearest A (fun _ : Fin 4 => (0 : ℝ)) ![5, 5, 5, 0] 3).countP (fun x => decide (x < 1)) ≤ 1 := by
        unfold outreNearest
        refine (List.Sublist.countP_le (List.take_sublist _ _)).trans ?_
        rw [(sortOn_perm A id _).countP_eq, List.ofFn_eq_map, List.countP_map, Np.countP_finRange]
        have : (Finset.univ.filter (fun j => ((fun x : ℝ => decide (x < 1)) ∘
            outreDist (fun _ : Fin 4 => (0 : ℝ)) ![5, 5, 5, 0] 3) j = true)) ⊆ {3} := by
          intro j hj
          rw [Finset.mem_filter] at hj
          rw [Finset.mem_singleton]
          by_contra hne
          have h1 := far_example j hne
          simp only [Function.comp_apply, decide_eq_true_eq] at hj
          linarith [hj.2]
        simpa using Finset.card_le_card this
      obtain ⟨x, hx, hx1⟩ : ∃ x ∈ outreNearest A (fun _ : Fin 4 => (0 : ℝ)) ![5, 5, 5, 0] 3, 1 ≤ x := by
        by_contra hno
        push Not at hno
        have : (outreNearest A (fun _ : Fin 4 => (0 : ℝ)) ![5, 5, 5, 0] 3).countP (fun x => decide (x < 1)) =
            (outreNearest A (fun _ : Fin 4 => (0 : ℝ)) ![5, 5, 5, 0] 3).length :=
          List.countP_eq_length.mpr (fun x hx => by simpa using hno x hx)
        omega
      refine hx1.trans (List.single_le_sum ?_ x hx)
      intro z hz
      obtain ⟨j, rfl⟩ := (List.mem_ofFn' _ _).mp ((mem_sortOn A id _ z).mp (List.mem_of_mem_take hz))
      exact outreDist_nonneg _ _ _ j
    push_cast
    linarith
  exact ⟨fun _ => 0, ![5, 5, 5, 0], s, 3, 0, hs, rfl, by simp, h0, by rw [h0]; exact h3⟩

/-- The share of the examples that can be flagged. -/
theorem flagged_le_half (A : ArgSort ℝ) (s : Fin n → ℝ) (m threshold : ℝ) (hm : npMedian A (List.ofFn s) = some m)
    (h0 : ∀ i, 0 ≤ s i) (ht : threshold ≤ 1) :
    2 * (Finset.univ.filter (fun i => s i < m * threshold)).card ≤ n := by
  have hmed := (npMedian_isMedian A _ m hm).1
  rw [List.length_ofFn, List.ofFn_eq_map, List.countP_map, Np.countP_finRange] at hmed
  refine le_trans (Nat.mul_le_mul_left 2 (Finset.card_le_card ?_)) hmed
  intro i hi
  rw [Finset.mem_filter] at hi ⊢
  refine ⟨Finset.mem_univ _, ?_⟩
  simp only [Function.comp_apply, decide_eq_true_eq]
  rcases le_or_gt 0 m with h | h
  · exact lt_of_lt_of_le hi.2 (mul_le_of_le_one_right h ht)
  · exfalso
    have hall : List.countP ((fun x => decide (m < x)) ) (List.ofFn s) = n := by
      rw [List.countP_eq_length.mpr, List.length_ofFn]
      intro x hx
      obtain ⟨j, rfl⟩ := (List.mem_ofFn' _ _).mp hx
      simpa using lt_of_lt_of_le h (h0 j)
    have h2 := (npMedian_isMedian A _ m hm).2
    rw [hall, List.length_ofFn] at h2
    have : 0 < n := lt_of_le_of_lt (Nat.zero_le _) i.isLt
    omega

theorem bind_checkSummary (r : Except String (CheckResult n)) (q : CheckResult n) (h : r.bind checkSummary = .ok q) :
    r = .ok q ∧ 0 ≤ q.summary ∧ q.summary ≤ 1 := by
  cases r with
  | error e => cases h
  | ok a =>
    change checkSummary a = .ok q at h
    unfold checkSummary at h
    split_ifs at h with hc
    cases h
    exact ⟨rfl, hc⟩

theorem withPredictions_ok (A : ArgSort ℝ) (score : (Fin n → ℝ) → (Fin n → ℝ) → Except String (Fin n → ℝ))
    (y p : Fin n → ℝ) (threshold : ℝ) (q : CheckResult n) (h : withPredictions A score y p threshold = .ok q) :
    score y p = .ok q.scores ∧ q.given = y ∧ q.predicted = p ∧ q.summary = mean q.scores ∧
      ∃ m, npMedian A (List.ofFn q.scores) = some m ∧ ∀ i, q.flags i = true ↔ q.scores i < m * threshold := by
  unfold withPredictions at h
  split at h
  · cases h
  · rename_i s hs
    split at h
    · cases h
    · rename_i m hm
      cases h
      exact ⟨hs, rfl, rfl, rfl, m, hm, fun i => by simp⟩

/-- **C105**: with predictions (and no custom model) the scores are those of `get_label_quality_scores`, whatever
features are passed as well; the flagged examples are those whose score is below the threshold times the median score; the
reported labels and predictions are the given ones, and the summary is the mean score. -/
theorem C105_predictions {X : Type} (A : ArgSort ℝ)
    (score : (Fin n → ℝ) → (Fin n → ℝ) → Except String (Fin n → ℝ))
    (fromFeatures : X → (Fin n → ℝ) → Except String (CheckResult n)) (threshold : ℝ) (features : Option X)
    (p y : Fin n → ℝ) (q : CheckResult n)
    (h : labelCheck A score fromFeatures false threshold features (some p) y = .ok q) :
    score y p = .ok q.scores ∧ q.given = y ∧ q.predicted = p ∧ q.summary = (∑ i, q.scores i) / n ∧
      ∃ m, IsMedian (List.ofFn q.scores) m ∧ ∀ i, q.flags i = true ↔ q.scores i < m * threshold := by
  have hw : (withPredictions A score y p threshold).bind checkSummary = .ok q := by
    cases features <;> exact h
  obtain ⟨h1, h2, h3, h4, m, hm, hf⟩ := withPredictions_ok A score y p threshold q (bind_checkSummary _ q hw).1
  exact ⟨h1, h2, h3, h4, m, npMedian_isMedian A _ m hm, hf⟩

/-- **C105**: for scores between 0 and 1 the check never fails. -/
theorem C105_succeeds {X : Type} (A : ArgSort ℝ)
    (score : (Fin n → ℝ) → (Fin n → ℝ) → Except String (Fin n → ℝ))
    (fromFeatures : X → (Fin n → ℝ) → Except String (CheckResult n)) (threshold : ℝ) (features : Option X)
    (p y s : Fin n → ℝ) (hn : 0 < n) (hs : score y p = .ok s) (h01 : ∀ i, 0 ≤ s i ∧ s i ≤ 1) :
    ∃ q, labelCheck A score fromFeatures false threshold features (some p) y = .ok q ∧ q.scores = s := by
  obtain ⟨m, hm⟩ := Option.isSome_iff_exists.mp (npMedian_isSome A (List.ofFn s) (by
    intro h0
    have := congrArg List.length h0
    rw [List.length_ofFn, List.length_nil] at this
    omega))
  have hmean : 0 ≤ mean s ∧ mean s ≤ 1 := by
    unfold mean
    have hn' : (0 : ℝ) < n := by exact_mod_cast hn
    refine ⟨div_nonneg (Finset.sum_nonneg fun i _ => (h01 i).1) hn'.le, ?_⟩
    rw [div_le_one hn']
    calc ∑ i, s i ≤ ∑ _i : Fin n, (1 : ℝ) := Finset.sum_le_sum fun i _ => (h01 i).2
      _ = n := by simp
  have hw : ∃ q, (withPredictions A score y p threshold).bind checkSummary = .ok q ∧ q.scores = s := by
    unfold withPredictions
    rw [hs]
    simp only
    rw [hm]
    simp only [Except.bind, checkSummary]
    rw [if_pos hmean]
    exact ⟨_, rfl, rfl⟩
  cases features <;> exact hw

/-- **C105**: for a threshold up to 1 at most half of the examples are flagged, a larger threshold never flags fewer, and
an example that is scored no better than a flagged one is flagged too. -/
theorem C105_flags {X : Type} (A : ArgSort ℝ)
    (score : (Fin n → ℝ) → (Fin n → ℝ) → Except String (Fin n → ℝ))
    (fromFeatures : X → (Fin n → ℝ) → Except String (CheckResult n)) (t t' : ℝ) (features : Option X)
    (p y : Fin n → ℝ) (q q' : CheckResult n) (h01 : ∀ s, score y p = .ok s → ∀ i, 0 ≤ s i ∧ s i ≤ 1)
    (h : labelCheck A score fromFeatures false t features (some p) y = .ok q)
    (h' : labelCheck A score fromFeatures false t' features (some p) y = .ok q') :
    (t ≤ 1 → 2 * (Finset.univ.filter (fun i => q.flags i = true)).card ≤ n) ∧
      (t ≤ t' → ∀ i, q.flags i = true → q'.flags i = true) ∧
      (∀ i j, q.flags i = true → q.scores j ≤ q.scores i → q.flags j = true) ∧
      (t ≤ 0 → ∀ i, q.flags i = false) := by
  have hw : ∀ t q, labelCheck A score fromFeatures false t features (some p) y = .ok q →
      withPredictions A score y p t = .ok q := by
    intro t q h
    have : (withPredictions A score y p t).bind checkSummary = .ok q := by cases features <;> exact h
    exact (bind_checkSummary _ q this).1
  obtain ⟨h1, -, -, -, m, hm, hf⟩ := withPredictions_ok A score y p t q (hw t q h)
  obtain ⟨h1', -, -, -, m', hm', hf'⟩ := withPredictions_ok A score y p t' q' (hw t' q' h')
  have hss : q.scores = q'.scores := by rw [h1] at h1'; exact Except.ok.inj h1'
  have hmm : m = m' := by rw [hss, hm'] at hm; exact (Option.some.inj hm).symm
  have h0 : ∀ i, 0 ≤ q.scores i := fun i => (h01 _ h1 i).1
  have hm0 : 0 < n → 0 ≤ m := by
    intro hn
    by_contra hneg
    push Not at hneg
    have h2 := (npMedian_isMedian A _ m hm).2
    have hall : List.countP (fun x => decide (m < x)) (List.ofFn q.scores) = n := by
      rw [List.countP_eq_length.mpr, List.length_ofFn]
      intro x hx
      obtain ⟨j, rfl⟩ := (List.mem_ofFn' _ _).mp hx
      simpa using lt_of_lt_of_le hneg (h0 j)
    rw [hall, List.length_ofFn] at h2
    omega
  refine ⟨fun ht => ?_, fun ht i hi => ?_, fun i j hi hj => ?_, fun ht i => ?_⟩
  · simp only [hf]
    exact flagged_le_half A q.scores m t hm h0 ht
  · rw [hf] at hi
    rw [hf', ← hss, ← hmm]
    refine lt_of_lt_of_le hi (mul_le_mul_of_nonneg_left ht (hm0 (lt_of_le_of_lt (Nat.zero_le _) i.isLt)))
  · rw [hf] at hi ⊢
    exact lt_of_le_of_lt hj hi
  · rw [Bool.eq_false_iff, ne_eq, hf]
    have := hm0 (lt_of_le_of_lt (Nat.zero_le _) i.isLt)
    have h2 : m * t ≤ 0 := mul_nonpos_of_nonneg_of_nonpos this ht
    intro hlt
    linarith [h0 i]

/-- **C105**: with features and a custom model, or without predictions, the result is that of
`CleanLearning.find_label_issues` (and does not depend on predictions or the threshold, as documented); without either
input, or with a custom model and no features, the check raises. -/
theorem C105_features {X : Type} (A : ArgSort ℝ)
    (score : (Fin n → ℝ) → (Fin n → ℝ) → Except String (Fin n → ℝ))
    (fromFeatures : X → (Fin n → ℝ) → Except String (CheckResult n)) (threshold : ℝ) (x : X)
    (predictions : Option (Fin n → ℝ)) (custom : Bool) (y : Fin n → ℝ) :
    (custom = true ∨ predictions = none → ∀ q, labelCheck A score fromFeatures custom threshold (some x) predictions y = .ok q →
      fromFeatures x y = .ok q) ∧
    (∃ e, labelCheck A score fromFeatures custom threshold none none y = .error e) ∧
    ∃ e, labelCheck A score fromFeatures true threshold none predictions y = .error e := by
  refine ⟨fun h q hq => ?_, ⟨_, rfl⟩, ?_⟩
  · have : (fromFeatures x y).bind checkSummary = .ok q := by
      cases predictions with
      | none => exact hq
      | some p =>
        rcases h with h | h
        · subst h; exact hq
        · cases h
    exact (bind_checkSummary _ q this).1
  · cases predictions with
    | none => exact ⟨_, rfl⟩
    | some p => exact ⟨_, rfl⟩

/-- Non-vacuity: the check succeeds with OUTRE scores. -/
example (A : ArgSort ℝ) : ∃ q, labelCheck (X := Unit) A (outreScores A) (fun _ _ => .error "") false 0.05 none
    (some ![2, 2, 5, 4.1]) (![1, 2, 3, 4] : Fin 4 → ℝ) = .ok q := by
  obtain ⟨s, hs⟩ := (C104_range A (![1, 2, 3, 4] : Fin 4 → ℝ) ![2, 2, 5, 4.1]).1 (by norm_num)
  obtain ⟨q, hq, -⟩ := C105_succeeds (X := Unit) A (outreScores A) (fun _ _ => .error "") 0.05 none ![2, 2, 5, 4.1] _ s
    (by norm_num) hs (fun i => ⟨((C104_range A _ _).2.2 s hs i).1.le, ((C104_range A _ _).2.2 s hs i).2⟩)
  exact ⟨q, hq⟩

end Cleanlab.Props
