import Verif.Props.OutlierCheck
import Verif.Props.Duplicate
import Verif.Props.DatalabChecks
import Verif.Props.NonIid
import Verif.Props.Spurious
import Verif.Model.DataValuation

/-!
# C148: raising the threshold of a check only adds issues
-/

namespace Cleanlab.Props

open Np Cleanlab.Checks

/-- **C148**, outliers among features: see also `C87_monotone`. The scores do not depend on the threshold. -/
theorem C148_outliers {n : ℕ} (A : ArgSort ℝ) (t : ℝ) (sc : Option ℝ) (m : Option Outlier.Metric) (avg : Fin n → ℝ) (v w : ℝ)
    (hvw : v ≤ w) (r r' : OutlierCheck.Result n) (h : OutlierCheck.checkDistances A t sc m avg (some v) = .ok r)
    (h' : OutlierCheck.checkDistances A t sc m avg (some w) = .ok r') :
    r.scores = r'.scores ∧ ∀ i, r.flags i = true → r'.flags i = true := by
  refine ⟨?_, fun i hi => C87_monotone A t sc m avg v w hvw r r' h h' i hi⟩
  obtain ⟨s, -, -, -, h4, h5⟩ := checkDistances_ok A t sc m avg _ r h
  obtain ⟨s', -, -, -, h4', h5'⟩ := checkDistances_ok A t sc m avg _ r' h'
  rw [h4] at h4'
  cases h4'
  exact h5.trans h5'.symm

/-- **C148**, outliers among predictions: a larger threshold flags at least the same examples, with the same scores. -/
theorem C148_prediction_outliers {n : ℕ} (A : ArgSort ℝ) (scores : Fin n → ℝ) (hs : ∀ i, 0 ≤ scores i) (v w : ℝ) (hvw : v ≤ w)
    (r r' : OutlierCheck.Result n) (h : OutlierCheck.checkPredProbs A scores (some v) = .ok r)
    (h' : OutlierCheck.checkPredProbs A scores (some w) = .ok r') :
    r.scores = r'.scores ∧ ∀ i, r.flags i = true → r'.flags i = true := by
  obtain ⟨-, -, e1, md, hmd, -, -, hf, -⟩ := (C87_pred_probs A scores (some v)).2 r h
  obtain ⟨-, -, e1', md', hmd', -, -, hf', -⟩ := (C87_pred_probs A scores (some w)).2 r' h'
  rw [hmd] at hmd'
  cases hmd'
  refine ⟨e1.trans e1'.symm, fun i hi => ?_⟩
  rw [hf i] at hi
  rw [hf' i]
  have h0 : 0 ≤ md := by
    by_contra hneg
    push Not at hneg
    have hm := (npMedian_isMedian A _ md hmd).2
    have hall : (List.ofFn scores).countP (fun x => decide (md < x)) = (List.ofFn scores).length := by
      rw [List.countP_eq_length]
      intro x hx
      obtain ⟨j, rfl⟩ := List.mem_ofFn.mp hx
      exact decide_eq_true (lt_of_lt_of_le hneg (hs j))
    rw [hall, List.length_ofFn] at hm
    have := i.2
    omega
  exact lt_of_lt_of_le hi (mul_le_mul_of_nonneg_right hvw h0)

/-- **C148**, near duplicates: the sets grow, so do the flagged examples, and the scores stay the same. -/
theorem C148_near_duplicates {N : ℕ} (A : ArgSort ℚ) (g : Knn.Graph N) (v w : ℚ) (hvw : v ≤ w) (r r' : Duplicate.Report N)
    (h : Duplicate.findIssues A g v = .ok r) (h' : Duplicate.findIssues A g w = .ok r') :
    r.score = r'.score ∧ (∀ i, ∀ j ∈ r.sets i, j ∈ r'.sets i) ∧ ∀ i, r.isIssue i = true → r'.isIssue i = true := by
  obtain ⟨nn, med, e1, e2, e3, -, e4, e5⟩ := findIssues_run A g v r h
  obtain ⟨nn', med', e1', e2', e3', -, e4', e5'⟩ := findIssues_run A g w r' h'
  rw [e1] at e1'; cases e1'
  rw [e2] at e2'; cases e2'
  have hm : r.median = r'.median := e3.trans e3'.symm
  have hsets : ∀ i, ∀ j ∈ r.sets i, j ∈ r'.sets i := by
    intro i j hj
    rw [C37_sets A g v r h] at hj
    rw [C37_sets A g w r' h', ← hm]
    have hm0 : 0 ≤ r.median := by
      rw [e3]; exact le_trans (by norm_num [Duplicate.epsilon]) (le_max_right _ _)
    have hle : max v 0 * r.median ≤ max w 0 * r.median := mul_le_mul_of_nonneg_right (max_le_max_right 0 hvw) hm0
    rcases hj with ⟨d, hd, hlt⟩ | ⟨d, hd, hlt⟩
    · exact Or.inl ⟨d, hd, lt_of_lt_of_le hlt hle⟩
    · exact Or.inr ⟨d, hd, lt_of_lt_of_le hlt hle⟩
  refine ⟨?_, hsets, fun i hi => ?_⟩
  · rw [← hm, e5] at e5'
    exact Except.ok.inj e5'
  · rw [e4 i] at hi
    rw [e4' i]
    obtain ⟨j, hj⟩ := hi
    exact ⟨j, hsets j i hj⟩

/-- **C148**, class imbalance. -/
theorem C148_imbalance (labels : List ℕ) (K : ℕ) (v w : ℚ) (hvw : v ≤ w) (r r' : ImbalanceResult)
    (h : imbalanceFindIssues labels K v = .ok r) (h' : imbalanceFindIssues labels K w = .ok r') :
    r.scores = r'.scores ∧ r.summary = r'.summary ∧ ∀ i : ℕ, r.isIssue[i]? = some true → r'.isIssue[i]? = some true := by
  unfold imbalanceFindIssues at h h'
  dsimp only at h h'
  cases hb : (bins labels).argmin (fun c => (labels.count c : ℚ) / labels.length) with
  | none => rw [hb] at h; cases h
  | some rare =>
    rw [hb] at h h'
    have h := Except.ok.inj h
    have h' := Except.ok.inj h'
    subst h; subst h'
    refine ⟨rfl, rfl, fun i hi => ?_⟩
    simp only [List.getElem?_map, Option.map_eq_some_iff, decide_eq_true_eq] at hi ⊢
    obtain ⟨l, hl, he⟩ := hi
    refine ⟨l, hl, ?_⟩
    by_cases hv : (labels.count rare : ℚ) / labels.length < v * (1 / K)
    · have hw : (labels.count rare : ℚ) / labels.length < w * (1 / K) :=
        lt_of_lt_of_le hv (mul_le_mul_of_nonneg_right hvw (by positivity))
      rw [if_pos hv] at he
      rw [if_pos hw]; exact he
    · rw [if_neg hv] at he
      omega

/-- **C148**, underperforming groups. -/
theorem C148_underperforming {n : ℕ} (cluster : Fin n → ℤ) (conf : Fin n → ℚ) (v w : ℚ) (hvw : v ≤ w) (m : ℕ) (order : List ℤ)
    (r r' : GroupResult n) (h : underperformingFindIssues cluster conf v m order = .ok r)
    (h' : underperformingFindIssues cluster conf w m order = .ok r') :
    r.score = r'.score ∧ r.summary = r'.summary ∧ ∀ i, r.isIssue i = true → r'.isIssue i = true := by
  unfold underperformingFindIssues at h h'
  by_cases h0 : ∃ i, cluster i < -1
  · rw [if_pos h0] at h; cases h
  rw [if_neg h0] at h h'
  dsimp only at h h'
  cases hm : (filterClusterIds cluster m order).min? with
  | none => rw [hm] at h; cases h
  | some lo =>
    rw [hm] at h h'
    have h := Except.ok.inj h
    have h' := Except.ok.inj h'
    subst h; subst h'
    refine ⟨rfl, rfl, fun i hi => ?_⟩
    simp only [decide_eq_true_eq] at hi ⊢
    split_ifs at hi with hv
    · rw [if_pos (lt_of_lt_of_le hv (max_le_max_right 0 hvw))]; exact hi
    · exfalso
      apply h0
      exact ⟨i, by rw [hi]; decide⟩

/-- **C148**, data valuation. -/
theorem C148_data_valuation {N : ℕ} {L : Type} [DecidableEq L] (neighbors : Fin N → List (Fin N)) (columns : ℕ) (y : Fin N → L) (k : ℕ)
    (v w : ℚ) (hvw : v ≤ w) :
    (∀ e, DataValuation.findIssues neighbors columns y k (some v) = .error e ↔
      DataValuation.findIssues neighbors columns y k (some w) = .error e) ∧
    ∀ r r', DataValuation.findIssues neighbors columns y k (some v) = .ok r →
      DataValuation.findIssues neighbors columns y k (some w) = .ok r' →
      r.2 = r'.2 ∧ ∀ i, r.1 i = true → r'.1 i = true := by
  unfold DataValuation.findIssues
  by_cases h0 : columns < k
  · rw [if_pos h0, if_pos h0]
    exact ⟨fun e => Iff.rfl, fun r r' h => by cases h⟩
  rw [if_neg h0, if_neg h0]
  cases hs : DataValuation.dataShapley neighbors y k with
  | error e => exact ⟨fun e => Iff.rfl, fun r r' h => by cases h⟩
  | ok s =>
    refine ⟨fun e => ⟨fun h => by (cases h), fun h => by (cases h)⟩, fun r r' h h' => ?_⟩
    have h := Except.ok.inj h
    have h' := Except.ok.inj h'
    subst h; subst h'
    refine ⟨rfl, fun i hi => ?_⟩
    simp only [Option.getD_some, decide_eq_true_eq] at hi ⊢
    exact lt_of_lt_of_le hi hvw

/-- **C148**, the non-IID check. -/
theorem C148_non_iid {N k : ℕ} [NeZero N] (nbr : Fin N → Fin k → Fin N) (p v w : ℝ) (hvw : v ≤ w) :
    (NonIid.check nbr p v).2 = (NonIid.check nbr p w).2 ∧
      ∀ i, (NonIid.check nbr p v).1 i = true → (NonIid.check nbr p w).1 i = true := by
  refine ⟨rfl, fun i hi => ?_⟩
  simp only [NonIid.check, decide_eq_true_eq] at hi ⊢
  exact ⟨lt_of_lt_of_le hi.1 hvw, hi.2⟩

/-- **C148**, spurious correlations: what is reported for a threshold of at least 0 is reported for every larger one. -/
theorem C148_spurious (rows : List (String × ℚ)) (v w : ℚ) (h0 : 0 ≤ v) (hvw : v ≤ w) (p : String)
    (hp : p ∈ Spurious.reported (some ⟨rows, v⟩)) : p ∈ Spurious.reported (some ⟨rows, w⟩) := by
  unfold Spurious.reported at hp ⊢
  dsimp only at hp ⊢
  by_cases hv : v = 0
  · rw [if_pos hv] at hp; cases hp
  · have hw : w ≠ 0 := (lt_of_lt_of_le (lt_of_le_of_ne h0 (Ne.symm hv)) hvw).ne'
    rw [if_neg hv] at hp
    rw [if_neg hw]
    simp only [List.mem_map, List.mem_filter, decide_eq_true_eq] at hp ⊢
    obtain ⟨a, ⟨h1, h2⟩, h3⟩ := hp
    exact ⟨a, ⟨h1, lt_of_lt_of_le h2 hvw⟩, h3⟩

/-! ### Data with issues at a higher threshold only -/

/-- Class imbalance: one of four labels. -/
example : (imbalanceFindIssues [0, 0, 0, 1] 2 (1 / 2)).toOption.map (·.isIssue) = some [false, false, false, false] ∧
    (imbalanceFindIssues [0, 0, 0, 1] 2 (3 / 4)).toOption.map (·.isIssue) = some [false, false, false, true] := by decide +kernel

/-- Underperforming groups: cluster 1 has less than three quarters of the average. -/
example : (underperformingFindIssues ![0, 0, 1, 1] ![9 / 10, 9 / 10, 1 / 2, 1 / 2] (1 / 10) 1 [0, 1]).toOption.map
      (fun r => List.ofFn r.isIssue) = some [false, false, false, false] ∧
    (underperformingFindIssues ![0, 0, 1, 1] ![9 / 10, 9 / 10, 1 / 2, 1 / 2] (3 / 4) 1 [0, 1]).toOption.map
      (fun r => List.ofFn r.isIssue) = some [false, false, true, true] := by decide +kernel

/-- Data valuation: the example with another label than its neighbours. -/
example : (DataValuation.findIssues (![[1, 2], [0, 2], [0, 1]] : Fin 3 → List (Fin 3)) 2 ![true, true, false] 2 none).toOption.map
      (fun r => List.ofFn r.1) = some [false, false, false] ∧
    (DataValuation.findIssues (![[1, 2], [0, 2], [0, 1]] : Fin 3 → List (Fin 3)) 2 ![true, true, false] 2 (some (7 / 12))).toOption.map
      (fun r => List.ofFn r.1) = some [false, false, true] := by decide +kernel

end Cleanlab.Props
