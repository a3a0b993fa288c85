import Verif.Model.RegressionRank

/-!
# C80: residual scores
-/

namespace Cleanlab.Props

open Cleanlab.Regression

theorem mapM_id_length {α : Type} : ∀ (l : List (Option α)) (r : List α), l.mapM id = some r →
    l.length = r.length ∧ ∀ i (hi : i < l.length) (hr : i < r.length), l[i] = some r[i] := by
  intro l
  induction l with
  | nil => intro r h; simp at h; subst h; simp
  | cons a l ih =>
    intro r h
    rw [List.mapM_cons] at h
    cases a with
    | none => cases h
    | some a =>
      cases hl : l.mapM id with
      | none => rw [hl] at h; cases h
      | some bs =>
        rw [hl] at h
        have : r = a :: bs := (Option.some.inj h).symm
        subst this
        obtain ⟨h1, h2⟩ := ih bs hl
        refine ⟨by simp [h1], fun i hi hr => ?_⟩
        cases i with
        | zero => rfl
        | succ i => exact h2 i (by simpa using hi) (by simpa using hr)

/-- What a successful call has checked. -/
theorem residual_ok {outre : List ℝ → List ℝ → List ℝ} {labels predictions : List (Option ℝ)} {s : List ℝ}
    (h : getLabelQualityScores outre labels predictions "residual" = .ok s) :
    2 ≤ labels.length ∧ labels.length = predictions.length ∧ ∃ y p, labels.mapM id = some y ∧
      predictions.mapM id = some p ∧ residualScores y p = s := by
  unfold getLabelQualityScores at h
  have hc : ∀ name x, checkArray name x = .ok () → 2 ≤ x.length := by
    intro name x hx
    unfold checkArray at hx
    split_ifs at hx with a b
    rw [List.isEmpty_iff_length_eq_zero] at a
    omega
  cases h1 : checkArray "labels" labels with
  | error e => rw [h1] at h; cases h
  | ok u =>
    cases h2 : checkArray "predictions" predictions with
    | error e => rw [h1, h2] at h; cases h
    | ok v =>
      rw [h1, h2] at h
      by_cases h3 : labels.length ≠ predictions.length
      · simp only [bind, Except.bind, if_pos h3] at h; cases h
      simp only [bind, Except.bind, if_neg h3, pure, Except.pure] at h
      push Not at h3
      split at h
      · cases h
      · cases h
      · rename_i y p hy hp
        rw [if_pos trivial] at h
        exact ⟨hc _ _ h1, h3, y, p, hy, hp, Except.ok.inj h⟩

/-- **C80.** With `method="residual"` the call returns one score per example, each in `(0, 1]`; it is 1 exactly when the
prediction equals the label, and of two examples the one whose prediction is further from its label scores strictly
lower. -/
theorem C80_residual (outre : List ℝ → List ℝ → List ℝ) (labels predictions : List (Option ℝ)) (s : List ℝ)
    (h : getLabelQualityScores outre labels predictions "residual" = .ok s) :
    s.length = labels.length ∧ labels.length = predictions.length ∧ labels ≠ [] ∧
    ∃ (y p : Fin s.length → ℝ), (∀ i : Fin s.length, labels[i.val]? = some (some (y i)) ∧
        predictions[i.val]? = some (some (p i))) ∧
      (∀ i : Fin s.length, 0 < s[i] ∧ s[i] ≤ 1) ∧ (∀ i : Fin s.length, s[i] = 1 ↔ p i = y i) ∧
      ∀ i j : Fin s.length, |p i - y i| < |p j - y j| → s[j] < s[i] := by
  obtain ⟨h1, h3, y, p, hy, hp, h⟩ := residual_ok h
  have h2 : labels ≠ [] := by intro h0; rw [h0] at h1; simp at h1
  · have := h
    subst this
    obtain ⟨ly, ey⟩ := mapM_id_length labels y hy
    obtain ⟨lp, ep⟩ := mapM_id_length predictions p hp
    have hlen : (residualScores y p).length = labels.length := by
      unfold residualScores; rw [List.length_zipWith]; omega
    have hget : ∀ i : Fin (residualScores y p).length,
        (residualScores y p)[i] = Real.exp (-|p[i.val]'(by omega) - y[i.val]'(by omega)|) := by
      intro i
      show (residualScores y p)[i.val] = _
      simp only [residualScores, List.getElem_zipWith]
    refine ⟨hlen, h3, h2, fun i => y[i.val]'(by omega), fun i => p[i.val]'(by omega),
      ?_, ?_, ?_, ?_⟩
    · intro i
      have e1 := ey i.val (by omega) (by omega)
      have e2 := ep i.val (by omega) (by omega)
      rw [List.getElem?_eq_getElem (by omega), List.getElem?_eq_getElem (by omega), e1, e2]
      exact ⟨rfl, rfl⟩
    · intro i
      rw [hget]
      exact ⟨Real.exp_pos _, Real.exp_le_one_iff.mpr (neg_nonpos.mpr (abs_nonneg _))⟩
    · intro i
      rw [hget, Real.exp_eq_one_iff, neg_eq_zero, abs_eq_zero, sub_eq_zero]
    · intro i j hlt
      rw [hget, hget, Real.exp_lt_exp]
      exact neg_lt_neg hlt

theorem mapM_id_some {α : Type} : ∀ r : List α, (r.map some).mapM id = some r := by
  intro r
  induction r with
  | nil => rfl
  | cons a r ih => rw [List.map_cons, List.mapM_cons, ih]; rfl

/-- **C80.** At least two examples with as many predictions as labels, none missing, are accepted. -/
theorem C80_accepts (outre : List ℝ → List ℝ → List ℝ) (y p : List ℝ) (h2 : 2 ≤ y.length) (hl : y.length = p.length) :
    ∃ s, getLabelQualityScores outre (y.map some) (p.map some) "residual" = .ok s := by
  have hc : ∀ name (x : List ℝ), 2 ≤ x.length → checkArray name (x.map some) = .ok () := by
    intro name x hx
    unfold checkArray
    rw [if_neg (by rw [List.isEmpty_iff_length_eq_zero, List.length_map]; omega),
      if_neg (by rw [List.length_map]; omega)]
  refine ⟨residualScores y p, ?_⟩
  unfold getLabelQualityScores
  rw [hc _ _ h2, hc _ _ (by omega), mapM_id_some, mapM_id_some]
  have h3 : ¬ (y.map some).length ≠ (p.map some).length := by simp [hl]
  simp only [bind, Except.bind, if_neg h3, pure, Except.pure, if_true]

/-- **C80.** Arrays of different lengths, missing values, and a single example are refused. -/
theorem C80_refuses (outre : List ℝ → List ℝ → List ℝ) (labels predictions : List (Option ℝ))
    (h : labels.length ≠ predictions.length ∨ none ∈ labels ∨ none ∈ predictions ∨ labels.length ≤ 1) :
    ∃ e, getLabelQualityScores outre labels predictions "residual" = .error e := by
  cases hr : getLabelQualityScores outre labels predictions "residual" with
  | error e => exact ⟨e, rfl⟩
  | ok s =>
    exfalso
    obtain ⟨h1, h3, y, p, hy, hp, -⟩ := residual_ok hr
    obtain ⟨ly, ey⟩ := mapM_id_length labels y hy
    obtain ⟨lp, ep⟩ := mapM_id_length predictions p hp
    rcases h with h | h | h | h
    · exact h h3
    · obtain ⟨i, hi, hn⟩ := List.mem_iff_getElem.mp h
      rw [ey i hi (by omega)] at hn; cases hn
    · obtain ⟨i, hi, hn⟩ := List.mem_iff_getElem.mp h
      rw [ep i hi (by omega)] at hn; cases hn
    · omega

/-- Labels 1 and 2, predictions 1 and 5. -/
example (outre : List ℝ → List ℝ → List ℝ) :
    getLabelQualityScores outre [some 1, some 2] [some 1, some 5] "residual" = .ok [Real.exp (-|1 - 1|), Real.exp (-|5 - 2|)] :=
  rfl

end Cleanlab.Props
