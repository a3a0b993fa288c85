import Verif.Props.Outlier

/-!
# C71: scores from predictions after fitting

Whether `score` may be called with predicted probabilities, and which thresholds it uses.
-/

namespace Cleanlab.Props

open Np Cleanlab.Outlier

variable {E X Pr L T : Type}

theorem featureScores_keeps (A : ArgSort ℝ) (ke : KnnEnv E X) (s : State E T) (x : X) :
    (featureScores A ke s x).1.thr = s.thr ∧ (featureScores A ke s x).1.adjust = s.adjust := by
  unfold featureScores
  dsimp only
  constructor <;> repeat' split
  all_goals rfl

theorem sharedFit_keeps (A : ArgSort ℝ) (ke : KnnEnv E X) (pe : PredEnv Pr L T) (s : State E T) (thr : T)
    (ht : s.thr = some thr) (x : Option X) (p : Option Pr) (l : Option L) :
    (sharedFit A ke pe s x p l).1.thr = some thr ∧ (sharedFit A ke pe s x p l).1.adjust = s.adjust := by
  unfold sharedFit
  split
  · exact ⟨ht, rfl⟩
  · split
    · exact ⟨ht, rfl⟩
    · rename_i x' _ _ _
      have := featureScores_keeps A ke s x'
      split <;> rename_i heq <;> rw [heq] at this
      · exact ⟨this.1.trans ht, this.2⟩
      · exact ⟨this.1.trans ht, this.2⟩
  · rw [ht]
    exact ⟨ht, rfl⟩

theorem score_keeps (A : ArgSort ℝ) (ke : KnnEnv E X) (pe : PredEnv Pr L T) (s : State E T) (thr : T)
    (ht : s.thr = some thr) (x : Option X) (p : Option Pr) :
    (score A ke pe s x p).1.thr = some thr ∧ (score A ke pe s x p).1.adjust = s.adjust := by
  unfold score
  split
  · exact ⟨ht, rfl⟩
  · split
    · exact ⟨ht, rfl⟩
    · rename_i x' _ _ _ _
      have := featureScores_keeps A ke s x'
      split <;> rename_i heq <;> rw [heq] at this
      · exact ⟨this.1.trans ht, this.2⟩
      · exact ⟨this.1.trans ht, this.2⟩
  · split_ifs <;> exact ⟨ht, rfl⟩

theorem run_keeps (A : ArgSort ℝ) (ke : KnnEnv E X) (pe : PredEnv Pr L T) (s : State E T) (thr : T) (ht : s.thr = some thr)
    (calls : List (Call X Pr L)) :
    (run A ke pe s calls).thr = some thr ∧ (run A ke pe s calls).adjust = s.adjust := by
  induction calls using List.reverseRecOn with
  | nil => exact ⟨ht, rfl⟩
  | append_singleton l c ih =>
    unfold run at ih ⊢
    rw [List.foldl_append, List.foldl_cons, List.foldl_nil]
    generalize List.foldl (step A ke pe) s l = s' at ih
    rw [← ih.2]
    cases c with
    | fit x p l => exact sharedFit_keeps A ke pe s' thr ih.1 x p l
    | score x p => exact score_keeps A ke pe s' thr ih.1 x p
    | fitScore x p l =>
      show (fitScore A ke pe s' x p l).1.thr = some thr ∧ (fitScore A ke pe s' x p l).1.adjust = s'.adjust
      have h1 := sharedFit_keeps A ke pe s' thr ih.1 x p l
      unfold fitScore
      split <;> rename_i heq <;> rw [heq] at h1
      · exact h1
      · exact h1
      · have h2 := score_keeps A ke pe _ thr h1.1 x p
        exact ⟨h2.1, h2.2.trans h1.2⟩

/-- **C71, after fitting.** Once the object has been fitted to predicted probabilities and labels, `score` can be called with
any predicted probabilities, whatever is called in between, and uses the thresholds computed by that fit. -/
theorem C71_fit_then_score (A : ArgSort ℝ) (ke : KnnEnv E X) (pe : PredEnv Pr L T) (s : State E T) (hs : s.thr = none)
    (ha : s.adjust = true) (p : Pr) (l : L) (thr : T) (ht : pe.thresholds l p = .ok thr) (r : List ℝ)
    (hr : pe.score p (some thr) = .ok r) (calls : List (Call X Pr L)) (p' : Pr) :
    (score A ke pe (run A ke pe (step A ke pe s (.fit none (some p) (some l))) calls) none (some p')).2 =
      pe.score p' (some thr) := by
  have h1 : step A ke pe s (.fit none (some p) (some l)) = { s with thr := some thr } := by
    show (sharedFit A ke pe s none (some p) (some l)).1 = _
    unfold sharedFit validInputs predScores
    simp only [hs, ha, if_true, bind, Except.bind, ht, hr, Except.map]
  obtain ⟨h2, h3⟩ := run_keeps A ke pe { s with thr := some thr } thr rfl calls
  rw [h1]
  generalize run A ke pe { s with thr := some thr } calls = s' at h2 h3
  replace h3 : s'.adjust = true := h3.trans ha
  unfold score validInputs predScores
  simp only [h2, h3, Option.isNone_some, Bool.false_eq_true, false_and, if_false, if_true]
  cases pe.score p' (some thr) <;> rfl

/-- **C71, before fitting.** Without thresholds, `score` is refused if predictions are to be adjusted, and otherwise gives the
scores of the unadjusted predictions; the object stays as it was. -/
theorem C71_unfitted (A : ArgSort ℝ) (ke : KnnEnv E X) (pe : PredEnv Pr L T) (s : State E T) (hs : s.thr = none) (p : Pr) :
    (s.adjust = true → ∃ e, score A ke pe s none (some p) = (s, .error e)) ∧
    (s.adjust = false → score A ke pe s none (some p) = (s, pe.score p none)) := by
  constructor
  · intro ha
    unfold score validInputs
    simp [hs, ha]
  · intro ha
    unfold score validInputs predScores
    simp only [hs, ha, Bool.false_eq_true, and_false, if_false]
    cases pe.score p none <;> rfl

/-- Predictions are numbers; the threshold is the training prediction, subtracted before scoring. -/
def shiftPred : PredEnv ℝ Unit ℝ where
  thresholds _ p := .ok p
  score p t := .ok [p - t.getD 0]

/-- Fitted to 2, the prediction 5 has the score 3, also after another fit to 4. -/
example (A : ArgSort ℝ) : (score A toyKnn shiftPred (run A toyKnn shiftPred (step A toyKnn shiftPred
    ({} : State Unit ℝ) (.fit none (some 2) (some ()))) [.fit none (some 4) (some ())]) none (some 5)).2 = .ok [3] := by
  rw [C71_fit_then_score A toyKnn shiftPred {} rfl rfl 2 () 2 rfl _ rfl]
  show Except.ok [(5 : ℝ) - 2] = _
  norm_num

end Cleanlab.Props
