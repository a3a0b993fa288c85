import Verif.Props.MultilabelFilter

/-!
# C115 for multi-label data
-/

namespace Cleanlab.Props

open Np Cleanlab.Util Cleanlab.Count Cleanlab.Rank Cleanlab.Filter Cleanlab.Multilabel

variable {n K : ℕ}

theorem unionMask_error (A : ArgSort ℚ) (y : Fin n → Fin K → Bool) (P : Fin n → Fin K → ℚ) (args : MLArgs K) (k : Fin K)
    (h : ∀ m, ¬findChecked A (binaryLabels y k) (stackComplement P k) (args.binary k) = .ok m) :
    ∃ e, unionMask A y P args = .error e := by
  cases hm : unionMask A y P args with
  | error e => exact ⟨e, rfl⟩
  | ok mask =>
    cases hp : issuesPerClass A y P args with
    | error e => unfold unionMask at hm; rw [hp] at hm; cases hm
    | ok per => exact absurd ((collect_ok_iff _ _).mp hp k) (h _)

/-- **C115 (refuted for multi-label data).** As soon as one class is given to every example, no filter returns a result:
the one-vs-rest problem of this class has the single label 1, and the single-label function asks for two. The same happens
with `predicted_neq_given` if a class is given to no example. -/
theorem C115_not_multilabel (A A' : ArgSort ℚ) (y : Fin n → Fin K → Bool) (P : Fin n → Fin K → ℚ) (args : MLArgs K)
    (k : Fin K) (hk : (∀ i, y i k = true) ∨ (args.filterBy = .predictedNeqGiven ∧ ∀ i, y i k = false)) :
    ∃ e, multilabelIssues A A' y P args = .error e := by
  have hone : ¬∃ i j, binaryLabels y k i ≠ binaryLabels y k j := by
    rw [binaryLabels_ne]
    rintro ⟨⟨i, hi⟩, ⟨j, hj⟩⟩
    rcases hk with hk | ⟨-, hk⟩
    · rw [hk j] at hj; cases hj
    · rw [hk i] at hi; cases hi
  have hno : ∀ (a : MLArgs K), ((∀ i, y i k = true) ∨ a.filterBy = .predictedNeqGiven) →
      ∀ m, ¬findChecked A (binaryLabels y k) (stackComplement P k) (a.binary k) = .ok m := by
    intro a ha m hm
    obtain ⟨⟨hn, -, hc⟩, -⟩ := (C115_find_iff A _ _ _ m).mp hm
    rcases hc with hc | ⟨hz, hf⟩
    · exact hone hc
    · rcases ha with ha | ha
      · have := hz ⟨0, hn⟩
        unfold binaryLabels at this
        rw [ha, if_pos rfl] at this
        exact absurd this (by decide)
      · exact hf (Or.inl ha)
  unfold multilabelIssues
  split_ifs with hl
  · have hall : ∀ i, y i k = true := by
      rcases hk with hk | ⟨hk, -⟩
      · exact hk
      · unfold isLow at hl
        rw [hk] at hl
        simp at hl
    obtain ⟨e, he⟩ := unionMask_error A y P { filterBy := .confidentLearning, confidentJoint := args.confidentJoint } k
      (hno _ (Or.inl hall))
    exact ⟨e, by unfold lowIndices numErrors; rw [he]; rfl⟩
  · exact unionMask_error A y P args k (hno args (hk.imp id (·.1)))

/-- Three examples that all have class 0. -/
example (A A' : ArgSort ℚ) (f : FilterBy) : ∃ e, multilabelIssues A A'
    (![![true, false], ![true, true], ![true, false]] : Fin 3 → Fin 2 → Bool)
    ![![1, 0], ![1, 1], ![1, 0]] { filterBy := f } = .error e :=
  C115_not_multilabel A A' _ _ _ 0 (Or.inl (by decide))

/-- **C115 (partial), multi-label.** If no class is given to every example, `confident_learning` and the pruning filters
return a result. Missing: a class that every example has, above, and classes that no example has for the other filters. -/
theorem C115_multilabel_partial (A A' : ArgSort ℚ) (y : Fin n → Fin K → Bool) (P : Fin n → Fin K → ℚ) (args : MLArgs K)
    (hn : 0 < n) (hP : InRange P) (hnum : args.numToRemove = none) (hf : ¬RechecksInputs args.filterBy)
    (hy : ∀ k, ∃ i, y i k = false) :
    ∃ mask, multilabelIssues A A' y P args = .ok mask := by
  have hper : ∀ k, ∃ m, findChecked A (binaryLabels y k) (stackComplement P k) (args.binary k) = .ok m := by
    intro k
    have hraw : ∃ m, findLabelIssues A (binaryLabels y k) (stackComplement P k) (args.binary k) = .ok m := by
      have hr : ∃ m, rawMask A (binaryLabels y k) (stackComplement P k) (args.binary k) = .ok m := by
        unfold rawMask MLArgs.binary
        rw [hnum]
        cases hfb : args.filterBy with
        | lowNormalizedMargin => exact absurd (Or.inr (Or.inl hfb)) hf
        | lowSelfConfidence => exact absurd (Or.inr (Or.inr hfb)) hf
        | _ => exact ⟨_, rfl⟩
      obtain ⟨m, hm⟩ := hr
      unfold findLabelIssues
      rw [hm, if_neg (by simp [MLArgs.binary, hnum])]
      dsimp only [bind, Except.bind]
      split_ifs
      · exact ⟨_, rfl⟩
      · exact ⟨_, rfl⟩
    obtain ⟨m, hm⟩ := hraw
    refine ⟨m, (C115_find_iff A _ _ _ m).mpr ⟨⟨hn, inRange_stackComplement P hP k, ?_⟩, hm⟩⟩
    by_cases h1 : ∃ i, y i k = true
    · exact Or.inl ((binaryLabels_ne y k).mpr ⟨h1, hy k⟩)
    · refine Or.inr ⟨fun i => ?_, hf⟩
      unfold binaryLabels
      rw [if_neg (fun h => h1 ⟨i, h⟩)]
      rfl
  choose per hper using hper
  have hl : args.filterBy ≠ .lowNormalizedMargin ∧ args.filterBy ≠ .lowSelfConfidence :=
    ⟨fun h => hf (Or.inr (Or.inl h)), fun h => hf (Or.inr (Or.inr h))⟩
  obtain ⟨mask, hm, -⟩ := unionMask_iff A y P args per hper
  refine ⟨mask, ?_⟩
  unfold multilabelIssues
  rw [if_neg (by unfold isLow; simp [hl.1, hl.2]), hm]

/-- The hypotheses hold for data where class 1 does not occur. -/
example (A A' : ArgSort ℚ) : ∃ mask, multilabelIssues A A'
    (![![true, false], ![false, false], ![true, false]] : Fin 3 → Fin 2 → Bool)
    ![![1, 0], ![1, 1], ![1, 0]] { filterBy := .pruneByNoiseRate } = .ok mask :=
  C115_multilabel_partial A A' _ _ _ (by decide) (by unfold InRange; decide +kernel) rfl
    (by unfold RechecksInputs; simp) (by decide)

end Cleanlab.Props
