import Verif.Props.MultilabelExtraClass
import Verif.Props.OneExample
import Verif.Props.FilterChecked

/-!
# C249: a class that no example has, and the search for label issues in multi-label data

`extendY y` are the labels `y` with a further class that no example has; `extendP P` gives it probability 0.
-/

namespace Cleanlab.Props

open Np Cleanlab.Rank Cleanlab.Filter Cleanlab.Multilabel

variable {n K : ℕ}

theorem binaryLabels_castSucc (y : Fin n → Fin K → Bool) (k : Fin K) :
    binaryLabels (extendY y) k.castSucc = binaryLabels y k := by
  funext i
  unfold binaryLabels extendY
  rw [extendV_castSucc]

theorem binaryLabels_last (y : Fin n → Fin K → Bool) : binaryLabels (extendY y) (Fin.last K) = fun _ => 0 := by
  funext i
  unfold binaryLabels extendY
  rw [extendV_last]
  rfl

theorem stackComplement_castSucc (P : Fin n → Fin K → ℚ) (k : Fin K) :
    stackComplement (extendP P) k.castSucc = stackComplement P k := by
  funext i
  unfold stackComplement
  rw [extendP_castSucc]

theorem stackComplement_last (P : Fin n → Fin K → ℚ) :
    stackComplement (extendP P) (Fin.last K) = fun _ => ![1, 0] := by
  funext i
  unfold stackComplement
  rw [extendP_last, sub_zero]

/-- The filters that look at the counts, not at the scores or predictions alone. -/
def CountFilter (f : FilterBy) : Prop := f = .pruneByClass ∨ f = .pruneByNoiseRate ∨ f = .both ∨ f = .confidentLearning

theorem undisputed_zero : Undisputed (n := n) (K := 2) (fun _ => 0) (fun _ => ![1, 0]) := by
  intro i j
  fin_cases j <;> simp

theorem findChecked_zero (A : ArgSort ℚ) (hn : 0 < n) (f : FilterBy) (hf : CountFilter f) :
    findChecked (n := n) (K := 2) A (fun _ => 0) (fun _ => ![1, 0]) { filterBy := f } = .ok (fun _ => false) := by
  have hv : validate (n := n) (K := 2) (allZero (n := n) (K := 2) (fun _ => 0)) (fun _ => 0) (fun _ => ![1, 0]) = .ok () := by
    rw [validate_iff]
    refine ⟨hn, Or.inl ?_, fun i k => ?_⟩
    · unfold allZero
      simp [hn]
    · fin_cases k <;> norm_num
  unfold findChecked
  rw [hv]
  dsimp only [bind, Except.bind]
  rw [if_neg (by rcases hf with rfl | rfl | rfl | rfl <;> simp)]
  exact C182_returns A le_rfl undisputed_zero f

/-- **C249, issues per class.** With a further class that no example has, and that is not predicted either, the search raises or
not as before; the issues found in the other classes are the same, and the new class has none. -/
theorem C249_per_class_partial (A : ArgSort ℚ) (hn : 0 < n) (y : Fin n → Fin K → Bool) (P : Fin n → Fin K → ℚ) (f : FilterBy)
    (hf : CountFilter f) (per' : Fin (K + 1) → Fin n → Bool) :
    issuesPerClass A (extendY y) (extendP P) { filterBy := f } = .ok per' ↔
      ∃ per, issuesPerClass A y P { filterBy := f } = .ok per ∧ per' = extendV per (fun _ => false) := by
  unfold issuesPerClass
  have hl : findChecked A (binaryLabels (extendY y) (Fin.last K)) (stackComplement (extendP P) (Fin.last K))
      (({ filterBy := f } : MLArgs (K + 1)).binary (Fin.last K)) = .ok (fun _ => false) := by
    rw [binaryLabels_last, stackComplement_last]
    exact findChecked_zero A hn f hf
  have hc : ∀ k : Fin K, findChecked A (binaryLabels (extendY y) k.castSucc) (stackComplement (extendP P) k.castSucc)
      (({ filterBy := f } : MLArgs (K + 1)).binary k.castSucc) =
        findChecked A (binaryLabels y k) (stackComplement P k) (({ filterBy := f } : MLArgs K).binary k) := by
    intro k
    rw [binaryLabels_castSucc, stackComplement_castSucc]
    rfl
  rw [collect_ok_iff]
  constructor
  · intro h
    refine ⟨fun k => per' k.castSucc, (collect_ok_iff _ _).mpr (fun k => ?_), ?_⟩
    · rw [← hc]
      exact h k.castSucc
    · funext k
      refine Fin.lastCases ?_ (fun k => ?_) k
      · rw [extendV_last]
        have := h (Fin.last K)
        rw [hl] at this
        exact (Except.ok.inj this).symm
      · rw [extendV_castSucc]
  · rintro ⟨per, h, rfl⟩ k
    refine Fin.lastCases ?_ (fun k => ?_) k
    · rw [hl, extendV_last]
    · rw [hc, extendV_castSucc]
      exact (collect_ok_iff _ _).mp h k

/-- **C249, flagged examples.** With the filters that count, the same examples are flagged. -/
theorem C249_flags_partial (A A' : ArgSort ℚ) (hn : 0 < n) (y : Fin n → Fin K → Bool) (P : Fin n → Fin K → ℚ) (f : FilterBy)
    (hf : CountFilter f) (mask : Fin n → Bool) :
    multilabelIssues A A' (extendY y) (extendP P) { filterBy := f } = .ok mask ↔
      multilabelIssues A A' y P { filterBy := f } = .ok mask := by
  have hlow : ∀ J, isLow ({ filterBy := f } : MLArgs J) = false := by
    intro J
    unfold isLow
    rcases hf with rfl | rfl | rfl | rfl <;> simp
  unfold multilabelIssues
  rw [hlow, hlow]
  simp only [Bool.false_eq_true, if_false]
  have hcount : ∀ (per : Fin K → Fin n → Bool) (i : Fin n), (List.finRange (K + 1)).countP
      (fun k => extendV per (fun _ => false) k i) = (List.finRange K).countP (fun k => per k i) := by
    intro per i
    rw [List.finRange_succ_last, List.countP_append, List.countP_map]
    simp [Function.comp_def]
  have hmask : ∀ {J : ℕ} (z : Fin n → Fin J → Bool) (Q : Fin n → Fin J → ℚ),
      unionMask A z Q { filterBy := f } = .ok mask ↔ ∃ per, issuesPerClass A z Q { filterBy := f } = .ok per ∧
        (fun i => decide (1 ≤ (List.finRange J).countP (fun k => per k i))) = mask := by
    intro J z Q
    unfold unionMask
    cases issuesPerClass A z Q { filterBy := f } with
    | error e => simp [bind, Except.bind]
    | ok per => simp [bind, Except.bind, pure, Except.pure]
  rw [hmask, hmask]
  constructor
  · rintro ⟨per', h, he⟩
    obtain ⟨per, h1, rfl⟩ := (C249_per_class_partial A hn y P f hf per').mp h
    refine ⟨per, h1, ?_⟩
    rw [← he]
    funext i
    rw [hcount]
  · rintro ⟨per, h, he⟩
    refine ⟨_, (C249_per_class_partial A hn y P f hf _).mpr ⟨per, h, rfl⟩, ?_⟩
    rw [← he]
    funext i
    rw [hcount]

/-- **C249, number of issues.** The filters by scores flag as many examples as before (which ones can change, as the ranking does,
C248). -/
theorem C249_number_partial (A : ArgSort ℚ) (hn : 0 < n) (y : Fin n → Fin K → Bool) (P : Fin n → Fin K → ℚ) (f : FilterBy)
    (m : ℕ) :
    Multilabel.numErrors A (extendY y) (extendP P) { filterBy := f } = .ok m ↔ Multilabel.numErrors A y P { filterBy := f } = .ok m := by
  have key : ∀ mask, unionMask A (extendY y) (extendP P) { filterBy := .confidentLearning } = .ok mask ↔
      unionMask A y P { filterBy := .confidentLearning } = .ok mask :=
    fun mask => C249_flags_partial A A hn y P .confidentLearning (Or.inr (Or.inr (Or.inr rfl))) mask
  have hnum : ∀ {J : ℕ} (z : Fin n → Fin J → Bool) (Q : Fin n → Fin J → ℚ),
      Multilabel.numErrors A z Q { filterBy := f } = .ok m ↔ ∃ mask, unionMask A z Q { filterBy := .confidentLearning } = .ok mask ∧
        (List.finRange n).countP mask = m := by
    intro J z Q
    unfold Multilabel.numErrors
    dsimp only
    cases unionMask A z Q { filterBy := .confidentLearning } with
    | error e => simp [bind, Except.bind]
    | ok mask => simp [bind, Except.bind, pure, Except.pure]
  rw [hnum, hnum]
  exact exists_congr (fun mask => and_congr_left' (key mask))

/-- Two examples with two classes, of which the second is flagged: it remains so with a third class. -/
example (A A' : ArgSort ℚ) : multilabelIssues A A' (n := 2) (extendY ![![true, false], ![false, true]])
    (extendP ![![1, 0], ![1, 1]]) { filterBy := .confidentLearning } = .ok ![false, true] := by
  rw [C249_flags_partial A A' (by norm_num) _ _ _ (Or.inr (Or.inr (Or.inr rfl)))]
  have hp : issuesPerClass A (n := 2) ![![true, false], ![false, true]] ![![1, 0], ![1, 1]]
      { filterBy := .confidentLearning } = .ok ![![false, true], ![false, false]] := by
    unfold issuesPerClass
    refine (collect_ok_iff _ _).mpr (fun k => (C115_find_iff A _ _ _ _).mpr ⟨⟨by norm_num, ?_, Or.inl ?_⟩, ?_⟩)
    · revert k; unfold InRange; decide +kernel
    · revert k; decide +kernel
    · refine ok_of_toOption ?_
      show some _ = some _
      congr 1
      revert k
      decide +kernel
  unfold multilabelIssues unionMask
  rw [hp]
  refine ok_of_toOption ?_
  show some _ = some _
  congr 1
  decide +kernel

/-- **C249 does not hold for `predicted_neq_given`**: of two examples with two classes the second is flagged; with a class that
neither has, nor is predicted to have, the search raises. -/
theorem C249_not_predicted (A A' : ArgSort ℚ) :
    multilabelIssues A A' (n := 2) ![![true, false], ![false, true]] ![![1, 0], ![1, 1]] { filterBy := .predictedNeqGiven } =
      .ok ![false, true] ∧
    ∀ mask, multilabelIssues A A' (extendY ![![true, false], ![false, true]]) (extendP ![![1, 0], ![1, 1]])
      { filterBy := .predictedNeqGiven } ≠ .ok mask := by
  constructor
  · have hp : issuesPerClass A (n := 2) ![![true, false], ![false, true]] ![![1, 0], ![1, 1]]
        { filterBy := .predictedNeqGiven } = .ok ![![false, true], ![false, false]] := by
      unfold issuesPerClass
      refine (collect_ok_iff _ _).mpr (fun k => (C115_find_iff A _ _ _ _).mpr ⟨⟨by norm_num, ?_, Or.inl ?_⟩, ?_⟩)
      · revert k; unfold InRange; decide +kernel
      · revert k; decide +kernel
      · refine ok_of_toOption ?_
        show some _ = some _
        congr 1
        revert k
        decide +kernel
    unfold multilabelIssues unionMask
    rw [hp]
    refine ok_of_toOption ?_
    show some _ = some _
    congr 1
    decide +kernel
  · intro mask h
    unfold multilabelIssues unionMask issuesPerClass at h
    rw [show isLow ({ filterBy := .predictedNeqGiven } : MLArgs (2 + 1)) = false from rfl] at h
    simp only [Bool.false_eq_true, if_false] at h
    cases hc : collect (fun k => findChecked A (binaryLabels (extendY ![![true, false], ![false, true]]) k)
      (stackComplement (extendP ![![1, 0], ![1, 1]]) k) (({ filterBy := .predictedNeqGiven } : MLArgs (2 + 1)).binary k)) with
    | error e => rw [hc] at h; cases h
    | ok per =>
      have h1 := (collect_ok_iff _ per).mp hc (Fin.last 2)
      rw [binaryLabels_last, stackComplement_last] at h1
      unfold findChecked at h1
      have hv : validate (n := 2) (K := 2) false (fun _ => 0) (fun _ => ![1, 0]) ≠ .ok () := by
        rw [Ne, validate_iff]
        simp
      cases hv' : validate (n := 2) (K := 2) false (fun _ => 0) (fun _ => ![1, 0]) with
      | ok u => exact hv hv'
      | error e =>
        rw [if_pos (by decide), hv'] at h1
        cases hz : validate (n := 2) (K := 2) (allZero (n := 2) (K := 2) (fun _ => 0)) (fun _ => 0) (fun _ => ![1, 0]) with
        | ok u => rw [hz] at h1; cases h1
        | error e => rw [hz] at h1; cases h1

end Cleanlab.Props
