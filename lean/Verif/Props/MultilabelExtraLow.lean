import Verif.Props.MultilabelExtraIssues

/-!
# C249: the filters by scores
-/

namespace Cleanlab.Props

open Np Cleanlab.Rank Cleanlab.Filter Cleanlab.Multilabel

/-- Three examples with two classes. -/
def lowY : Fin 3 → Fin 2 → Bool := ![![true, true], ![true, false], ![false, false]]

/-- The predictions: only the label of the last example is doubtful. -/
def lowP : Fin 3 → Fin 2 → ℚ := ![![1, 1 / 2], ![3 / 5, 41 / 100], ![0, 503 / 1000]]

theorem low_number (A : ArgSort ℚ) (f : FilterBy) : Multilabel.numErrors A lowY lowP { filterBy := f } = .ok 1 := by
  have hp : issuesPerClass A lowY lowP { filterBy := .confidentLearning } =
      .ok ![![false, false, false], ![false, false, true]] := by
    unfold issuesPerClass
    refine (collect_ok_iff _ _).mpr (fun k => (C115_find_iff A _ _ _ _).mpr ⟨⟨by norm_num, ?_, Or.inl ?_⟩, ?_⟩)
    · revert k; unfold InRange; decide +kernel
    · revert k; decide +kernel
    · refine ok_of_toOption ?_
      show some _ = some _
      congr 1
      revert k
      decide +kernel
  unfold Multilabel.numErrors unionMask
  rw [hp]
  refine ok_of_toOption ?_
  show some _ = some _
  congr 1

/-- **C249 does not hold for the filters by scores**: of three examples with two classes the second is flagged; with a class that
none of them has, nor is predicted to have, it is the third. -/
theorem C249_not_low (A : ArgSort ℚ) :
    multilabelIssues A (stableSort ℚ) lowY lowP { filterBy := .lowSelfConfidence } = .ok ![false, true, false] ∧
    multilabelIssues A (stableSort ℚ) (extendY lowY) (extendP lowP) { filterBy := .lowSelfConfidence } =
      .ok ![false, false, true] := by
  have h1 : scorer (F := ℚ) selfConf lowY lowP = .ok ![3 / 5, 74 / 125, 747 / 1250] :=
    ok_of_toOption (by decide +kernel)
  have h2 : scorer (F := ℚ) selfConf (extendY lowY) (extendP lowP) = .ok ![3 / 5, 76 / 125, 747 / 1250] :=
    ok_of_toOption (by decide +kernel)
  have hn := low_number A .lowSelfConfidence
  have hn' := (C249_number_partial A (by norm_num) lowY lowP .lowSelfConfidence 1).mpr hn
  constructor
  · unfold multilabelIssues lowIndices
    rw [hn, h1]
    refine ok_of_toOption ?_
    show some _ = some _
    congr 1
    decide +kernel
  · unfold multilabelIssues lowIndices
    rw [hn', h2]
    refine ok_of_toOption ?_
    show some _ = some _
    congr 1
    decide +kernel

end Cleanlab.Props
