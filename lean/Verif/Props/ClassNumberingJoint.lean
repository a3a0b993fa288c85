import Verif.Props.ClassNumbering
import Verif.Lemmas.RoundingTies

/-!
# C121, continued: estimated joints

The calibrated confident joint has its rows rounded. When no two entries of a row are equally far from their rounded values
the result does not depend on the numbering of the classes, and neither do the filters that use it.
-/

namespace Cleanlab.Props

open Np Cleanlab.Util Cleanlab.Count Cleanlab.Rank Cleanlab.Filter Cleanlab.Spec Cleanlab.Validation

variable {n K : ℕ}

theorem IsRounding_renumber (τ : Equiv.Perm (Fin K)) (x : Fin K → ℚ) (r : Fin K → ℤ) (h : IsRounding x r) :
    IsRounding (renumberV τ x) (renumberV τ r) := by
  unfold IsRounding renumberV at *
  rw [sum_renumberV τ r, sum_renumberV τ x]
  refine ⟨h.1, ?_⟩
  rcases h.2 with ⟨h1, h2⟩ | ⟨h1, h2⟩
  · exact Or.inl ⟨fun i => h1 _, fun i j => h2 _ _⟩
  · exact Or.inr ⟨fun i => h1 _, fun i j => h2 _ _⟩

theorem NoRoundingTies_renumber (τ : Equiv.Perm (Fin K)) (x : Fin K → ℚ) (h : NoRoundingTies x) :
    NoRoundingTies (renumberV τ x) :=
  fun _ _ hij => h _ _ (fun e => hij (τ.symm.injective e))

/-- Rounding a matrix without ties does not depend on the order of its rows and columns, nor on how the sort breaks ties. -/
theorem roundRows_renumber (A A' : ArgSort ℚ) (τ : Equiv.Perm (Fin K)) (x : Fin K → Fin K → ℚ)
    (h : ∀ a, NoRoundingTies (x a)) : roundRows A' (renumberM τ x) = renumberM τ (roundRows A x) := by
  funext a
  exact IsRounding.unique (x := renumberV τ (x (τ.symm a))) (NoRoundingTies_renumber τ _ (h _))
    (roundRows_rounding A' (renumberM τ x) a) (IsRounding_renumber τ _ _ (roundRows_rounding A x (τ.symm a)))

variable [NeZero K]

/-- The counts before they are rounded, `calibrate_confident_joint`. -/
def unroundedJoint (labels : Fin n → Fin K) (P : Fin n → Fin K → ℚ) : Fin K → Fin K → ℚ :=
  calibrateTotal (fun a b => (confidentJointRaw labels P (getConfidentThresholds labels P) a b : ℚ)) labels

/-- **C121 (partial).** The calibrated confident joint and the estimated joint distribution are renumbered with the classes
when every example has one most probable class and no two counts of a row are equally far from the integers they are rounded
to. -/
theorem C121_calibrated_partial (A A' : ArgSort ℚ) (τ : Equiv.Perm (Fin K)) (labels : Fin n → Fin K)
    (P : Fin n → Fin K → ℚ) (h : OneBest P) (ht : ∀ a, NoRoundingTies (unroundedJoint labels P a)) (a b : Fin K) :
    computeConfidentJoint A' (renumber τ labels) (renumberP τ P)
        (getConfidentThresholds (renumber τ labels) (renumberP τ P)) true (τ a) (τ b) =
      computeConfidentJoint A labels P (getConfidentThresholds labels P) true a b ∧
    estimateJoint A' (renumber τ labels) (renumberP τ P) (τ a) (τ b) = estimateJoint A labels P a b := by
  have hM : computeConfidentJoint A' (renumber τ labels) (renumberP τ P)
        (getConfidentThresholds (renumber τ labels) (renumberP τ P)) true =
      renumberM τ (computeConfidentJoint A labels P (getConfidentThresholds labels P) true) := by
    unfold computeConfidentJoint calibrateConfidentJoint
    rw [if_pos rfl, if_pos rfl, C121_thresholds, raw_renumber τ labels P _ h]
    have he : (fun a b => ((renumberM τ (confidentJointRaw labels P (getConfidentThresholds labels P)) a b : ℕ) : ℚ)) =
        renumberM τ (fun a b => (confidentJointRaw labels P (getConfidentThresholds labels P) a b : ℚ)) := rfl
    rw [he, calibrateTotal_renumber]
    exact roundRows_renumber A A' τ _ ht
  constructor
  · rw [hM]
    simp [renumberM]
  · unfold estimateJoint
    dsimp only
    rw [hM]
    have hs : ∑ a', ∑ b', renumberM τ (computeConfidentJoint A labels P (getConfidentThresholds labels P) true) a' b' =
        ∑ a', ∑ b', computeConfidentJoint A labels P (getConfidentThresholds labels P) true a' b' := by
      unfold renumberM
      rw [sum_renumberV τ (fun a' => ∑ b', computeConfidentJoint A labels P (getConfidentThresholds labels P) true a' (τ.symm b'))]
      exact Finset.sum_congr rfl (fun a' _ => sum_renumberV τ (fun b' => computeConfidentJoint A labels P
        (getConfidentThresholds labels P) true a' b'))
    rw [hs]
    simp [renumberM]

/-- **C121 (partial).** `find_label_issues` flags the same examples in every numbering also when it estimates the confident
joint itself, without such ties. -/
theorem C121_find_estimated_partial (A : ArgSort ℚ) (τ : Equiv.Perm (Fin K)) (labels : Fin n → Fin K)
    (P : Fin n → Fin K → ℚ) (args : Args K) (hl : ∃ i j, labels i ≠ labels j) (hP : InRange P) (h : NoMillionth labels P)
    (hb : OneBest P) (ht : ∀ a, NoRoundingTies (unroundedJoint labels P a)) (hn : args.numToRemove = none) :
    findChecked A (renumber τ labels) (renumberP τ P) (renumberArgs τ args) = findChecked A labels P args := by
  obtain ⟨i, j, hij⟩ := hl
  rw [(C115_accepts_partial A labels P ⟨i, j, hij⟩ hP).1,
    (C115_accepts_partial A (renumber τ labels) (renumberP τ P) ⟨i, j, fun e => hij (τ.injective e)⟩
      (inRange_renumber τ P hP)).1]
  refine findLabelIssues_renumber A τ labels P args h hn (fun _ => ?_)
  unfold Filter.usedJoint renumberArgs
  cases args.confidentJoint with
  | some cj => rfl
  | none =>
    dsimp only [Option.map]
    funext a b
    have := (C121_calibrated_partial A A τ labels P hb ht (τ.symm a) (τ.symm b)).1
    rw [Equiv.apply_symm_apply, Equiv.apply_symm_apply] at this
    rw [this]
    rfl

/-- Five examples; of the four of class 0 one is predicted to be of class 1 and one is not counted. -/
def thirdsLabels : Fin 5 → Fin 2 := ![0, 0, 0, 0, 1]

def thirdsProbs : Fin 5 → Fin 2 → ℚ :=
  ![![9 / 10, 1 / 10], ![9 / 10, 1 / 10], ![1 / 10, 9 / 10], ![9 / 20, 11 / 20], ![1 / 5, 4 / 5]]

/-- The counts 8/3 and 4/3 are rounded without a tie. -/
example : OneBest thirdsProbs ∧ NoMillionth thirdsLabels thirdsProbs ∧
    (∀ a, NoRoundingTies (unroundedJoint thirdsLabels thirdsProbs a)) ∧
    unroundedJoint thirdsLabels thirdsProbs 0 = ![8 / 3, 4 / 3] := by
  have ht : getConfidentThresholds thirdsLabels thirdsProbs = ![47 / 80, 4 / 5] := by
    funext k; revert k; decide +kernel
  have hr : (fun a b => (confidentJointRaw thirdsLabels thirdsProbs ![47 / 80, 4 / 5] a b : ℚ)) = ![![2, 1], ![0, 1]] := by
    funext a b; revert a b; decide +kernel
  have hu : unroundedJoint thirdsLabels thirdsProbs = ![![8 / 3, 4 / 3], ![0, 1]] := by
    unfold unroundedJoint
    rw [ht, hr]
    funext a b
    revert a b
    decide +kernel
  rw [hu]
  refine ⟨by unfold OneBest; decide +kernel, by unfold NoMillionth; decide +kernel, ?_, rfl⟩
  unfold NoRoundingTies
  decide +kernel

/-- Two halves are a tie. -/
example : ¬NoRoundingTies (![3 / 2, 3 / 2] : Fin 2 → ℚ) := by unfold NoRoundingTies; decide +kernel

end Cleanlab.Props
