import Verif.Model.LabelContainer
import Verif.Props.Validation

/-!
# C131: labels in every accepted container and number type
-/

namespace Cleanlab.Props

open Np Cleanlab.Validation Cleanlab.LabelContainer

variable {n K : ℕ}

/-- The labels are classes of the columns, there are at least two of them unless one is allowed, and the probabilities are in
range. -/
structure ValidLabels (allowOne : Bool) (v : Fin n → ℕ) (P : Fin n → Fin K → ℚ) : Prop where
  nonempty : 0 < n
  classes : ∀ i, v i < K
  two : allowOne = true ∨ ∃ i j, v i ≠ v j
  range : ∀ i k, -(1 / 10 ^ 6) ≤ P i k ∧ P i k ≤ 1 + 1 / 10 ^ 6

/-- **C131**: labels are accepted or refused for their values alone, whatever their container and number type are. -/
theorem C131_accepted (allowOne : Bool) (g : Given n) (P : Fin n → Fin K → ℚ) :
    LabelContainer.validate allowOne g P = .ok () ↔ ValidLabels allowOne g.values P := by
  unfold LabelContainer.validate
  rw [C96_probs_partial]
  have hz : ∀ z, validClassLabels true allowOne ((List.ofFn g.values).map (fun v : ℕ => Raw.num (v : ℚ))) = .ok z ↔
      z = List.ofFn g.values ∧ 0 < n ∧ (allowOne = true ∨ ∃ i j, g.values i ≠ g.values j) := by
    intro z
    rw [C96_labels]
    constructor
    · rintro ⟨h1, h2, h3, _⟩
      have hinj : Function.Injective (fun a : ℕ => Raw.num (a : ℚ)) := fun a b h => by
        simpa using h
      have h4 : z = List.ofFn g.values := (List.map_injective_iff.mpr hinj h1).symm
      subst h4
      refine ⟨rfl, ?_, ?_⟩
      · rw [ne_eq, List.ofFn_eq_nil_iff] at h2
        omega
      · refine h3.imp id ?_
        rintro ⟨a, ha, b, hb, hab⟩
        obtain ⟨i, rfl⟩ := List.mem_ofFn.mp ha
        obtain ⟨j, rfl⟩ := List.mem_ofFn.mp hb
        exact ⟨i, j, hab⟩
    · rintro ⟨rfl, h2, h3⟩
      refine ⟨rfl, ?_, ?_, Or.inl rfl⟩
      · rw [ne_eq, List.ofFn_eq_nil_iff]
        omega
      · refine h3.imp id ?_
        rintro ⟨i, j, hij⟩
        exact ⟨_, List.mem_ofFn.mpr ⟨i, rfl⟩, _, List.mem_ofFn.mpr ⟨j, rfl⟩, hij⟩
  constructor
  · rintro ⟨z, h1, h2, h3, h4⟩
    obtain ⟨rfl, h5, h6⟩ := (hz z).mp h1
    exact ⟨h5, fun i => h3 _ (List.mem_ofFn.mpr ⟨i, rfl⟩), h6, h4⟩
  · intro h
    refine ⟨List.ofFn g.values, (hz _).mpr ⟨rfl, h.nonempty, h.two⟩, by simp, ?_, h.range⟩
    intro a ha
    obtain ⟨i, rfl⟩ := List.mem_ofFn.mp ha
    exact h.classes i

theorem scores_of_valid (g : Given n) (P : Fin n → Fin K → ℚ) (h : ValidLabels true g.values P) :
    labelQualityScores g P = selfConfidence g P := by
  unfold labelQualityScores
  rw [(C131_accepted true g P).mpr h]
  rfl

/-- **C131** (partial: integers in an array or a Series): the scores are the probabilities of the given labels, one per
example, and depend on the values of the labels only. -/
theorem C131_scores_partial (g : Given n) (P : Fin n → Fin K → ℚ) (hc : g.container = .array ∨ g.container = .series)
    (ht : g.type = .int) (h : ValidLabels true g.values P) :
    labelQualityScores g P = .ok (.vector (List.ofFn (fun i => P i ⟨g.values i, h.classes i⟩))) := by
  rw [scores_of_valid g P h]
  unfold selfConfidence
  have : takeRows P g.values = .ok (.vector (List.ofFn (fun i => P i ⟨g.values i, h.classes i⟩))) := by
    unfold takeRows
    rw [dif_pos h.classes]
  rcases hc with hc | hc <;> rw [hc, ht] <;> exact this

/-- **C131** (partial: every container but a frame): whether the prediction differs from the given label, for every number
type, one answer per example that depends on the values of the labels only. -/
theorem C131_predicted_neq_given_partial [NeZero K] (g : Given n) (P : Fin n → Fin K → ℚ) (hc : g.container ≠ .frame)
    (h : ValidLabels false g.values P) :
    predictedNeqGiven g P = .ok (.vector (List.ofFn (fun i => decide ((argmax (P i) : ℕ) ≠ g.values i)))) := by
  unfold predictedNeqGiven
  rw [(C131_accepted false g P).mpr h]
  dsimp only [bind, Except.bind]
  cases hk : g.container with
  | frame => exact absurd hk hc
  | _ => rfl

/-- **C131**: labels that are refused are refused in every container and number type. -/
theorem C131_refused [NeZero K] (g : Given n) (P : Fin n → Fin K → ℚ) :
    (¬ValidLabels true g.values P → ∃ e, labelQualityScores g P = .error e) ∧
      (¬ValidLabels false g.values P → ∃ e, predictedNeqGiven g P = .error e) := by
  constructor
  · intro h
    unfold labelQualityScores
    cases hv : LabelContainer.validate true g P with
    | ok u => exact absurd ((C131_accepted true g P).mp hv) h
    | error e => exact ⟨e, rfl⟩
  · intro h
    unfold predictedNeqGiven
    cases hv : LabelContainer.validate false g P with
    | ok u => exact absurd ((C131_accepted false g P).mp hv) h
    | error e => exact ⟨e, rfl⟩

/-- **C131 fails** for lists: `get_label_quality_scores` accepts every valid list of labels and then fails on each. -/
theorem C131_not_list (g : Given n) (P : Fin n → Fin K → ℚ) (hc : g.container = .list) (h : ValidLabels true g.values P) :
    labelQualityScores g P = .error "AttributeError" := by
  rw [scores_of_valid g P h]
  unfold selfConfidence
  rw [hc]

/-- **C131 fails** for floats: integer-valued floats are accepted and then fail. -/
theorem C131_not_float (g : Given n) (P : Fin n → Fin K → ℚ) (hc : g.container ≠ .list) (ht : g.type = .float)
    (h : ValidLabels true g.values P) : labelQualityScores g P = .error "IndexError" := by
  rw [scores_of_valid g P h]
  unfold selfConfidence
  rw [ht]
  cases hk : g.container with
  | list => exact absurd hk hc
  | _ => rfl

/-- **C131 fails** for frames with one column: the result has `n` rows and `n` columns, row `i` with the probabilities all
examples give to the label of example `i`; likewise for `find_predicted_neq_given`. -/
theorem C131_not_frame [NeZero K] (g : Given n) (P : Fin n → Fin K → ℚ) (hc : g.container = .frame) (ht : g.type = .int)
    (h : ValidLabels false g.values P) :
    labelQualityScores g P =
        .ok (.matrix (List.ofFn (fun i => List.ofFn (fun j => P j ⟨g.values i, h.classes i⟩)))) ∧
      predictedNeqGiven g P =
        .ok (.matrix (List.ofFn (fun i => List.ofFn (fun j => decide ((argmax (P j) : ℕ) ≠ g.values i))))) := by
  constructor
  · rw [scores_of_valid g P ⟨h.nonempty, h.classes, Or.inl rfl, h.range⟩]
    unfold selfConfidence
    rw [hc, ht]
    dsimp only
    unfold takeTable
    rw [dif_pos h.classes]
  · unfold predictedNeqGiven
    rw [(C131_accepted false g P).mpr h]
    dsimp only [bind, Except.bind]
    rw [hc]
    rfl

/-- **C131 fails** for Booleans: they are accepted, and then fail unless there are as many examples as classes. -/
theorem C131_not_bool (g : Given n) (P : Fin n → Fin K → ℚ) (hc : g.container = .array ∨ g.container = .series)
    (ht : g.type = .bool) (h : ValidLabels true g.values P) (hn : n ≠ K) : labelQualityScores g P = .error "IndexError" := by
  rw [scores_of_valid g P h]
  unfold selfConfidence
  have : takeMask P g.values = .error "IndexError" := by
    unfold takeMask
    rw [dif_neg hn]
  rcases hc with hc | hc <;> rw [hc, ht] <;> exact this

/-- Probabilities of two examples. -/
def twoByTwo : Fin 2 → Fin 2 → ℚ := ![![9 / 10, 1 / 10], ![2 / 10, 8 / 10]]

/-- Example 0 is labelled `False` and example 1 `True`. -/
def falseTrue (t : NumType) : Given 2 := ⟨.array, t, ![0, 1]⟩

theorem twoByTwo_valid (b : Bool) (t : NumType) : ValidLabels b (falseTrue t).values twoByTwo :=
  ⟨by decide, fun i => by revert i; exact (by decide +kernel : ∀ i : Fin 2, (![0, 1] : Fin 2 → ℕ) i < 2),
    Or.inr ⟨0, 1, (by decide +kernel : (![0, 1] : Fin 2 → ℕ) 0 ≠ (![0, 1] : Fin 2 → ℕ) 1)⟩,
    fun i k => by revert i k; decide +kernel⟩

/-- **C131 fails** silently for two examples with Boolean labels: the correctly labelled example 0 gets the probability of the
other class, where the integers 0 and 1 give `0.9`. -/
theorem C131_not_bool_wrong :
    (falseTrue .bool).WellTyped ∧
      labelQualityScores (falseTrue .bool) twoByTwo = .ok (.vector [1 / 10, 8 / 10]) ∧
      labelQualityScores (falseTrue .int) twoByTwo = .ok (.vector [9 / 10, 8 / 10]) := by
  refine ⟨fun _ i => by revert i; decide +kernel, ?_, ?_⟩
  · rw [scores_of_valid _ _ (twoByTwo_valid true .bool)]
    rfl
  · rw [scores_of_valid _ _ (twoByTwo_valid true .int)]
    rfl

/-- Non-vacuity: the hypotheses hold for two examples in every container and number type. -/
example (c : Container) (t : NumType) : ValidLabels false (⟨c, t, ![0, 1]⟩ : Given 2).values twoByTwo :=
  twoByTwo_valid false t

example : predictedNeqGiven (⟨.list, .float, ![1, 1, 0]⟩ : Given 3)
    (![![9 / 10, 1 / 10], ![2 / 10, 8 / 10], ![1, 0]] : Fin 3 → Fin 2 → ℚ) = .ok (.vector [true, false, false]) := by
  rw [C131_predicted_neq_given_partial _ _ (by decide)
    ⟨by decide, fun i => by revert i; decide +kernel, Or.inr ⟨1, 2, by decide +kernel⟩,
      fun i k => by revert i k; decide +kernel⟩]
  congr 2
  decide +kernel

end Cleanlab.Props
