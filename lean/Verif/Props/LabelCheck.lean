import Verif.Model.LabelCheck
import Mathlib.Tactic.FieldSimp
import Mathlib.Tactic.FinCases
import Mathlib.Algebra.BigOperators.Field
import Mathlib.Data.Fintype.BigOperators
import Mathlib.Tactic.Linarith
import Mathlib.Tactic.Positivity

/-!
# C88: predictions of the label check from features
-/

namespace Cleanlab.Props

open Cleanlab.LabelCheck

variable {n K k : ℕ}

/-- The number of neighbours with a label. -/
def labelCount (nbr : Fin n → Fin (k + 1) → Fin n) (labels : Fin n → Fin K) (i : Fin n) (c : Fin K) : ℕ :=
  (Finset.univ.filter (fun r => labels (nbr i r) = c)).card

theorem outOfSample_eq (nbr : Fin n → Fin (k + 1) → Fin n) (labels : Fin n → Fin K) (i : Fin n) (c : Fin K) :
    outOfSample nbr labels i c = ((labelCount nbr labels i c : ℚ) - if labels i = c then 1 else 0) / (k : ℚ) := by
  unfold outOfSample knnProbs oneHot labelCount
  have : ((k : ℚ) + 1) ≠ 0 := by positivity
  congr 1
  field_simp

theorem sum_labelCount (nbr : Fin n → Fin (k + 1) → Fin n) (labels : Fin n → Fin K) (i : Fin n) :
    ∑ c, labelCount nbr labels i c = k + 1 := by
  unfold labelCount
  rw [← Finset.card_eq_sum_card_fiberwise (f := fun r => labels (nbr i r)) (fun _ _ => Finset.mem_coe.mpr (Finset.mem_univ _))]
  simp

theorem labelCount_le (nbr : Fin n → Fin (k + 1) → Fin n) (labels : Fin n → Fin K) (i : Fin n) (c : Fin K) :
    labelCount nbr labels i c ≤ k + 1 := by
  refine (Finset.card_le_univ _).trans (by simp)

/-- **C88**, partial: an example that is among its own `k + 1` neighbours exactly once gets the label distribution of the `k`
other neighbours; its own label does not count. -/
theorem C88_out_of_sample_partial (nbr : Fin n → Fin (k + 1) → Fin n) (labels : Fin n → Fin K) (i : Fin n)
    (r0 : Fin (k + 1)) (h0 : nbr i r0 = i) (c : Fin K) :
    outOfSample nbr labels i c =
      ((Finset.univ.filter (fun r => r ≠ r0 ∧ labels (nbr i r) = c)).card : ℚ) / (k : ℚ) := by
  rw [outOfSample_eq]
  congr 1
  unfold labelCount
  have hset : (Finset.univ.filter (fun r => r ≠ r0 ∧ labels (nbr i r) = c)) =
      (Finset.univ.filter (fun r => labels (nbr i r) = c)).erase r0 := by
    ext r
    simp [Finset.mem_erase]
  rw [hset]
  by_cases hc : labels i = c
  · have hmem : r0 ∈ Finset.univ.filter (fun r => labels (nbr i r) = c) := by simp [h0, hc]
    rw [if_pos hc, Finset.card_erase_of_mem hmem, Nat.cast_sub (Finset.card_pos.mpr ⟨r0, hmem⟩)]
    simp
  · rw [if_neg hc, Finset.erase_eq_of_notMem (by simp [h0, hc]), sub_zero]

/-- The prediction for an example does not depend on its own label. -/
theorem C88_own_label_unused_partial (nbr : Fin n → Fin (k + 1) → Fin n) (labels labels' : Fin n → Fin K) (i : Fin n)
    (r0 : Fin (k + 1)) (h0 : nbr i r0 = i) (h1 : ∀ r, nbr i r = i → r = r0) (hl : ∀ j, j ≠ i → labels j = labels' j)
    (c : Fin K) : outOfSample nbr labels i c = outOfSample nbr labels' i c := by
  rw [C88_out_of_sample_partial nbr labels i r0 h0, C88_out_of_sample_partial nbr labels' i r0 h0]
  congr 3
  ext r
  simp only [Finset.mem_filter, Finset.mem_univ, true_and]
  constructor <;> rintro ⟨h2, h3⟩ <;> refine ⟨h2, ?_⟩
  · rw [← hl _ (fun h => h2 (h1 r h))]; exact h3
  · rw [hl _ (fun h => h2 (h1 r h))]; exact h3

/-- **C88**, partial: the predictions of an example always sum to 1. -/
theorem C88_sums_to_one (nbr : Fin n → Fin (k + 1) → Fin n) (labels : Fin n → Fin K) (hk : 0 < k) (i : Fin n) :
    ∑ c, outOfSample nbr labels i c = 1 := by
  simp only [outOfSample_eq]
  rw [← Finset.sum_div, Finset.sum_sub_distrib, ← Nat.cast_sum, sum_labelCount]
  have : (k : ℚ) ≠ 0 := by exact_mod_cast hk.ne'
  simp [this]

/-- **C88**, partial: the predictions are accepted exactly if every example has its own label among the labels of its `k + 1`
neighbours, in particular if it is one of them; then they lie in `[0, 1]`. -/
theorem C88_accepted_partial (nbr : Fin n → Fin (k + 1) → Fin n) (labels : Fin n → Fin K) (hk : 0 < k) (hk6 : k < 10 ^ 6) :
    (checkedProbs nbr labels = .ok (outOfSample nbr labels) ↔ ∀ i, ∃ r, labels (nbr i r) = labels i) ∧
    ((∀ i, ∃ r, labels (nbr i r) = labels i) → ∀ i c, 0 ≤ outOfSample nbr labels i c ∧ outOfSample nbr labels i c ≤ 1) := by
  have hk0 : (0 : ℚ) < k := by exact_mod_cast hk
  have hrange : (∀ i, ∃ r, labels (nbr i r) = labels i) →
      ∀ i c, 0 ≤ outOfSample nbr labels i c ∧ outOfSample nbr labels i c ≤ 1 := by
    intro h i c
    obtain ⟨r, hr⟩ := h i
    rw [outOfSample_eq]
    have hle : (labelCount nbr labels i c : ℚ) ≤ k + 1 := by exact_mod_cast labelCount_le nbr labels i c
    by_cases hc : labels i = c
    · rw [if_pos hc]
      have hpos : 1 ≤ labelCount nbr labels i c := Finset.card_pos.mpr ⟨r, by simp [hr, hc]⟩
      have hpos' : (1 : ℚ) ≤ labelCount nbr labels i c := by exact_mod_cast hpos
      exact ⟨div_nonneg (by linarith) hk0.le, by rw [div_le_one hk0]; linarith⟩
    · rw [if_neg hc, sub_zero]
      have hlt : labelCount nbr labels i c < k + 1 := by
        unfold labelCount
        have : (Finset.univ.filter (fun r => labels (nbr i r) = c)).card < (Finset.univ : Finset (Fin (k + 1))).card :=
          Finset.card_lt_card (Finset.filter_ssubset.mpr ⟨r, Finset.mem_univ _, by rw [hr]; exact hc⟩)
        simpa using this
      have hlt' : (labelCount nbr labels i c : ℚ) ≤ k := by exact_mod_cast Nat.lt_succ_iff.mp hlt
      exact ⟨div_nonneg (Nat.cast_nonneg _) hk0.le, by rw [div_le_one hk0]; exact hlt'⟩
  refine ⟨⟨fun h i => ?_, fun h => ?_⟩, hrange⟩
  · unfold checkedProbs at h
    by_cases hall : ∀ i c, -(1 / 10 ^ 6) ≤ outOfSample nbr labels i c ∧ outOfSample nbr labels i c ≤ 1 + 1 / 10 ^ 6
    · by_contra hno
      push Not at hno
      have h0 : labelCount nbr labels i (labels i) = 0 := by
        unfold labelCount
        rw [Finset.card_eq_zero, Finset.filter_eq_empty_iff]
        exact fun r _ => hno r
      have := (hall i (labels i)).1
      rw [outOfSample_eq, h0, if_pos rfl, le_div_iff₀ hk0] at this
      norm_num at this
      norm_num at hk6
      have hk6' : (k : ℚ) < 1000000 := by exact_mod_cast hk6
      linarith
    · rw [if_neg hall] at h; cases h
  · unfold checkedProbs
    rw [if_pos]
    intro i c
    obtain ⟨h1, h2⟩ := hrange h i c
    exact ⟨le_trans (by norm_num) h1, h2.trans (by norm_num)⟩

/-- **C88** fails: with exact duplicates an example need not be among the neighbours found for it; its prediction then
is negative, and the check raises an error. -/
theorem C88_not_probabilities :
    ∃ (nbr : Fin 3 → Fin (1 + 1) → Fin 3) (labels : Fin 3 → Fin 2),
      (∀ i, Function.Injective (nbr i)) ∧ outOfSample nbr labels 0 0 = -1 ∧ outOfSample nbr labels 0 1 = 2 ∧
      (checkedProbs nbr labels).toOption.isNone := by
  refine ⟨![![1, 2], ![1, 2], ![1, 2]], ![0, 1, 1], by decide, by decide +kernel, by decide +kernel, ?_⟩
  unfold checkedProbs
  rw [if_neg]
  · rfl
  · intro h
    have := (h 0 0).1
    revert this
    decide +kernel

/-- Three examples, two neighbours each including themselves. -/
example : (fun (i : Fin 3) (c : Fin 2) => outOfSample (k := 1) ![![0, 1], ![1, 0], ![2, 1]] ![0, 1, 1] i c) =
    ![![0, 1], ![1, 0], ![0, 1]] := by decide +kernel

end Cleanlab.Props
