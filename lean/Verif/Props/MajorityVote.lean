import Verif.Lemmas.Multiannotator

/-!
# C19, C59: majority vote
-/

namespace Cleanlab.Props

open Np Cleanlab.Util Cleanlab.Multiannotator Cleanlab.Spec

variable {n M K : ℕ} {F : Type} [Field F] [LinearOrder F]

/-- **C19**: whatever the data and the random numbers, the label returned for an example is one of its most
frequent labels. -/
theorem C19_majority_vote_is_mode (L : Annotations n M K) (P : Option (Fin n → Fin K → F)) (rand : Fin n → ℕ)
    (r : Fin n → Fin K) (h : majorityVote L P rand = .ok r) (i : Fin n) : IsMode L i (r i) :=
  (mem_modes L i _).mp (afterFrequency_subset L P i (afterAnnotators_subset L P i (majorityVote_mem h i)))

/-- **C19**: an annotated example gets a label that some annotator gave. -/
theorem C19_majority_vote_was_given (L : Annotations n M K) (P : Option (Fin n → Fin K → F)) (rand : Fin n → ℕ)
    (r : Fin n → Fin K) (h : majorityVote L P rand = .ok r) (i : Fin n) (hi : ∃ m, L i m ≠ none) :
    ∃ m, L i m = some (r i) := by
  obtain ⟨m, hm⟩ := hi
  have := numVotes_pos_of_isMode L i _ (C19_majority_vote_is_mode L P rand r h i) m hm
  obtain ⟨m', hm'⟩ := Finset.card_pos.mp this
  exact ⟨m', by simpa using hm'⟩

/-- **C19 (partial)**, termination with a result: for valid annotations there is a result if some example has a
unique most frequent label. Missing: data in which every example is tied, see the refutation. -/
theorem C19_returns_partial [NeZero K] (L : Annotations n M K) (P : Option (Fin n → Fin K → F)) (rand : Fin n → ℕ)
    (hv : ValidAnnotations L) (hu : ∃ i, ∃! k, IsMode L i k) : ∃ r, majorityVote L P rand = .ok r := by
  obtain ⟨i0, h0⟩ := hu
  obtain ⟨m0, hm0⟩ := hv.1 i0
  have himp := imputedAgreement_isSome (F := F) L i0 h0 m0 hm0
  have hne : ∀ i, 0 < (afterAnnotators L P i).length := by
    intro i
    refine List.length_pos_of_ne_nil (afterAnnotators_ne_nil L P i (fun _ k hk => ?_))
    obtain ⟨m, hm⟩ := hv.1 i
    exact annotatorsScore_isSome L himp i k (numVotes_pos_of_isMode L i k
      ((mem_modes L i k).mp (afterFrequency_subset L P i hk)) m hm)
  exact ⟨_, dif_pos hne⟩

/-- **C19 (partial)**: there is also a result, whatever the annotations, if predicted probabilities are given and
no row of them has two equal entries. -/
theorem C19_returns_with_pred_probs_partial [NeZero K] (L : Annotations n M K) (P : Fin n → Fin K → F)
    (rand : Fin n → ℕ) (hP : ∀ i, Function.Injective (P i)) : ∃ r, majorityVote L (some P) rand = .ok r := by
  have hne : ∀ i, 0 < (afterAnnotators L (some P) i).length := by
    intro i
    refine List.length_pos_of_ne_nil (afterAnnotators_ne_nil L (some P) i (fun h => absurd ?_ h))
    have h1 : (afterPredProbs L (some P) i).length = 1 := by
      show (tieBreak (P i) (modes L i)).length = 1
      unfold tieBreak
      split_ifs with h
      · exact h
      · obtain ⟨k, hk⟩ := List.exists_mem_of_ne_nil _ (keepMax_ne_nil (P i) _ (modes_ne_nil L i))
        have hn : (keepMax (P i) (modes L i)).Nodup := ((List.nodup_finRange K).filter _).filter _
        have hp : (keepMax (P i) (modes L i)).Perm [k] := (List.perm_ext_iff_of_nodup hn (by simp)).mpr (fun j => by
          rw [List.mem_singleton]
          refine ⟨fun hj => ?_, fun hj => by rw [hj]; exact hk⟩
          have h1 := (mem_keepMax _ _ _).mp hk
          have h2 := (mem_keepMax _ _ _).mp hj
          exact hP i (le_antisymm (h1.2 j h2.1) (h2.2 k h1.1)))
        rw [hp.length_eq]; rfl
    show (tieBreak _ (afterPredProbs L (some P) i)).length = 1
    unfold tieBreak
    rw [if_pos h1]
    exact h1
  exact ⟨_, dif_pos hne⟩

/-- Valid annotations: three annotators, a tied example and an example with a unique mode. -/
def exVotes : Annotations 2 3 3 := ![![some 0, some 1, none], ![some 1, some 1, some 2]]

example : ValidAnnotations exVotes ∧ (∃! k, IsMode exVotes 1 k) ∧ ¬ ∃! k, IsMode exVotes 0 k := by
  refine ⟨(assertValidInputs_iff _).mp (by decide +kernel), ?_, ?_⟩
  · rw [← length_modes_eq_one]; decide +kernel
  · rw [← length_modes_eq_one]; decide +kernel

/-- **C19 (refuted as stated)**: on valid annotations without `pred_probs` the majority vote may end in an
exception, here for `[[0, 1], [1, 0]]`. -/
theorem C19_not_total :
    ¬ ∀ (n M K : ℕ) (L : Annotations n M K) (rand : Fin n → ℕ), ValidAnnotations L →
      ∃ r, majorityVote (F := ℚ) L none rand = .ok r := by
  intro h
  obtain ⟨r, hr⟩ := h 2 2 2 ![![some 0, some 1], ![some 1, some 0]] (fun _ => 0)
    ((assertValidInputs_iff _).mp (by decide +kernel))
  have hn : ¬ ∀ i, 0 < (afterAnnotators (F := ℚ)
      (![![some 0, some 1], ![some 1, some 0]] : Annotations 2 2 2) none i).length := by decide +kernel
  unfold majorityVote at hr
  rw [dif_neg hn] at hr
  cases hr

/-! ## C59: order of tie-breaks -/

/-- **C59 (partial)**, first tie-break: with `pred_probs` the label returned has the largest predicted
probability among the most frequent labels of the example. -/
theorem C59_pred_probs_first_partial (L : Annotations n M K) (P : Fin n → Fin K → F) (rand : Fin n → ℕ)
    (r : Fin n → Fin K) (h : majorityVote L (some P) rand = .ok r) (i : Fin n) (k : Fin K) (hk : IsMode L i k) :
    P i k ≤ P i (r i) := by
  have h1 : r i ∈ afterPredProbs L (some P) i :=
    tieBreak_subset _ _ (afterAnnotators_subset L (some P) i (majorityVote_mem h i))
  have hk' := (mem_modes L i k).mpr hk
  change r i ∈ tieBreak (P i) (modes L i) at h1
  unfold tieBreak at h1
  split_ifs at h1 with h2
  · obtain ⟨a, ha⟩ := List.length_eq_one_iff.mp h2
    rw [ha, List.mem_singleton] at h1 hk'
    rw [h1, hk']
  · exact ((mem_keepMax _ _ _).mp h1).2 k hk'

/-- **C59 (partial)**, second tie-break: without `pred_probs` the label returned is the one of *least* total
frequency among the most frequent labels of the example. -/
theorem C59_least_frequent_class_partial [IsStrictOrderedRing F] (L : Annotations n M K) (rand : Fin n → ℕ)
    (r : Fin n → Fin K) (h : majorityVote (F := F) L none rand = .ok r) (i : Fin n) (k : Fin K)
    (hk : IsMode L i k) : totalVotes L (r i) ≤ totalVotes L k := by
  have h1 : r i ∈ afterFrequency (F := F) L none i := afterAnnotators_subset L none i (majorityVote_mem h i)
  have hk' := (mem_modes L i k).mpr hk
  change r i ∈ tieBreak (fun k => -(classFrequency L k : F)) (modes L i) at h1
  have hc : ∀ k, classFrequency L k = totalVotes L k := by
    intro k
    unfold classFrequency totalVotes
    simp [labelCount_eq]
  unfold tieBreak at h1
  split_ifs at h1 with h2
  · obtain ⟨a, ha⟩ := List.length_eq_one_iff.mp h2
    rw [ha, List.mem_singleton] at h1 hk'
    rw [h1, hk']
  · have := ((mem_keepMax _ _ _).mp h1).2 k hk'
    simp only [hc, neg_le_neg_iff, Nat.cast_le] at this
    exact this

/-- **C59 (refuted as stated)**: the documentation says that a tie is broken by "selecting the class with highest
frequency"; the code takes the class with the lowest frequency. -/
theorem C59_not_most_frequent_class :
    ¬ ∀ (n M K : ℕ) (L : Annotations n M K) (rand : Fin n → ℕ) (r : Fin n → Fin K), ValidAnnotations L →
      majorityVote (F := ℚ) L none rand = .ok r →
      ∀ i k, IsMode L i k → totalVotes L k ≤ totalVotes L (r i) := by
  intro h
  have hv : ValidAnnotations exVotes := (assertValidInputs_iff _).mp (by decide +kernel)
  obtain ⟨r, hr⟩ := C19_returns_partial (F := ℚ) exVotes none (fun _ => 0) hv
    ⟨1, (length_modes_eq_one _ _).mp (by decide +kernel)⟩
  have hm : IsMode exVotes 0 1 := (mem_modes _ _ _).mp (by decide +kernel)
  have hm0 : IsMode exVotes 0 0 := (mem_modes _ _ _).mp (by decide +kernel)
  have h1 := h 2 3 3 exVotes (fun _ => 0) r hv hr 0 1 hm
  have h2 := C59_least_frequent_class_partial exVotes (fun _ => 0) r hr 0 0 hm0
  have h3 : totalVotes exVotes 1 = 3 := by decide +kernel
  have h4 : totalVotes exVotes 0 = 1 := by decide +kernel
  omega

end Cleanlab.Props
