import Verif.Props.BetterBatched

/-!
# C231: the number of issues found in batches
-/

namespace Cleanlab.Props

open Np Cleanlab.Util Cleanlab.Count Cleanlab.Rank Cleanlab.Filter Cleanlab.Batched Cleanlab.Spec

variable {K : ℕ} [NeZero K]

/-- The number that `LabelInspector` reports after batches of data. -/
theorem batched_number (score : (Fin K → ℚ) → Ex K → ℚ) (jobs : ℕ → Jobs) (bs : List (List (Ex K))) (data : List (Ex K))
    (hf : bs.flatten = data) (hd : data ≠ []) :
    ∃ s, inspect score false jobs bs = .ok s ∧ getNumIssues false s =
      .ok ((data.countP (fun e => decide (IsOffDiagonal (bs.foldl updateThresholds {}).thr e)) : ℕ) : ℤ) := by
  have hff := foldl_fields bs ({} : Inspector K)
  refine ⟨_, by rw [inspect_eq score jobs bs (by rw [hf]; exact hd), hf], ?_⟩
  generalize bs.foldl updateThresholds {} = s at hff ⊢
  have hpos : 0 < data.length := List.length_pos_of_ne_nil hd
  unfold getNumIssues scored computeNumIssues
  simp only [Bool.false_eq_true, if_false, reaches_and_disagrees, hff.2.1]
  rw [if_neg (by omega), Nat.zero_add]

omit [NeZero K] in
theorem countP_get {α : Type} (l : List α) (p : α → Bool) : l.countP p = (List.finRange l.length).countP (fun i => p (l.get i)) := by
  conv_lhs => rw [← List.map_get_finRange l]
  rw [List.countP_map]
  rfl

/-- Every class is given to an example, and no label is given a probability below 2e-6. -/
def AllGiven (data : List (Ex K)) : Prop := (∀ k, ∃ e ∈ data, e.1 = k) ∧ ∀ e ∈ data, 2 / 1000000 ≤ e.2 e.1

omit [NeZero K] in
theorem thresholds_given (data : List (Ex K)) (hd : data ≠ []) (h : AllGiven data) (bs : List (List (Ex K))) (hf : bs.flatten = data) :
    (bs.foldl updateThresholds {}).thr = getConfidentThresholds (labelsOf data) (probsOf data) := by
  funext k
  rw [streaming_thresholds data hd h.2 bs hf k, if_neg]
  unfold given
  rw [List.countP_eq_zero]
  intro h0
  obtain ⟨e, he, hk⟩ := h.1 k
  exact h0 e he (decide_eq_true hk)

/-- **C231 (partial).** The number found in batches is at most that of `num_label_issues`, if every class is given to an example and no
two probabilities of an example differ by as little as 1e-6. Missing: the other direction. -/
theorem C231_at_most_partial (A : ArgSort ℚ) (jobs : ℕ → Jobs) (bs : List (List (Ex K))) (data : List (Ex K)) (hf : bs.flatten = data)
    (hd : data ≠ []) (hg : AllGiven data) (hgap : ∀ e ∈ data, ∀ k, k ≠ e.1 → e.2 e.1 ≤ e.2 k → e.2 e.1 + 1 / 1000000 < e.2 k) :
    ∃ (s : Inspector K) (m M : ℤ), inspect selfConfidenceScore false jobs bs = .ok s ∧ getNumIssues false s = .ok m ∧
      numLabelIssues A (labelsOf data) (probsOf data) none .offDiagonal = .ok M ∧ m ≤ M := by
  obtain ⟨s, hs, hm⟩ := batched_number selfConfidenceScore jobs bs data hf hd
  refine ⟨s, _, _, hs, hm, rfl, ?_⟩
  rw [thresholds_given data hd hg bs hf, countP_get data, Nat.cast_le]
  refine List.countP_mono_left fun i _ hi => ?_
  obtain ⟨k, hk, hne, hr⟩ := of_decide_eq_true hi
  have hred : reduceIssues (labelsOf data) (probsOf data) i = false := by
    rw [← Bool.not_eq_true, reduceIssues_iff]
    intro hp
    have h1 := hp.1 k
    have h2 : k ≠ labelsOf data i := hne
    simp only [if_neg h2, if_true] at h1
    have h3 : data.get i ∈ data := List.get_mem _ _
    have h4 := hgap _ h3 k hne (hk.1 _)
    have h5 : probsOf data i k ≤ probsOf data i (labelsOf data i) + 1 / 1000000 := by linarith
    exact absurd h4 (not_lt.mpr h5)
  rw [Bool.and_eq_true, hred, decide_eq_true_eq]
  exact ⟨(offDiagonal_reduce_iff _ _ _ i hred).mpr ⟨k, hne, hr⟩, rfl⟩

/-- **C231 (partial).** With two classes the numbers are the same. -/
theorem C231_two_partial (A : ArgSort ℚ) (jobs : ℕ → Jobs) (bs : List (List (Ex 2))) (data : List (Ex 2)) (hf : bs.flatten = data)
    (hd : data ≠ []) (hg : AllGiven data) (hgap : ∀ e ∈ data, ∀ k, k ≠ e.1 → e.2 e.1 ≤ e.2 k → e.2 e.1 + 1 / 1000000 < e.2 k) :
    ∃ (s : Inspector 2) (m : ℤ), inspect selfConfidenceScore false jobs bs = .ok s ∧ getNumIssues false s = .ok m ∧
      numLabelIssues A (labelsOf data) (probsOf data) none .offDiagonal = .ok m := by
  obtain ⟨s, m, M, hs, hm, hM, hle⟩ := C231_at_most_partial A jobs bs data hf hd hg hgap
  refine ⟨s, m, hs, hm, ?_⟩
  rw [hM]
  congr 1
  refine le_antisymm ?_ hle
  obtain ⟨s', hs', hm'⟩ := batched_number selfConfidenceScore jobs bs data hf hd
  rw [hs] at hs'
  cases Except.ok.inj hs'
  rw [hm] at hm'
  rw [Except.ok.inj hm', ← Except.ok.inj hM, thresholds_given data hd hg bs hf, countP_get data, Nat.cast_le]
  refine List.countP_mono_left fun i _ hi => ?_
  rw [Bool.and_eq_true, decide_eq_true_eq, Bool.not_eq_true'] at hi
  obtain ⟨k, hk, hr⟩ := (offDiagonal_reduce_iff _ _ _ i hi.2).mp hi.1
  obtain ⟨l, hl, hle⟩ := reduceIssues_false_iff _ _ i hi.2
  have hlk : ∀ j : Fin 2, j ≠ labelsOf data i → j = k := by
    have : ∀ c k j : Fin 2, k ≠ c → j ≠ c → j = k := by decide
    exact fun j hj => this _ k j hk hj
  have hlt : probsOf data i (labelsOf data i) < probsOf data i k := by
    rw [hlk l hl] at hle
    linarith
  refine decide_eq_true ⟨k, ⟨fun j => ?_, fun j hj => ?_⟩, hk, hr⟩
  · by_cases hj : j = labelsOf data i
    · rw [hj]; exact hlt.le
    · rw [hlk j hj]
  · by_cases hj' : j = labelsOf data i
    · rw [hj']; exact hlt
    · exact absurd (hlk j hj') hj.ne

/-- **C231** refuted: `num_label_issues` counts an issue that the search in batches does not. -/
theorem C231_not_equal :
    AllGiven (rivalData ![18 / 100, 42 / 100, 40 / 100]) ∧
    (inspect selfConfidenceScore false (fun _ => .one) [rivalData ![18 / 100, 42 / 100, 40 / 100]]).toOption.map
      (fun s => (getNumIssues false s).toOption) = some (some 0) ∧
    (numLabelIssues (stableSort ℚ) (labelsOf (rivalData ![18 / 100, 42 / 100, 40 / 100]))
      (probsOf (rivalData ![18 / 100, 42 / 100, 40 / 100])) none .offDiagonal).toOption = some 1 := by
  refine ⟨⟨?_, ?_⟩, ?_, ?_⟩ <;> decide +kernel

/-! ### Examples -/

/-- Three examples of two classes, in two batches. -/
def twoBatches : List (List (Ex 2)) := [[(0, ![2 / 5, 3 / 5]), (0, ![9 / 10, 1 / 10])], [(1, ![2 / 5, 3 / 5])]]

example (A : ArgSort ℚ) (jobs : ℕ → Jobs) : ∃ s : Inspector 2, inspect selfConfidenceScore false jobs twoBatches = .ok s ∧
    getNumIssues false s = .ok 1 ∧
    numLabelIssues A (labelsOf twoBatches.flatten) (probsOf twoBatches.flatten) none .offDiagonal = .ok 1 := by
  obtain ⟨s, m, hs, hm, hM⟩ := C231_two_partial A jobs twoBatches _ rfl (by decide +kernel)
    ⟨by decide +kernel, by decide +kernel⟩ (by decide +kernel)
  have h1 : m = 1 := Except.ok.inj (hM.symm.trans (by
    show (Except.ok _ : Except String ℤ) = _
    congr 1
    decide +kernel))
  rw [h1] at hm hM
  exact ⟨s, hs, hm, hM⟩

end Cleanlab.Props
