import Verif.Props.BatchedNumber
import Verif.Props.CleanTwice

/-!
# C237: what is flagged in batches and what is flagged at once
-/

namespace Cleanlab.Props

open Np Cleanlab.Util Cleanlab.Count Cleanlab.Rank Cleanlab.Filter Cleanlab.Batched Cleanlab.Spec

variable {K : ℕ}

/-- No other class is as probable as the given label, or more probable by no more than the tolerance 1e-6. -/
def NoNearTies (data : List (Ex K)) : Prop :=
  ∀ e ∈ data, ∀ k, k ≠ e.1 → e.2 e.1 ≤ e.2 k → e.2 e.1 + 1 / 1000000 < e.2 k

theorem mem_take_of_list (A : ArgSort ℚ) {n : ℕ} (l : List ℚ) (h : l.length = n) (v : Fin n → ℚ)
    (hv : ∀ i, v i = l.get (i.cast h.symm)) (c : ℕ) (i : Fin n) :
    i.val ∈ ((A.indices l.get).take c).map Fin.val ↔ i ∈ (A.indices v).take c := by
  subst h
  obtain rfl : v = l.get := funext hv
  rw [List.mem_map]
  constructor
  · rintro ⟨a, ha, hai⟩
    rwa [← Fin.ext hai]
  · exact fun h => ⟨i, h, rfl⟩

theorem low_self_confidence_mask [NeZero K] (A : ArgSort ℚ) {n : ℕ} (labels : Fin n → Fin K) (P : Fin n → Fin K → ℚ) (M : ℤ)
    (hM : numLabelIssues A labels P none .offDiagonal = .ok M) :
    findLabelIssues A labels P { filterBy := .lowSelfConfidence } =
      .ok (fun i => decide (i ∈ (A.indices (selfConfidence labels P)).take M.toNat)) := by
  have hidx : lowScoreIndices A labels P .selfConfidence = .ok ((A.indices (selfConfidence labels P)).take M.toNat) := by
    unfold lowScoreIndices
    rw [hM]
    rfl
  have hraw : rawMask A labels P { filterBy := .lowSelfConfidence } =
      .ok (fun i => decide (i ∈ (A.indices (selfConfidence labels P)).take M.toNat)) := by
    show (lowScoreIndices A labels P .selfConfidence >>= fun idx => pure (fun i => decide (i ∈ idx))) = _
    rw [hidx]
    rfl
  unfold findLabelIssues
  rw [hraw]
  rfl

/-- The flags of the search in batches are those of the first `m` examples in the order of the self-confidences. -/
theorem batched_mask [NeZero K] (A : ArgSort ℚ) (jobs : ℕ → Jobs) (batchSize : ℕ) (hb : 1 ≤ batchSize) (data : List (Ex K))
    (hd : data ≠ []) (hg : AllGiven data) :
    findLabelIssuesBatched A selfConfidenceScore false jobs batchSize data = some (.ok (fun i =>
      decide (i ∈ (A.indices (selfConfidence (labelsOf data) (probsOf data))).take
        (data.countP (fun e => decide (IsOffDiagonal (getConfidentThresholds (labelsOf data) (probsOf data)) e)))) &&
      !(reduceIssues (labelsOf data) (probsOf data) i))) := by
  obtain ⟨bs, thr, -, hf, rfl, h⟩ := batched_eq A selfConfidenceScore jobs batchSize data hb hd
  rw [h, thresholds_given data hd hg bs hf]
  congr 2
  funext i
  congr 1
  rw [decide_eq_decide]
  unfold findTopIssues
  dsimp only
  rw [if_neg (by rw [List.length_map, not_lt]; exact List.countP_le_length)]
  refine mem_take_of_list A _ (List.length_map _) _ (fun i => ?_) _ i
  rw [List.get_eq_getElem, List.getElem_map]
  rfl

/-- **C237.** Every example that `find_label_issues_batched` flags is flagged by `find_label_issues` with
`low_self_confidence`, whatever the batch size and the workers. -/
theorem C237_subset [NeZero K] (A : ArgSort ℚ) (jobs : ℕ → Jobs) (batchSize : ℕ) (hb : 1 ≤ batchSize) (data : List (Ex K))
    (hd : data ≠ []) (hg : AllGiven data) (hgap : NoNearTies data) :
    ∃ mask whole, findLabelIssuesBatched A selfConfidenceScore false jobs batchSize data = some (.ok mask) ∧
      findLabelIssues A (labelsOf data) (probsOf data) { filterBy := .lowSelfConfidence } = .ok whole ∧
      ∀ i, mask i = true → whole i = true := by
  obtain ⟨s, m, M, hs, hm, hM, hle⟩ := C231_at_most_partial A jobs [data] data (by simp) hd hg hgap
  obtain ⟨s', hs', hm'⟩ := batched_number selfConfidenceScore jobs [data] data (by simp) hd
  rw [hs] at hs'
  cases Except.ok.inj hs'
  rw [hm, thresholds_given data hd hg [data] (by simp)] at hm'
  have hm'' := Except.ok.inj hm'
  refine ⟨_, _, batched_mask A jobs batchSize hb data hd hg, low_self_confidence_mask A _ _ M hM, fun i hi => ?_⟩
  rw [Bool.and_eq_true, decide_eq_true_eq] at hi
  exact decide_eq_true (mem_take_mono _ (by omega) i hi.1)

/-- **C237, two classes.** On data with two classes both flag the same examples. -/
theorem C237_two (A : ArgSort ℚ) (jobs : ℕ → Jobs) (batchSize : ℕ) (hb : 1 ≤ batchSize) (data : List (Ex 2))
    (hd : data ≠ []) (hg : AllGiven data) (hgap : NoNearTies data) (hP : ∀ e ∈ data, IsDistribution e.2) :
    ∃ mask, findLabelIssuesBatched A selfConfidenceScore false jobs batchSize data = some (.ok mask) ∧
      findLabelIssues A (labelsOf data) (probsOf data) { filterBy := .lowSelfConfidence } = .ok mask := by
  obtain ⟨s, m, hs, hm, hM⟩ := C231_two_partial A jobs [data] data (by simp) hd hg hgap
  obtain ⟨s', hs', hm'⟩ := batched_number selfConfidenceScore jobs [data] data (by simp) hd
  rw [hs] at hs'
  cases Except.ok.inj hs'
  rw [hm, thresholds_given data hd hg [data] (by simp)] at hm'
  have hm'' := Except.ok.inj hm'
  refine ⟨_, batched_mask A jobs batchSize hb data hd hg, ?_⟩
  rw [low_self_confidence_mask A _ _ m hM]
  congr 1
  funext i
  set c := data.countP (fun e => decide (IsOffDiagonal (getConfidentThresholds (labelsOf data) (probsOf data)) e)) with hc
  rw [hm'', Int.toNat_natCast, Bool.eq_iff_iff, Bool.and_eq_true, decide_eq_true_eq]
  refine ⟨fun hi => ⟨hi, ?_⟩, fun hi => hi.1⟩
  rw [Bool.not_eq_true', Bool.eq_false_iff]
  intro hred
  have hlow := take_indices_card A _ _ i hi
  have hsum : ∀ i, ∀ k, k ≠ labelsOf data i → probsOf data i (labelsOf data i) + probsOf data i k = 1 := by
    intro i k hk
    have := (hP (data.get i) (List.get_mem _ _)).2
    rw [sum_two hk.symm] at this
    show (data.get i).2 (labelsOf data i) + (data.get i).2 k = 1
    linarith
  obtain ⟨k, hk⟩ : ∃ k, k ≠ labelsOf data i := ⟨1 - labelsOf data i, (by decide : ∀ k : Fin 2, 1 - k ≠ k) _⟩
  have hhalf : 1 / 2 < probsOf data i (labelsOf data i) := by
    by_contra hle
    have h1 := hsum i k hk
    have h2 := hgap (data.get i) (List.get_mem _ _) k hk (by
      show probsOf data i (labelsOf data i) ≤ probsOf data i k
      linarith [not_lt.mp hle])
    have h3 : probsOf data i (labelsOf data i) + 1 / 1000000 < probsOf data i k := h2
    have h4 := ((reduceIssues_iff _ _ i).mp hred).1 k
    simp only [if_neg hk, if_true] at h4
    linarith
  have hcount : c ≤ (Finset.univ.filter (fun s => selfConfidence (labelsOf data) (probsOf data) s <
      selfConfidence (labelsOf data) (probsOf data) i)).card := by
    rw [hc, countP_get data, countP_finRange]
    refine Finset.card_le_card fun t ht => ?_
    simp only [Finset.mem_filter, Finset.mem_univ, true_and] at ht ⊢
    obtain ⟨l, hl, hne, -⟩ := of_decide_eq_true ht
    have h1 : probsOf data t (labelsOf data t) ≤ probsOf data t l := hl.1 _
    have h2 := hsum t l hne
    show probsOf data t (labelsOf data t) < probsOf data i (labelsOf data i)
    linarith
  omega

/-- The three examples of `twoBatches` satisfy the conditions. -/
example (A : ArgSort ℚ) (jobs : ℕ → Jobs) : ∃ mask,
    findLabelIssuesBatched A selfConfidenceScore false jobs 2 twoBatches.flatten = some (.ok mask) ∧
      findLabelIssues A (labelsOf twoBatches.flatten) (probsOf twoBatches.flatten) { filterBy := .lowSelfConfidence } = .ok mask :=
  C237_two A jobs 2 (by norm_num) _ (by decide +kernel) ⟨by decide +kernel, by decide +kernel⟩ (by unfold NoNearTies; decide +kernel)
    (by
      have : ∀ e ∈ twoBatches.flatten, (∀ k, 0 ≤ e.2 k) ∧ ∑ k, e.2 k = 1 := by decide +kernel
      exact fun e he => ⟨(this e he).1, (this e he).2⟩)

end Cleanlab.Props
