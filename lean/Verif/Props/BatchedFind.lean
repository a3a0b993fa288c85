import Verif.Props.Batched

/-!
# C64: `find_label_issues_batched`
-/

namespace Cleanlab.Props

open Np Cleanlab.Util Cleanlab.Count Cleanlab.Rank Cleanlab.Batched Cleanlab.Spec

variable {K : ℕ}

theorem inspect_eq [NeZero K] (score : (Fin K → ℚ) → Ex K → ℚ) (jobs : ℕ → Jobs) (bs : List (List (Ex K)))
    (hne : bs.flatten ≠ []) :
    inspect score false jobs bs = .ok (scored score false (bs.foldl updateThresholds {}) bs.flatten) := by
  have hK : Nonempty (Fin K) := ⟨0⟩
  obtain ⟨k⟩ := hK
  refine scoreAll_eq score false jobs _ bs 0 ?_ (by simp)
  rw [(inv_foldl bs k).processed]
  exact List.length_pos_of_ne_nil hne

theorem foldl_fields (bs : List (List (Ex K))) (s : Inspector K) :
    (bs.foldl updateThresholds s).processedQuality = s.processedQuality ∧
    (bs.foldl updateThresholds s).pruneCount = s.pruneCount ∧
    (bs.foldl updateThresholds s).pruneCounts = s.pruneCounts ∧
    (bs.foldl updateThresholds s).classCounts = s.classCounts ∧
    (bs.foldl updateThresholds s).normalization = s.normalization ∧
    (bs.foldl updateThresholds s).scores = s.scores := by
  induction bs generalizing s with
  | nil => exact ⟨rfl, rfl, rfl, rfl, rfl, rfl⟩
  | cons b bs ih => rw [List.foldl_cons]; exact ih _

/-- The indices `LabelInspector` reports after the batches `bs`. -/
theorem inspect_issues [NeZero K] (A : ArgSort ℚ) (score : (Fin K → ℚ) → Ex K → ℚ) (jobs : ℕ → Jobs)
    (bs : List (List (Ex K))) (data : List (Ex K)) (hf : bs.flatten = data) (hd : data ≠ []) :
    (do let s ← inspect score false jobs bs
        let idx ← getLabelIssues A false s
        return idx.map Fin.val : Except String (List ℕ)) =
      .ok ((findTopIssues A (data.map (score (bs.foldl updateThresholds {}).thr)).get
          (some (data.countP (fun e => decide (IsOffDiagonal (bs.foldl updateThresholds {}).thr e))))).map Fin.val) := by
  have hff := foldl_fields bs ({} : Inspector K)
  rw [inspect_eq score jobs bs (by rw [hf]; exact hd), hf]
  generalize bs.foldl updateThresholds {} = s at hff ⊢
  have hpos : 0 < data.length := List.length_pos_of_ne_nil hd
  have hnum : getNumIssues false (scored score false s data) =
      .ok ((data.countP (fun e => decide (IsOffDiagonal s.thr e)) : ℕ) : ℤ) := by
    unfold getNumIssues scored computeNumIssues
    simp only [Bool.false_eq_true, if_false, reaches_and_disagrees, hff.2.1]
    rw [if_neg (by omega), Nat.zero_add]
  have hsc : (scored score false s data).scores = data.map (score s.thr) := by
    unfold scored
    simp only [hff.2.2.2.2.2]
    rfl
  simp only [getLabelIssues, bind, Except.bind, hnum, pure, Except.pure, Int.toNat_natCast]
  rw [hsc]

/-- The examples with the lowest scores, as the code selects them. -/
theorem batched_eq [NeZero K] (A : ArgSort ℚ) (score : (Fin K → ℚ) → Ex K → ℚ) (jobs : ℕ → Jobs) (batchSize : ℕ)
    (data : List (Ex K)) (hb : 1 ≤ batchSize) (hd : data ≠ []) :
    ∃ bs thr, batches batchSize data = some bs ∧ bs.flatten = data ∧ thr = (bs.foldl updateThresholds {}).thr ∧
      findLabelIssuesBatched A score false jobs batchSize data = some (.ok (fun i =>
        decide (i.val ∈ (findTopIssues A (data.map (score thr)).get
          (some (data.countP (fun e => decide (IsOffDiagonal thr e))))).map Fin.val) &&
        !(reduceIssues (labelsOf data) (probsOf data) i))) := by
  obtain ⟨bs, hbs⟩ := loopBatches_isSome batchSize data.length hb data le_rfl
  have hf := loopBatches_flatten _ _ _ _ hbs
  refine ⟨bs, _, hbs, hf, rfl, ?_⟩
  have h := inspect_issues A score jobs bs data hf hd
  unfold findLabelIssuesBatched batches
  rw [hbs]
  simp only [Option.map_some, Option.some.injEq]
  simp only [bind, Except.bind, pure, Except.pure] at h ⊢
  cases h1 : inspect score false jobs bs with
  | error e => rw [h1] at h; cases h
  | ok s =>
    rw [h1] at h
    simp only at h ⊢
    cases h2 : getLabelIssues A false s with
    | error e => rw [h2] at h; cases h
    | ok idx =>
      rw [h2] at h
      simp only at h ⊢
      rw [Except.ok.inj h]

/-- For probabilities of at least `2e-6` the streaming thresholds do not depend on the batches. -/
theorem streaming_thresholds (data : List (Ex K)) (hd : data ≠ []) (hp : ∀ e ∈ data, 2 / 1000000 ≤ e.2 e.1)
    (bs : List (List (Ex K))) (hf : bs.flatten = data) (k : Fin K) :
    (bs.foldl updateThresholds {}).thr k = if given data k = 0 then 2 / 1000000
      else getConfidentThresholds (labelsOf data) (probsOf data) k := by
  split_ifs with hk
  · refine foldl_absent bs ?_ k (by rw [hf]; exact hk)
    rintro rfl
    exact hd hf.symm
  · have := C33_exact_partial bs k (by rw [hf, ← given_eq_numGiven]; omega) ?_
    · rw [hf] at this; exact this
    · intro b hbm hpos
      rw [← given_eq_numGiven] at hpos
      rw [meanSelfConfidence_labelsOf, le_div_iff₀ (by exact_mod_cast hpos)]
      unfold mass given
      rw [List.countP_eq_length_filter]
      have : ∀ l : List (Ex K), (∀ e ∈ l, 2 / 1000000 ≤ e.2 k) →
          2 / 1000000 * (l.length : ℚ) ≤ (l.map (fun e => e.2 k)).sum := by
        intro l hl
        induction l with
        | nil => simp
        | cons e l ih =>
          have h1 := ih (fun e he => hl e (by simp [he]))
          have h2 := hl e (by simp)
          rw [List.map_cons, List.sum_cons, List.length_cons]
          push_cast
          linarith
      refine this _ (fun e he => ?_)
      rw [List.mem_filter, decide_eq_true_eq] at he
      have := hp e (by rw [← hf]; exact List.mem_flatten.mpr ⟨b, hbm, he.1⟩)
      rw [he.2] at this
      exact this

/-- **C64**, what holds: for every batch size of at least 1 and every number of workers the function returns; every
flagged example has a class at least `1e-6` more probable than its given label; it flags at most as many examples as
have a confident disagreeing prediction (for thresholds within `2e-6` of those of the data set); and an example left
out that also has a clearly more probable class has a self-confidence no lower than that of any flagged example. -/
theorem C64_batched_partial [NeZero K] (A : ArgSort ℚ) (jobs : ℕ → Jobs) (batchSize : ℕ) (data : List (Ex K))
    (hb : 1 ≤ batchSize) (hd : data ≠ []) (hn : ∀ e ∈ data, ∀ k, 0 ≤ e.2 k) :
    ∃ mask thr, findLabelIssuesBatched A selfConfidenceScore false jobs batchSize data = some (.ok mask) ∧
      (∀ k, 0 < numGiven (labelsOf data) k →
        getConfidentThresholds (labelsOf data) (probsOf data) k ≤ thr k ∧
        thr k ≤ getConfidentThresholds (labelsOf data) (probsOf data) k + 2 / 1000000) ∧
      (∀ i, mask i = true → ∃ j, j ≠ labelsOf data i ∧ probsOf data i (labelsOf data i) + 1 / 1000000 ≤ probsOf data i j) ∧
      (Finset.univ.filter (fun i => mask i = true)).card ≤ data.countP (fun e => decide (IsOffDiagonal thr e)) ∧
      ∀ i j, mask i = true → mask j = false →
        (∃ l, l ≠ labelsOf data j ∧ probsOf data j (labelsOf data j) + 1 / 1000000 < probsOf data j l) →
        probsOf data i (labelsOf data i) ≤ probsOf data j (labelsOf data j) := by
  obtain ⟨bs, thr, hbs, hf, rfl, h⟩ := batched_eq A selfConfidenceScore jobs batchSize data hb hd
  set thr := (bs.foldl updateThresholds {}).thr with hthr
  set T := data.countP (fun e => decide (IsOffDiagonal thr e))
  have hlen : (data.map (selfConfidenceScore thr)).length = data.length := List.length_map _
  have hget : ∀ (r : ℕ) (h1 : r < (data.map (selfConfidenceScore thr)).length) (h2 : r < data.length),
      (data.map (selfConfidenceScore thr)).get ⟨r, h1⟩ = probsOf data ⟨r, h2⟩ (labelsOf data ⟨r, h2⟩) := by
    intro r h1 h2
    simp only [List.get_eq_getElem, List.getElem_map]
    rfl
  obtain ⟨t1, t2, -, t4⟩ := C15_top_issues A (data.map (selfConfidenceScore thr)).get T
  refine ⟨_, thr, h, ?_, ?_, ?_, ?_⟩
  · intro k hk
    have := C33_close_partial bs k (by rw [hf]; exact hk) (by rw [hf]; exact fun e he => hn e he k)
    rw [hf] at this
    exact this
  · intro i hi
    rw [Bool.and_eq_true, Bool.not_eq_true'] at hi
    exact Filter.reduceIssues_false_iff _ _ i hi.2
  · calc _ ≤ ((findTopIssues A (data.map (selfConfidenceScore thr)).get (some T)).map Fin.val).toFinset.card := by
          refine Finset.card_le_card_of_injOn Fin.val ?_ (fun a _ b _ => Fin.val_injective.eq_iff.mp)
          intro i hi
          have hi := (Finset.mem_filter.mp hi).2
          rw [Bool.and_eq_true, decide_eq_true_eq] at hi
          simpa using hi.1
      _ ≤ ((findTopIssues A (data.map (selfConfidenceScore thr)).get (some T)).map Fin.val).length :=
          List.toFinset_card_le _
      _ ≤ T := by rw [List.length_map, t1]; exact min_le_left _ _
  · intro i j hi hj hl
    rw [Bool.and_eq_true, decide_eq_true_eq] at hi
    rw [Filter.reduceIssues_false _ _ j hl] at hj
    simp only [Bool.not_false, Bool.and_true, decide_eq_false_iff_not] at hj
    obtain ⟨r, hr, hri⟩ := List.mem_map.mp hi.1
    have hj' : (⟨j.val, by rw [hlen]; exact j.isLt⟩ : Fin (data.map (selfConfidenceScore thr)).length) ∉
        findTopIssues A (data.map (selfConfidenceScore thr)).get (some T) :=
      fun hm => hj (List.mem_map.mpr ⟨_, hm, rfl⟩)
    have := t4 r hr _ hj'
    have e1 := hget r.val r.isLt (by rw [← hlen]; exact r.isLt)
    have e2 := hget j.val (by rw [hlen]; exact j.isLt) j.isLt
    rw [show (data.map (selfConfidenceScore thr)).get r = (data.map (selfConfidenceScore thr)).get ⟨r.val, r.isLt⟩ from rfl,
      e1, e2] at this
    have hi' : (⟨r.val, by rw [← hlen]; exact r.isLt⟩ : Fin data.length) = i := Fin.ext hri
    rw [hi'] at this
    exact this

/-- **C64**, what holds: if every given label has predicted probability at least `2e-6`, the result does not depend on
the batch size, the number of workers or their completion order. -/
theorem C64_batch_size_partial [NeZero K] (A : ArgSort ℚ) (score : (Fin K → ℚ) → Ex K → ℚ) (jobs jobs' : ℕ → Jobs)
    (batchSize batchSize' : ℕ) (data : List (Ex K)) (hb : 1 ≤ batchSize) (hb' : 1 ≤ batchSize')
    (hp : ∀ e ∈ data, 2 / 1000000 ≤ e.2 e.1) :
    findLabelIssuesBatched A score false jobs batchSize data =
      findLabelIssuesBatched A score false jobs' batchSize' data := by
  rcases eq_or_ne data [] with rfl | hd
  · rfl
  obtain ⟨bs, thr, hbs, hf, ht, h⟩ := batched_eq A score jobs batchSize data hb hd
  obtain ⟨bs', thr', hbs', hf', ht', h'⟩ := batched_eq A score jobs' batchSize' data hb' hd
  have hthr : thr = thr' := by
    rw [ht, ht']; funext k
    rw [streaming_thresholds data hd hp bs hf k, streaming_thresholds data hd hp bs' hf' k]
  rw [h, h', hthr]

/-- Three examples; the first two are confidently predicted as class 1. -/
def exData : List (Ex 2) := [(0, ![2/5, 3/5]), (0, ![1/10, 9/10]), (1, ![1/2, 1/2])]

/-- **C64** fails: the returned indices are in the order of the data set and not sorted by label quality. Here the
result is `[0, 1]` although example 1 has the lower score. -/
theorem C64_not_sorted :
    (findLabelIssuesBatchedIndices (stableSort ℚ) selfConfidenceScore false (fun _ => .one) 10 exData).map
        Except.toOption = some (some [⟨0, by decide⟩, ⟨1, by decide⟩]) ∧
    (exData[1]).2 (exData[1]).1 < (exData[0]).2 (exData[0]).1 := by
  decide +kernel

/-- With `batch_size=0` the first loop never ends. -/
theorem C64_not_batch_size_zero [NeZero K] (A : ArgSort ℚ) (score : (Fin K → ℚ) → Ex K → ℚ) (c : Bool) (jobs : ℕ → Jobs)
    (data : List (Ex K)) (hd : data ≠ []) : findLabelIssuesBatched A score c jobs 0 data = none := by
  unfold findLabelIssuesBatched batches
  rw [loopBatches_zero _ _ hd]
  rfl

example : (∀ e ∈ exData, 2 / 1000000 ≤ e.2 e.1) ∧ (∀ e ∈ exData, ∀ k, 0 ≤ e.2 k) ∧
    (findLabelIssuesBatched (stableSort ℚ) selfConfidenceScore false (fun _ => .one) 2 exData).map
      (fun r => (r.toOption.map (fun m => (List.finRange 3).map m))) = some (some [true, true, false]) := by
  decide +kernel

end Cleanlab.Props
