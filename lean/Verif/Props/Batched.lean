import Verif.Lemmas.Batched
import Verif.Lemmas.Filter
import Verif.Props.Rank

/-!
# C33, C34, C64: `LabelInspector` and `find_label_issues_batched`
-/

namespace Cleanlab.Props

open Np Cleanlab.Util Cleanlab.Count Cleanlab.Rank Cleanlab.Batched Cleanlab.Spec

variable {K : ℕ}

theorem given_eq_numGiven (b : List (Ex K)) (k : Fin K) : given b k = numGiven (labelsOf b) k := by
  rw [← labelCounts_eq, labelCounts_labelsOf]

/-! ## C33 -/

/-- **C33**, what holds: for a class whose mean self-confidence in every batch that contains it is at least `2e-6`,
the streaming threshold is exactly the threshold of the whole data set, for every batching. -/
theorem C33_exact_partial (bs : List (List (Ex K))) (k : Fin K) (hk : 0 < numGiven (labelsOf bs.flatten) k)
    (hb : ∀ b ∈ bs, 0 < numGiven (labelsOf b) k → 2 / 1000000 ≤ meanSelfConfidence (labelsOf b) (probsOf b) k) :
    (bs.foldl updateThresholds {}).thr k = getConfidentThresholds (labelsOf bs.flatten) (probsOf bs.flatten) k := by
  rw [← given_eq_numGiven] at hk
  have he := foldl_exact bs k (fun b hbm hpos => by
    have := hb b hbm (by rwa [← given_eq_numGiven])
    rw [meanSelfConfidence_labelsOf] at this
    exact this)
  have hc : (0 : ℚ) < given bs.flatten k := by exact_mod_cast hk
  have hl := (inv_foldl bs k).lower'
  rw [thresholds_of_pos _ _ hk]
  have ht : (bs.foldl updateThresholds {}).thr k = mass bs.flatten k / given bs.flatten k := by
    rw [eq_div_iff hc.ne']; linarith
  rw [← ht, max_eq_left (le_of_mul_le_mul_left hl hc)]

/-- **C33**, what holds without assumption on the batches: the streaming threshold of a class that occurs exceeds
the threshold of the whole data set by at most `2e-6` and is never below it. -/
theorem C33_close_partial (bs : List (List (Ex K))) (k : Fin K) (hk : 0 < numGiven (labelsOf bs.flatten) k)
    (hn : ∀ e ∈ bs.flatten, 0 ≤ e.2 k) :
    getConfidentThresholds (labelsOf bs.flatten) (probsOf bs.flatten) k ≤ (bs.foldl updateThresholds {}).thr k ∧
    (bs.foldl updateThresholds {}).thr k ≤
      getConfidentThresholds (labelsOf bs.flatten) (probsOf bs.flatten) k + 2 / 1000000 := by
  rw [← given_eq_numGiven] at hk
  have hc : (0 : ℚ) < given bs.flatten k := by exact_mod_cast hk
  have h1 := (inv_foldl bs k).lower
  have h2 := (inv_foldl bs k).lower'
  have h3 := foldl_upper bs k hn
  rw [thresholds_of_pos _ _ hk]
  constructor
  · refine max_le ?_ (le_of_mul_le_mul_left h2 hc)
    rw [div_le_iff₀ hc]; linarith
  · have h4 : (bs.foldl updateThresholds {}).thr k ≤ mass bs.flatten k / given bs.flatten k + thresholdsLowerBound := by
      rw [← sub_le_iff_le_add, le_div_iff₀ hc]; linarith
    have h5 := le_max_left (mass bs.flatten k / given bs.flatten k) thresholdsLowerBound
    have h6 : thresholdsLowerBound = 2 / 1000000 := rfl
    linarith

/-- **C33** fails for a class that never occurs: the whole data set gives it the threshold `2`, which no probability
reaches, and streaming gives it the threshold `2e-6`, which nearly every probability reaches. -/
theorem C33_not_absent_class (bs : List (List (Ex K))) (hbs : bs ≠ []) (k : Fin K)
    (hk : numGiven (labelsOf bs.flatten) k = 0) :
    (bs.foldl updateThresholds {}).thr k = 2 / 1000000 ∧
    getConfidentThresholds (labelsOf bs.flatten) (probsOf bs.flatten) k = 2 := by
  rw [← given_eq_numGiven] at hk
  exact ⟨foldl_absent bs hbs k hk, thresholds_of_zero _ _ hk⟩

/-- Two batches of one example; the probabilities of the given class are `0` and `1`. -/
def exClip : List (List (Ex 2)) := [[(0, ![0, 1])], [(0, ![1, 0])]]

/-- **C33** fails because of clipping inside the batches: the same data set in one batch and in two batches. -/
theorem C33_not_clipped :
    (exClip.foldl updateThresholds {}).thr 0 = 500001 / 1000000 ∧
    ([exClip.flatten].foldl updateThresholds {}).thr 0 = 1 / 2 := by
  constructor <;> decide +kernel

/-- Two batches with means `3/4` and `1/4`. -/
def exBatches : List (List (Ex 2)) := [[(0, ![3/4, 1/4]), (1, ![1/2, 1/2])], [(0, ![1/4, 3/4])]]

example : 0 < numGiven (labelsOf exBatches.flatten) 0 ∧
    (∀ b ∈ exBatches, 0 < numGiven (labelsOf b) 0 → 2 / 1000000 ≤ meanSelfConfidence (labelsOf b) (probsOf b) 0) ∧
    (exBatches.foldl updateThresholds {}).thr 0 = 1 / 2 := by
  decide +kernel

/-! ## C34 -/

/-- Scoring a list of batches; `jobs r` is the number of workers and the completion order in round `r`. -/
def scoreAll [NeZero K] (score : (Fin K → ℚ) → Ex K → ℚ) (calibrated : Bool) (jobs : ℕ → Jobs) (s : Inspector K)
    (bs : List (List (Ex K))) (start : ℕ := 0) : Except String (Inspector K) :=
  (bs.zipIdx start).foldlM (fun s b => scoreLabelQuality score calibrated (jobs b.2) s b.1) s

/-- The state after scoring the examples `D`. -/
def scored [NeZero K] (score : (Fin K → ℚ) → Ex K → ℚ) (calibrated : Bool) (s : Inspector K) (D : List (Ex K)) :
    Inspector K :=
  let s' := if calibrated then addCounts s.thr s D
    else { s with pruneCount := s.pruneCount + computeNumIssues s.thr D }
  { s' with processedQuality := s.processedQuality + D.length, scores := s.scores ++ D.map (score s.thr) }

theorem scored_nil [NeZero K] (score : (Fin K → ℚ) → Ex K → ℚ) (c : Bool) (s : Inspector K) :
    scored score c s [] = s := by
  unfold scored
  cases c
  · simp [computeNumIssues]
  · simp [addCounts_nil]

theorem scored_thr [NeZero K] (score : (Fin K → ℚ) → Ex K → ℚ) (c : Bool) (s : Inspector K) (D : List (Ex K)) :
    (scored score c s D).thr = s.thr ∧ (scored score c s D).processedThresh = s.processedThresh := by
  unfold scored
  cases c <;> exact ⟨rfl, rfl⟩

theorem scored_append [NeZero K] (score : (Fin K → ℚ) → Ex K → ℚ) (c : Bool) (s : Inspector K) (a b : List (Ex K)) :
    scored score c s (a ++ b) = scored score c (scored score c s a) b := by
  unfold scored
  cases c
  · simp [computeNumIssues, List.countP_append, Nat.add_assoc]
  · simp [addCounts, given_append, List.countP_append, Nat.add_assoc]

theorem scoreAll_eq [NeZero K] (score : (Fin K → ℚ) → Ex K → ℚ) (c : Bool) (jobs : ℕ → Jobs) (s : Inspector K)
    (bs : List (List (Ex K))) (start : ℕ) (hs : 1 ≤ s.processedThresh)
    (hc : c = true → (∀ r, jobs r = .one) ∨ ∀ b ∈ bs, b.length < 10000) :
    scoreAll score c jobs s bs start = .ok (scored score c s bs.flatten) := by
  induction bs generalizing s start with
  | nil => rw [List.flatten_nil, scored_nil]; rfl
  | cons b bs ih =>
    have h1 : scoreLabelQuality score c (jobs start) s b = .ok (scored score c s b) := by
      unfold scoreLabelQuality scored
      rw [if_neg (by omega)]
      cases c
      · simp [updatePruneCount_eq]
      · have : jobs start = .one ∨ b.length < 10000 := by
          rcases hc rfl with h | h
          · exact Or.inl (h _)
          · exact Or.inr (h b (by simp))
        simp [updateCalibrated_eq _ _ _ this]
    unfold scoreAll
    rw [List.zipIdx_cons, List.foldlM_cons]
    simp only [h1]
    rw [List.flatten_cons, scored_append]
    exact ih (scored score c s b) (start + 1) (by rw [(scored_thr score c s b).2]; exact hs)
      (fun h => (hc h).imp id (fun h b' hb' => h b' (by simp [hb'])))

/-- The prediction of example `e` reaches its threshold and differs from the given label. -/
def IsOffDiagonal (thr : Fin K → ℚ) (e : Ex K) : Prop :=
  ∃ k, IsPrediction e.2 k ∧ k ≠ e.1 ∧ thr k ≤ e.2 k + 1 / 1000000

instance (thr : Fin K → ℚ) (e : Ex K) : Decidable (IsOffDiagonal thr e) := by unfold IsOffDiagonal; infer_instance

theorem reaches_and_disagrees [NeZero K] (thr : Fin K → ℚ) (e : Ex K) :
    (reaches thr e && disagrees e) = decide (IsOffDiagonal thr e) := by
  rw [Bool.eq_iff_iff, Bool.and_eq_true, decide_eq_true_eq]
  unfold reaches disagrees IsOffDiagonal floatingPointComparison
  rw [decide_eq_true_eq, decide_eq_true_eq]
  constructor
  · rintro ⟨h1, h2⟩
    exact ⟨argmax e.2, (argmax_eq_iff_isPrediction e.2 _).mp rfl, h2, by linarith⟩
  · rintro ⟨k, hk, h2, h3⟩
    have := (argmax_eq_iff_isPrediction e.2 k).mpr hk
    subst this
    exact ⟨by linarith, h2⟩

/-- **C34**, default estimation: given the thresholds, the number of issues is the number of examples whose
prediction reaches its threshold and differs from the given label, for every number of workers, every completion
order and every batching. -/
theorem C34_off_diagonal_partial [NeZero K] (score : (Fin K → ℚ) → Ex K → ℚ) (jobs : ℕ → Jobs) (s : Inspector K)
    (bs : List (List (Ex K))) (hs : 1 ≤ s.processedThresh) (h0 : s.pruneCount = 0) (hne : bs.flatten ≠ []) :
    ∃ s', scoreAll score false jobs s bs = .ok s' ∧
      getNumIssues false s' = .ok ((bs.flatten.countP (fun e => decide (IsOffDiagonal s.thr e)) : ℕ) : ℤ) ∧
      s'.scores = s.scores ++ bs.flatten.map (score s.thr) := by
  refine ⟨_, scoreAll_eq score false jobs s bs 0 hs (by simp), ?_, rfl⟩
  have hpos : 0 < bs.flatten.length := List.length_pos_of_ne_nil hne
  unfold getNumIssues scored computeNumIssues
  simp only [Bool.false_eq_true, if_false, h0, Nat.zero_add, reaches_and_disagrees]
  rw [if_neg (by omega)]

/-- **C34**, calibrated estimation, what holds: with one worker, or with batches below 10000 examples, the number of
issues does not depend on the workers, their completion order or the batching. -/
theorem C34_calibrated_partial [NeZero K] (score : (Fin K → ℚ) → Ex K → ℚ) (jobs jobs' : ℕ → Jobs) (s : Inspector K)
    (bs bs' : List (List (Ex K))) (hs : 1 ≤ s.processedThresh) (heq : bs.flatten.Perm bs'.flatten)
    (h : (∀ r, jobs r = .one) ∨ ∀ b ∈ bs, b.length < 10000)
    (h' : (∀ r, jobs' r = .one) ∨ ∀ b ∈ bs', b.length < 10000) :
    ∃ s1 s2, scoreAll score true jobs s bs = .ok s1 ∧ scoreAll score true jobs' s bs' = .ok s2 ∧
      getNumIssues true s1 = getNumIssues true s2 := by
  refine ⟨_, _, scoreAll_eq score true jobs s bs 0 hs (fun _ => h),
    scoreAll_eq score true jobs' s bs' 0 hs (fun _ => h'), ?_⟩
  unfold scored
  simp only [if_true, addCounts_perm s.thr s heq, heq.length_eq]
  rfl

/-- An example with given label 0 and prediction 1. -/
def exWrong : Ex 2 := (0, ![0, 1])

theorem splitFuel_replicate {α : Type} (e : α) (m fuel : ℕ) (hm : 1 ≤ m) (hf : m ≤ fuel) :
    splitFuel 2 fuel (List.replicate (2 * m) e) = List.replicate m [e, e] := by
  induction m generalizing fuel with
  | zero => omega
  | succ m ih =>
    obtain ⟨fuel, rfl⟩ : ∃ f, fuel = f + 1 := ⟨fuel - 1, by omega⟩
    unfold splitFuel
    rcases Nat.eq_zero_or_pos m with h | h
    · subst h; rfl
    · rw [if_neg (by rw [List.length_replicate]; omega)]
      have h2 : 2 * (m + 1) = 2 + 2 * m := by ring
      rw [List.take_replicate, List.drop_replicate, show min 2 (2 * (m + 1)) = 2 by omega,
        show 2 * (m + 1) - 2 = 2 * m by omega, ih fuel h (by omega)]
      rfl

theorem foldl_pairs (thr : Fin 2 → ℚ) (hthr : thr 1 ≤ 1) (m : ℕ) (s : Inspector 2) :
    let r := (List.replicate m [exWrong, exWrong]).foldl (addCalibrated thr) s
    r.classCounts 0 = s.classCounts 0 + m ∧ r.normalization 0 = s.normalization 0 + m ∧
      r.pruneCounts 0 = s.pruneCounts 0 + m ∧ r.pruneCounts 1 = s.pruneCounts 1 := by
  induction m generalizing s with
  | zero => exact ⟨rfl, rfl, rfl, rfl⟩
  | succ m ih =>
    have ha : argmax exWrong.2 = 1 := by decide +kernel
    have h1 : reaches thr exWrong = true := by
      unfold reaches
      rw [ha, decide_eq_true_eq]
      show thr 1 - floatingPointComparison ≤ 1
      unfold floatingPointComparison
      linarith
    have h2 : disagrees exWrong = true := by decide +kernel
    obtain ⟨i1, i2, i3, i4⟩ := ih (addCalibrated thr s [exWrong, exWrong])
    rw [List.replicate_succ, List.foldl_cons]
    refine ⟨i1.trans ?_, i2.trans ?_, i3.trans ?_, i4.trans ?_⟩
    all_goals
      unfold addCalibrated fancyAdd
      simp only [List.map_cons, List.map_nil, List.foldl_cons, List.foldl_nil, h1, h2, toNat]
      simp [exWrong]
    all_goals omega

theorem inspect_pool [NeZero K] (score : (Fin K → ℚ) → Ex K → ℚ) (sc : Schedule) (D : List (Ex K))
    (h : 1 ≤ ([D].foldl updateThresholds {}).processedThresh) :
    inspect score true (fun _ => .pool sc) [D] =
      .ok { (updateCalibrated (.pool sc) ([D].foldl updateThresholds {}) D) with
        processedQuality := ([D].foldl updateThresholds {}).processedQuality + D.length
        scores := ([D].foldl updateThresholds {}).scores ++ D.map (score ([D].foldl updateThresholds {}).thr) } := by
  unfold inspect
  rw [List.zipIdx_cons, List.foldlM_cons]
  unfold scoreLabelQuality
  simp only [List.zipIdx_nil, List.foldlM_nil]
  rw [if_neg (by omega)]
  rfl

/-- **C34** fails for `estimation_method="off_diagonal_calibrated"`: 10000 examples in one batch, all with given
label 0 and prediction 1, count as 10000 issues with one worker and as 5000 issues with several. -/
theorem C34_not_calibrated (sc : Schedule) :
    ∃ s1 s2, inspect selfConfidenceScore true (fun _ => .one) [List.replicate 10000 exWrong] = .ok s1 ∧
      inspect selfConfidenceScore true (fun _ => .pool sc) [List.replicate 10000 exWrong] = .ok s2 ∧
      getNumIssues true s1 = .ok 10000 ∧ getNumIssues true s2 = .ok 5000 := by
  have hlen : (List.replicate 10000 exWrong).length = 10000 := List.length_replicate
  set D := List.replicate 10000 exWrong with hD
  set s : Inspector 2 := [D].foldl updateThresholds {} with hs
  have hpt : s.processedThresh = 10000 := by
    have := (inv_foldl [D] 0).processed
    rw [hs, this]; simpa using hlen
  have hg1 : given D 1 = 0 := by
    unfold given; rw [hD, List.countP_replicate]; rfl
  have hg0 : given D 0 = 10000 := by
    unfold given; rw [hD, List.countP_replicate]; rfl
  have hthr : s.thr 1 = thresholdsLowerBound := foldl_absent [D] (by simp) 1 (by simpa using hg1)
  have hthr1 : s.thr 1 ≤ 1 := by rw [hthr]; unfold thresholdsLowerBound; norm_num
  have ha : argmax exWrong.2 = 1 := by decide +kernel
  have hr : reaches s.thr exWrong = true := by
    unfold reaches
    rw [ha, decide_eq_true_eq]
    show s.thr 1 - floatingPointComparison ≤ 1
    unfold floatingPointComparison
    linarith
  have hd : disagrees exWrong = true := by decide +kernel
  have h0 : s.classCounts = (fun _ => 0) ∧ s.normalization = (fun _ => 0) ∧ s.pruneCounts = (fun _ => 0) ∧
      s.processedQuality = 0 := by rw [hs]; exact ⟨rfl, rfl, rfl, rfl⟩
  refine ⟨_, _, scoreAll_eq selfConfidenceScore true (fun _ => .one) s [D] 0 (by omega) (fun _ => Or.inl (fun _ => rfl)),
    inspect_pool _ _ _ (by rw [← hs]; omega), ?_, ?_⟩
  · have hc1 : D.countP (fun e => decide (e.1 = 0) && reaches s.thr e) = 10000 := by
      rw [hD, List.countP_replicate, hr]; rfl
    have hc2 : D.countP (fun e => decide (e.1 = 0) && reaches s.thr e && disagrees e) = 10000 := by
      rw [hD, List.countP_replicate, hr, hd]; rfl
    have hc3 : D.countP (fun e => decide (e.1 = 1) && reaches s.thr e && disagrees e) = 0 := by
      rw [hD, List.countP_replicate, hr, hd]; rfl
    unfold getNumIssues scored addCounts
    simp only [if_true, List.flatten_cons, List.flatten_nil, List.append_nil, hlen, h0.2.2.2]
    rw [if_neg (by omega), Fin.sum_univ_two]
    simp only [h0.1, h0.2.1, h0.2.2.1, hc1, hc2, hc3, hg0, Nat.zero_add]
    refine congrArg Except.ok ?_
    have : ∀ x : ℚ, ((10000 : ℕ) : ℚ) * ((10000 : ℕ) : ℚ) / max ((10000 : ℕ) : ℚ) (1 / 1000000) +
        ((0 : ℕ) : ℚ) * x = ((10000 : ℤ) : ℚ) := by
      intro x
      rw [max_eq_left (by norm_num)]; norm_num
    rw [mul_div_assoc ((0 : ℕ) : ℚ), this, rint_intCast]
  · have hsplit : splitArr D (chunksize D.length) = List.replicate 5000 [exWrong, exWrong] := by
      rw [hlen]
      show splitFuel 2 D.length D = _
      rw [hlen]
      exact splitFuel_replicate exWrong 5000 10000 (by omega) (by omega)
    have hrun : sc.run (List.replicate 5000 [exWrong, exWrong]) = List.replicate 5000 [exWrong, exWrong] :=
      List.perm_replicate.mp (sc.perm _)
    obtain ⟨f1, f2, f3, f4⟩ := foldl_pairs s.thr hthr1 5000 s
    rw [← hs]
    unfold getNumIssues updateCalibrated
    simp only [hsplit, hrun]
    simp only [if_true, hlen, h0.2.2.2]
    rw [if_neg (by omega), Fin.sum_univ_two, f1, f2, f3, f4]
    simp only [h0.1, h0.2.1, h0.2.2.1, Nat.zero_add]
    refine congrArg Except.ok ?_
    have : ∀ x : ℚ, ((5000 : ℕ) : ℚ) * ((5000 : ℕ) : ℚ) / max ((5000 : ℕ) : ℚ) (1 / 1000000) +
        ((0 : ℕ) : ℚ) * x = ((5000 : ℤ) : ℚ) := by
      intro x
      rw [max_eq_left (by norm_num)]; norm_num
    rw [mul_div_assoc ((0 : ℕ) : ℚ), this, rint_intCast]

end Cleanlab.Props
