import Verif.Props.LatentConsistent
import Verif.Props.Filter
import Verif.Props.Rank
import Verif.Props.Dataset

/-!
# C151, C152: label errors are found exactly if the predictions single out the true classes

The theorem of the paper on confident learning (Northcutt, Jiang, Chuang 2021, theorems 1 and 2), for the code.
-/

namespace Cleanlab.Props

open Np Cleanlab.Util Cleanlab.Count Cleanlab.Latent Cleanlab.Spec Cleanlab.CrossVal Cleanlab.Filter Cleanlab.Rank

variable {n K : ℕ}

/-- Number of examples given `a` whose true class is `b`. -/
def numPairs (given truth : Fin n → Fin K) (a b : Fin K) : ℕ := (Finset.univ.filter (fun i => given i = a ∧ truth i = b)).card

/-- Number of wrong labels. -/
def numErrors (given truth : Fin n → Fin K) : ℕ := (Finset.univ.filter (fun i => given i ≠ truth i)).card

/-- The predictions are probabilities that single out the true classes: the true class of an example is the most probable one, by more than the
tolerance `1e-6` of the code; its probability is at least the average over the examples given this class; and every class has an
example that is labelled correctly. -/
structure Separated (given truth : Fin n → Fin K) (P : Fin n → Fin K → ℚ) : Prop where
  two : 2 ≤ K
  dist : ∀ i, IsDistribution (P i)
  predicted : ∀ i k, k ≠ truth i → P i k + 1 / 1000000 < P i (truth i)
  confident : ∀ i, meanSelfConfidence given P (truth i) ≤ P i (truth i)
  correct : ∀ k, ∃ i, given i = k ∧ truth i = k

namespace Separated

variable {given truth : Fin n → Fin K} {P : Fin n → Fin K → ℚ}

theorem large (h : Separated given truth P) (i : Fin n) : 1 / 1000000 ≤ P i (truth i) := by
  have hK := h.two
  obtain ⟨k, hk⟩ : ∃ k : Fin K, k ≠ truth i := by
    by_cases h0 : (truth i).val = 0
    · exact ⟨⟨1, by omega⟩, fun e => by rw [← e] at h0; simp at h0⟩
    · exact ⟨⟨0, by omega⟩, fun e => h0 (by rw [← e])⟩
  have h1 := h.predicted i k hk
  have h2 := (h.dist i).1 k
  linarith

theorem reaches (h : Separated given truth P) (i : Fin n) : Reaches P (getConfidentThresholds given P) i (truth i) := by
  unfold Reaches getConfidentThresholds
  have h1 := h.confident i
  have h2 := h.large i
  obtain ⟨j, hj, -⟩ := h.correct (truth i)
  rw [if_pos ((mem_ofFn_iff _ _).mpr ⟨j, hj⟩), classMean_eq]
  unfold thresholdsLowerBound
  apply max_le <;> linarith

theorem isPrediction (h : Separated given truth P) (i : Fin n) : IsPrediction (P i) (truth i) := by
  constructor
  · intro j
    by_cases hj : j = truth i
    · rw [hj]
    · have := h.predicted i j hj; linarith
  · intro j hj
    have := h.predicted i j hj.ne; linarith

theorem guess [NeZero K] (h : Separated given truth P) (i : Fin n) :
    trueLabelGuess P (getConfidentThresholds given P) i = truth i := by
  by_cases hu : ∀ l, Reaches P (getConfidentThresholds given P) i l → l = truth i
  · exact trueLabelGuess_of_unique P _ i _ (h.reaches i) hu
  · push Not at hu
    obtain ⟨l, hl, hlk⟩ := hu
    rw [trueLabelGuess_of_two P _ i l _ hlk hl (h.reaches i)]
    exact (argmax_eq_iff_isPrediction _ _).mpr (h.isPrediction i)

theorem raw [NeZero K] (h : Separated given truth P) (a b : Fin K) :
    confidentJointRaw given P (getConfidentThresholds given P) a b = numPairs given truth a b := by
  have hc : ∀ a b, (Finset.univ.filter (fun i => given i = a ∧ (∃ k, Reaches P (getConfidentThresholds given P) i k) ∧
      trueLabelGuess P (getConfidentThresholds given P) i = b)).card = numPairs given truth a b := by
    intro a b
    unfold numPairs
    congr 1
    ext i
    simp only [Finset.mem_filter, Finset.mem_univ, true_and, h.guess i]
    constructor
    · rintro ⟨h1, -, h2⟩; exact ⟨h1, h2⟩
    · rintro ⟨h1, h2⟩; exact ⟨h1, ⟨_, h.reaches i⟩, h2⟩
  unfold confidentJointRaw
  dsimp only
  rw [confidentJointRaw_count, hc]
  split_ifs with hab
  · apply max_eq_left
    subst hab
    obtain ⟨i, h1, h2⟩ := h.correct a
    exact Finset.card_pos.mpr ⟨i, by simp [h1, h2]⟩
  · rfl

end Separated

theorem sum_numPairs (given truth : Fin n → Fin K) (a : Fin K) : ∑ b, numPairs given truth a b = numGiven given a := by
  unfold numPairs numGiven
  rw [Finset.card_eq_sum_card_fiberwise (s := Finset.univ.filter (fun i => given i = a)) (t := Finset.univ) (f := truth)
    (fun i _ => Finset.mem_univ _)]
  simp only [Finset.filter_filter]

theorem sum_numPairs_left (given truth : Fin n → Fin K) (b : Fin K) : ∑ a, numPairs given truth a b = numGiven truth b := by
  unfold numPairs numGiven
  rw [Finset.card_eq_sum_card_fiberwise (s := Finset.univ.filter (fun i => truth i = b)) (t := Finset.univ) (f := given)
    (fun i _ => Finset.mem_univ _)]
  apply Finset.sum_congr rfl
  intro a _
  congr 1
  ext i
  simp [and_comm]

theorem sum_sum_numPairs (given truth : Fin n → Fin K) : ∑ a, ∑ b, numPairs given truth a b = n :=
  (Finset.sum_congr rfl (fun a _ => sum_numPairs given truth a)).trans (sum_numGiven given)

theorem sum_numPairs_diag (given truth : Fin n → Fin K) : ∑ a, numPairs given truth a a + numErrors given truth = n := by
  have h1 : ∑ a, numPairs given truth a a = (Finset.univ.filter (fun i => given i = truth i)).card := by
    rw [Finset.card_eq_sum_card_fiberwise (s := Finset.univ.filter (fun i => given i = truth i)) (t := Finset.univ) (f := given)
      (fun i _ => Finset.mem_univ _)]
    apply Finset.sum_congr rfl
    intro a _
    unfold numPairs
    congr 1
    ext i
    simp only [Finset.mem_filter, Finset.mem_univ, true_and]
    constructor
    · rintro ⟨x, y⟩; exact ⟨x.trans y.symm, x⟩
    · rintro ⟨x, y⟩; exact ⟨y, x.symm.trans y⟩
  rw [h1]
  unfold numErrors
  rw [← Finset.card_union_of_disjoint]
  · rw [Finset.filter_union_filter_not_eq]; simp
  · exact Finset.disjoint_filter_filter_not _ _ _

/-- **C151, confident joint.** The confident joint, calibrated or not, is the table that counts for every pair of classes the
examples given the first whose true class is the second. -/
theorem C151_confident_joint (A : ArgSort ℚ) [NeZero K] {given truth : Fin n → Fin K} {P : Fin n → Fin K → ℚ}
    (h : Separated given truth P) (calibrate : Bool) (a b : Fin K) :
    computeConfidentJoint A given P (getConfidentThresholds given P) calibrate a b = numPairs given truth a b := by
  unfold computeConfidentJoint
  cases calibrate with
  | false => rw [if_neg (by simp), h.raw]
  | true =>
    rw [if_pos rfl]
    unfold calibrateConfidentJoint
    apply roundRows_intCast
    rw [calibrateTotal_eq _ given (fun a => Or.inl (raw_row_tiny given P _ a))]
    unfold calibrateRows
    rw [labelCounts_eq]
    have hs : ∑ b', (confidentJointRaw given P (getConfidentThresholds given P) a b' : ℚ) = (numGiven given a : ℚ) := by
      rw [← sum_numPairs given truth a, Nat.cast_sum]
      exact Finset.sum_congr rfl (fun b _ => by rw [h.raw])
    have h1 : (1 : ℚ) ≤ numGiven given a := by
      obtain ⟨i, hi, -⟩ := h.correct a
      have : 0 < numGiven given a := Finset.card_pos.mpr ⟨i, by simp [hi]⟩
      exact_mod_cast this
    dsimp only
    rw [hs, clipTiny_of_one_le h1, h.raw, div_mul_cancel₀ _ (by positivity)]
    simp

/-- **C151, joint.** The estimated joint distribution is the distribution of pairs of a given label and a true class. -/
theorem C151_joint (A : ArgSort ℚ) [NeZero K] {given truth : Fin n → Fin K} {P : Fin n → Fin K → ℚ}
    (h : Separated given truth P) (a b : Fin K) : estimateJoint A given P a b = (numPairs given truth a b : ℚ) / n := by
  unfold estimateJoint
  dsimp only
  have hs : (∑ a', ∑ b', computeConfidentJoint A given P (getConfidentThresholds given P) true a' b' : ℤ) = (n : ℤ) := by
    simp only [C151_confident_joint A h]
    exact_mod_cast sum_sum_numPairs given truth
  have hn : (1 : ℚ) ≤ n := by
    obtain ⟨i, -, -⟩ := h.correct a
    have := i.pos
    exact_mod_cast this
  rw [hs, C151_confident_joint A h]
  rw [show (((n : ℤ) : ℚ)) = (n : ℚ) by push_cast; rfl, clipTiny_of_one_le hn]
  simp

/-- **C151, noise rates.** For at most 10000 examples the estimated prior, noise matrix and inverse noise matrix are the true ones:
the frequencies of the true classes, of the given labels in each true class and of the true classes for each given label. -/
theorem C151_noise (A : ArgSort ℚ) [NeZero K] {given truth : Fin n → Fin K} {P : Fin n → Fin K → ℚ}
    (h : Separated given truth P) (hn : n ≤ 10000) (converge : Bool) :
    ∃ cj, fromProbabilities A given P none converge .cnt =
      .ok ((fun y => (numGiven truth y : ℚ) / n, fun s y => (numPairs given truth s y : ℚ) / numGiven truth y,
        fun y s => (numPairs given truth s y : ℚ) / numGiven given s), cj) := by
  have hc := C117_probabilities_partial A given P none converge .cnt hn (fun k => by
    obtain ⟨i, h1, h2⟩ := h.correct k
    refine ⟨i, h1, ?_, ?_⟩
    · rw [← h2]; exact h.isPrediction i
    · rw [← h2]; exact h.reaches i) trivial
  refine ⟨jointOf A given P none true, ?_⟩
  rw [hc]
  unfold frequencies
  have hj : ∀ a b, ((jointOf A given P none true a b : ℤ) : ℚ) = (numPairs given truth a b : ℚ) := by
    intro a b
    have : jointOf A given P none true a b = numPairs given truth a b := C151_confident_joint A h true a b
    rw [this]
    simp
  simp only [hj, ← Nat.cast_sum, sum_numPairs_left]

theorem Separated.mem_offDiagonal [NeZero K] {given truth : Fin n → Fin K} {P : Fin n → Fin K → ℚ}
    (h : Separated given truth P) (i : Fin n) :
    i ∈ offDiagonalIndices given P (getConfidentThresholds given P) ↔ given i ≠ truth i := by
  unfold offDiagonalIndices confidentRows
  simp only [List.mem_filter, List.mem_finRange, true_and, decide_eq_true_eq, atLeastOneConfident_iff, h.guess i]
  constructor
  · rintro ⟨-, h2⟩; exact fun e => h2 e.symm
  · intro h2; exact ⟨⟨_, h.reaches i⟩, fun e => h2 e.symm⟩

theorem Separated.reduce [NeZero K] {given truth : Fin n → Fin K} {P : Fin n → Fin K → ℚ}
    (h : Separated given truth P) (i : Fin n) : reduceIssues given P i = decide (given i = truth i) := by
  by_cases hi : given i = truth i
  · rw [decide_eq_true hi, reduceIssues_iff]
    constructor
    · intro j
      by_cases hj : j = given i
      · rw [hj]
      · have := h.predicted i j (hi ▸ hj)
        dsimp only
        rw [if_neg hj, if_pos rfl, hi]; linarith
    · intro j hj
      have := h.predicted i j (hi ▸ hj.ne)
      dsimp only
      rw [if_neg hj.ne, if_pos rfl, hi]; linarith
  · rw [decide_eq_false hi]
    apply reduceIssues_false
    exact ⟨truth i, fun e => hi e.symm, h.predicted i _ hi⟩

/-- **C151, number of issues.** Both estimates of the number of label issues are the number of wrong labels. -/
theorem C151_count (A : ArgSort ℚ) [NeZero K] {given truth : Fin n → Fin K} {P : Fin n → Fin K → ℚ}
    (h : Separated given truth P) (cj : Option (Fin K → Fin K → ℚ)) :
    numLabelIssues A given P cj .offDiagonal = .ok (numErrors given truth : ℤ) ∧
      numLabelIssues A given P cj .offDiagonalCalibrated = .ok (numErrors given truth : ℤ) := by
  constructor
  · unfold numLabelIssues
    dsimp only
    rw [countP_finRange]
    congr 2
    unfold numErrors
    congr 1
    ext i
    simp only [Finset.mem_filter, Finset.mem_univ, true_and, h.mem_offDiagonal, h.reduce]
    by_cases hi : given i = truth i <;> simp [hi]
  · unfold numLabelIssues
    dsimp only
    congr 1
    have hcal : ∀ a b, calibrateConfidentJoint A (fun a b => ((computeConfidentJoint A given P (getConfidentThresholds given P) true a b : ℤ) : ℚ)) given a b =
        numPairs given truth a b := by
      intro a b
      unfold calibrateConfidentJoint
      apply roundRows_intCast
      have hrow : ∀ a, ∑ b, ((computeConfidentJoint A given P (getConfidentThresholds given P) true a b : ℤ) : ℚ) = numGiven given a := by
        intro a
        rw [← sum_numPairs given truth a, Nat.cast_sum]
        exact Finset.sum_congr rfl (fun b _ => by rw [C151_confident_joint A h]; simp)
      have h1 : ∀ a, (1 : ℚ) ≤ numGiven given a := by
        intro a
        obtain ⟨i, hi, -⟩ := h.correct a
        have : 0 < numGiven given a := Finset.card_pos.mpr ⟨i, by simp [hi]⟩
        exact_mod_cast this
      rw [calibrateTotal_eq _ given (fun a => Or.inl (by
        rw [hrow a]; refine le_trans ?_ (h1 a); unfold tinyValue; norm_num))]
      unfold calibrateRows
      have := h1 a
      dsimp only
      rw [labelCounts_eq, hrow a, clipTiny_of_one_le (h1 a), C151_confident_joint A h, div_mul_cancel₀ _ (by positivity)]
    have htot : (∑ a', ∑ b', (numPairs given truth a' b' : ℤ)) = (n : ℤ) := by
      exact_mod_cast sum_sum_numPairs given truth
    have hn : (1 : ℚ) ≤ n := by
      obtain ⟨i, -, -⟩ := h.correct ⟨0, Nat.pos_of_ne_zero (NeZero.ne K)⟩
      have := i.pos
      exact_mod_cast this
    have hd : (∑ a, (numPairs given truth a a : ℚ)) + numErrors given truth = n := by
      exact_mod_cast sum_numPairs_diag given truth
    have : (1 - ∑ k, estimateJointFrom A (fun a b => ((computeConfidentJoint A given P (getConfidentThresholds given P) true a b : ℤ) : ℚ)) given k k) * n =
        ((numErrors given truth : ℤ) : ℚ) := by
      unfold estimateJointFrom
      dsimp only
      simp only [hcal, htot]
      rw [show (((n : ℤ) : ℚ)) = (n : ℚ) by push_cast; rfl, clipTiny_of_one_le hn, ← Finset.sum_div, sub_mul,
        div_mul_cancel₀ _ (by positivity)]
      push_cast
      linarith
    rw [this, rint_intCast]

/-- **C151, confident_learning and predicted_neq_given.** Exactly the wrong labels are flagged. -/
theorem C151_filters (A : ArgSort ℚ) [NeZero K] {given truth : Fin n → Fin K} {P : Fin n → Fin K → ℚ}
    (h : Separated given truth P) (args : Args K) (hn : args.numToRemove = none)
    (hf : args.filterBy = .confidentLearning ∨ args.filterBy = .predictedNeqGiven) :
    findLabelIssues A given P args = .ok (fun i => decide (given i ≠ truth i)) := by
  rcases hf with hf | hf
  · rw [findLabelIssues_of_raw A given P args (by rw [hf]; decide) (Or.inl hn) _ (by unfold rawMask; rw [hf])]
    congr 1
    funext i
    rw [h.reduce]
    simp only [h.mem_offDiagonal]
    by_cases hi : given i = truth i <;> simp [hi]
  · rw [findLabelIssues_of_raw A given P args (by rw [hf]; decide) (Or.inl hn) _ (by unfold rawMask; rw [hf])]
    congr 1
    funext i
    rw [h.reduce, (argmax_eq_iff_isPrediction _ _).mpr (h.isPrediction i)]
    by_cases hi : given i = truth i
    · simp [hi]
    · simp [hi, Ne.symm hi]

/-- **C151, no false alarms.** Whatever the options, including a confident joint and numbers of examples to remove passed by the
caller, the filters other than the two `low_` ones flag no correct label. -/
theorem C151_sound (A : ArgSort ℚ) [NeZero K] {given truth : Fin n → Fin K} {P : Fin n → Fin K → ℚ}
    (h : Separated given truth P) (args : Args K)
    (hf : args.filterBy ≠ .lowSelfConfidence ∧ args.filterBy ≠ .lowNormalizedMargin) (mask : Fin n → Bool)
    (hm : findLabelIssues A given P args = .ok mask) (i : Fin n) (hi : mask i = true) : given i ≠ truth i := by
  obtain ⟨m, -, rfl⟩ := raw_of_findLabelIssues A given P args hf mask hm
  simp only [Bool.and_eq_true, Bool.not_eq_true'] at hi
  have := hi.2
  rw [h.reduce] at this
  exact of_decide_eq_false this

/-- The first `m` positions of an argsort are a set of `m` positions whose values are all below the others. -/
theorem take_indices_iff {α : Type} [LinearOrder α] (A : ArgSort α) {c : ℕ} (v : Fin c → α) (p : Fin c → Prop) [DecidablePred p]
    (h : ∀ r s, p r → ¬ p s → v r < v s) (r : Fin c) :
    r ∈ (A.indices v).take (Finset.univ.filter p).card ↔ p r := by
  set T := Finset.univ.filter (fun r => r ∈ (A.indices v).take (Finset.univ.filter p).card) with hT
  have hcard : T.card = (Finset.univ.filter p).card := by
    rw [hT, card_take_indices, min_eq_left]
    exact (Finset.card_le_univ _).trans (by simp)
  have hsub : T ⊆ Finset.univ.filter p := by
    intro r hr
    by_contra hp
    have hp : ¬ p r := by simpa using hp
    have : ∃ s, p s ∧ s ∉ T := by
      by_contra hall
      push Not at hall
      have hss : Finset.univ.filter p ⊂ T := by
        refine Finset.ssubset_iff_subset_ne.mpr ⟨fun s hs => hall s (by simpa using hs), fun e => hp ?_⟩
        rw [← e] at hr
        simpa using hr
      have := Finset.card_lt_card hss
      omega
    obtain ⟨s, hs, hst⟩ := this
    have h1 := take_indices_le A v (Finset.univ.filter p).card r s (by simpa [hT] using hr) (by simpa [hT] using hst)
    exact absurd (h s r hs hp) (not_lt.mpr h1)
  have he : T = Finset.univ.filter p := Finset.eq_of_subset_of_card_le hsub hcard.ge
  constructor
  · intro hr
    have : r ∈ T := by simpa [hT] using hr
    rw [he] at this
    simpa using this
  · intro hr
    have : r ∈ T := by rw [he]; simpa using hr
    simpa [hT] using this

/-- **C151, low_normalized_margin.** Exactly the wrong labels are flagged. -/
theorem C151_normalized_margin (A : ArgSort ℚ) [NeZero K] {given truth : Fin n → Fin K} {P : Fin n → Fin K → ℚ}
    (h : Separated given truth P) (args : Args K) (hn : args.numToRemove = none) (hf : args.filterBy = .lowNormalizedMargin) :
    findLabelIssues A given P args = .ok (fun i => decide (given i ≠ truth i)) := by
  obtain ⟨s, hs, hr⟩ := C14_normalized_margin_range h.two given P h.dist
  have hlt : ∀ i j, given i ≠ truth i → ¬ given j ≠ truth j → s i < s j := by
    intro i j hi hj
    have h1 : s i < 1 / 2 := by
      by_contra hc
      have := ((hr i).2.2.mp (not_lt.mp hc)) (truth i)
      have := h.predicted i _ hi
      linarith
    have h2 : 1 / 2 ≤ s j := by
      rw [(hr j).2.2, not_not.mp hj]
      exact (h.isPrediction j).1
    linarith
  have hraw : rawMask A given P args = .ok (fun i => decide (given i ≠ truth i)) := by
    unfold rawMask lowScoreIndices
    simp only [hf, hs, bind, Except.bind, pure, Except.pure, (C151_count A h none).1]
    congr 1
    funext i
    rw [decide_eq_decide]
    exact take_indices_iff A s (fun i => given i ≠ truth i) hlt i
  unfold findLabelIssues
  rw [if_neg (by simp [hn]), hraw]
  simp [bind, Except.bind, pure, Except.pure, hf]

/-- The matrix that says how many examples are removed is the table of pairs. -/
theorem Separated.removed (A : ArgSort ℚ) [NeZero K] {given truth : Fin n → Fin K} {P : Fin n → Fin K → ℚ}
    (h : Separated given truth P) (args : Args K) (hmin : ∀ k, args.minExamples ≤ numPairs given truth k k)
    (hj : ∀ cj, args.confidentJoint = some cj → cj = fun a b => (numPairs given truth a b : ℚ)) (j k : Fin K) :
    keepAtLeastN A (fun j k => Filter.usedJoint A given P args k j) args.minExamples 1 j k =
      numPairs given truth k j := by
  have hu : ∀ a b, Filter.usedJoint A given P args a b = (numPairs given truth a b : ℚ) := by
    intro a b
    unfold Filter.usedJoint
    cases hc : args.confidentJoint with
    | none =>
      dsimp only
      rw [C151_confident_joint A h]
      simp
    | some cj => dsimp only; rw [hj cj hc]
  have hk : ∀ j k, keepDiagonal (fun j k => Filter.usedJoint A given P args k j) args.minExamples j k =
      numPairs given truth k j := by
    intro j k
    have hm : max (numPairs given truth k k : ℚ) args.minExamples = numPairs given truth k k :=
      max_eq_left (by exact_mod_cast hmin k)
    unfold keepDiagonal
    dsimp only
    simp only [hu, hm, sub_self, zero_div, sub_zero]
    split_ifs with h1 h2
    · rw [h1]
    · exact absurd h2 (not_lt.mpr (Nat.cast_nonneg _))
    · rfl
  rw [keepAtLeastN_eq]
  unfold reducePruneCounts reducePruneCountsExact
  dsimp only
  simp only [hk, mul_one, ite_self, sub_self, Finset.sum_const_zero, add_zero]
  have e : (if j = k then (numPairs given truth k k : ℚ) else numPairs given truth k j) = ((numPairs given truth k j : ℤ) : ℚ) := by
    split_ifs with h1
    · rw [h1]; simp
    · simp
  rw [e, trunc_intCast]

/-- Counting in the rows of one class. -/
theorem card_classIdx (given : Fin n → Fin K) (k : Fin K) (q : Fin n → Prop) [DecidablePred q] :
    (Finset.univ.filter (fun r => q ((classIdx given k).get r))).card = (Finset.univ.filter (fun i => given i = k ∧ q i)).card := by
  apply Finset.card_bij (fun r _ => (classIdx given k).get r)
  · intro r hr
    simp only [Finset.mem_filter, Finset.mem_univ, true_and] at hr ⊢
    exact ⟨(mem_classIdx _ _ _).mp (List.get_mem _ _), hr⟩
  · intro r _ s _ e
    exact (List.nodup_iff_injective_get.mp (nodup_classIdx given k)) e
  · intro i hi
    simp only [Finset.mem_filter, Finset.mem_univ, true_and] at hi
    obtain ⟨r, hr⟩ := exists_get_of given i k hi.1
    exact ⟨r, by simp only [Finset.mem_filter, Finset.mem_univ, true_and, hr]; exact hi.2, hr⟩

/-- A class with a wrong label has more examples than correct ones. -/
theorem numPairs_lt (given truth : Fin n → Fin K) (i : Fin n) (hi : given i ≠ truth i) :
    numPairs given truth (given i) (given i) < numGiven given (given i) := by
  unfold numPairs numGiven
  apply Finset.card_lt_card
  rw [Finset.ssubset_iff_of_subset (fun j hj => by simp only [Finset.mem_filter, Finset.mem_univ, true_and] at hj ⊢; exact hj.1)]
  exact ⟨i, by simp, by simp only [Finset.mem_filter, Finset.mem_univ, true_and]; exact fun hc => hi hc.symm⟩

theorem Separated.diag {given truth : Fin n → Fin K} {P : Fin n → Fin K → ℚ} (h : Separated given truth P) (k : Fin K) :
    1 ≤ numPairs given truth k k := by
  obtain ⟨i, h1, h2⟩ := h.correct k
  exact Finset.card_pos.mpr ⟨i, by simp [h1, h2]⟩

/-- **C151, prune_by_class.** If moreover every class is less probable for examples of other true classes than for its own, and has as
many correct labels as `min_examples_per_class` asks for (1 by default), exactly the wrong labels are flagged. -/
theorem C151_by_class (A : ArgSort ℚ) [NeZero K] {given truth : Fin n → Fin K} {P : Fin n → Fin K → ℚ}
    (h : Separated given truth P) (hlow : ∀ i j, truth j ≠ truth i → P j (truth i) < P i (truth i)) (args : Args K)
    (hf : args.filterBy = .pruneByClass) (hn : args.numToRemove = none) (hfrac : args.fracNoise = 1)
    (hj : ∀ cj, args.confidentJoint = some cj → cj = fun a b => (numPairs given truth a b : ℚ))
    (hmin : ∀ k, args.minExamples ≤ numPairs given truth k k) :
    findLabelIssues A given P args = .ok (fun i => decide (given i ≠ truth i)) := by
  have hraw : rawMask A given P args = .ok (maskByClass A given P args.minExamples (keepAtLeastN A (fun j k => Filter.usedJoint A given P args k j) args.minExamples 1)) := by
    unfold rawMask
    simp only [hf, hn, hfrac]
    rfl
  rw [findLabelIssues_of_raw A given P args (by rw [hf]; decide) (Or.inl hn) _ hraw]
  congr 1
  funext i
  rw [h.reduce]
  by_cases hi : given i = truth i
  · simp [hi]
  · have hg := numPairs_lt given truth i hi
    have hd := h.diag (given i)
    have hmin' := hmin (given i)
    obtain ⟨r, hr⟩ := exists_get given i
    have hcount : ((numGiven given (given i) : ℤ) - keepAtLeastN A (fun j k => Filter.usedJoint A given P args k j) args.minExamples 1 (given i) (given i)).toNat =
        (Finset.univ.filter (fun r => truth ((classIdx given (given i)).get r) ≠ given i)).card := by
      rw [h.removed A args hmin hj, card_classIdx given (given i) (fun j => truth j ≠ given i)]
      have : numGiven given (given i) = numPairs given truth (given i) (given i) +
          (Finset.univ.filter (fun j => given j = given i ∧ truth j ≠ given i)).card := by
        unfold numGiven numPairs
        rw [← Finset.filter_filter, ← Finset.filter_filter, Finset.card_filter_add_card_filter_not]
      omega
    have hmem : maskByClass A given P args.minExamples (keepAtLeastN A (fun j k => Filter.usedJoint A given P args k j) args.minExamples 1) i = true := by
      have := (maskByClass_get A given P args.minExamples (keepAtLeastN A (fun j k => Filter.usedJoint A given P args k j) args.minExamples 1) (given i) r).mpr
      rw [hr] at this
      refine this ⟨by omega, by omega, ?_⟩
      rw [hcount]
      apply (take_indices_iff A _ (fun r => truth ((classIdx given (given i)).get r) ≠ given i) ?_ r).mpr
      · rw [hr]; exact fun e => hi e.symm
      · intro a b ha hb
        have := hlow ((classIdx given (given i)).get b) ((classIdx given (given i)).get a) (by rw [not_not.mp hb]; exact ha)
        rw [not_not.mp hb] at this
        exact this
    rw [hmem]
    simp [hi]

/-- **C152 (partial), prune_by_noise_rate.** If moreover, among the examples given one class, every other class is ahead of
the given class by more for its own examples than for the others, exactly the wrong labels are flagged by the default filter. -/
theorem C152_by_noise_rate_partial (A : ArgSort ℚ) [NeZero K] {given truth : Fin n → Fin K} {P : Fin n → Fin K → ℚ}
    (h : Separated given truth P)
    (hahead : ∀ i j, given i = given j → truth i ≠ given i → truth j ≠ truth i →
      P j (truth i) - P j (given i) < P i (truth i) - P i (given i)) (args : Args K)
    (hf : args.filterBy = .pruneByNoiseRate) (hn : args.numToRemove = none) (hfrac : args.fracNoise = 1)
    (hj : ∀ cj, args.confidentJoint = some cj → cj = fun a b => (numPairs given truth a b : ℚ))
    (hmin : ∀ k, args.minExamples ≤ numPairs given truth k k) :
    findLabelIssues A given P args = .ok (fun i => decide (given i ≠ truth i)) := by
  have hraw : rawMask A given P args = .ok (maskByCount A given P args.minExamples (keepAtLeastN A (fun j k => Filter.usedJoint A given P args k j) args.minExamples 1)) := by
    unfold rawMask
    simp only [hf, hn, hfrac]
    rfl
  rw [findLabelIssues_of_raw A given P args (by rw [hf]; decide) (Or.inl hn) _ hraw]
  congr 1
  funext i
  rw [h.reduce]
  by_cases hi : given i = truth i
  · simp [hi]
  · have hg := numPairs_lt given truth i hi
    have hd := h.diag (given i)
    have hmin' := hmin (given i)
    obtain ⟨r, hr⟩ := exists_get given i
    have hcount : (Finset.univ.filter (fun r => truth ((classIdx given (given i)).get r) = truth i)).card = numPairs given truth (given i) (truth i) :=
      card_classIdx given (given i) (fun j => truth j = truth i)
    have hpos : 0 < numPairs given truth (given i) (truth i) := Finset.card_pos.mpr ⟨i, by simp⟩
    have hmem : maskByCount A given P args.minExamples (keepAtLeastN A (fun j k => Filter.usedJoint A given P args k j) args.minExamples 1) i = true := by
      have := (maskByCount_get A given P args.minExamples (keepAtLeastN A (fun j k => Filter.usedJoint A given P args k j) args.minExamples 1) (given i) r).mpr
      rw [hr] at this
      refine this ⟨by omega, by omega, truth i, hi, ?_, ?_⟩
      · rw [h.removed A args hmin hj]; exact_mod_cast hpos
      · rw [h.removed A args hmin hj, Int.toNat_natCast, ← hcount]
        apply (take_indices_iff A _ (fun r => truth ((classIdx given (given i)).get r) = truth i) ?_ r).mpr
        · rw [hr]
        · intro a b ha hb
          have ga : given ((classIdx given (given i)).get a) = given i := (mem_classIdx _ _ _).mp (List.get_mem _ _)
          have gb : given ((classIdx given (given i)).get b) = given i := (mem_classIdx _ _ _).mp (List.get_mem _ _)
          have := hahead ((classIdx given (given i)).get a) ((classIdx given (given i)).get b) (ga.trans gb.symm)
            (by rw [ha, ga]; exact fun e => hi e.symm) (by rw [ha]; exact hb)
          rw [ha, ga] at this
          unfold classProbs
          linarith
    rw [hmem]
    simp [hi]

/-- **C152 (partial), both.** With the conditions for `prune_by_class` and for `prune_by_noise_rate`, exactly the wrong labels are
flagged. -/
theorem C152_both_partial (A : ArgSort ℚ) [NeZero K] {given truth : Fin n → Fin K} {P : Fin n → Fin K → ℚ}
    (h : Separated given truth P) (hlow : ∀ i j, truth j ≠ truth i → P j (truth i) < P i (truth i))
    (hahead : ∀ i j, given i = given j → truth i ≠ given i → truth j ≠ truth i →
      P j (truth i) - P j (given i) < P i (truth i) - P i (given i)) (args : Args K)
    (hf : args.filterBy = .both) (hn : args.numToRemove = none) (hfrac : args.fracNoise = 1)
    (hj : ∀ cj, args.confidentJoint = some cj → cj = fun a b => (numPairs given truth a b : ℚ))
    (hmin : ∀ k, args.minExamples ≤ numPairs given truth k k) :
    findLabelIssues A given P args = .ok (fun i => decide (given i ≠ truth i)) := by
  have h1 := C151_by_class A h hlow { args with filterBy := .pruneByClass } rfl hn hfrac hj hmin
  have h2 := C152_by_noise_rate_partial A h hahead { args with filterBy := .pruneByNoiseRate } rfl hn hfrac hj hmin
  obtain ⟨mask, hm, hb⟩ := C09_both_is_intersection A given P args _ _ h1 h2
  have e : ({ args with filterBy := .both } : Args K) = args := by rw [← hf]
  rw [e] at hm
  rw [hm]
  congr 1
  funext i
  rw [Bool.eq_iff_iff, hb]
  simp

/-- **C152 (partial), low_self_confidence.** If moreover every wrong label is less probable than every correct label, exactly the wrong
labels are flagged. -/
theorem C152_self_confidence_partial (A : ArgSort ℚ) [NeZero K] {given truth : Fin n → Fin K} {P : Fin n → Fin K → ℚ}
    (h : Separated given truth P) (hlt : ∀ i j, given i ≠ truth i → given j = truth j → P i (given i) < P j (given j))
    (args : Args K) (hn : args.numToRemove = none) (hf : args.filterBy = .lowSelfConfidence) :
    findLabelIssues A given P args = .ok (fun i => decide (given i ≠ truth i)) := by
  have hraw : rawMask A given P args = .ok (fun i => decide (given i ≠ truth i)) := by
    unfold rawMask lowScoreIndices labelQualityScores
    simp only [hf, bind, Except.bind, pure, Except.pure, (C151_count A h none).1]
    congr 1
    funext i
    rw [decide_eq_decide]
    exact take_indices_iff A (Rank.selfConfidence given P) (fun i => given i ≠ truth i)
      (fun i j hi hj => hlt i j hi (not_not.mp hj)) i
  unfold findLabelIssues
  rw [if_neg (by simp [hn]), hraw]
  simp [bind, Except.bind, pure, Except.pure, hf]

/-- **C152 (partial), two classes.** For two classes the default filter needs no further condition. -/
theorem C152_two_classes_partial (A : ArgSort ℚ) {given truth : Fin n → Fin 2} {P : Fin n → Fin 2 → ℚ}
    (h : Separated given truth P) (args : Args 2)
    (hf : args.filterBy = .pruneByNoiseRate) (hn : args.numToRemove = none) (hfrac : args.fracNoise = 1)
    (hj : ∀ cj, args.confidentJoint = some cj → cj = fun a b => (numPairs given truth a b : ℚ))
    (hmin : ∀ k, args.minExamples ≤ numPairs given truth k k) :
    findLabelIssues A given P args = .ok (fun i => decide (given i ≠ truth i)) := by
  refine C152_by_noise_rate_partial A h ?_ args hf hn hfrac hj hmin
  intro i j hg hi hji
  have hj' : truth j = given i := by
    generalize truth j = a at *
    generalize truth i = b at *
    generalize given i = c at *
    omega
  have h1 := h.predicted i (given i) (Ne.symm hi)
  have h2 := h.predicted j (truth i) (Ne.symm hji)
  rw [hj'] at h2
  linarith

/-- Predictions that are certain of the true classes. -/
def certain (truth : Fin n → Fin K) (i : Fin n) (k : Fin K) : ℚ := if k = truth i then 1 else 0

/-- **C151, certain predictions.** Predictions that are certain of the true classes single these out, so everything above applies to
them. -/
theorem C151_certain (given truth : Fin n → Fin K) (hK : 2 ≤ K) (hc : ∀ k, ∃ i, given i = k ∧ truth i = k) :
    Separated given truth (certain truth) := by
  refine ⟨hK, fun i => ⟨fun k => ?_, ?_⟩, fun i k hk => ?_, fun i => ?_, hc⟩
  · unfold certain; split_ifs <;> norm_num
  · unfold certain; simp
  · unfold certain; rw [if_neg hk, if_pos rfl]; norm_num
  · have h1 : certain truth i (truth i) = 1 := by unfold certain; rw [if_pos rfl]
    rw [h1]
    unfold meanSelfConfidence
    apply div_le_one_of_le₀ _ (Nat.cast_nonneg _)
    calc ∑ j ∈ Finset.univ.filter (fun j => given j = truth i), certain truth j (truth i)
        ≤ ∑ j ∈ Finset.univ.filter (fun j => given j = truth i), (1 : ℚ) :=
          Finset.sum_le_sum (fun j _ => by unfold certain; split_ifs <;> norm_num)
      _ = numGiven given (truth i) := by simp [numGiven]

/-- **C151, certain predictions.** If the predictions are certain of the true classes, every filter with its default options flags
exactly the wrong labels; also with larger `min_examples_per_class` as long as every class has that many correct labels. -/
theorem C151_certain_all (A : ArgSort ℚ) [NeZero K] (given truth : Fin n → Fin K) (hK : 2 ≤ K)
    (hc : ∀ k, ∃ i, given i = k ∧ truth i = k) (args : Args K) (hn : args.numToRemove = none) (hfrac : args.fracNoise = 1)
    (hj : ∀ cj, args.confidentJoint = some cj → cj = fun a b => (numPairs given truth a b : ℚ))
    (hmin : ∀ k, args.minExamples ≤ numPairs given truth k k) :
    findLabelIssues A given (certain truth) args = .ok (fun i => decide (given i ≠ truth i)) := by
  have h := C151_certain given truth hK hc
  have one : ∀ i, certain truth i (truth i) = 1 := fun i => by unfold certain; rw [if_pos rfl]
  have zero : ∀ i k, k ≠ truth i → certain truth i k = 0 := fun i k hk => by unfold certain; rw [if_neg hk]
  have hlow : ∀ i j, truth j ≠ truth i → certain truth j (truth i) < certain truth i (truth i) := by
    intro i j hj
    rw [one, zero j _ (Ne.symm hj)]
    norm_num
  have hahead : ∀ i j, given i = given j → truth i ≠ given i → truth j ≠ truth i →
      certain truth j (truth i) - certain truth j (given i) < certain truth i (truth i) - certain truth i (given i) := by
    intro i j _ hi hj
    rw [one, zero i _ (Ne.symm hi), zero j _ (Ne.symm hj)]
    have : 0 ≤ certain truth j (given i) := (h.dist j).1 _
    linarith
  cases hf : args.filterBy with
  | lowNormalizedMargin => exact C151_normalized_margin A h _ hn hf
  | lowSelfConfidence =>
    refine C152_self_confidence_partial A h ?_ _ hn hf
    intro i j hi hj
    rw [zero i _ hi, hj, one]
    norm_num
  | pruneByNoiseRate => exact C152_by_noise_rate_partial A h hahead _ hf hn hfrac hj hmin
  | pruneByClass => exact C151_by_class A h hlow _ hf hn hfrac hj hmin
  | both => exact C152_both_partial A h hlow hahead _ hf hn hfrac hj hmin
  | confidentLearning => exact C151_filters A h _ hn (Or.inl hf)
  | predictedNeqGiven => exact C151_filters A h _ hn (Or.inr hf)

/-- The ideal probabilities of the paper: the probability of a label for an example is its frequency among the labels given to the
examples of the same true class. -/
def idealProbs (given truth : Fin n → Fin K) (i : Fin n) (k : Fin K) : ℚ :=
  (numPairs given truth k (truth i) : ℚ) / numGiven truth (truth i)

/-- The condition of the paper: in the matrix of the frequencies of given labels for true classes each entry of the diagonal is the
largest of its row and of its column. -/
structure Dominant (given truth : Fin n → Fin K) : Prop where
  two : 2 ≤ K
  column : ∀ s y, s ≠ y → numPairs given truth s y < numPairs given truth y y
  row : ∀ s y, s ≠ y → (numPairs given truth s y : ℚ) / numGiven truth y < (numPairs given truth s s : ℚ) / numGiven truth s

/-- **C151, ideal predictions.** Under the condition of the paper, for fewer than a million examples, the ideal probabilities single
out the true classes, and every class is less probable for examples of other true classes than for its own: so the confident joint
is exact and `confident_learning`, `predicted_neq_given`, `prune_by_class` and `low_normalized_margin` find exactly the wrong labels. -/
theorem C151_ideal (given truth : Fin n → Fin K) (h : Dominant given truth) (hn : n < 1000000) :
    Separated given truth (idealProbs given truth) ∧
      ∀ i j, truth j ≠ truth i → idealProbs given truth j (truth i) < idealProbs given truth i (truth i) := by
  have hK := h.two
  have hdiag : ∀ k, 1 ≤ numPairs given truth k k := by
    intro k
    obtain ⟨s, hs⟩ : ∃ s : Fin K, s ≠ k := by
      by_cases h0 : k.val = 0
      · exact ⟨⟨1, by omega⟩, fun e => by rw [← e] at h0; simp at h0⟩
      · exact ⟨⟨0, by omega⟩, fun e => h0 (by rw [← e])⟩
    have := h.column s k hs
    omega
  have hpos : ∀ k, (0 : ℚ) < numGiven truth k := by
    intro k
    have h1 : numPairs given truth k k ≤ ∑ a, numPairs given truth a k :=
      Finset.single_le_sum (f := fun a => numPairs given truth a k) (fun _ _ => Nat.zero_le _) (Finset.mem_univ k)
    rw [sum_numPairs_left] at h1
    have := hdiag k
    exact_mod_cast (by omega : 0 < numGiven truth k)
  have hsmall : ∀ k, (numGiven truth k : ℚ) < 1000000 := by
    intro k
    have h1 : numGiven truth k ≤ ∑ a, numGiven truth a :=
      Finset.single_le_sum (f := fun a => numGiven truth a) (fun _ _ => Nat.zero_le _) (Finset.mem_univ k)
    rw [sum_numGiven] at h1
    exact_mod_cast (by omega : numGiven truth k < 1000000)
  have hlow : ∀ i j, truth j ≠ truth i → idealProbs given truth j (truth i) < idealProbs given truth i (truth i) :=
    fun i j hij => h.row _ _ (Ne.symm hij)
  refine ⟨⟨hK, fun i => ⟨fun k => ?_, ?_⟩, fun i k hk => ?_, fun i => ?_, fun k => ?_⟩, hlow⟩
  · exact div_nonneg (Nat.cast_nonneg _) (Nat.cast_nonneg _)
  · unfold idealProbs
    rw [← Finset.sum_div, ← Nat.cast_sum, sum_numPairs_left, div_self (hpos _).ne']
  · have hc : (numPairs given truth k (truth i) : ℚ) + 1 ≤ numPairs given truth (truth i) (truth i) := by
      exact_mod_cast h.column k (truth i) hk
    unfold idealProbs
    have h1 : (1 : ℚ) / 1000000 < 1 / numGiven truth (truth i) :=
      one_div_lt_one_div_of_lt (hpos _) (hsmall _)
    have h2 : (numPairs given truth k (truth i) : ℚ) / numGiven truth (truth i) + 1 / numGiven truth (truth i) ≤
        (numPairs given truth (truth i) (truth i) : ℚ) / numGiven truth (truth i) := by
      rw [← add_div]
      exact div_le_div_of_nonneg_right hc (hpos _).le
    linarith
  · unfold meanSelfConfidence
    apply div_le_of_le_mul₀ (Nat.cast_nonneg _) (div_nonneg (Nat.cast_nonneg _) (Nat.cast_nonneg _))
    calc ∑ j ∈ Finset.univ.filter (fun j => given j = truth i), idealProbs given truth j (truth i)
        ≤ ∑ j ∈ Finset.univ.filter (fun j => given j = truth i), idealProbs given truth i (truth i) := by
          refine Finset.sum_le_sum (fun j _ => ?_)
          by_cases hj : truth j = truth i
          · unfold idealProbs; rw [hj]
          · exact (hlow i j hj).le
      _ = idealProbs given truth i (truth i) * numGiven given (truth i) := by
          rw [Finset.sum_const, nsmul_eq_mul, mul_comm]; rfl
  · obtain ⟨i, hi⟩ := Finset.card_pos.mp (hdiag k)
    exact ⟨i, by simpa using hi⟩

theorem Separated.inRange {given truth : Fin n → Fin K} {P : Fin n → Fin K → ℚ} (h : Separated given truth P) : InRange P := by
  intro i k
  have h1 := (h.dist i).1 k
  have h2 := isDistribution_le_one (h.dist i) k
  norm_num
  constructor <;> linarith

/-- **C151, checks.** Data whose predictions single out the true classes pass the checks of the inputs, so the results above are what
`find_label_issues` and `num_label_issues` return. -/
theorem C151_accepted (A : ArgSort ℚ) [NeZero K] {given truth : Fin n → Fin K} {P : Fin n → Fin K → ℚ}
    (h : Separated given truth P) (args : Args K) (cj : Option (Fin K → Fin K → ℚ)) (m : EstimationMethod) :
    findChecked A given P args = findLabelIssues A given P args ∧ numChecked A given P cj m = numLabelIssues A given P cj m := by
  have hK := h.two
  obtain ⟨i, hi, -⟩ := h.correct ⟨0, by omega⟩
  obtain ⟨j, hj, -⟩ := h.correct ⟨1, by omega⟩
  obtain ⟨h1, -, h2⟩ := C115_accepts_partial A given P ⟨i, j, by rw [hi, hj]; simp⟩ h.inRange
  exact ⟨h1 args, h2 cj m⟩

/-- **C151, health.** The label health of the data set is the fraction of correct labels. -/
theorem C151_health (A : ArgSort ℚ) [NeZero K] {given truth : Fin n → Fin K} {P : Fin n → Fin K → ℚ}
    (h : Separated given truth P) :
    Dataset.overallHealth A { labels := some given, predProbs := some P } =
      .ok (((Finset.univ.filter (fun i => given i = truth i)).card : ℚ) / n) := by
  have hK := h.two
  obtain ⟨i, hi, -⟩ := h.correct ⟨0, by omega⟩
  obtain ⟨j, hj, -⟩ := h.correct ⟨1, by omega⟩
  obtain ⟨mask, score, h1, h2, h3, -⟩ := C28_health_from_labels A given P ⟨i, j, by rw [hi, hj]; simp⟩
    h.inRange
  rw [(C151_accepted A h _ none .offDiagonal).1, C151_filters A h _ rfl (Or.inl rfl)] at h1
  rw [h2, h3, ← Except.ok.inj h1]
  congr 1
  have hn : (n : ℚ) ≠ 0 := by exact_mod_cast i.pos.ne'
  have hs : (Finset.univ.filter (fun i => given i = truth i)).card + numErrors given truth = n := by
    unfold numErrors
    rw [Finset.card_filter_add_card_filter_not]
    simp
  have hs' : ((Finset.univ.filter (fun i => given i = truth i)).card : ℚ) + numErrors given truth = n := by exact_mod_cast hs
  unfold numErrors at hs'
  simp only [decide_eq_true_eq]
  rw [eq_div_iff hn, sub_mul, div_mul_cancel₀ _ hn]
  linarith

def idealTruth : Fin 14 → Fin 3 := ![0, 1, 1, 1, 1, 1, 2, 2, 2, 2, 2, 2, 2, 2]

def idealGiven : Fin 14 → Fin 3 := ![0, 0, 0, 1, 1, 1, 0, 1, 1, 1, 2, 2, 2, 2]

def idealQ : Fin 3 → Fin 3 → ℚ := ![![1, 0, 0], ![2 / 5, 3 / 5, 0], ![1 / 8, 3 / 8, 1 / 2]]

def idealPairs : Fin 3 → Fin 3 → ℤ := ![![1, 2, 1], ![0, 3, 3], ![0, 0, 4]]

theorem ideal_dominant : Dominant idealGiven idealTruth :=
  ⟨by decide, by decide +kernel, by decide +kernel⟩

theorem ideal_probs : idealProbs idealGiven idealTruth = fun i => idealQ (idealTruth i) := by
  funext i k
  revert i k
  decide +kernel

theorem ideal_pairs : ∀ a b, (numPairs idealGiven idealTruth a b : ℤ) = idealPairs a b := by decide +kernel

/-- In this data set `prune_by_class` finds exactly the six wrong labels. -/
example : findLabelIssues (stableSort ℚ) idealGiven (idealProbs idealGiven idealTruth) { filterBy := .pruneByClass } =
      .ok (fun i => decide (idealGiven i ≠ idealTruth i)) ∧ numErrors idealGiven idealTruth = 6 :=
  have h := C151_ideal idealGiven idealTruth ideal_dominant (by norm_num)
  ⟨C151_by_class _ h.1 h.2 _ rfl rfl rfl (fun cj hc => by cases hc) h.1.diag, by decide +kernel⟩

/-- **C152, refuted for the default filter.** Three classes, 14 examples, the probabilities are ideal and the diagonal is the
largest entry of every row and column of the noise matrix, so the confident joint is exact; but of the six wrong labels
`prune_by_noise_rate` finds only five: of the two examples of class 1 given 0 it misses one, because the example of class 2
given 0 is even more in favour of class 1 over 0 and takes its place. -/
theorem C152_not_default :
    Dominant idealGiven idealTruth ∧
      (findLabelIssues (stableSort ℚ) idealGiven (idealProbs idealGiven idealTruth) { filterBy := .pruneByNoiseRate }).toOption.map List.ofFn =
        some [false, true, false, false, false, false, true, true, true, true, false, false, false, false] := by
  refine ⟨ideal_dominant, ?_⟩
  have h := (C151_ideal idealGiven idealTruth ideal_dominant (by norm_num)).1
  have hraw : rawMask (stableSort ℚ) idealGiven (idealProbs idealGiven idealTruth) { filterBy := .pruneByNoiseRate } =
      .ok (maskByCount (stableSort ℚ) idealGiven (fun i => idealQ (idealTruth i)) 1 (fun j k => idealPairs k j)) := by
    have e : keepAtLeastN (stableSort ℚ) (fun j k => ((computeConfidentJoint (stableSort ℚ) idealGiven (idealProbs idealGiven idealTruth) (getConfidentThresholds idealGiven (idealProbs idealGiven idealTruth)) true k j : ℤ) : ℚ)) 1 1 = fun j k => idealPairs k j := by
      funext j k
      exact (h.removed _ { filterBy := .pruneByNoiseRate } h.diag (fun cj hc => by cases hc) j k).trans (ideal_pairs k j)
    rw [← e, ← ideal_probs]
    rfl
  rw [findLabelIssues_of_raw _ _ _ _ ⟨by decide, by decide⟩ (Or.inl rfl) _ hraw, ideal_probs]
  decide +kernel

def lowTruth : Fin 17 → Fin 3 := ![0, 1, 1, 1, 1, 1, 1, 1, 1, 1, 2, 2, 2, 2, 2, 2, 2]

def lowGiven : Fin 17 → Fin 3 := ![0, 0, 0, 0, 0, 1, 1, 1, 1, 1, 0, 0, 1, 1, 2, 2, 2]

def lowQ : Fin 3 → Fin 3 → ℚ := ![![1, 0, 0], ![4 / 9, 5 / 9, 0], ![2 / 7, 2 / 7, 3 / 7]]

/-- **C152, refuted for low_self_confidence.** Three classes, 17 examples, ideal probabilities as before: the correct label 2 has
probability 3/7, less than 4/9, the probability of the wrong label 0 for examples of class 1. So all three correct labels 2 are
flagged, and three of the wrong labels are not. -/
theorem C152_not_self_confidence :
    Dominant lowGiven lowTruth ∧
      (findLabelIssues (stableSort ℚ) lowGiven (idealProbs lowGiven lowTruth) { filterBy := .lowSelfConfidence }).toOption.map List.ofFn =
        some [false, true, false, false, false, false, false, false, false, false, true, true, true, true, true, true, true] := by
  have hd : Dominant lowGiven lowTruth := ⟨by decide, by decide +kernel, by decide +kernel⟩
  refine ⟨hd, ?_⟩
  have h := (C151_ideal lowGiven lowTruth hd (by norm_num)).1
  have hp : idealProbs lowGiven lowTruth = fun i => lowQ (lowTruth i) := by
    funext i k
    revert i k
    decide +kernel
  have hraw : rawMask (stableSort ℚ) lowGiven (idealProbs lowGiven lowTruth) { filterBy := .lowSelfConfidence } =
      .ok (fun i => decide (i ∈ ((stableSort ℚ).indices (fun i => lowQ (lowTruth i) (lowGiven i))).take 8)) := by
    unfold rawMask lowScoreIndices labelQualityScores
    simp only [bind, Except.bind, pure, Except.pure, (C151_count (stableSort ℚ) h none).1]
    have e : ((numErrors lowGiven lowTruth : ℕ) : ℤ).toNat = 8 := by decide +kernel
    rw [e, hp]
    rfl
  have hm : findLabelIssues (stableSort ℚ) lowGiven (idealProbs lowGiven lowTruth) { filterBy := .lowSelfConfidence } =
      .ok (fun i => decide (i ∈ ((stableSort ℚ).indices (fun i => lowQ (lowTruth i) (lowGiven i))).take 8)) := by
    unfold findLabelIssues
    rw [if_neg (by simp), hraw]
    simp [bind, Except.bind, pure, Except.pure]
  rw [hm]
  decide +kernel

end Cleanlab.Props
