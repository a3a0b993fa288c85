import Verif.Props.BetterPrediction

/-!
# C178: small changes of the predicted probabilities

Predicted probabilities carry rounding errors: they are stored in single precision, or computed on another machine. `NearProbs ε
P Q` says that no entry differs by more than `ε`.
-/

namespace Cleanlab.Props

open Np Cleanlab.Util Cleanlab.Count Cleanlab.Rank Cleanlab.Filter Cleanlab.Spec

variable {n K : ℕ}

/-- No predicted probability differs by more than `ε`. -/
def NearProbs (ε : ℚ) (P Q : Fin n → Fin K → ℚ) : Prop := ∀ i k, |P i k - Q i k| ≤ ε

/-- No predicted probability is within `2 ε` of the value from which on it counts as confident. -/
def ClearThresholds (ε : ℚ) (labels : Fin n → Fin K) (P : Fin n → Fin K → ℚ) : Prop :=
  ∀ i k, 2 * ε < |P i k - (getConfidentThresholds labels P k - 1 / 1000000)|

/-- For every example one class is more probable than all others, by more than `2 ε`. -/
def ClearPredictions (ε : ℚ) (P : Fin n → Fin K → ℚ) : Prop := ∀ i, ∃ j, ∀ k, k ≠ j → P i k + 2 * ε < P i j

/-- No class exceeds the given label by nearly exactly the tolerance `1e-6`. -/
def ClearMargins (ε : ℚ) (labels : Fin n → Fin K) (P : Fin n → Fin K → ℚ) : Prop :=
  ∀ i k, k ≠ labels i → 2 * ε < |P i k - P i (labels i) - 1 / 1000000|

/-- All that decides about an issue in filter `f` is decided by more than what a change by `ε` can bring about. -/
def Clear (ε : ℚ) (labels : Fin n → Fin K) (P : Fin n → Fin K → ℚ) (f : FilterBy) : Prop :=
  ClearPredictions ε P ∧ ClearMargins ε labels P ∧ (f ≠ .predictedNeqGiven → ClearThresholds ε labels P) ∧
  (f = .lowSelfConfidence → ∀ i i', i ≠ i' → 2 * ε < |P i (labels i) - P i' (labels i')|) ∧
  (f = .lowNormalizedMargin → ∀ i i', i ≠ i' → ∀ a ∈ normalizedMargin labels P i, ∀ b ∈ normalizedMargin labels P i',
    2 * ε < |a - b|) ∧
  (f = .pruneByClass ∨ f = .both → ∀ i i', i ≠ i' → labels i = labels i' →
    2 * ε < |P i (labels i) - P i' (labels i)|) ∧
  (f = .pruneByNoiseRate ∨ f = .both → ∀ i i', i ≠ i' → labels i = labels i' → ∀ k, k ≠ labels i →
    4 * ε < |(P i k - P i (labels i)) - (P i' k - P i' (labels i))|)

theorem near_sides {ε : ℚ} {P Q : Fin n → Fin K → ℚ} (h : NearProbs ε P Q) (i : Fin n) (k : Fin K) :
    P i k ≤ Q i k + ε ∧ Q i k ≤ P i k + ε := by
  have := abs_le.mp (h i k)
  constructor <;> linarith [this.1, this.2]

/-- **C178.** A confident threshold changes by at most `ε`. -/
theorem C178_thresholds (ε : ℚ) (labels : Fin n → Fin K) (P Q : Fin n → Fin K → ℚ) (hε : 0 ≤ ε) (h : NearProbs ε P Q)
    (k : Fin K) : |getConfidentThresholds labels P k - getConfidentThresholds labels Q k| ≤ ε := by
  unfold getConfidentThresholds
  refine (abs_max_sub_max_le_abs _ _ _).trans ?_
  by_cases hk : k ∈ List.ofFn labels
  · rw [if_pos hk, if_pos hk, classMean_eq, classMean_eq]
    unfold meanSelfConfidence
    have hpos : (0 : ℚ) < numGiven labels k := by
      obtain ⟨i, hi⟩ := List.mem_ofFn.mp hk
      have : 0 < numGiven labels k := by
        unfold numGiven
        exact Finset.card_pos.mpr ⟨i, by simpa using hi⟩
      exact_mod_cast this
    rw [← sub_div, ← Finset.sum_sub_distrib, abs_div, abs_of_pos hpos, div_le_iff₀ hpos]
    refine (Finset.abs_sum_le_sum_abs _ _).trans ((Finset.sum_le_card_nsmul _ _ ε fun i _ => h i k).trans ?_)
    rw [nsmul_eq_mul, mul_comm]
    exact le_of_eq rfl
  · rw [if_neg hk, if_neg hk]; simpa using hε

/-- **C178.** A self-confidence score changes by at most `ε`. -/
theorem C178_selfConfidence (ε : ℚ) (labels : Fin n → Fin K) (P Q : Fin n → Fin K → ℚ) (h : NearProbs ε P Q) (i : Fin n) :
    |selfConfidence labels P i - selfConfidence labels Q i| ≤ ε := h i (labels i)

/-- **C178.** A normalized margin changes by at most `ε`. -/
theorem C178_normalizedMargin (ε : ℚ) (labels : Fin n → Fin K) (P Q : Fin n → Fin K → ℚ) (h : NearProbs ε P Q) (i : Fin n)
    (a b : ℚ) (ha : normalizedMargin labels P i = some a) (hb : normalizedMargin labels Q i = some b) : |a - b| ≤ ε := by
  unfold normalizedMargin at ha hb
  rw [Option.map_eq_some_iff] at ha hb
  obtain ⟨m, hm, rfl⟩ := ha
  obtain ⟨m', hm', rfl⟩ := hb
  have hs := near_sides h i (labels i)
  have side : ∀ (P Q : Fin n → Fin K → ℚ) (m m' : ℚ), (∀ k, P i k ≤ Q i k + ε) →
      maxProbNotLabel (P i) (labels i) = some m → maxProbNotLabel (Q i) (labels i) = some m' → m ≤ m' + ε := by
    intro P Q m m' hPQ h1 h2
    unfold maxProbNotLabel at h1 h2
    obtain ⟨k, hk, rfl⟩ := List.mem_map.mp (List.max?_mem h1)
    have := (List.max?_le_iff h2).mp le_rfl (Q i k) (List.mem_map_of_mem hk)
    linarith [hPQ k]
  have h1 := side P Q m m' (fun k => (near_sides h i k).1) hm hm'
  have h2 := side Q P m' m (fun k => (near_sides h i k).2) hm' hm
  unfold selfConfidence
  rw [abs_le]
  constructor <;> linarith [hs.1, hs.2]

/-- Sorting two keys which order the positions in the same, strict way gives the same list. -/
theorem indices_congr (A : ArgSort ℚ) {c : ℕ} (v w : Fin c → ℚ) (hv : ∀ r s, r ≠ s → v r ≠ v s)
    (hw : ∀ r s, v r < v s → w r < w s) : A.indices w = A.indices v := by
  have hp : (A.indices w).Perm (A.indices v) := (A.perm_indices w).trans (A.perm_indices v).symm
  refine hp.eq_of_pairwise (le := fun r s => v r ≤ v s) (fun r s _ _ h1 h2 => ?_) ?_ (A.pairwise_indices v)
  · by_contra hne
    exact hv r s hne (le_antisymm h1 h2)
  · refine (A.pairwise_indices w).imp fun {r s} hrs => ?_
    by_contra hc
    exact absurd (hw s r (not_le.mp hc)) (not_lt.mpr hrs)

theorem indices_gap (A : ArgSort ℚ) {c : ℕ} (δ : ℚ) (v w : Fin c → ℚ) (hδ : 0 ≤ δ)
    (hg : ∀ r s, r ≠ s → 2 * δ < |v r - v s|) (hn : ∀ r, |v r - w r| ≤ δ) : A.indices w = A.indices v := by
  apply indices_congr
  · intro r s hrs he
    have := hg r s hrs
    rw [he, sub_self, abs_zero] at this
    linarith
  · intro r s hrs
    have h1 := hg r s (by rintro rfl; exact lt_irrefl _ hrs)
    rw [abs_sub_comm, abs_of_pos (sub_pos.mpr hrs)] at h1
    have h2 := abs_le.mp (hn r)
    have h3 := abs_le.mp (hn s)
    linarith [h2.1, h3.2]

/-- **C178.** If scores lie further apart than twice the change, the ranked list of a given set of issues stays the same. -/
theorem C178_ranked (A : ArgSort ℚ) (δ : ℚ) (hδ : 0 ≤ δ) (mask : Fin n → Bool) (s s' : Fin n → ℚ)
    (hg : ∀ i i', i ≠ i' → mask i = true → mask i' = true → 2 * δ < |s i - s i'|) (hn : ∀ i, |s i - s' i| ≤ δ) :
    orderLabelIssues A mask s' = orderLabelIssues A mask s := by
  unfold orderLabelIssues
  dsimp only
  rw [indices_gap A δ (fun r => s (((List.finRange n).filter mask).get r)) _ hδ ?_ (fun r => hn _)]
  intro r r' hne
  apply hg
  · intro he
    exact hne ((List.nodup_iff_injective_get.mp ((List.nodup_finRange n).filter mask)) he)
  · exact (List.mem_filter.mp (List.get_mem _ r)).2
  · exact (List.mem_filter.mp (List.get_mem _ r')).2

section
variable [NeZero K]

theorem argmax_near {ε : ℚ} {P Q : Fin n → Fin K → ℚ} (h : NearProbs ε P Q) (hc : ClearPredictions ε P) (i : Fin n) :
    argmax (Q i) = argmax (P i) := by
  obtain ⟨j, hj⟩ := hc i
  have hε : 0 ≤ ε := (abs_nonneg _).trans (h i j)
  have hP : argmax (P i) = j := by
    rw [argmax_eq_iff]
    refine ⟨fun k => ?_, fun k hk => by linarith [hj k hk.ne]⟩
    by_cases hk : k = j
    · rw [hk]
    · linarith [hj k hk]
  rw [hP, argmax_eq_iff]
  refine ⟨fun k => ?_, fun k hk => by linarith [hj k hk.ne, (near_sides h i k).2, (near_sides h i j).1]⟩
  by_cases hk : k = j
  · rw [hk]
  · linarith [hj k hk, (near_sides h i k).2, (near_sides h i j).1]

theorem reduceIssues_near {ε : ℚ} {labels : Fin n → Fin K} {P Q : Fin n → Fin K → ℚ} (h : NearProbs ε P Q)
    (hc : ClearMargins ε labels P) (i : Fin n) : reduceIssues labels Q i = reduceIssues labels P i := by
  have hε : 0 ≤ ε := (abs_nonneg _).trans (h i (labels i))
  have key : ∀ R : Fin n → Fin K → ℚ, (∀ k, k ≠ labels i → R i k - R i (labels i) - 1 / 1000000 ≠ 0) →
      (reduceIssues labels R i = true ↔ ∀ k, k ≠ labels i → R i k - R i (labels i) - 1 / 1000000 < 0) := by
    intro R hR
    rw [reduceIssues_iff]
    constructor
    · intro hp k hk
      have := hp.1 k
      simp only [if_neg hk, if_true] at this
      refine lt_of_le_of_ne (by linarith) (hR k hk)
    · intro hp
      refine ⟨fun k => ?_, fun k hk => ?_⟩
      · by_cases hk : k = labels i
        · rw [hk]
        · simp only [if_neg hk, if_true]; linarith [hp k hk]
      · simp only [if_neg hk.ne, if_true]; linarith [hp k hk.ne]
  have hQ : ∀ k, k ≠ labels i → (Q i k - Q i (labels i) - 1 / 1000000 < 0 ↔ P i k - P i (labels i) - 1 / 1000000 < 0) ∧
      Q i k - Q i (labels i) - 1 / 1000000 ≠ 0 ∧ P i k - P i (labels i) - 1 / 1000000 ≠ 0 := by
    intro k hk
    have h1 := hc i k hk
    have h2 := near_sides h i k
    have h3 := near_sides h i (labels i)
    rcases lt_abs.mp h1 with h4 | h4
    · exact ⟨⟨fun h5 => by linarith, fun h5 => by linarith⟩, by intro h5; linarith, by intro h5; linarith⟩
    · exact ⟨⟨fun h5 => by linarith, fun h5 => by linarith⟩, by intro h5; linarith, by intro h5; linarith⟩
  rw [Bool.eq_iff_iff, key Q (fun k hk => (hQ k hk).2.1), key P (fun k hk => (hQ k hk).2.2)]
  exact forall₂_congr fun k hk => (hQ k hk).1

omit [NeZero K] in
theorem confident_near {ε : ℚ} {labels : Fin n → Fin K} {P Q : Fin n → Fin K → ℚ} (h : NearProbs ε P Q) (hε : 0 ≤ ε)
    (hc : ClearThresholds ε labels P) :
    Cleanlab.Count.predProbsBool Q (getConfidentThresholds labels Q) =
      Cleanlab.Count.predProbsBool P (getConfidentThresholds labels P) := by
  funext i k
  unfold Cleanlab.Count.predProbsBool
  rw [decide_eq_decide]
  have h1 := hc i k
  have h2 := near_sides h i k
  have h3 := abs_le.mp (C178_thresholds ε labels P Q hε h k)
  rcases lt_abs.mp h1 with h4 | h4
  · exact ⟨fun _ => by linarith, fun _ => by linarith [h3.1, h3.2]⟩
  · exact ⟨fun _ => by linarith [h3.1, h3.2], fun _ => by linarith [h3.1, h3.2]⟩

theorem guess_near {ε : ℚ} {labels : Fin n → Fin K} {P Q : Fin n → Fin K → ℚ} (h : NearProbs ε P Q) (hε : 0 ≤ ε)
    (hp : ClearPredictions ε P) (hc : ClearThresholds ε labels P) :
    trueLabelGuess Q (getConfidentThresholds labels Q) = trueLabelGuess P (getConfidentThresholds labels P) ∧
    confidentRows Q (getConfidentThresholds labels Q) = confidentRows P (getConfidentThresholds labels P) := by
  have hb := confident_near h hε hc
  have hbins : numConfidentBins Q (getConfidentThresholds labels Q) =
      numConfidentBins P (getConfidentThresholds labels P) := by
    funext i
    unfold numConfidentBins
    rw [hb]
  constructor
  · funext i
    unfold trueLabelGuess
    rw [hbins, hb, argmax_near h hp i]
  · unfold confidentRows
    have : atLeastOneConfident Q (getConfidentThresholds labels Q) =
        atLeastOneConfident P (getConfidentThresholds labels P) := by
      funext i; unfold atLeastOneConfident; rw [hbins]
    rw [this]

theorem raw_near {ε : ℚ} {labels : Fin n → Fin K} {P Q : Fin n → Fin K → ℚ} (h : NearProbs ε P Q) (hε : 0 ≤ ε)
    (hp : ClearPredictions ε P) (hc : ClearThresholds ε labels P) :
    confidentJointRaw labels Q (getConfidentThresholds labels Q) =
      confidentJointRaw labels P (getConfidentThresholds labels P) := by
  obtain ⟨h1, h2⟩ := guess_near h hε hp hc
  funext a b
  unfold confidentJointRaw
  rw [h1, h2]

theorem offDiagonal_near {ε : ℚ} {labels : Fin n → Fin K} {P Q : Fin n → Fin K → ℚ} (h : NearProbs ε P Q) (hε : 0 ≤ ε)
    (hp : ClearPredictions ε P) (hc : ClearThresholds ε labels P) :
    offDiagonalIndices labels Q (getConfidentThresholds labels Q) =
      offDiagonalIndices labels P (getConfidentThresholds labels P) := by
  obtain ⟨h1, h2⟩ := guess_near h hε hp hc
  unfold offDiagonalIndices
  rw [h1, h2]

/-- **C178.** The confident joint, calibrated or not, is unchanged. -/
theorem C178_joint (A : ArgSort ℚ) (ε : ℚ) (labels : Fin n → Fin K) (P Q : Fin n → Fin K → ℚ) (hε : 0 ≤ ε)
    (h : NearProbs ε P Q) (hp : ClearPredictions ε P) (hc : ClearThresholds ε labels P) (calibrate : Bool) :
    computeConfidentJoint A labels Q (getConfidentThresholds labels Q) calibrate =
      computeConfidentJoint A labels P (getConfidentThresholds labels P) calibrate := by
  unfold computeConfidentJoint
  rw [raw_near h hε hp hc]

/-- **C178.** The number of label issues is unchanged, for every estimation method. -/
theorem C178_number (A : ArgSort ℚ) (ε : ℚ) (labels : Fin n → Fin K) (P Q : Fin n → Fin K → ℚ) (hε : 0 ≤ ε)
    (h : NearProbs ε P Q) (hp : ClearPredictions ε P) (hm : ClearMargins ε labels P) (hc : ClearThresholds ε labels P)
    (cj : Option (Fin K → Fin K → ℚ)) (method : EstimationMethod) :
    numLabelIssues A labels Q cj method = numLabelIssues A labels P cj method := by
  have hr : reduceIssues labels Q = reduceIssues labels P := funext (reduceIssues_near h hm)
  unfold numLabelIssues
  cases method with
  | offDiagonal => dsimp only; rw [offDiagonal_near h hε hp hc, hr]
  | offDiagonalCalibrated => dsimp only; rw [C178_joint A ε labels P Q hε h hp hc]
  | offDiagonalCustom => rfl
  | other s => rfl

theorem usedJoint_near (A : ArgSort ℚ) {ε : ℚ} {labels : Fin n → Fin K} {P Q : Fin n → Fin K → ℚ} (h : NearProbs ε P Q)
    (hε : 0 ≤ ε) (hp : ClearPredictions ε P) (hc : ClearThresholds ε labels P) (args : Args K) :
    Filter.usedJoint A labels Q args = Filter.usedJoint A labels P args := by
  unfold Filter.usedJoint
  cases args.confidentJoint with
  | none => dsimp only; rw [C178_joint A ε labels P Q hε h hp hc]
  | some cj => rfl

omit [NeZero K] in
theorem maskByClass_near (A : ArgSort ℚ) {ε : ℚ} {labels : Fin n → Fin K} {P Q : Fin n → Fin K → ℚ} (h : NearProbs ε P Q)
    (hε : 0 ≤ ε) (ho : ∀ i i', i ≠ i' → labels i = labels i' → 2 * ε < |P i (labels i) - P i' (labels i)|) (minN : ℕ)
    (pcm : Fin K → Fin K → ℤ) : maskByClass A labels Q minN pcm = maskByClass A labels P minN pcm := by
  unfold maskByClass
  congr 1
  funext k
  unfold pruneByClass classProbs
  dsimp only
  rw [indices_gap A ε (fun r => P ((classIdx labels k).get r) k) _ hε ?_ (fun r => h _ k)]
  intro r s hrs
  have hr : labels ((classIdx labels k).get r) = k := (mem_classIdx _ _ _).mp (List.get_mem _ r)
  have hs : labels ((classIdx labels k).get s) = k := (mem_classIdx _ _ _).mp (List.get_mem _ s)
  have := ho _ _ (fun he => hrs (List.nodup_iff_injective_get.mp (nodup_classIdx labels k) he)) (hr.trans hs.symm)
  rwa [hr] at this

omit [NeZero K] in
theorem maskByCount_near (A : ArgSort ℚ) {ε : ℚ} {labels : Fin n → Fin K} {P Q : Fin n → Fin K → ℚ} (h : NearProbs ε P Q)
    (hε : 0 ≤ ε) (ho : ∀ i i', i ≠ i' → labels i = labels i' → ∀ k, k ≠ labels i →
      4 * ε < |(P i k - P i (labels i)) - (P i' k - P i' (labels i))|) (minN : ℕ)
    (pcm : Fin K → Fin K → ℤ) : maskByCount A labels Q minN pcm = maskByCount A labels P minN pcm := by
  unfold maskByCount
  congr 1
  funext k r
  rw [Bool.eq_iff_iff, pruneByCount_iff, pruneByCount_iff]
  refine and_congr Iff.rfl (exists_congr fun j => and_congr_right fun hkj => ?_)
  rw [indices_gap A (2 * ε) (fun r => -(classProbs labels P k r j - classProbs labels P k r k))
    (fun r => -(classProbs labels Q k r j - classProbs labels Q k r k)) (by linarith) ?_ ?_]
  · intro r s hrs
    have hr : labels ((classIdx labels k).get r) = k := (mem_classIdx _ _ _).mp (List.get_mem _ r)
    have hs : labels ((classIdx labels k).get s) = k := (mem_classIdx _ _ _).mp (List.get_mem _ s)
    have := ho _ _ (fun he => hrs (List.nodup_iff_injective_get.mp (nodup_classIdx labels k) he)) (hr.trans hs.symm) j
      (by rw [hr]; exact hkj.symm)
    rw [hr, abs_sub_comm] at this
    unfold classProbs
    refine lt_of_eq_of_lt (by ring) (lt_of_lt_of_eq this (congrArg _ (by ring)))
  · intro r
    have h1 := near_sides h ((classIdx labels k).get r) j
    have h2 := near_sides h ((classIdx labels k).get r) k
    unfold classProbs
    rw [abs_le]
    constructor <;> linarith [h1.1, h1.2, h2.1, h2.2]

theorem lowScore_near (A : ArgSort ℚ) {ε : ℚ} {labels : Fin n → Fin K} {P Q : Fin n → Fin K → ℚ} (h : NearProbs ε P Q)
    (hε : 0 ≤ ε) (hp : ClearPredictions ε P) (hm : ClearMargins ε labels P) (hc : ClearThresholds ε labels P)
    (m : Method) (hs : ∀ s, labelQualityScores m labels P = .ok s → ∀ i i', i ≠ i' → 2 * ε < |s i - s i'|) :
    lowScoreIndices A labels Q m = lowScoreIndices A labels P m := by
  unfold lowScoreIndices
  rw [C178_number A ε labels P Q hε h hp hm hc]
  cases m with
  | selfConfidence =>
    simp only [labelQualityScores] at hs ⊢
    dsimp only [bind, Except.bind, pure, Except.pure]
    rw [indices_gap A ε (selfConfidence labels P) _ hε (hs _ rfl) (C178_selfConfidence ε labels P Q h)]
  | normalizedMargin =>
    have hiff : ∀ i, (normalizedMargin labels Q i).isSome = (normalizedMargin labels P i).isSome := by
      intro i
      unfold normalizedMargin maxProbNotLabel
      cases hl : (List.finRange K).filter (fun j => j ≠ labels i) with
      | nil => rfl
      | cons a l => simp
    simp only [labelQualityScores] at hs ⊢
    by_cases hall : ∀ i, (normalizedMargin labels P i).isSome
    · have hall' : ∀ i, (normalizedMargin labels Q i).isSome := fun i => by rw [hiff]; exact hall i
      rw [dif_pos hall] at hs ⊢
      rw [dif_pos hall']
      dsimp only [bind, Except.bind, pure, Except.pure]
      rw [indices_gap A ε (fun i => (normalizedMargin labels P i).get (hall i)) _ hε (hs _ rfl) fun i => ?_]
      exact C178_normalizedMargin ε labels P Q h i _ _ (Option.some_get _).symm (Option.some_get _).symm
    · rw [dif_neg hall, dif_neg (fun h' => hall fun i => by rw [← hiff]; exact h' i)]

theorem rawMask_near (A : ArgSort ℚ) {ε : ℚ} {labels : Fin n → Fin K} {P Q : Fin n → Fin K → ℚ} (h : NearProbs ε P Q)
    (hε : 0 ≤ ε) (args : Args K) (hc : Clear ε labels P args.filterBy) :
    rawMask A labels Q args = rawMask A labels P args := by
  obtain ⟨hp, hm, ht, hs, hn, hcl, hct⟩ := hc
  unfold rawMask
  cases hf : args.filterBy <;> rw [hf] at ht hs hn hcl hct <;> dsimp only
  · rw [lowScore_near A h hε hp hm (ht (by decide))]
    intro s hs' i i' hii
    simp only [labelQualityScores] at hs'
    split_ifs at hs' with hall
    rw [← Except.ok.inj hs']
    exact hn rfl i i' hii _ (Option.get_mem _) _ (Option.get_mem _)
  · rw [lowScore_near A h hε hp hm (ht (by decide))]
    intro s hs' i i' hii
    rw [← Except.ok.inj hs']
    exact hs rfl i i' hii
  · rw [usedJoint_near A h hε hp (ht (by decide))]
    simp only [maskByCount_near A h hε (hct (Or.inl rfl))]
  · rw [usedJoint_near A h hε hp (ht (by decide))]
    simp only [maskByClass_near A h hε (hcl (Or.inl rfl))]
  · rw [usedJoint_near A h hε hp (ht (by decide))]
    simp only [maskByCount_near A h hε (hct (Or.inr rfl)), maskByClass_near A h hε (hcl (Or.inr rfl))]
  · rw [offDiagonal_near h hε hp (ht (by decide))]
  · simp only [argmax_near h hp]

/-- **C178.** With every filter, and whatever the other arguments, the same examples are flagged. -/
theorem C178_find (A : ArgSort ℚ) (ε : ℚ) (labels : Fin n → Fin K) (P Q : Fin n → Fin K → ℚ) (hε : 0 ≤ ε)
    (h : NearProbs ε P Q) (args : Args K) (hc : Clear ε labels P args.filterBy) :
    Filter.findLabelIssues A labels Q args = Filter.findLabelIssues A labels P args := by
  have hr : reduceIssues labels Q = reduceIssues labels P := funext (reduceIssues_near h hc.2.1)
  unfold Filter.findLabelIssues
  rw [rawMask_near A h hε args hc, hr]

end

/-- Finitely many positive numbers stay clear of zero. -/
theorem exists_gap {ι : Type} [Finite ι] (f : ι → ℚ) : ∃ ε > 0, ∀ x, 0 < f x → 4 * ε < f x := by
  have := Fintype.ofFinite ι
  by_cases hne : (Finset.univ.filter (fun x => 0 < f x)).Nonempty
  · obtain ⟨x, hx, hmin⟩ := Finset.exists_min_image _ f hne
    have hpos := (Finset.mem_filter.mp hx).2
    refine ⟨f x / 8, by positivity, fun y hy => ?_⟩
    have := hmin y (Finset.mem_filter.mpr ⟨Finset.mem_univ _, hy⟩)
    linarith
  · refine ⟨1, by norm_num, fun x hx => absurd ⟨x, ?_⟩ hne⟩
    simpa using hx

theorem clear_exists (labels : Fin n → Fin K) (P : Fin n → Fin K → ℚ) (f : FilterBy) (hc : Clear 0 labels P f) :
    ∃ ε > 0, Clear ε labels P f := by
  obtain ⟨hp, hm, ht, hs, hn, hcl, hct⟩ := hc
  choose j hj using hp
  obtain ⟨e1, p1, g1⟩ := exists_gap (fun x : Fin n × Fin K => P x.1 (j x.1) - P x.1 x.2)
  obtain ⟨e2, p2, g2⟩ := exists_gap (fun x : Fin n × Fin K => |P x.1 x.2 - P x.1 (labels x.1) - 1 / 1000000|)
  obtain ⟨e3, p3, g3⟩ := exists_gap
    (fun x : Fin n × Fin K => |P x.1 x.2 - (getConfidentThresholds labels P x.2 - 1 / 1000000)|)
  obtain ⟨e4, p4, g4⟩ := exists_gap (fun x : Fin n × Fin n => |P x.1 (labels x.1) - P x.2 (labels x.2)|)
  obtain ⟨e5, p5, g5⟩ := exists_gap (fun x : Fin n × Fin n =>
    |(normalizedMargin labels P x.1).getD 0 - (normalizedMargin labels P x.2).getD 0|)
  obtain ⟨e6, p6, g6⟩ := exists_gap (fun x : Fin n × Fin n => |P x.1 (labels x.1) - P x.2 (labels x.1)|)
  obtain ⟨e7, p7, g7⟩ := exists_gap (fun x : (Fin n × Fin n) × Fin K =>
    |(P x.1.1 x.2 - P x.1.1 (labels x.1.1)) - (P x.1.2 x.2 - P x.1.2 (labels x.1.1))|)
  obtain ⟨e, pe, l1, l2, l3, l4, l5, l6, l7⟩ : ∃ e > 0, e ≤ e1 ∧ e ≤ e2 ∧ e ≤ e3 ∧ e ≤ e4 ∧ e ≤ e5 ∧ e ≤ e6 ∧ e ≤ e7 := by
    refine ⟨min e1 (min e2 (min e3 (min e4 (min e5 (min e6 e7))))), ?_, ?_⟩
    · simp only [gt_iff_lt, lt_min_iff]; exact ⟨p1, p2, p3, p4, p5, p6, p7⟩
    · simp
  refine ⟨e, pe, fun i => ⟨j i, fun k hk => ?_⟩, fun i k hk => ?_, fun hf i k => ?_, fun hf i i' hii => ?_,
    fun hf i i' hii a ha b hb => ?_, fun hf i i' hii hl => ?_, fun hf i i' hii hl k hk => ?_⟩
  · have h1 := hj i k hk
    have h2 := g1 (i, k) (by dsimp only; linarith)
    dsimp only at h2
    linarith
  · have h1 := hm i k hk
    have := g2 (i, k) (by simpa using h1)
    dsimp only at this
    linarith
  · have h1 := ht hf i k
    have := g3 (i, k) (by simpa using h1)
    dsimp only at this
    linarith
  · have h1 := hs hf i i' hii
    have := g4 (i, i') (by simpa using h1)
    dsimp only at this
    linarith
  · have h1 := hn hf i i' hii a ha b hb
    rw [Option.mem_def] at ha hb
    have := g5 (i, i') (by dsimp only; rw [ha, hb]; simpa using h1)
    dsimp only at this
    rw [ha, hb] at this
    simp only [Option.getD_some] at this
    linarith
  · have h1 := hcl hf i i' hii hl
    have := g6 (i, i') (by simpa using h1)
    dsimp only at this
    linarith
  · have h1 := hct hf i i' hii hl k hk
    have := g7 ((i, i'), k) (by simpa using h1)
    dsimp only at this
    linarith

/-- **C178.** If no decision is exactly on the edge, there is a margin such that changes within it, of as many predictions
as one likes, make no difference to the result. -/
theorem C178_margin [NeZero K] (A : ArgSort ℚ) (labels : Fin n → Fin K) (P : Fin n → Fin K → ℚ) (args : Args K)
    (hc : Clear 0 labels P args.filterBy) :
    ∃ ε > 0, ∀ Q, NearProbs ε P Q → Filter.findLabelIssues A labels Q args = Filter.findLabelIssues A labels P args := by
  obtain ⟨ε, hε, hc'⟩ := clear_exists labels P args.filterBy hc
  exact ⟨ε, hε, fun Q h => C178_find A ε labels P Q hε.le h args hc'⟩

/-- Five examples; the last given label is contradicted by the prediction. The self-confidence of example 2, the only one of
class 1, equals the threshold of its class exactly. -/
def nearLabels : Fin 5 → Fin 2 := ![0, 0, 1, 0, 0]

/-- See `nearLabels`. -/
def nearProbs : Fin 5 → Fin 2 → ℚ := ![![9 / 10, 1 / 10], ![7 / 10, 3 / 10], ![2 / 10, 8 / 10], ![6 / 10, 4 / 10], ![5 / 100, 95 / 100]]

theorem nearProbs_clear (f : FilterBy) : Clear (1 / 10000000) nearLabels nearProbs f := by
  refine ⟨?_, ?_, fun _ => ?_, fun _ => ?_, fun _ => ?_, fun _ => ?_, fun _ => ?_⟩
  · unfold ClearPredictions; decide +kernel
  · unfold ClearMargins; decide +kernel
  · unfold ClearThresholds; decide +kernel
  · decide +kernel
  · decide +kernel
  · decide +kernel
  · decide +kernel

/-- The flags of `filter_by="confident_learning"` for the five examples survive errors up to `1e-7` in every probability,
and one of them is set. -/
example (Q : Fin 5 → Fin 2 → ℚ) (h : NearProbs (1 / 10000000) nearProbs Q) :
    Filter.findLabelIssues (stableSort ℚ) nearLabels Q { filterBy := .confidentLearning } =
      .ok ![false, false, false, false, true] := by
  rw [C178_find (stableSort ℚ) (1 / 10000000) nearLabels nearProbs Q (by norm_num) h _ (nearProbs_clear _)]
  exact ok_of_toOption (by decide +kernel)

/-- With the other filters the result is the same for all predictions that near. -/
example (A : ArgSort ℚ) (f : FilterBy) (Q : Fin 5 → Fin 2 → ℚ) (h : NearProbs (1 / 10000000) nearProbs Q) :
    Filter.findLabelIssues A nearLabels Q { filterBy := f } = Filter.findLabelIssues A nearLabels nearProbs { filterBy := f } :=
  C178_find A (1 / 10000000) nearLabels nearProbs Q (by norm_num) h _ (nearProbs_clear f)

end Cleanlab.Props
