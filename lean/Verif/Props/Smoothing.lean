import Verif.Props.Stability
import Verif.Props.TargetUnits
import Verif.Props.RightExample

/-!
# C208, C209: predictions mixed with the uniform distribution, and predictions made sharper

`Q i k = c * P i k + d` is what label smoothing does to predicted probabilities, with `c = 1 - ε` and `d = ε / K`.
-/

namespace Cleanlab.Props

open Np Cleanlab.Util Cleanlab.Count Cleanlab.Rank Cleanlab.Filter Cleanlab.Spec

variable {n K : ℕ}

/-- All probabilities are changed in the same, linear and increasing way, towards each other. -/
structure Rescaled (c d : ℚ) (P Q : Fin n → Fin K → ℚ) : Prop where
  eq : ∀ i k, Q i k = c * P i k + d
  pos : 0 < c
  le : c ≤ 1

/-- No probability falls short of a confident threshold, and no other class exceeds the given label, by an amount so small that
it is within the tolerance `1e-6` after the change. -/
structure Discernible (c : ℚ) (labels : Fin n → Fin K) (P : Fin n → Fin K → ℚ) : Prop where
  threshold : ∀ i k, getConfidentThresholds labels P k ≤ P i k ∨ P i k + 1 / 1000000 / c < getConfidentThresholds labels P k
  margin : ∀ i k, P i k ≤ P i (labels i) ∨ P i (labels i) + 1 / 1000000 / c < P i k

/-- The average self-confidences are not so small that the lower bound of the thresholds matters. -/
def Usable (d : ℚ) (c : ℚ) (labels : Fin n → Fin K) (P : Fin n → Fin K → ℚ) : Prop :=
  (∀ k, (∃ i, labels i = k) → thresholdsLowerBound ≤ meanSelfConfidence labels P k) ∧ (1 - c) * thresholdsLowerBound ≤ d

theorem rescaled_le {c d : ℚ} {P Q : Fin n → Fin K → ℚ} (h : Rescaled c d P Q) (i i' : Fin n) (k k' : Fin K) :
    Q i k ≤ Q i' k' ↔ P i k ≤ P i' k' := by
  rw [h.eq, h.eq, add_le_add_iff_right, mul_le_mul_iff_right₀ h.pos]

theorem mean_rescaled {c d : ℚ} {P Q : Fin n → Fin K → ℚ} (h : Rescaled c d P Q) (labels : Fin n → Fin K) (k : Fin K)
    (hk : ∃ i, labels i = k) : meanSelfConfidence labels Q k = c * meanSelfConfidence labels P k + d := by
  have hpos : (0 : ℚ) < numGiven labels k := by
    obtain ⟨i, hi⟩ := hk
    have : 0 < numGiven labels k := Finset.card_pos.mpr ⟨i, by simpa using hi⟩
    exact_mod_cast this
  unfold meanSelfConfidence
  rw [div_eq_iff hpos.ne', add_mul, mul_assoc, div_mul_cancel₀ _ hpos.ne']
  simp only [h.eq]
  rw [Finset.sum_add_distrib, ← Finset.mul_sum, Finset.sum_const, nsmul_eq_mul]
  unfold numGiven
  ring

/-- The thresholds change like the probabilities. -/
theorem thresholds_rescaled {c d : ℚ} {P Q : Fin n → Fin K → ℚ} (h : Rescaled c d P Q) (labels : Fin n → Fin K)
    (hu : Usable d c labels P) (k : Fin K) (hk : ∃ i, labels i = k) :
    getConfidentThresholds labels Q k = c * getConfidentThresholds labels P k + d := by
  have hm : k ∈ List.ofFn labels := (List.mem_ofFn' _ _).mpr hk
  unfold getConfidentThresholds
  rw [if_pos hm, if_pos hm, classMean_eq, classMean_eq, mean_rescaled h labels k hk]
  have h1 := hu.1 k hk
  rw [max_eq_left h1, max_eq_left]
  have h2 := mul_le_mul_of_nonneg_left h1 h.pos.le
  have h3 := hu.2
  linarith

section
variable [NeZero K]

theorem argmax_rescaled {c d : ℚ} {P Q : Fin n → Fin K → ℚ} (h : Rescaled c d P Q) (i : Fin n) : argmax (Q i) = argmax (P i) := by
  rw [argmax_eq_iff]
  refine ⟨fun k => (rescaled_le h i i _ _).mpr (le_argmax (P i) k), fun k hk => ?_⟩
  exact lt_of_not_ge (fun hle => absurd (lt_argmax (P i) k hk) (not_lt.mpr ((rescaled_le h i i _ _).mp hle)))

/-- If no class exceeds the given label by no more than the tolerance, the label counts as predicted exactly if no class exceeds
it. -/
theorem reduceIssues_margin {labels : Fin n → Fin K} {R : Fin n → Fin K → ℚ} {i : Fin n}
    (hR : ∀ k, R i k ≤ R i (labels i) ∨ R i (labels i) + 1 / 1000000 < R i k) :
    reduceIssues labels R i = true ↔ ∀ k, R i k ≤ R i (labels i) := by
  rw [reduceIssues_iff]
  constructor
  · intro hp k
    rcases hR k with h1 | h1
    · exact h1
    · have hk : k ≠ labels i := by rintro rfl; linarith
      have := hp.1 k
      simp only [if_neg hk, if_true] at this
      linarith
  · intro hp
    refine ⟨fun k => ?_, fun k hk => ?_⟩
    · by_cases hk : k = labels i
      · rw [hk]
      · simp only [if_neg hk, if_true]; linarith [hp k]
    · simp only [if_neg hk.ne, if_true]; linarith [hp k]

theorem reduceIssues_rescaled {c d : ℚ} {labels : Fin n → Fin K} {P Q : Fin n → Fin K → ℚ} (h : Rescaled c d P Q)
    (hd : Discernible c labels P) (i : Fin n) : reduceIssues labels Q i = reduceIssues labels P i := by
  have hc1 : (1 : ℚ) / 1000000 ≤ 1 / 1000000 / c := le_div_self (by norm_num) h.pos h.le
  rw [Bool.eq_iff_iff, reduceIssues_margin, reduceIssues_margin]
  · exact forall_congr' fun k => rescaled_le h i i k _
  · exact fun k => (hd.margin i k).imp id (fun h1 => by linarith)
  · intro k
    refine (hd.margin i k).imp (rescaled_le h i i k _).mpr (fun h1 => ?_)
    rw [h.eq, h.eq]
    have h2 := mul_lt_mul_of_pos_left h1 h.pos
    rw [mul_add, mul_div_cancel₀ _ h.pos.ne'] at h2
    linarith

omit [NeZero K] in
theorem confident_rescaled {c d : ℚ} {labels : Fin n → Fin K} {P Q : Fin n → Fin K → ℚ} (h : Rescaled c d P Q)
    (hd : Discernible c labels P) (hu : Usable d c labels P) (hP : ∀ i k, P i k ≤ 1) (hQ : ∀ i k, Q i k ≤ 1) :
    Cleanlab.Count.predProbsBool Q (getConfidentThresholds labels Q) =
      Cleanlab.Count.predProbsBool P (getConfidentThresholds labels P) := by
  have hc1 : (1 : ℚ) / 1000000 ≤ 1 / 1000000 / c := le_div_self (by norm_num) h.pos h.le
  funext i k
  unfold Cleanlab.Count.predProbsBool
  rw [decide_eq_decide]
  by_cases hk : ∃ i, labels i = k
  · rw [thresholds_rescaled h labels hu k hk, h.eq]
    rcases hd.threshold i k with h1 | h1
    · have := mul_le_mul_of_nonneg_left h1 h.pos.le
      exact ⟨fun _ => by linarith, fun _ => by linarith⟩
    · have h2 := mul_lt_mul_of_pos_left h1 h.pos
      rw [mul_add, mul_div_cancel₀ _ h.pos.ne'] at h2
      exact ⟨fun h3 => by linarith, fun h3 => by linarith⟩
  · have hm : k ∉ List.ofFn labels := fun hm => hk ((List.mem_ofFn' _ _).mp hm)
    have e : ∀ R : Fin n → Fin K → ℚ, 2 ≤ getConfidentThresholds labels R k := by
      intro R
      unfold getConfidentThresholds
      rw [if_neg hm]
      exact le_max_left _ _
    have h1 := e P
    have h2 := e Q
    have h3 := hP i k
    have h4 := hQ i k
    exact ⟨fun h5 => by linarith, fun h5 => by linarith⟩

/-- What decides about an issue is the same for `P` and for `Q`. -/
structure SameView (labels : Fin n → Fin K) (P Q : Fin n → Fin K → ℚ) : Prop where
  confident : Cleanlab.Count.predProbsBool Q (getConfidentThresholds labels Q) =
      Cleanlab.Count.predProbsBool P (getConfidentThresholds labels P)
  argmax : ∀ i, argmax (Q i) = argmax (P i)
  reduce : ∀ i, reduceIssues labels Q i = reduceIssues labels P i

theorem SameView.guess {labels : Fin n → Fin K} {P Q : Fin n → Fin K → ℚ} (h : SameView labels P Q) :
    trueLabelGuess Q (getConfidentThresholds labels Q) = trueLabelGuess P (getConfidentThresholds labels P) ∧
    confidentRows Q (getConfidentThresholds labels Q) = confidentRows P (getConfidentThresholds labels P) := by
  have hbins : numConfidentBins Q (getConfidentThresholds labels Q) =
      numConfidentBins P (getConfidentThresholds labels P) := by
    funext i
    unfold numConfidentBins
    rw [h.confident]
  constructor
  · funext i
    unfold trueLabelGuess
    rw [hbins, h.confident, h.argmax i]
  · unfold confidentRows
    have : atLeastOneConfident Q (getConfidentThresholds labels Q) =
        atLeastOneConfident P (getConfidentThresholds labels P) := by
      funext i; unfold atLeastOneConfident; rw [hbins]
    rw [this]

theorem SameView.joint {labels : Fin n → Fin K} {P Q : Fin n → Fin K → ℚ} (h : SameView labels P Q) (A : ArgSort ℚ)
    (calibrate : Bool) : computeConfidentJoint A labels Q (getConfidentThresholds labels Q) calibrate =
      computeConfidentJoint A labels P (getConfidentThresholds labels P) calibrate := by
  obtain ⟨h1, h2⟩ := h.guess
  have : confidentJointRaw labels Q (getConfidentThresholds labels Q) =
      confidentJointRaw labels P (getConfidentThresholds labels P) := by
    funext a b
    unfold confidentJointRaw
    rw [h1, h2]
  unfold computeConfidentJoint
  rw [this]

theorem SameView.offDiagonal {labels : Fin n → Fin K} {P Q : Fin n → Fin K → ℚ} (h : SameView labels P Q) :
    offDiagonalIndices labels Q (getConfidentThresholds labels Q) =
      offDiagonalIndices labels P (getConfidentThresholds labels P) := by
  obtain ⟨h1, h2⟩ := h.guess
  unfold offDiagonalIndices
  rw [h1, h2]

theorem SameView.number {labels : Fin n → Fin K} {P Q : Fin n → Fin K → ℚ} (h : SameView labels P Q) (A : ArgSort ℚ)
    (cj : Option (Fin K → Fin K → ℚ)) (method : EstimationMethod) :
    numLabelIssues A labels Q cj method = numLabelIssues A labels P cj method := by
  have hr : reduceIssues labels Q = reduceIssues labels P := funext h.reduce
  unfold numLabelIssues
  cases method with
  | offDiagonal => dsimp only; rw [h.offDiagonal, hr]
  | offDiagonalCalibrated => dsimp only; rw [h.joint]
  | offDiagonalCustom => rfl
  | other s => rfl

/-- The conditions of **C208** give the same view. -/
theorem sameView_rescaled {c d : ℚ} {labels : Fin n → Fin K} {P Q : Fin n → Fin K → ℚ} (h : Rescaled c d P Q)
    (hd : Discernible c labels P) (hu : Usable d c labels P) (hP : ∀ i k, P i k ≤ 1) (hQ : ∀ i k, Q i k ≤ 1) :
    SameView labels P Q :=
  ⟨confident_rescaled h hd hu hP hQ, argmax_rescaled h, reduceIssues_rescaled h hd⟩

omit [NeZero K] in
theorem maskByClass_rescaled {A : ArgSort ℚ} (hA : OrderBased A) {c d : ℚ} {labels : Fin n → Fin K} {P Q : Fin n → Fin K → ℚ}
    (h : Rescaled c d P Q) (minN : ℕ) (pcm : Fin K → Fin K → ℤ) :
    maskByClass A labels Q minN pcm = maskByClass A labels P minN pcm := by
  unfold maskByClass
  congr 1
  funext k
  unfold pruneByClass classProbs
  dsimp only
  rw [hA _ (fun r => P ((classIdx labels k).get r) k) (fun r s => rescaled_le h _ _ k k)]

omit [NeZero K] in
theorem maskByCount_rescaled {A : ArgSort ℚ} (hA : OrderBased A) {c d : ℚ} {labels : Fin n → Fin K} {P Q : Fin n → Fin K → ℚ}
    (h : Rescaled c d P Q) (minN : ℕ) (pcm : Fin K → Fin K → ℤ) :
    maskByCount A labels Q minN pcm = maskByCount A labels P minN pcm := by
  unfold maskByCount
  congr 1
  funext k r
  rw [Bool.eq_iff_iff, pruneByCount_iff, pruneByCount_iff]
  refine and_congr Iff.rfl (exists_congr fun j => and_congr_right fun hkj => ?_)
  rw [hA (fun r => -(classProbs labels Q k r j - classProbs labels Q k r k))
    (fun r => -(classProbs labels P k r j - classProbs labels P k r k)) ?_]
  intro r s
  unfold classProbs
  simp only [h.eq, neg_le_neg_iff]
  have e : ∀ a b : ℚ, c * a + d - (c * b + d) = c * (a - b) := fun a b => by ring
  rw [e, e, mul_le_mul_iff_right₀ h.pos]

omit [NeZero K] in
/-- The largest probability of another class changes like the others. -/
theorem maxProb_rescaled {c d : ℚ} {labels : Fin n → Fin K} {P Q : Fin n → Fin K → ℚ} (h : Rescaled c d P Q) (i : Fin n) :
    maxProbNotLabel (Q i) (labels i) = (maxProbNotLabel (P i) (labels i)).map (fun x => c * x + d) := by
  unfold maxProbNotLabel
  have hmono : Monotone (fun x : ℚ => c * x + d) := fun x y hxy => by
    have := mul_le_mul_of_nonneg_left hxy h.pos.le
    dsimp only; linarith
  cases hl : (List.finRange K).filter (fun j => j ≠ labels i) with
  | nil => simp
  | cons a l =>
    simp only [List.map_cons, List.max?_cons', Option.map_some, Option.some.injEq]
    rw [h.eq]
    have : ∀ (l : List (Fin K)) (x : ℚ), (l.map (Q i)).foldl max (c * x + d) = c * ((l.map (P i)).foldl max x) + d := by
      intro l
      induction l with
      | nil => intro x; rfl
      | cons b l ih =>
        intro x
        rw [List.map_cons, List.foldl_cons, List.map_cons, List.foldl_cons, ← ih, h.eq]
        congr 1
        exact (hmono.map_max).symm
    exact this l _

omit [NeZero K] in
/-- **C208**, the scores: self-confidence changes by the same map, the normalized margin by a scaling about 1/2. -/
theorem C208_scores {c d : ℚ} (labels : Fin n → Fin K) {P Q : Fin n → Fin K → ℚ} (h : Rescaled c d P Q) (i : Fin n) :
    selfConfidence labels Q i = c * selfConfidence labels P i + d ∧
      normalizedMargin labels Q i = (normalizedMargin labels P i).map (fun x => c * (x - 1 / 2) + 1 / 2) := by
  refine ⟨h.eq i _, ?_⟩
  unfold normalizedMargin
  rw [maxProb_rescaled h, Option.map_map, Option.map_map]
  congr 1
  funext x
  have e : selfConfidence labels Q i = c * selfConfidence labels P i + d := h.eq i _
  simp only [Function.comp, e]
  ring

theorem lowScore_rescaled {A : ArgSort ℚ} (hA : OrderBased A) {c d : ℚ} {labels : Fin n → Fin K} {P Q : Fin n → Fin K → ℚ}
    (h : Rescaled c d P Q) (hv : SameView labels P Q) (m : Method) :
    lowScoreIndices A labels Q m = lowScoreIndices A labels P m := by
  unfold lowScoreIndices
  rw [hv.number A]
  cases m with
  | selfConfidence =>
    simp only [labelQualityScores]
    dsimp only [bind, Except.bind, pure, Except.pure]
    rw [hA (selfConfidence labels Q) (selfConfidence labels P) (fun i j => rescaled_le h _ _ _ _)]
  | normalizedMargin =>
    have hm := fun i => (C208_scores labels h i).2
    have hiff : ∀ i, (normalizedMargin labels Q i).isSome = (normalizedMargin labels P i).isSome := by
      intro i
      rw [hm, Option.isSome_map]
    simp only [labelQualityScores]
    by_cases hall : ∀ i, (normalizedMargin labels P i).isSome
    · have hall' : ∀ i, (normalizedMargin labels Q i).isSome := fun i => by rw [hiff]; exact hall i
      rw [dif_pos hall, dif_pos hall']
      dsimp only [bind, Except.bind, pure, Except.pure]
      rw [hA (fun i => (normalizedMargin labels Q i).get (hall' i)) (fun i => (normalizedMargin labels P i).get (hall i)) ?_]
      have e : ∀ i, (normalizedMargin labels Q i).get (hall' i) = c * ((normalizedMargin labels P i).get (hall i) - 1 / 2) + 1 / 2 := by
        intro i
        apply Option.some_injective
        rw [Option.some_get, hm i]
        conv_lhs => rw [← Option.some_get (hall i)]
        rfl
      intro i j
      rw [e i, e j, add_le_add_iff_right, mul_le_mul_iff_right₀ h.pos]
      constructor <;> intro h <;> linarith
    · rw [dif_neg hall, dif_neg (fun h' => hall fun i => by rw [← hiff]; exact h' i)]

/-- **C208.** With every filter, and whatever the other arguments, the same examples are flagged. -/
theorem C208_find {A : ArgSort ℚ} (hA : OrderBased A) {c d : ℚ} (labels : Fin n → Fin K) {P Q : Fin n → Fin K → ℚ}
    (h : Rescaled c d P Q) (hd : Discernible c labels P) (hu : Usable d c labels P) (hP : ∀ i k, P i k ≤ 1)
    (hQ : ∀ i k, Q i k ≤ 1) (args : Args K) :
    Filter.findLabelIssues A labels Q args = Filter.findLabelIssues A labels P args := by
  have hv := sameView_rescaled h hd hu hP hQ
  have hr : reduceIssues labels Q = reduceIssues labels P := funext hv.reduce
  have hj : Filter.usedJoint A labels Q args = Filter.usedJoint A labels P args := by
    unfold Filter.usedJoint
    cases args.confidentJoint with
    | none => dsimp only; rw [hv.joint]
    | some cj => rfl
  have hraw : rawMask A labels Q args = rawMask A labels P args := by
    unfold rawMask
    cases args.filterBy <;> dsimp only
    · rw [lowScore_rescaled hA h hv]
    · rw [lowScore_rescaled hA h hv]
    · rw [hj]; simp only [maskByCount_rescaled hA h]
    · rw [hj]; simp only [maskByClass_rescaled hA h]
    · rw [hj]; simp only [maskByCount_rescaled hA h, maskByClass_rescaled hA h]
    · rw [hv.offDiagonal]
    · simp only [hv.argmax]
  unfold Filter.findLabelIssues
  rw [hraw, hr]

omit [NeZero K] in
/-- **C208.** The ranking of the flagged examples by self-confidence is the same as well. -/
theorem C208_ranked {A : ArgSort ℚ} (hA : OrderBased A) {c d : ℚ} (labels : Fin n → Fin K) {P Q : Fin n → Fin K → ℚ}
    (h : Rescaled c d P Q) (mask : Fin n → Bool) :
    orderLabelIssues A mask (selfConfidence labels Q) = orderLabelIssues A mask (selfConfidence labels P) := by
  unfold orderLabelIssues
  dsimp only
  rw [hA (fun r => selfConfidence labels Q (((List.finRange n).filter mask).get r))
    (fun r => selfConfidence labels P (((List.finRange n).filter mask).get r)) (fun r s => rescaled_le h _ _ _ _)]

/-- **C208** for label smoothing: predicted probabilities mixed with the uniform distribution. -/
theorem C208_smoothing {A : ArgSort ℚ} (hA : OrderBased A) (ε : ℚ) (h0 : 0 ≤ ε) (h1 : ε < 1) (hK : K ≤ 500000)
    (labels : Fin n → Fin K) (P : Fin n → Fin K → ℚ) (hP : ∀ i, IsDistribution (P i))
    (hm : ∀ k, (∃ i, labels i = k) → thresholdsLowerBound ≤ meanSelfConfidence labels P k)
    (hd : Discernible (1 - ε) labels P) (args : Args K) :
    Filter.findLabelIssues A labels (fun i k => (1 - ε) * P i k + ε / K) args = Filter.findLabelIssues A labels P args := by
  have hKpos : (0 : ℚ) < K := by exact_mod_cast Nat.pos_of_ne_zero (NeZero.ne K)
  have hK1 : (1 : ℚ) ≤ K := by exact_mod_cast Nat.pos_of_ne_zero (NeZero.ne K)
  have hle : ∀ i k, P i k ≤ 1 := fun i k => by
    rw [← (hP i).2]
    exact Finset.single_le_sum (fun k _ => (hP i).1 k) (Finset.mem_univ k)
  refine C208_find hA labels ⟨fun _ _ => rfl, by linarith, by linarith⟩ hd ⟨hm, ?_⟩ hle ?_ args
  · unfold thresholdsLowerBound
    rw [le_div_iff₀ hKpos]
    have : (K : ℚ) ≤ 500000 := by exact_mod_cast hK
    nlinarith
  · intro i k
    have h2 : ε / K ≤ ε := div_le_self h0 hK1
    have h3 := mul_le_mul_of_nonneg_left (hle i k) (by linarith : (0 : ℚ) ≤ 1 - ε)
    linarith

end

/-- Five examples and one whose label is contradicted by the prediction (the second), before the predictions are made sharper. -/
def bluntLabels : Fin 6 → Fin 2 := ![0, 0, 1, 1, 1, 1]

/-- See `bluntLabels`. -/
def bluntProbs : Fin 6 → Fin 2 → ℚ := ![![9/10, 1/10], ![3/7, 4/7], ![1/4, 3/4], ![1/4, 3/4], ![1/4, 3/4], ![1, 0]]

/-- The predictions that a model of half the temperature makes. -/
def sharper (P : Fin n → Fin K → ℚ) (i : Fin n) (k : Fin K) : ℚ := P i k ^ 2 / ∑ k', P i k' ^ 2

/-- The classes of every example are in the same order. -/
theorem sharper_order (P : Fin n → Fin K → ℚ) (hP : ∀ i, IsDistribution (P i)) (i : Fin n) (k k' : Fin K) :
    sharper P i k ≤ sharper P i k' ↔ P i k ≤ P i k' := by
  have hpos : 0 < ∑ k', P i k' ^ 2 := by
    refine Finset.sum_pos' (fun k _ => sq_nonneg _) ?_
    by_contra hne
    push Not at hne
    have : ∑ k', P i k' = 0 := Finset.sum_eq_zero (fun k hk => by
      have := hne k hk
      exact pow_eq_zero_iff two_ne_zero |>.mp (le_antisymm this (sq_nonneg _)))
    rw [(hP i).2] at this
    exact one_ne_zero this
  unfold sharper
  rw [div_le_div_iff_of_pos_right hpos, pow_le_pow_iff_left₀ ((hP i).1 k) ((hP i).1 k') two_ne_zero]

/-- **C209 (refuted as stated).** Six examples of two classes: the second is flagged, and no longer when the same model is used
with half the temperature, although the classes of every example are in the same order. -/
theorem C209_not_temperature (f : FilterBy) (hf : f = .pruneByNoiseRate ∨ f = .pruneByClass ∨ f = .both) :
    (∀ i, IsDistribution (bluntProbs i)) ∧ ∃ mask mask',
      findLabelIssues (stableSort ℚ) bluntLabels bluntProbs { filterBy := f } = .ok mask ∧
      findLabelIssues (stableSort ℚ) bluntLabels (sharper bluntProbs) { filterBy := f } = .ok mask' ∧
      mask 1 = true ∧ mask' 1 = false := by
  have h1 := fun f => removal_of (stableSort ℚ) bluntLabels bluntProbs ![93/140, 9/16] (by decide +kernel) ![![1, 1], ![1, 3]] (by decide +kernel)
    ![![1, 1], ![1, 3]] ![![1, 1], ![1, 3]] (by decide +kernel) (by decide +kernel) f
  have h2 := fun f => removal_of (stableSort ℚ) bluntLabels (sharper bluntProbs) ![2763/4100, 27/40] (by decide +kernel)
    ![![1, 0], ![1, 3]] (by decide +kernel) ![![2, 0], ![1, 3]] ![![2, 1], ![0, 3]] (by decide +kernel) (by decide +kernel) f
  obtain ⟨raw, e1, hr1⟩ := masks_of _ _ _ h1 f hf
  obtain ⟨raw', e2, hr2⟩ := masks_of _ _ _ h2 f hf
  refine ⟨fun i => isDistribution_of (by revert i; decide +kernel), _, _, e1, e2, ?_, ?_⟩
  · rcases hf with rfl | rfl | rfl
    · rw [(hr1 1).1 rfl]; decide +kernel
    · rw [(hr1 1).2.1 rfl]; decide +kernel
    · rw [(hr1 1).2.2 rfl]; decide +kernel
  · rcases hf with rfl | rfl | rfl
    · rw [(hr2 1).1 rfl]; decide +kernel
    · rw [(hr2 1).2.1 rfl]; decide +kernel
    · rw [(hr2 1).2.2 rfl]; decide +kernel

/-- **C209 (refuted as stated)**, with `confident_learning`. -/
theorem C209_not_confident : ∃ mask mask',
    findLabelIssues (stableSort ℚ) bluntLabels bluntProbs { filterBy := .confidentLearning } = .ok mask ∧
    findLabelIssues (stableSort ℚ) bluntLabels (sharper bluntProbs) { filterBy := .confidentLearning } = .ok mask' ∧
    mask 1 = true ∧ mask' 1 = false :=
  ⟨_, _, findLabelIssues_of_raw (stableSort ℚ) bluntLabels bluntProbs { filterBy := .confidentLearning }
      ⟨by decide, by decide⟩ (Or.inl rfl) _ rfl,
    findLabelIssues_of_raw (stableSort ℚ) bluntLabels (sharper bluntProbs) { filterBy := .confidentLearning }
      ⟨by decide, by decide⟩ (Or.inl rfl) _ rfl, by decide +kernel, by decide +kernel⟩

/-- The part of **C209** that holds: with `predicted_neq_given`, if the classes of every example stay in the same order and no
class exceeds the given label by no more than the tolerance, the same examples are flagged. -/
theorem C209_predicted_partial [NeZero K] (A : ArgSort ℚ) (labels : Fin n → Fin K) (P Q : Fin n → Fin K → ℚ)
    (h : ∀ i k k', Q i k ≤ Q i k' ↔ P i k ≤ P i k')
    (hP : ∀ i k, P i k ≤ P i (labels i) ∨ P i (labels i) + 1 / 1000000 < P i k)
    (hQ : ∀ i k, Q i k ≤ Q i (labels i) ∨ Q i (labels i) + 1 / 1000000 < Q i k) (args : Args K) (hf : args.filterBy = .predictedNeqGiven) :
    Filter.findLabelIssues A labels Q args = Filter.findLabelIssues A labels P args := by
  have ha : ∀ i, argmax (Q i) = argmax (P i) := by
    intro i
    rw [argmax_eq_iff]
    refine ⟨fun k => (h i _ _).mpr (le_argmax (P i) k), fun k hk => ?_⟩
    exact lt_of_not_ge (fun hle => absurd (lt_argmax (P i) k hk) (not_lt.mpr ((h i _ _).mp hle)))
  have hraw : rawMask A labels Q args = rawMask A labels P args := by
    unfold rawMask
    rw [hf]
    simp only [ha]
  have hr : reduceIssues labels Q = reduceIssues labels P := by
    funext i
    rw [Bool.eq_iff_iff, reduceIssues_margin (hQ i), reduceIssues_margin (hP i)]
    exact forall_congr' fun k => h i k _
  unfold Filter.findLabelIssues
  rw [hraw, hr]

/-- The same data mixed with a tenth of the uniform distribution: the conditions of `C208_smoothing` hold. -/
example : (∀ i, IsDistribution (bluntProbs i)) ∧ Discernible (1 - 1 / 10) bluntLabels bluntProbs ∧
    ∀ k, thresholdsLowerBound ≤ meanSelfConfidence bluntLabels bluntProbs k :=
  ⟨fun i => isDistribution_of (by revert i; decide +kernel), ⟨by decide +kernel, by decide +kernel⟩, by decide +kernel⟩

end Cleanlab.Props
