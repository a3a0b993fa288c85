import Verif.Props.ExampleOrder

/-!
# C121: the numbering of the classes does not matter

Under a permutation `τ` of the class numbers, label `k` becomes `τ k` and the columns of the probabilities move with it:
the probability of class `k` is now that of the class that was `τ.symm k`.
-/

namespace Cleanlab.Props

open Np Cleanlab.Util Cleanlab.Count Cleanlab.Rank Cleanlab.Filter Cleanlab.Spec Cleanlab.Validation

variable {n K : ℕ}

/-- The labels in the new numbering. -/
def renumber (τ : Equiv.Perm (Fin K)) (labels : Fin n → Fin K) : Fin n → Fin K := fun i => τ (labels i)

/-- A vector with one entry per class in the new numbering. -/
def renumberV {α : Type} (τ : Equiv.Perm (Fin K)) (v : Fin K → α) : Fin K → α := fun k => v (τ.symm k)

/-- A matrix with one row per example and one column per class. -/
def renumberP {α : Type} (τ : Equiv.Perm (Fin K)) (P : Fin n → Fin K → α) : Fin n → Fin K → α := fun i k => P i (τ.symm k)

/-- A matrix with one row and one column per class. -/
def renumberM {α : Type} (τ : Equiv.Perm (Fin K)) (M : Fin K → Fin K → α) : Fin K → Fin K → α :=
  fun a b => M (τ.symm a) (τ.symm b)

theorem renumber_eq_iff (τ : Equiv.Perm (Fin K)) (labels : Fin n → Fin K) (i : Fin n) (k : Fin K) :
    renumber τ labels i = k ↔ labels i = τ.symm k := by
  unfold renumber
  rw [Equiv.eq_symm_apply]

theorem labelCounts_renumber (τ : Equiv.Perm (Fin K)) (labels : Fin n → Fin K) :
    labelCounts (renumber τ labels) = renumberV τ (labelCounts labels) := by
  funext k
  unfold renumberV
  rw [labelCounts_eq, labelCounts_eq]
  unfold numGiven
  simp only [renumber_eq_iff]

/-- **C121.** Every class keeps its confident threshold. -/
theorem C121_thresholds (τ : Equiv.Perm (Fin K)) (labels : Fin n → Fin K) (P : Fin n → Fin K → ℚ) :
    getConfidentThresholds (renumber τ labels) (renumberP τ P) = renumberV τ (getConfidentThresholds labels P) := by
  funext k
  unfold renumberV getConfidentThresholds classMean
  simp only [mem_ofFn_iff, renumber_eq_iff]
  rfl

theorem numConfidentBins_renumber (τ : Equiv.Perm (Fin K)) (P : Fin n → Fin K → ℚ) (thr : Fin K → ℚ) (i : Fin n) :
    numConfidentBins (renumberP τ P) (renumberV τ thr) i = numConfidentBins P thr i := by
  unfold numConfidentBins
  exact countP_comp τ.symm (predProbsBool P thr i)

theorem atLeastOne_renumber (τ : Equiv.Perm (Fin K)) (P : Fin n → Fin K → ℚ) (thr : Fin K → ℚ) :
    atLeastOneConfident (renumberP τ P) (renumberV τ thr) = atLeastOneConfident P thr := by
  funext i
  unfold atLeastOneConfident
  rw [numConfidentBins_renumber]

/-! ### Scores -/

theorem max?_perm {α : Type} [LinearOrder α] {l l' : List α} (h : l.Perm l') : l.max? = l'.max? := by
  cases hl : l.max? with
  | none =>
    rw [List.max?_eq_none_iff] at hl
    subst hl
    rw [List.nil_perm.mp h]
    rfl
  | some m =>
    rw [List.max?_eq_some_iff] at hl
    symm
    rw [List.max?_eq_some_iff]
    exact ⟨h.mem_iff.mp hl.1, fun b hb => hl.2 b (h.mem_iff.mpr hb)⟩

variable {F : Type} [Field F] [LinearOrder F]

omit [Field F] in
theorem maxProb_renumber (τ : Equiv.Perm (Fin K)) (p : Fin K → F) (k : Fin K) :
    maxProbNotLabel (renumberV τ p) (τ k) = maxProbNotLabel p k := by
  unfold maxProbNotLabel renumberV
  refine max?_perm ?_
  have h := map_filter_comp τ.symm (fun j => decide (j ≠ k)) p
  have hf : (List.finRange K).filter (fun j => decide (j ≠ τ k)) =
      (List.finRange K).filter (fun j => decide (τ.symm j ≠ k)) := by
    refine List.filter_congr (fun j _ => ?_)
    rw [decide_eq_decide, not_iff_not, Equiv.symm_apply_eq]
  rw [hf]
  exact h

/-- **C121.** Every example keeps its label quality score, and a call that fails in one numbering fails in the other. -/
theorem C121_scores (m : Method) (τ : Equiv.Perm (Fin K)) (labels : Fin n → Fin K) (P : Fin n → Fin K → F) :
    labelQualityScores m (renumber τ labels) (renumberP τ P) = labelQualityScores m labels P := by
  have hs : selfConfidence (renumber τ labels) (renumberP τ P) = selfConfidence labels P := by
    funext i
    simp [selfConfidence, renumber, renumberP]
  have hm : normalizedMargin (renumber τ labels) (renumberP τ P) = normalizedMargin labels P := by
    funext i
    unfold normalizedMargin
    rw [hs]
    congr 1
    exact maxProb_renumber τ (P i) (labels i)
  unfold labelQualityScores
  rw [hs, hm]

/-! ### Flagged examples -/

variable [NeZero K]

/-- The probability of no other class exceeds that of the given label by exactly one millionth. -/
def NoMillionth (labels : Fin n → Fin K) (P : Fin n → Fin K → ℚ) : Prop :=
  ∀ i j, j ≠ labels i → P i j ≠ P i (labels i) + 1 / 1000000

omit [NeZero K] in
theorem noMillionth_renumber (τ : Equiv.Perm (Fin K)) (labels : Fin n → Fin K) (P : Fin n → Fin K → ℚ)
    (h : NoMillionth labels P) : NoMillionth (renumber τ labels) (renumberP τ P) := by
  intro i j hj
  have := h i (τ.symm j) (fun e => hj (by rw [renumber, ← e, Equiv.apply_symm_apply]))
  simpa [renumber, renumberP] using this

theorem reduce_false_iff (labels : Fin n → Fin K) (P : Fin n → Fin K → ℚ) (h : NoMillionth labels P) (i : Fin n) :
    reduceIssues labels P i = false ↔ ∃ j, j ≠ labels i ∧ P i (labels i) + 1 / 1000000 < P i j := by
  constructor
  · intro hr
    obtain ⟨j, hj, hle⟩ := reduceIssues_false_iff labels P i hr
    exact ⟨j, hj, lt_of_le_of_ne hle (fun e => h i j hj e.symm)⟩
  · exact reduceIssues_false labels P i

theorem reduce_renumber (τ : Equiv.Perm (Fin K)) (labels : Fin n → Fin K) (P : Fin n → Fin K → ℚ)
    (h : NoMillionth labels P) (i : Fin n) :
    reduceIssues (renumber τ labels) (renumberP τ P) i = reduceIssues labels P i := by
  have key : reduceIssues (renumber τ labels) (renumberP τ P) i = false ↔ reduceIssues labels P i = false := by
    rw [reduce_false_iff _ _ (noMillionth_renumber τ labels P h), reduce_false_iff _ _ h]
    constructor
    · rintro ⟨j, hj, hlt⟩
      refine ⟨τ.symm j, fun e => hj (by rw [renumber, ← e, Equiv.apply_symm_apply]), ?_⟩
      simpa [renumber, renumberP] using hlt
    · rintro ⟨j, hj, hlt⟩
      refine ⟨τ j, fun e => hj (τ.injective e), ?_⟩
      simpa [renumber, renumberP] using hlt
  cases h1 : reduceIssues labels P i
  · exact key.mpr h1
  · cases h2 : reduceIssues (renumber τ labels) (renumberP τ P) i
    · rw [key.mp h2] at h1; cases h1
    · rfl

/-- Which examples confident learning flags: another class reaches its threshold and the label is not (nearly) the most
probable class. -/
theorem offDiagonal_reduce_iff (labels : Fin n → Fin K) (P : Fin n → Fin K → ℚ) (thr : Fin K → ℚ) (i : Fin n)
    (hr : reduceIssues labels P i = false) :
    i ∈ offDiagonalIndices labels P thr ↔ ∃ k, k ≠ labels i ∧ Reaches P thr i k := by
  unfold offDiagonalIndices confidentRows
  simp only [List.mem_filter, List.mem_finRange, true_and, atLeastOneConfident_iff, decide_eq_true_eq]
  obtain ⟨l, hl, hle⟩ := reduceIssues_false_iff labels P i hr
  have hmax : argmax (P i) ≠ labels i := by
    intro e
    have := le_argmax (P i) l
    rw [e] at this
    linarith
  constructor
  · rintro ⟨⟨k, hk⟩, hg⟩
    by_cases hb : numConfidentBins P thr i > 1
    · rw [numConfidentBins_eq] at hb
      obtain ⟨a, ha, b, hb, hab⟩ := Finset.one_lt_card.mp hb
      rw [Finset.mem_filter] at ha hb
      by_cases e : a = labels i
      · exact ⟨b, fun e' => hab (e.trans e'.symm), hb.2⟩
      · exact ⟨a, e, ha.2⟩
    · have hu : ∀ k', Reaches P thr i k' → k' = k := by
        intro k' hk'
        by_contra hne
        refine hb ?_
        rw [numConfidentBins_eq]
        exact Finset.one_lt_card.mpr ⟨k', by simp [hk'], k, by simp [hk], hne⟩
      rw [trueLabelGuess_of_unique P thr i k hk hu] at hg
      exact ⟨k, hg, hk⟩
  · rintro ⟨k, hk, hkr⟩
    refine ⟨⟨k, hkr⟩, ?_⟩
    by_cases hb : numConfidentBins P thr i > 1
    · unfold trueLabelGuess
      rw [if_pos hb]
      exact hmax
    · have hu : ∀ k', Reaches P thr i k' → k' = k := by
        intro k' hk'
        by_contra hne
        refine hb ?_
        rw [numConfidentBins_eq]
        exact Finset.one_lt_card.mpr ⟨k', by simp [hk'], k, by simp [hkr], hne⟩
      rw [trueLabelGuess_of_unique P thr i k hkr hu]
      exact hk

theorem flagged_renumber (τ : Equiv.Perm (Fin K)) (labels : Fin n → Fin K) (P : Fin n → Fin K → ℚ) (thr : Fin K → ℚ)
    (h : NoMillionth labels P) (i : Fin n) :
    (decide (i ∈ offDiagonalIndices (renumber τ labels) (renumberP τ P) (renumberV τ thr)) &&
      !(reduceIssues (renumber τ labels) (renumberP τ P) i)) =
    (decide (i ∈ offDiagonalIndices labels P thr) && !(reduceIssues labels P i)) := by
  rw [reduce_renumber τ labels P h i]
  cases hr : reduceIssues labels P i
  · have hr' : reduceIssues (renumber τ labels) (renumberP τ P) i = false := by rw [reduce_renumber τ labels P h i, hr]
    congr 1
    rw [decide_eq_decide, offDiagonal_reduce_iff labels P thr i hr,
      offDiagonal_reduce_iff (renumber τ labels) (renumberP τ P) (renumberV τ thr) i hr']
    constructor
    · rintro ⟨k, hk, hkr⟩
      exact ⟨τ.symm k, fun e => hk (by rw [renumber, ← e, Equiv.apply_symm_apply]), hkr⟩
    · rintro ⟨k, hk, hkr⟩
      refine ⟨τ k, fun e => hk (τ.injective e), ?_⟩
      unfold Reaches renumberP renumberV at *
      simpa using hkr
  · simp

/-- **C121 (partial).** The default estimate of the number of issues is the same. -/
theorem C121_num_issues_partial (A : ArgSort ℚ) (τ : Equiv.Perm (Fin K)) (labels : Fin n → Fin K)
    (P : Fin n → Fin K → ℚ) (h : NoMillionth labels P) (cj cj' : Option (Fin K → Fin K → ℚ)) :
    numLabelIssues A (renumber τ labels) (renumberP τ P) cj' .offDiagonal = numLabelIssues A labels P cj .offDiagonal := by
  unfold numLabelIssues
  dsimp only
  rw [C121_thresholds]
  simp only [flagged_renumber τ labels P _ h]

omit [NeZero K] in
theorem combineMasks_value (labels : Fin n → Fin K) (masks : ClassMasks labels) (i : Fin n) :
    combineMasks labels masks i = if (classIdx labels (labels i)).length > 1 then
      masks (labels i) ⟨(classIdx labels (labels i)).idxOf i,
        List.idxOf_lt_length_iff.mpr ((mem_classIdx labels (labels i) i).mpr rfl)⟩ else false := by
  unfold combineMasks
  rw [foldl_combine labels masks _ _ i ((mem_classIdx labels (labels i) i).mpr rfl)]
  simp

omit [NeZero K] in
theorem classIdx_renumber (τ : Equiv.Perm (Fin K)) (labels : Fin n → Fin K) (k : Fin K) :
    classIdx (renumber τ labels) (τ k) = classIdx labels k := by
  unfold classIdx renumber
  simp only [EmbeddingLike.apply_eq_iff_eq]

omit [NeZero K] in
theorem pruneByClass_renumber (A : ArgSort ℚ) (τ : Equiv.Perm (Fin K)) {c : ℕ} (k : Fin K) (minN : ℕ)
    (sub : Fin c → Fin K → ℚ) (col : Fin K → ℤ) :
    pruneByClass A (τ k) minN (renumberP τ sub) (renumberV τ col) = pruneByClass A k minN sub col := by
  unfold pruneByClass renumberP renumberV
  simp only [Equiv.symm_apply_apply]

omit [NeZero K] in
theorem pruneByCount_renumber (A : ArgSort ℚ) (τ : Equiv.Perm (Fin K)) {c : ℕ} (k : Fin K) (minN : ℕ)
    (sub : Fin c → Fin K → ℚ) (col : Fin K → ℤ) :
    pruneByCount A (τ k) minN (renumberP τ sub) (renumberV τ col) = pruneByCount A k minN sub col := by
  funext r
  rw [Bool.eq_iff_iff, pruneByCount_iff, pruneByCount_iff]
  unfold renumberP renumberV
  simp only [Equiv.symm_apply_apply]
  constructor
  · rintro ⟨h, j, hj, h1, h2⟩
    exact ⟨h, τ.symm j, fun e => hj (by rw [e, Equiv.apply_symm_apply]), h1, h2⟩
  · rintro ⟨h, j, hj, h1, h2⟩
    exact ⟨h, τ j, fun e => hj (τ.injective e), by simpa using h1, by simpa using h2⟩

omit [NeZero K] in
/-- Two lists of positions that are equal, and the same place in them. -/
theorem mask_congr {M : (idx : List (Fin n)) → Fin idx.length → Bool} {l l' : List (Fin n)} (h : l' = l) (i : Fin n)
    (hi : l.idxOf i < l.length) (hi' : l'.idxOf i < l'.length) :
    (if l'.length > 1 then M l' ⟨l'.idxOf i, hi'⟩ else false) = if l.length > 1 then M l ⟨l.idxOf i, hi⟩ else false := by
  subst h; rfl

omit [NeZero K] in
theorem maskByClass_renumber (A : ArgSort ℚ) (τ : Equiv.Perm (Fin K)) (labels : Fin n → Fin K) (P : Fin n → Fin K → ℚ)
    (minN : ℕ) (pcm : Fin K → Fin K → ℤ) :
    maskByClass A (renumber τ labels) (renumberP τ P) minN (renumberM τ pcm) = maskByClass A labels P minN pcm := by
  funext i
  unfold maskByClass
  rw [combineMasks_value, combineMasks_value]
  have h : ∀ r, pruneByClass A (renumber τ labels i) minN (classProbs (renumber τ labels) (renumberP τ P) (renumber τ labels i))
      (fun j => renumberM τ pcm j (renumber τ labels i)) r =
      pruneByClass A (labels i) minN (fun r => P ((classIdx (renumber τ labels) (renumber τ labels i)).get r))
        (fun j => pcm j (labels i)) r := by
    intro r
    have := congrFun (pruneByClass_renumber A τ (labels i) minN
      (fun r => P ((classIdx (renumber τ labels) (renumber τ labels i)).get r)) (fun j => pcm j (labels i))) r
    rw [← this]
    unfold renumberM renumber renumberV renumberP classProbs
    simp only [Equiv.symm_apply_apply]
  simp only [h]
  exact mask_congr (M := fun idx r => pruneByClass A (labels i) minN (fun r => P (idx.get r)) (fun j => pcm j (labels i)) r)
    (classIdx_renumber τ labels (labels i)) i _ _

omit [NeZero K] in
theorem maskByCount_renumber (A : ArgSort ℚ) (τ : Equiv.Perm (Fin K)) (labels : Fin n → Fin K) (P : Fin n → Fin K → ℚ)
    (minN : ℕ) (pcm : Fin K → Fin K → ℤ) :
    maskByCount A (renumber τ labels) (renumberP τ P) minN (renumberM τ pcm) = maskByCount A labels P minN pcm := by
  funext i
  unfold maskByCount
  rw [combineMasks_value, combineMasks_value]
  have h : ∀ r, pruneByCount A (renumber τ labels i) minN (classProbs (renumber τ labels) (renumberP τ P) (renumber τ labels i))
      (fun j => renumberM τ pcm j (renumber τ labels i)) r =
      pruneByCount A (labels i) minN (fun r => P ((classIdx (renumber τ labels) (renumber τ labels i)).get r))
        (fun j => pcm j (labels i)) r := by
    intro r
    have := congrFun (pruneByCount_renumber A τ (labels i) minN
      (fun r => P ((classIdx (renumber τ labels) (renumber τ labels i)).get r)) (fun j => pcm j (labels i))) r
    rw [← this]
    unfold renumberM renumber renumberV renumberP classProbs
    simp only [Equiv.symm_apply_apply]
  simp only [h]
  exact mask_congr (M := fun idx r => pruneByCount A (labels i) minN (fun r => P (idx.get r)) (fun j => pcm j (labels i)) r)
    (classIdx_renumber τ labels (labels i)) i _ _

omit [NeZero K] in
theorem keepAtLeastN_renumber (A : ArgSort ℚ) (τ : Equiv.Perm (Fin K)) (pcm : Fin K → Fin K → ℚ) (minN : ℕ) (frac : ℚ) :
    keepAtLeastN A (renumberM τ pcm) minN frac = renumberM τ (keepAtLeastN A pcm minN frac) := by
  have hr : ∀ k, numNoiseRates (renumberM τ pcm) k = numNoiseRates pcm (τ.symm k) := by
    intro k
    unfold numNoiseRates renumberM
    rw [countP_comp τ.symm (fun j => decide (pcm j (τ.symm k) ≠ 0))]
  have hk : ∀ j k, keepDiagonal (renumberM τ pcm) minN j k = keepDiagonal pcm minN (τ.symm j) (τ.symm k) := by
    intro j k
    unfold keepDiagonal
    rw [hr]
    simp only [EmbeddingLike.apply_eq_iff_eq]
    rfl
  funext j k
  unfold renumberM
  rw [keepAtLeastN_eq, keepAtLeastN_eq]
  unfold reducePruneCounts
  congr 1
  unfold reducePruneCountsExact
  dsimp only
  have hk' : ∀ j k, keepDiagonal (fun a b => pcm (τ.symm a) (τ.symm b)) minN j k =
    keepDiagonal pcm minN (τ.symm j) (τ.symm k) := hk
  simp only [hk', EmbeddingLike.apply_eq_iff_eq]
  rw [← Equiv.sum_comp τ.symm (fun a => keepDiagonal pcm minN a (τ.symm k) -
    if a = τ.symm k then keepDiagonal pcm minN a (τ.symm k) else keepDiagonal pcm minN a (τ.symm k) * frac)]
  simp only [EmbeddingLike.apply_eq_iff_eq]

/-- The filters that use the confident joint. -/
def FiltersByJoint (by_ : FilterBy) : Prop := by_ = .pruneByClass ∨ by_ = .pruneByNoiseRate ∨ by_ = .both

/-- The arguments in the new numbering: a given confident joint is renumbered. -/
def renumberArgs (τ : Equiv.Perm (Fin K)) (args : Args K) : Args K :=
  { args with confidentJoint := args.confidentJoint.map (renumberM τ) }

theorem lowScore_renumber (A : ArgSort ℚ) (τ : Equiv.Perm (Fin K)) (labels : Fin n → Fin K) (P : Fin n → Fin K → ℚ)
    (h : NoMillionth labels P) (m : Method) :
    lowScoreIndices A (renumber τ labels) (renumberP τ P) m = lowScoreIndices A labels P m := by
  unfold lowScoreIndices
  rw [C121_scores, C121_num_issues_partial A τ labels P h none none]

/-- The result of `find_label_issues` in the new numbering, if the confident joint is the same. -/
theorem findLabelIssues_renumber (A : ArgSort ℚ) (τ : Equiv.Perm (Fin K)) (labels : Fin n → Fin K)
    (P : Fin n → Fin K → ℚ) (args : Args K) (h : NoMillionth labels P) (hn : args.numToRemove = none)
    (hJ : FiltersByJoint args.filterBy → Filter.usedJoint A (renumber τ labels) (renumberP τ P) (renumberArgs τ args) =
      renumberM τ (Filter.usedJoint A labels P args)) :
    findLabelIssues A (renumber τ labels) (renumberP τ P) (renumberArgs τ args) = findLabelIssues A labels P args := by
  have hred : reduceIssues (renumber τ labels) (renumberP τ P) = reduceIssues labels P :=
    funext (reduce_renumber τ labels P h)
  have hfb : (renumberArgs τ args).filterBy = args.filterBy := rfl
  have hmin : (renumberArgs τ args).minExamples = args.minExamples := rfl
  have hfr : (renumberArgs τ args).fracNoise = args.fracNoise := rfl
  have hnr : (renumberArgs τ args).numToRemove = none := hn
  have hpcm : FiltersByJoint args.filterBy → ∃ pcm,
      pruneCountMatrix A (Filter.usedJoint A labels P args) labels args.minExamples args.fracNoise none
        args.nanInt = .ok pcm ∧
      pruneCountMatrix A (Filter.usedJoint A (renumber τ labels) (renumberP τ P) (renumberArgs τ args)) (renumber τ labels)
        args.minExamples args.fracNoise none (renumberArgs τ args).nanInt = .ok (renumberM τ pcm) := by
    intro hu
    refine ⟨_, pruneCountMatrix_none A _ labels _ _ _, ?_⟩
    rw [pruneCountMatrix_none, hJ hu]
    congr 1
    exact keepAtLeastN_renumber A τ (fun j k => Filter.usedJoint A labels P args k j) args.minExamples args.fracNoise
  unfold findLabelIssues rawMask
  rw [hnr, hn, hfb, hmin, hfr, hred]
  unfold FiltersByJoint at hpcm
  cases hf : args.filterBy <;> rw [hf] at hpcm <;> dsimp only
  · rw [lowScore_renumber A τ labels P h]
  · rw [lowScore_renumber A τ labels P h]
  · obtain ⟨pcm, h1, h2⟩ := hpcm (by simp)
    rw [h1, h2]
    dsimp only [bind, Except.bind, pure, Except.pure]
    rw [maskByCount_renumber]
  · obtain ⟨pcm, h1, h2⟩ := hpcm (by simp)
    rw [h1, h2]
    dsimp only [bind, Except.bind, pure, Except.pure]
    rw [maskByClass_renumber]
  · obtain ⟨pcm, h1, h2⟩ := hpcm (by simp)
    rw [h1, h2]
    dsimp only [bind, Except.bind, pure, Except.pure]
    rw [maskByClass_renumber, maskByCount_renumber]
  · have hfl := fun i => flagged_renumber τ labels P (getConfidentThresholds labels P) h i
    rw [hred, ← C121_thresholds] at hfl
    simp only [Option.isSome_none, Bool.false_eq_true, false_and, if_false, List.mem_cons, reduceCtorEq, List.not_mem_nil,
      or_self, bind, Except.bind, pure, Except.pure]
    congr 1
    funext i
    exact hfl i
  · simp only [Option.isSome_none, Bool.false_eq_true, false_and, if_false, List.mem_cons, reduceCtorEq, List.not_mem_nil,
      or_self, bind, Except.bind, pure, Except.pure]
    congr 1
    funext i
    cases hr : reduceIssues labels P i
    · have hne : ∀ (l : Fin n → Fin K) (Q : Fin n → Fin K → ℚ), reduceIssues l Q i = false → argmax (Q i) ≠ l i := by
        intro l Q hr e
        obtain ⟨j, hj, hle⟩ := reduceIssues_false_iff l Q i hr
        have := le_argmax (Q i) j
        rw [e] at this
        linarith
      have h1 := hne labels P hr
      have h2 := hne (renumber τ labels) (renumberP τ P) (by rw [hred, hr])
      simp [h1, h2]
    · simp

omit [NeZero K] in
theorem inRange_renumber (τ : Equiv.Perm (Fin K)) (P : Fin n → Fin K → ℚ) (h : InRange P) : InRange (renumberP τ P) :=
  fun i k => h i (τ.symm k)

/-- **C121 (partial).** With two classes among the labels `find_label_issues` flags the same examples in every numbering of
the classes: with the filters that do not use the confident joint, and with those that do if the joint is given (and
renumbered). Left out are probabilities that differ by exactly one millionth from that of the label, the removal of a given
number of examples per class and joints that have to be estimated (`C121_joint_partial`). -/
theorem C121_find_partial (A : ArgSort ℚ) (τ : Equiv.Perm (Fin K)) (labels : Fin n → Fin K) (P : Fin n → Fin K → ℚ)
    (args : Args K) (hl : ∃ i j, labels i ≠ labels j) (hP : InRange P) (h : NoMillionth labels P)
    (hn : args.numToRemove = none) (hJ : FiltersByJoint args.filterBy → args.confidentJoint.isSome) :
    findChecked A (renumber τ labels) (renumberP τ P) (renumberArgs τ args) = findChecked A labels P args := by
  obtain ⟨i, j, hij⟩ := hl
  rw [(C115_accepts_partial A labels P ⟨i, j, hij⟩ hP).1,
    (C115_accepts_partial A (renumber τ labels) (renumberP τ P) ⟨i, j, fun e => hij (τ.injective e)⟩
      (inRange_renumber τ P hP)).1]
  refine findLabelIssues_renumber A τ labels P args h hn (fun hu => ?_)
  have := hJ hu
  unfold Filter.usedJoint renumberArgs
  cases hc : args.confidentJoint with
  | none => rw [hc] at this; cases this
  | some cj => rfl

/-- A data set to which the theorem applies, with an example that is flagged. -/
example : NoMillionth (![0, 0, 1] : Fin 3 → Fin 2) ![![3 / 10, 7 / 10], ![9 / 10, 1 / 10], ![2 / 5, 3 / 5]] ∧
    findLabelIssues (stableSort ℚ) (![0, 0, 1] : Fin 3 → Fin 2) ![![3 / 10, 7 / 10], ![9 / 10, 1 / 10], ![2 / 5, 3 / 5]]
      { filterBy := .confidentLearning } = .ok ![true, false, false] := by
  constructor
  · unfold NoMillionth; decide +kernel
  · refine ok_of_toOption ?_
    decide +kernel

/-! ### The confident joint -/

/-- Every example has one most probable class. -/
def OneBest (P : Fin n → Fin K → ℚ) : Prop := ∀ i, ∃ k, ∀ j, j ≠ k → P i j < P i k

theorem argmax_renumber (τ : Equiv.Perm (Fin K)) (p : Fin K → ℚ) (h : ∃ k, ∀ j, j ≠ k → p j < p k) :
    argmax (renumberV τ p) = τ (argmax p) := by
  obtain ⟨k, hk⟩ := h
  have hm : ∀ j, j ≠ argmax p → p j < p (argmax p) := by
    have he : argmax p = k := by
      by_contra hne
      exact absurd (hk _ hne) (not_lt.mpr (le_argmax p k))
    rw [he]; exact hk
  rw [argmax_eq_iff]
  unfold renumberV
  rw [Equiv.symm_apply_apply]
  refine ⟨fun j => le_argmax p _, fun j hj => hm _ (fun e => ?_)⟩
  rw [Equiv.symm_apply_eq] at e
  exact absurd hj (by rw [e]; exact lt_irrefl _)

theorem guess_renumber (τ : Equiv.Perm (Fin K)) (P : Fin n → Fin K → ℚ) (thr : Fin K → ℚ) (h : OneBest P) (i : Fin n)
    (hi : atLeastOneConfident P thr i = true) :
    trueLabelGuess (renumberP τ P) (renumberV τ thr) i = τ (trueLabelGuess P thr i) := by
  by_cases hb : numConfidentBins P thr i > 1
  · unfold trueLabelGuess
    rw [if_pos hb, if_pos (by rw [numConfidentBins_renumber]; exact hb)]
    exact argmax_renumber τ (P i) (h i)
  · obtain ⟨k, hk⟩ := (atLeastOneConfident_iff P thr i).mp hi
    have hu : ∀ k', Reaches P thr i k' → k' = k := by
      intro k' hk'
      by_contra hne
      refine hb ?_
      rw [numConfidentBins_eq]
      exact Finset.one_lt_card.mpr ⟨k', by simp [hk'], k, by simp [hk], hne⟩
    rw [trueLabelGuess_of_unique P thr i k hk hu, trueLabelGuess_of_unique (renumberP τ P) (renumberV τ thr) i (τ k)]
    · unfold Reaches renumberP renumberV at *
      simpa using hk
    · intro k' hk'
      have := hu (τ.symm k') hk'
      rw [← this, Equiv.apply_symm_apply]

theorem raw_renumber (τ : Equiv.Perm (Fin K)) (labels : Fin n → Fin K) (P : Fin n → Fin K → ℚ) (thr : Fin K → ℚ)
    (h : OneBest P) :
    confidentJointRaw (renumber τ labels) (renumberP τ P) (renumberV τ thr) = renumberM τ (confidentJointRaw labels P thr) := by
  have hrows : confidentRows (renumberP τ P) (renumberV τ thr) = confidentRows P thr := by
    unfold confidentRows
    rw [atLeastOne_renumber]
  funext a b
  have hc : Count.confusionMatrix ((confidentRows P thr).map (trueLabelGuess (renumberP τ P) (renumberV τ thr)))
      ((confidentRows P thr).map (renumber τ labels)) b a =
      Count.confusionMatrix ((confidentRows P thr).map (trueLabelGuess P thr)) ((confidentRows P thr).map labels)
        (τ.symm b) (τ.symm a) := by
    unfold Count.confusionMatrix
    rw [List.zip_map', List.zip_map', List.count, List.count, List.countP_map, List.countP_map]
    refine List.countP_congr (fun i hi => ?_)
    have hi' := (List.mem_filter.mp hi).2
    simp only [Function.comp, beq_iff_eq, Prod.mk.injEq, guess_renumber τ P thr h i hi', renumber_eq_iff]
    rw [← Equiv.eq_symm_apply]
  unfold renumberM confidentJointRaw
  dsimp only
  rw [hrows, hc]
  simp only [EmbeddingLike.apply_eq_iff_eq]

omit [NeZero K] in
theorem sum_renumberV {M : Type} [AddCommMonoid M] (τ : Equiv.Perm (Fin K)) (v : Fin K → M) :
    ∑ k, v (τ.symm k) = ∑ k, v k := Equiv.sum_comp τ.symm v

omit [NeZero K] in
theorem calibrateTotal_renumber (τ : Equiv.Perm (Fin K)) (cj : Fin K → Fin K → ℚ) (labels : Fin n → Fin K) :
    calibrateTotal (renumberM τ cj) (renumber τ labels) = renumberM τ (calibrateTotal cj labels) := by
  have hrow : ∀ a b, calibrateRows (renumberM τ cj) (renumber τ labels) a b =
      calibrateRows cj labels (τ.symm a) (τ.symm b) := by
    intro a b
    unfold calibrateRows renumberM
    rw [labelCounts_renumber, sum_renumberV τ (fun b' => cj (τ.symm a) b')]
    rfl
  funext a b
  unfold calibrateTotal
  simp only [hrow]
  rw [labelCounts_renumber, sum_renumberV τ (fun a' => ∑ b', calibrateRows cj labels a' (τ.symm b'))]
  simp only [fun a' => sum_renumberV τ (fun b' => calibrateRows cj labels a' b')]
  unfold renumberV
  rw [sum_renumberV τ (fun k => labelCounts labels k)]
  rfl

/-- **C121 (partial).** If every example has one most probable class, the confident joint before calibration is renumbered
and nothing else; after calibration each count differs by at most one (from rounding) and every class has as many examples
in its row as before. -/
theorem C121_joint_partial (A : ArgSort ℚ) (τ : Equiv.Perm (Fin K)) (labels : Fin n → Fin K) (P : Fin n → Fin K → ℚ)
    (h : OneBest P) :
    (∀ a b, computeConfidentJoint A (renumber τ labels) (renumberP τ P)
        (getConfidentThresholds (renumber τ labels) (renumberP τ P)) false (τ a) (τ b) =
      computeConfidentJoint A labels P (getConfidentThresholds labels P) false a b) ∧
    (∀ a b, |computeConfidentJoint A (renumber τ labels) (renumberP τ P)
        (getConfidentThresholds (renumber τ labels) (renumberP τ P)) true (τ a) (τ b) -
      computeConfidentJoint A labels P (getConfidentThresholds labels P) true a b| ≤ 1) ∧
    ∀ a, ∑ b, computeConfidentJoint A (renumber τ labels) (renumberP τ P)
        (getConfidentThresholds (renumber τ labels) (renumberP τ P)) true (τ a) b =
      ∑ b, computeConfidentJoint A labels P (getConfidentThresholds labels P) true a b := by
  have hraw := raw_renumber τ labels P (getConfidentThresholds labels P) h
  have hcal : calibrateTotal (fun a b => (confidentJointRaw (renumber τ labels) (renumberP τ P)
      (getConfidentThresholds (renumber τ labels) (renumberP τ P)) a b : ℚ)) (renumber τ labels) =
      renumberM τ (calibrateTotal (fun a b => (confidentJointRaw labels P (getConfidentThresholds labels P) a b : ℚ))
        labels) := by
    rw [← calibrateTotal_renumber, C121_thresholds, hraw]
    rfl
  refine ⟨fun a b => ?_, fun a b => ?_, fun a => ?_⟩
  · unfold computeConfidentJoint
    rw [if_neg (by simp), if_neg (by simp), C121_thresholds, hraw]
    simp [renumberM]
  · unfold computeConfidentJoint calibrateConfidentJoint
    rw [if_pos rfl, if_pos rfl, hcal]
    have h1 := (roundRows_spec A (renumberM τ (calibrateTotal (fun a b => (confidentJointRaw labels P
      (getConfidentThresholds labels P) a b : ℚ)) labels)) (τ a)).2 (τ b)
    have h2 := (roundRows_spec A (calibrateTotal (fun a b => (confidentJointRaw labels P
      (getConfidentThresholds labels P) a b : ℚ)) labels) a).2 b
    have he : renumberM τ (calibrateTotal (fun a b => (confidentJointRaw labels P
      (getConfidentThresholds labels P) a b : ℚ)) labels) (τ a) (τ b) = calibrateTotal (fun a b => (confidentJointRaw labels P
      (getConfidentThresholds labels P) a b : ℚ)) labels a b := by simp [renumberM]
    rw [he] at h1
    rw [abs_le]
    rcases h1 with h1 | ⟨h1, h1'⟩ | ⟨h1, h1'⟩ <;> rcases h2 with h2 | ⟨h2, h2'⟩ | ⟨h2, h2'⟩
    · omega
    · omega
    · omega
    · omega
    · omega
    · exact absurd h1' (not_lt.mpr h2'.le)
    · omega
    · exact absurd h1' (not_lt.mpr h2'.le)
    · omega
  · unfold computeConfidentJoint calibrateConfidentJoint
    rw [if_pos rfl, if_pos rfl, hcal, (roundRows_spec A _ (τ a)).1, (roundRows_spec A _ a).1]
    congr 1
    unfold renumberM
    rw [Equiv.symm_apply_apply]
    exact sum_renumberV τ (fun b => calibrateTotal _ labels a b)

/-- Every example of this data set has one most probable class. -/
example : OneBest (![![3 / 10, 7 / 10], ![9 / 10, 1 / 10], ![2 / 5, 3 / 5]] : Fin 3 → Fin 2 → ℚ) := by
  unfold OneBest; decide +kernel

/-! ### Where the numbering matters -/

/-- Two examples of each of two classes. -/
def evenLabels : Fin 4 → Fin 2 := ![0, 0, 1, 1]
/-- A model that says nothing. -/
def evenProbs : Fin 4 → Fin 2 → ℚ := fun _ _ => 1 / 2

theorem even_total : calibrateTotal (fun a b => (confidentJointRaw evenLabels evenProbs
    (getConfidentThresholds evenLabels evenProbs) a b : ℚ)) evenLabels = ![![2, 0], ![4 / 3, 2 / 3]] := by
  funext a b
  revert a b
  decide +kernel

theorem even_joint (A : ArgSort ℚ) :
    computeConfidentJoint A evenLabels evenProbs (getConfidentThresholds evenLabels evenProbs) true 0 1 = 0 ∧
    1 ≤ computeConfidentJoint A evenLabels evenProbs (getConfidentThresholds evenLabels evenProbs) true 1 0 := by
  unfold computeConfidentJoint calibrateConfidentJoint
  rw [if_pos rfl, even_total]
  refine ⟨roundRows_intCast A _ 0 1 0 (by simp), ?_⟩
  have h := (roundRows_spec A (![![2, 0], ![4 / 3, 2 / 3]] : Fin 2 → Fin 2 → ℚ) 1).2 0
  have hr : rint ((![![2, 0], ![4 / 3, 2 / 3]] : Fin 2 → Fin 2 → ℚ) 1 0) = 1 := by decide +kernel
  rw [hr] at h
  rcases h with h | ⟨h, _⟩ | ⟨_, h⟩
  · omega
  · omega
  · exfalso
    revert h
    decide +kernel

/-- **C121 fails for ties.** The data are the same after exchanging the names of the two classes (and the order of the
examples), but the confident joint counts mislabelled examples only among those of the class numbered 1: whichever name
comes first is taken to be the predicted one. So the noise estimates of a class depend on its number. -/
theorem C121_not_ties (A : ArgSort ℚ) :
    computeConfidentJoint A evenLabels evenProbs (getConfidentThresholds evenLabels evenProbs) true 0 1 = 0 ∧
    1 ≤ computeConfidentJoint A (renumber (Equiv.swap 0 1) evenLabels) (renumberP (Equiv.swap 0 1) evenProbs)
      (getConfidentThresholds (renumber (Equiv.swap 0 1) evenLabels) (renumberP (Equiv.swap 0 1) evenProbs)) true
      (Equiv.swap 0 1 0) (Equiv.swap 0 1 1) := by
  obtain ⟨h1, h2⟩ := even_joint A
  refine ⟨h1, ?_⟩
  have hl : renumber (Equiv.swap 0 1) evenLabels = fun i => evenLabels (Fin.revPerm i) := by
    funext i; revert i; decide +kernel
  have hp : renumberP (Equiv.swap (0 : Fin 2) 1) evenProbs = fun i => evenProbs (Fin.revPerm i) := rfl
  rw [hl, hp, C120_thresholds, C120_joint, Equiv.swap_apply_left, Equiv.swap_apply_right]
  exact h2

/-- **C121 fails for one class.** Labels of which all are class 0 are accepted; with the same class numbered 1 the call is
refused. -/
theorem C121_not_one_class (A : ArgSort ℚ) (P : Fin n → Fin K → ℚ) (hn : 0 < n) (hP : InRange P) (k : Fin K)
    (hk : (k : ℕ) ≠ 0) (args : Args K) (hr : args.numToRemove = none) (hf : ¬RechecksInputs args.filterBy) :
    (∃ mask, findChecked A (fun _ => (0 : Fin K)) P args = .ok mask) ∧
    ∃ e, findChecked A (renumber (Equiv.swap 0 k) (fun _ => 0)) (renumberP (Equiv.swap 0 k) P)
      (renumberArgs (Equiv.swap 0 k) args) = .error e := by
  obtain ⟨_, _, h, _⟩ := C115_not_one_class A (fun _ : Fin n => (0 : Fin K)) P 0 (fun _ => rfl)
  obtain ⟨_, h', _⟩ := C115_not_one_class A (renumber (Equiv.swap 0 k) (fun _ : Fin n => (0 : Fin K)))
    (renumberP (Equiv.swap 0 k) P) k (fun _ => by simp [renumber])
  exact ⟨h (by simp) hn hP args hr hf, h' hk _⟩

/-- A single example labelled with its class. -/
example : InRange (![![3 / 4, 1 / 4]] : Fin 1 → Fin 2 → ℚ) := by unfold InRange; decide +kernel

/-! ### Summaries -/

/-- The inputs of the functions of `dataset.py` in the new numbering. -/
def renumberInputs (τ : Equiv.Perm (Fin K)) (x : Dataset.Inputs n K) : Dataset.Inputs n K :=
  { x with
    labels := x.labels.map (renumber τ)
    predProbs := x.predProbs.map (renumberP τ)
    joint := x.joint.map (renumberM τ)
    confidentJoint := x.confidentJoint.map (renumberM τ) }

/-- A row of the ranking of classes in the new numbering. -/
def renumberRow (τ : Equiv.Perm (Fin K)) (r : Dataset.ClassRow K) : Dataset.ClassRow K := { r with cls := τ r.cls }

omit [NeZero K] in
theorem classRow_renumber (τ : Equiv.Perm (Fin K)) (joint : Fin K → Fin K → ℚ) (num : ℚ) (k : Fin K) :
    Dataset.classRow (renumberM τ joint) num (τ k) = renumberRow τ (Dataset.classRow joint num k) := by
  unfold Dataset.classRow renumberRow renumberM
  simp only [Equiv.symm_apply_apply]
  simp only [sum_renumberV τ (fun b => joint k b), sum_renumberV τ (fun a => joint a k)]

/-- **C121.** The ranking of the classes by label quality, for a given joint: the same rows with the new numbers, and the
same qualities from first to last. -/
theorem C121_classes (A : ArgSort ℚ) (τ : Equiv.Perm (Fin K)) (joint : Fin K → Fin K → ℚ) (num : ℚ)
    (x : Dataset.Inputs n K) :
    ∃ rows rows', Dataset.rankClasses A { x with joint := some joint, numExamples := some num } = .ok rows ∧
      Dataset.rankClasses A (renumberInputs τ { x with joint := some joint, numExamples := some num }) = .ok rows' ∧
      rows'.Perm (rows.map (renumberRow τ)) ∧ rows'.map (·.quality) = rows.map (·.quality) := by
  refine ⟨_, _, rfl, rfl, ?_, ?_⟩
  · have h1 := (A.perm_indices (fun k => (Dataset.classRow (renumberM τ joint) num k).quality)).map
      (Dataset.classRow (renumberM τ joint) num)
    have h2 := ((A.perm_indices (fun k => (Dataset.classRow joint num k).quality)).map
      (Dataset.classRow joint num)).map (renumberRow τ)
    refine h1.trans (List.Perm.trans ?_ h2.symm)
    rw [List.map_map]
    have h3 := map_filter_comp τ (fun _ => true) (Dataset.classRow (renumberM τ joint) num)
    simp only [List.filter_true] at h3
    refine h3.symm.trans ?_
    refine List.Perm.of_eq (List.map_congr_left (fun k _ => ?_))
    exact classRow_renumber τ joint num k
  · rw [List.map_map, List.map_map]
    have hq : ∀ k, (Dataset.classRow (renumberM τ joint) num k).quality =
        (Dataset.classRow joint num (τ.symm k)).quality := by
      intro k
      have := classRow_renumber τ joint num (τ.symm k)
      rw [Equiv.apply_symm_apply] at this
      rw [this]
      rfl
    have hs := sorted_scores τ.symm (fun k => (Dataset.classRow joint num k).quality)
      (A.indices (fun k => (Dataset.classRow joint num k).quality))
      (A.indices (fun k => (Dataset.classRow joint num (τ.symm k)).quality))
      ((A.perm_indices _).map _) ((A.perm_indices _).map _) (List.pairwise_map.mpr (A.pairwise_indices _))
      (List.pairwise_map.mpr (A.pairwise_indices (fun k => (Dataset.classRow joint num (τ.symm k)).quality)))
    have hf : (fun k => (Dataset.classRow (renumberM τ joint) num k).quality) =
        fun k => (Dataset.classRow joint num (τ.symm k)).quality := funext hq
    show (A.indices (fun k => (Dataset.classRow (renumberM τ joint) num k).quality)).map
      (fun k => (Dataset.classRow (renumberM τ joint) num k).quality) = _
    rw [hf]
    exact hs

/-- **C121 (partial).** The overall label health score is the same. -/
theorem C121_health_partial (A : ArgSort ℚ) (τ : Equiv.Perm (Fin K)) (labels : Fin n → Fin K) (P : Fin n → Fin K → ℚ)
    (hl : ∃ i j, labels i ≠ labels j) (hP : InRange P) (h : NoMillionth labels P) (x : Dataset.Inputs n K)
    (h1 : x.labels = some labels) (h2 : x.predProbs = some P) :
    Dataset.overallHealth A (renumberInputs τ x) = Dataset.overallHealth A x := by
  obtain ⟨i, j, hij⟩ := hl
  obtain ⟨l, p, joint, num, cj⟩ := x
  subst h1 h2
  have hnum : ∀ c c', numChecked A (renumber τ labels) (renumberP τ P) c' .offDiagonal =
      numChecked A labels P c .offDiagonal := by
    intro c c'
    rw [(C115_accepts_partial A labels P ⟨i, j, hij⟩ hP).2.2,
      (C115_accepts_partial A (renumber τ labels) (renumberP τ P) ⟨i, j, fun e => hij (τ.injective e)⟩
        (inRange_renumber τ P hP)).2.2, C121_num_issues_partial A τ labels P h c c']
  unfold Dataset.overallHealth renumberInputs
  dsimp only [Option.map]
  cases num with
  | some m => rw [hnum cj]
  | none => rw [hnum cj]; rfl

end Cleanlab.Props
