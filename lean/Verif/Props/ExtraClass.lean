import Verif.Props.ClassNumberingJoint
import Verif.Model.RankReal
import Mathlib.Analysis.Complex.ExponentialBounds

/-!
# C133: a class nobody uses does not matter

The data with one more class: no label is of that class and the model gives it probability 0 everywhere, which is a further
column of zeros in the predicted probabilities.
-/

namespace Cleanlab.Props

open Np Cleanlab.Util Cleanlab.Count Cleanlab.Rank Cleanlab.Filter Cleanlab.Spec Cleanlab.Validation

variable {n K : ℕ}

/-- The same labels among one more class. -/
def extendL (labels : Fin n → Fin K) : Fin n → Fin (K + 1) := fun i => (labels i).castSucc

/-- A vector with an entry for one more class. -/
def extendV {α : Type} (v : Fin K → α) (x : α) : Fin (K + 1) → α := Fin.snoc (α := fun _ => α) v x

/-- The probabilities with a column of zeros. -/
def extendP {α : Type} [Zero α] (P : Fin n → Fin K → α) : Fin n → Fin (K + 1) → α := fun i => extendV (P i) 0

/-- A matrix with a row and a column of zeros. -/
def extendM {α : Type} [Zero α] (M : Fin K → Fin K → α) : Fin (K + 1) → Fin (K + 1) → α :=
  extendV (fun a => extendV (M a) 0) (fun _ => 0)

@[simp] theorem extendV_castSucc {α : Type} (v : Fin K → α) (x : α) (k : Fin K) : extendV v x k.castSucc = v k := by
  unfold extendV; exact Fin.snoc_castSucc (α := fun _ => α) x v k

@[simp] theorem extendV_last {α : Type} (v : Fin K → α) (x : α) : extendV v x (Fin.last K) = x := by
  unfold extendV; exact Fin.snoc_last (α := fun _ => α) x v

@[simp] theorem extendP_castSucc {α : Type} [Zero α] (P : Fin n → Fin K → α) (i : Fin n) (k : Fin K) :
    extendP P i k.castSucc = P i k := extendV_castSucc _ _ _

@[simp] theorem extendP_last {α : Type} [Zero α] (P : Fin n → Fin K → α) (i : Fin n) :
    extendP P i (Fin.last K) = 0 := extendV_last _ _

@[simp] theorem extendM_castSucc {α : Type} [Zero α] (M : Fin K → Fin K → α) (a b : Fin K) :
    extendM M a.castSucc b.castSucc = M a b := by unfold extendM; rw [extendV_castSucc, extendV_castSucc]

@[simp] theorem extendM_last_col {α : Type} [Zero α] (M : Fin K → Fin K → α) (a : Fin (K + 1)) :
    extendM M a (Fin.last K) = 0 := by
  unfold extendM
  refine Fin.lastCases ?_ (fun a => ?_) a
  · rw [extendV_last]
  · rw [extendV_castSucc, extendV_last]

@[simp] theorem extendM_last_row {α : Type} [Zero α] (M : Fin K → Fin K → α) (b : Fin (K + 1)) :
    extendM M (Fin.last K) b = 0 := by unfold extendM; rw [extendV_last]

/-- **C133.** Every class keeps its confident threshold; that of the class nobody uses is 2, which no probability reaches. -/
theorem C133_thresholds (labels : Fin n → Fin K) (P : Fin n → Fin K → ℚ) :
    getConfidentThresholds (extendL labels) (extendP P) = extendV (getConfidentThresholds labels P) 2 := by
  funext k
  refine Fin.lastCases ?_ (fun k => ?_) k
  · rw [extendV_last]
    unfold getConfidentThresholds
    rw [if_neg]
    · unfold thresholdsLowerBound; norm_num
    · rw [mem_ofFn_iff]
      rintro ⟨i, hi⟩
      exact absurd hi (Fin.castSucc_ne_last _)
  · rw [extendV_castSucc]
    unfold getConfidentThresholds classMean extendL
    simp only [mem_ofFn_iff, Fin.castSucc_inj, extendP_castSucc]

theorem numGiven_extend (labels : Fin n → Fin K) : numGiven (extendL labels) = extendV (numGiven labels) 0 := by
  funext k
  refine Fin.lastCases ?_ (fun k => ?_) k
  · rw [extendV_last]
    unfold numGiven extendL
    simp [Fin.castSucc_ne_last]
  · rw [extendV_castSucc]
    unfold numGiven extendL
    simp only [Fin.castSucc_inj]

theorem finRange_extend : List.finRange (K + 1) = (List.finRange K).map Fin.castSucc ++ [Fin.last K] :=
  List.finRange_succ_last

/-! ### Scores -/

section
variable {F : Type} [Field F] [LinearOrder F]

theorem maxProbNotLabel_extend (p : Fin K → F) (k : Fin K) (hK : 2 ≤ K) (hp : ∀ j, 0 ≤ p j) :
    maxProbNotLabel (extendV p 0) k.castSucc = maxProbNotLabel p k := by
  unfold maxProbNotLabel
  have hl : ((List.finRange (K + 1)).filter (fun j => j ≠ k.castSucc)).map (extendV p 0) =
      (((List.finRange K).filter (fun j => j ≠ k)).map p) ++ [0] := by
    rw [finRange_extend, List.filter_append, List.map_append, List.filter_map, List.map_map]
    congr 1
    · have hf : ((fun j => decide (j ≠ k.castSucc)) ∘ Fin.castSucc) = fun j : Fin K => decide (j ≠ k) := by
        funext j
        simp
      rw [hf]
      refine List.map_congr_left (fun j _ => ?_)
      simp
    · have h1 : decide (Fin.last K ≠ k.castSucc) = true := by
        rw [decide_eq_true_eq]
        exact (Fin.castSucc_ne_last k).symm
      rw [List.filter_singleton, h1, cond_true, List.map_singleton, extendV_last]
  rw [hl]
  have hne : ∃ a, a ∈ ((List.finRange K).filter (fun j => j ≠ k)).map p := by
    obtain ⟨j, hj⟩ : ∃ j : Fin K, j ≠ k := by
      have : Nontrivial (Fin K) := Fin.nontrivial_iff_two_le.mpr hK
      exact exists_ne k
    exact ⟨p j, List.mem_map_of_mem (List.mem_filter.mpr ⟨List.mem_finRange j, by simpa using hj⟩)⟩
  cases hm : (((List.finRange K).filter (fun j => j ≠ k)).map p).max? with
  | none =>
    rw [List.max?_eq_none_iff] at hm
    obtain ⟨a, ha⟩ := hne
    rw [hm] at ha
    cases ha
  | some m =>
    rw [List.max?_eq_some_iff] at hm ⊢
    refine ⟨List.mem_append_left _ hm.1, fun b hb => ?_⟩
    rcases List.mem_append.mp hb with hb | hb
    · exact hm.2 b hb
    · rw [List.mem_singleton] at hb
      subst hb
      obtain ⟨j, _, hj⟩ := List.mem_map.mp hm.1
      rw [← hj]
      exact hp j

/-- **C133.** Every example keeps its self-confidence and its normalized margin. -/
theorem C133_scores (mth : Method) (labels : Fin n → Fin K) (P : Fin n → Fin K → F) (hK : 2 ≤ K)
    (hP : ∀ i k, 0 ≤ P i k) :
    labelQualityScores mth (extendL labels) (extendP P) = labelQualityScores mth labels P := by
  have hs : selfConfidence (extendL labels) (extendP P) = selfConfidence labels P := by
    funext i
    exact extendP_castSucc P i _
  unfold labelQualityScores
  cases mth with
  | selfConfidence => dsimp only; rw [hs]
  | normalizedMargin =>
    have hm : normalizedMargin (extendL labels) (extendP P) = normalizedMargin labels P := by
      funext i
      unfold normalizedMargin
      rw [hs]
      congr 1
      exact maxProbNotLabel_extend (P i) (labels i) hK (hP i)
    dsimp only
    simp only [hm]

example : labelQualityScores .normalizedMargin (extendL (![0, 1] : Fin 2 → Fin 2))
    (extendP ![![(3 / 4 : ℚ), 1 / 4], ![1, 0]]) = .ok ![3 / 4, 0] := by
  refine ok_of_toOption ?_
  decide +kernel

end

/-! ### Flags -/

variable [NeZero K]

theorem reduce_extend (labels : Fin n → Fin K) (P : Fin n → Fin K → ℚ) (hP : ∀ i k, 0 ≤ P i k) (i : Fin n) :
    reduceIssues (extendL labels) (extendP P) i = reduceIssues labels P i := by
  rw [Bool.eq_iff_iff, reduceIssues_iff, reduceIssues_iff]
  unfold IsPrediction extendL
  constructor
  · rintro ⟨h1, h2⟩
    refine ⟨fun j => ?_, fun j hj => ?_⟩
    · have := h1 j.castSucc
      simpa only [extendP_castSucc, Fin.castSucc_inj] using this
    · have := h2 j.castSucc (Fin.castSucc_lt_castSucc_iff.mpr hj)
      simpa only [extendP_castSucc, Fin.castSucc_inj] using this
  · rintro ⟨h1, h2⟩
    refine ⟨fun j => ?_, fun j hj => ?_⟩
    · refine Fin.lastCases ?_ (fun j => ?_) j
      · simp only [extendP_castSucc, extendP_last, if_neg (Fin.castSucc_ne_last (labels i)).symm, if_true, add_zero]
        have := hP i (labels i)
        positivity
      · simpa only [extendP_castSucc, Fin.castSucc_inj] using h1 j
    · revert hj
      refine Fin.lastCases ?_ (fun j => ?_) j
      · intro hj
        exact absurd hj (not_lt.mpr (Fin.le_last _))
      · intro hj
        simpa only [extendP_castSucc, Fin.castSucc_inj] using h2 j (Fin.castSucc_lt_castSucc_iff.mp hj)

theorem flagged_extend (labels : Fin n → Fin K) (P : Fin n → Fin K → ℚ) (thr : Fin K → ℚ) (hP : ∀ i k, 0 ≤ P i k)
    (i : Fin n) :
    (decide (i ∈ offDiagonalIndices (extendL labels) (extendP P) (extendV thr 2)) &&
      !(reduceIssues (extendL labels) (extendP P) i)) =
    (decide (i ∈ offDiagonalIndices labels P thr) && !(reduceIssues labels P i)) := by
  have hre := reduce_extend labels P hP i
  rw [hre]
  cases hr : reduceIssues labels P i
  · rw [hr] at hre
    congr 1
    rw [decide_eq_decide, offDiagonal_reduce_iff labels P thr i hr,
      offDiagonal_reduce_iff (extendL labels) (extendP P) (extendV thr 2) i hre]
    constructor
    · rintro ⟨k, hk, hkr⟩
      revert hk hkr
      refine Fin.lastCases ?_ (fun k => ?_) k
      · intro _ hkr
        unfold Reaches at hkr
        rw [extendV_last, extendP_last] at hkr
        norm_num at hkr
      · intro hk hkr
        refine ⟨k, fun e => hk (by rw [e]; rfl), ?_⟩
        unfold Reaches at hkr ⊢
        rwa [extendV_castSucc, extendP_castSucc] at hkr
    · rintro ⟨k, hk, hkr⟩
      refine ⟨k.castSucc, fun e => hk (Fin.castSucc_injective _ e), ?_⟩
      unfold Reaches at hkr ⊢
      rwa [extendV_castSucc, extendP_castSucc]
  · simp

/-- **C133.** The default estimate of the number of issues is the same. -/
theorem C133_num_issues (A A' : ArgSort ℚ) (labels : Fin n → Fin K) (P : Fin n → Fin K → ℚ) (hP : ∀ i k, 0 ≤ P i k)
    (cj : Option (Fin K → Fin K → ℚ)) (cj' : Option (Fin (K + 1) → Fin (K + 1) → ℚ)) :
    numLabelIssues A' (extendL labels) (extendP P) cj' .offDiagonal = numLabelIssues A labels P cj .offDiagonal := by
  unfold numLabelIssues
  dsimp only
  rw [C133_thresholds]
  simp only [flagged_extend labels P _ hP]

theorem argmax_extend (p : Fin K → ℚ) (hp : ∀ k, 0 ≤ p k) : argmax (extendV p 0) = (argmax p).castSucc := by
  rw [argmax_eq_iff]
  refine ⟨fun j => ?_, fun j hj => ?_⟩
  · refine Fin.lastCases ?_ (fun j => ?_) j
    · rw [extendV_last, extendV_castSucc]; exact hp _
    · rw [extendV_castSucc, extendV_castSucc]; exact le_argmax p j
  · revert hj
    refine Fin.lastCases ?_ (fun j => ?_) j
    · intro hj
      exact absurd hj (not_lt.mpr (Fin.le_last _))
    · intro hj
      rw [extendV_castSucc, extendV_castSucc]
      exact lt_argmax p j (Fin.castSucc_lt_castSucc_iff.mp hj)

/-! ### The confident joint -/

omit [NeZero K] in
theorem reaches_extend (P : Fin n → Fin K → ℚ) (thr : Fin K → ℚ) (i : Fin n) (k : Fin (K + 1)) :
    Reaches (extendP P) (extendV thr 2) i k ↔ ∃ k', k = Fin.castSucc k' ∧ Reaches P thr i k' := by
  refine Fin.lastCases ?_ (fun k => ?_) k
  · unfold Reaches
    rw [extendV_last, extendP_last]
    constructor
    · intro h; norm_num at h
    · rintro ⟨k', h, _⟩
      exact absurd h.symm (Fin.castSucc_ne_last k')
  · constructor
    · intro h
      unfold Reaches at h
      rw [extendV_castSucc, extendP_castSucc] at h
      exact ⟨k, rfl, h⟩
    · rintro ⟨k', h, hr⟩
      obtain rfl := Fin.castSucc_injective _ h
      unfold Reaches
      rw [extendV_castSucc, extendP_castSucc]
      exact hr

theorem guess_extend (P : Fin n → Fin K → ℚ) (thr : Fin K → ℚ) (hP : ∀ i k, 0 ≤ P i k) (i : Fin n)
    (hi : ∃ k, Reaches P thr i k) :
    trueLabelGuess (extendP P) (extendV thr 2) i = (trueLabelGuess P thr i).castSucc := by
  obtain ⟨k, hk⟩ := hi
  by_cases hu : ∀ k', Reaches P thr i k' → k' = k
  · rw [trueLabelGuess_of_unique P thr i k hk hu]
    refine trueLabelGuess_of_unique _ _ _ _ ((reaches_extend P thr i _).mpr ⟨k, rfl, hk⟩) (fun k' hk' => ?_)
    obtain ⟨k'', rfl, h⟩ := (reaches_extend P thr i k').mp hk'
    rw [hu k'' h]
  · push Not at hu
    obtain ⟨k', hk', hne⟩ := hu
    rw [trueLabelGuess_of_two P thr i k' k hne hk' hk,
      trueLabelGuess_of_two (extendP P) (extendV thr 2) i k'.castSucc k.castSucc
        (fun e => hne (Fin.castSucc_injective _ e)) ((reaches_extend P thr i _).mpr ⟨k', rfl, hk'⟩)
        ((reaches_extend P thr i _).mpr ⟨k, rfl, hk⟩)]
    exact argmax_extend (P i) (hP i)

omit [NeZero K] in
theorem confident_extend (P : Fin n → Fin K → ℚ) (thr : Fin K → ℚ) (i : Fin n) :
    (∃ k, Reaches (extendP P) (extendV thr 2) i k) ↔ ∃ k, Reaches P thr i k := by
  constructor
  · rintro ⟨k, hk⟩
    obtain ⟨k', _, h⟩ := (reaches_extend P thr i k).mp hk
    exact ⟨k', h⟩
  · rintro ⟨k, hk⟩
    exact ⟨k.castSucc, (reaches_extend P thr i _).mpr ⟨k, rfl, hk⟩⟩

/-- **C133.** The uncalibrated confident joint: the same counts, and nothing counted for the class nobody uses but the 1
every diagonal entry has at least. -/
theorem C133_raw_joint (A A' : ArgSort ℚ) (labels : Fin n → Fin K) (P : Fin n → Fin K → ℚ) (hP : ∀ i k, 0 ≤ P i k) :
    (∀ a b : Fin K, computeConfidentJoint A' (extendL labels) (extendP P)
        (getConfidentThresholds (extendL labels) (extendP P)) false a.castSucc b.castSucc =
      computeConfidentJoint A labels P (getConfidentThresholds labels P) false a b) ∧
    (∀ a : Fin K, computeConfidentJoint A' (extendL labels) (extendP P)
        (getConfidentThresholds (extendL labels) (extendP P)) false a.castSucc (Fin.last K) = 0 ∧
      computeConfidentJoint A' (extendL labels) (extendP P)
        (getConfidentThresholds (extendL labels) (extendP P)) false (Fin.last K) a.castSucc = 0) ∧
    computeConfidentJoint A' (extendL labels) (extendP P)
        (getConfidentThresholds (extendL labels) (extendP P)) false (Fin.last K) (Fin.last K) = 1 := by
  rw [C133_thresholds]
  generalize getConfidentThresholds labels P = thr
  have hraw : ∀ a b : Fin (K + 1), confidentJointRaw (extendL labels) (extendP P) (extendV thr 2) a b =
      if a = b then max (Finset.univ.filter (fun i => extendL labels i = a ∧ (∃ k, Reaches P thr i k) ∧
        (trueLabelGuess P thr i).castSucc = b)).card 1
      else (Finset.univ.filter (fun i => extendL labels i = a ∧ (∃ k, Reaches P thr i k) ∧
        (trueLabelGuess P thr i).castSucc = b)).card := by
    intro a b
    have he : (Finset.univ.filter (fun i => extendL labels i = a ∧ (∃ k, Reaches P thr i k) ∧
        (trueLabelGuess P thr i).castSucc = b)).card = Count.confusionMatrix
          ((confidentRows (extendP P) (extendV thr 2)).map (trueLabelGuess (extendP P) (extendV thr 2)))
          ((confidentRows (extendP P) (extendV thr 2)).map (extendL labels)) b a := by
      rw [confidentJointRaw_count]
      congr 1
      ext i
      simp only [Finset.mem_filter, Finset.mem_univ, true_and]
      rw [confident_extend]
      refine and_congr_right (fun _ => and_congr_right (fun hc => ?_))
      rw [guess_extend P thr hP i hc]
    rw [he]
    rfl
  have hcast : ∀ a b : Fin K, confidentJointRaw (extendL labels) (extendP P) (extendV thr 2) a.castSucc b.castSucc =
      confidentJointRaw labels P thr a b := by
    intro a b
    rw [hraw]
    have he := confidentJointRaw_count labels P thr a b
    have he' : (Finset.univ.filter (fun i => extendL labels i = a.castSucc ∧ (∃ k, Reaches P thr i k) ∧
        (trueLabelGuess P thr i).castSucc = b.castSucc)).card = (Finset.univ.filter (fun i => labels i = a ∧
          (∃ k, Reaches P thr i k) ∧ trueLabelGuess P thr i = b)).card := by
      unfold extendL
      simp only [Fin.castSucc_inj]
    rw [he', ← he]
    unfold confidentJointRaw
    simp only [Fin.castSucc_inj]
  have hcol : ∀ a, (Finset.univ.filter (fun i => extendL labels i = a ∧ (∃ k, Reaches P thr i k) ∧
      (trueLabelGuess P thr i).castSucc = Fin.last K)).card = 0 := by
    intro a
    rw [Finset.card_eq_zero, Finset.filter_eq_empty_iff]
    rintro i - ⟨_, _, h⟩
    exact absurd h (Fin.castSucc_ne_last _)
  have hrow : ∀ b, (Finset.univ.filter (fun i => extendL labels i = Fin.last K ∧ (∃ k, Reaches P thr i k) ∧
      (trueLabelGuess P thr i).castSucc = b)).card = 0 := by
    intro b
    rw [Finset.card_eq_zero, Finset.filter_eq_empty_iff]
    rintro i - ⟨h, _, _⟩
    exact absurd h (Fin.castSucc_ne_last _)
  unfold computeConfidentJoint
  simp only [Bool.false_eq_true, if_false]
  refine ⟨fun a b => by rw [hcast], fun a => ⟨?_, ?_⟩, ?_⟩
  · rw [hraw, if_neg (Fin.castSucc_ne_last a), hcol]; rfl
  · rw [hraw, if_neg (Fin.castSucc_ne_last a).symm, hrow]; rfl
  · rw [hraw, if_pos rfl, hrow]; rfl

theorem unroundedJoint_extend (labels : Fin n → Fin K) (P : Fin n → Fin K → ℚ) (hP : ∀ i k, 0 ≤ P i k) :
    unroundedJoint (extendL labels) (extendP P) = extendM (unroundedJoint labels P) := by
  obtain ⟨h1, h2, h3⟩ := C133_raw_joint (stableSort ℚ) (stableSort ℚ) labels P hP
  unfold computeConfidentJoint at h1 h2 h3
  simp only [Bool.false_eq_true, if_false] at h1 h2 h3
  have h1' : ∀ a b : Fin K, confidentJointRaw (extendL labels) (extendP P)
      (getConfidentThresholds (extendL labels) (extendP P)) a.castSucc b.castSucc =
      confidentJointRaw labels P (getConfidentThresholds labels P) a b := fun a b => by exact_mod_cast h1 a b
  have h2' : ∀ a : Fin K, confidentJointRaw (extendL labels) (extendP P)
      (getConfidentThresholds (extendL labels) (extendP P)) a.castSucc (Fin.last K) = 0 :=
    fun a => by exact_mod_cast (h2 a).1
  funext a b
  unfold unroundedJoint
  rw [calibrateTotal_eq _ _ (fun a => Or.inl (raw_row_tiny _ _ _ a))]
  have hM : calibrateTotal (fun a b => (confidentJointRaw labels P (getConfidentThresholds labels P) a b : ℚ)) labels =
      calibrateRows (fun a b => (confidentJointRaw labels P (getConfidentThresholds labels P) a b : ℚ)) labels := by
    funext a b
    exact calibrateTotal_eq _ _ (fun a => Or.inl (raw_row_tiny _ _ _ a)) a b
  rw [hM]
  refine Fin.lastCases ?_ (fun a => ?_) a
  · rw [extendM_last_row]
    unfold calibrateRows
    rw [labelCounts_eq, numGiven_extend, extendV_last]
    simp
  · refine Fin.lastCases ?_ (fun b => ?_) b
    · rw [extendM_last_col]
      unfold calibrateRows
      dsimp only
      rw [h2']
      simp
    · rw [extendM_castSucc]
      unfold calibrateRows
      dsimp only
      rw [labelCounts_eq, labelCounts_eq, numGiven_extend, extendV_castSucc, h1', Fin.sum_univ_castSucc, h2']
      simp only [h1', Nat.cast_zero, add_zero]

omit [NeZero K] in
theorem isRounding_extend (x : Fin K → ℚ) (r : Fin K → ℤ) (h : IsRounding x r) : IsRounding (extendV x 0) (extendV r 0) := by
  have h0 : rint (0 : ℚ) = 0 := by decide +kernel
  obtain ⟨hs, h⟩ := h
  refine ⟨?_, ?_⟩
  · rw [Fin.sum_univ_castSucc, Fin.sum_univ_castSucc]
    simp only [extendV_castSucc, extendV_last, add_zero]
    exact hs
  · rcases h with ⟨h1, h2⟩ | ⟨h1, h2⟩
    · refine Or.inl ⟨fun i => ?_, fun i j => ?_⟩
      · refine Fin.lastCases ?_ (fun i => ?_) i
        · left; rw [extendV_last, extendV_last, h0]
        · simpa only [extendV_castSucc] using h1 i
      · refine Fin.lastCases ?_ (fun i => ?_) i
        · intro hi
          rw [extendV_last, extendV_last, h0] at hi
          omega
        · intro hi
          refine Fin.lastCases ?_ (fun j => ?_) j
          · intro _
            simp only [extendV_castSucc, extendV_last, h0] at hi ⊢
            rcases h1 i with h | ⟨_, h⟩
            · omega
            · push_cast
              linarith
          · intro hj
            simp only [extendV_castSucc] at hi hj ⊢
            exact h2 i j hi hj
    · refine Or.inr ⟨fun i => ?_, fun i j => ?_⟩
      · refine Fin.lastCases ?_ (fun i => ?_) i
        · left; rw [extendV_last, extendV_last, h0]
        · simpa only [extendV_castSucc] using h1 i
      · refine Fin.lastCases ?_ (fun i => ?_) i
        · intro hi
          rw [extendV_last, extendV_last, h0] at hi
          omega
        · intro hi
          refine Fin.lastCases ?_ (fun j => ?_) j
          · intro _
            simp only [extendV_castSucc, extendV_last, h0] at hi ⊢
            rcases h1 i with h | ⟨_, h⟩
            · omega
            · push_cast
              linarith
          · intro hj
            simp only [extendV_castSucc] at hi hj ⊢
            exact h2 i j hi hj

omit [NeZero K] in
theorem noRoundingTies_extend (x : Fin K → ℚ) (h : NoRoundingTies x) : NoRoundingTies (extendV x 0) := by
  have h0 : rint (0 : ℚ) = 0 := by decide +kernel
  intro i j
  refine Fin.lastCases ?_ (fun i => ?_) i
  · intro _ _
    rw [extendV_last, h0]; rfl
  · refine Fin.lastCases ?_ (fun j => ?_) j
    · intro _ he
      simp only [extendV_castSucc, extendV_last, h0] at he ⊢
      push_cast at he
      linarith
    · intro hij he
      simp only [extendV_castSucc] at he ⊢
      exact h i j (fun e => hij (by rw [e])) he

/-- **C133 (partial).** The calibrated confident joint and the estimated joint distribution have a row and a column of zeros
more, unless the rounding of the counts has to break a tie. -/
theorem C133_joint_partial (A A' : ArgSort ℚ) (labels : Fin n → Fin K) (P : Fin n → Fin K → ℚ) (hP : ∀ i k, 0 ≤ P i k)
    (ht : ∀ a, NoRoundingTies (unroundedJoint labels P a)) :
    computeConfidentJoint A' (extendL labels) (extendP P) (getConfidentThresholds (extendL labels) (extendP P)) true =
      extendM (computeConfidentJoint A labels P (getConfidentThresholds labels P) true) ∧
    estimateJoint A' (extendL labels) (extendP P) = extendM (estimateJoint A labels P) := by
  have hM : computeConfidentJoint A' (extendL labels) (extendP P)
      (getConfidentThresholds (extendL labels) (extendP P)) true =
      extendM (computeConfidentJoint A labels P (getConfidentThresholds labels P) true) := by
    unfold computeConfidentJoint calibrateConfidentJoint
    rw [if_pos rfl, if_pos rfl]
    have hu := unroundedJoint_extend labels P hP
    unfold unroundedJoint at hu
    rw [hu]
    funext a
    refine Fin.lastCases ?_ (fun a => ?_) a
    · funext b
      rw [extendM_last_row]
      exact roundRows_intCast A' _ _ b 0 (by rw [extendM_last_row]; rfl)
    · have e1 : extendM (unroundedJoint labels P) a.castSucc = extendV (unroundedJoint labels P a) 0 := by
        unfold extendM; rw [extendV_castSucc]
      have e2 : extendM (roundRows A (unroundedJoint labels P)) a.castSucc =
          extendV (roundRows A (unroundedJoint labels P) a) 0 := by
        unfold extendM; rw [extendV_castSucc]
      have r1 := roundRows_rounding A' (extendM (unroundedJoint labels P)) a.castSucc
      rw [e1] at r1
      have := IsRounding.unique (noRoundingTies_extend _ (ht a)) r1
        (isRounding_extend _ _ (roundRows_rounding A (unroundedJoint labels P) a))
      unfold unroundedJoint at this e2
      rw [this, e2]
  refine ⟨hM, ?_⟩
  have hs : ∑ a, ∑ b, extendM (computeConfidentJoint A labels P (getConfidentThresholds labels P) true) a b =
      ∑ a, ∑ b, computeConfidentJoint A labels P (getConfidentThresholds labels P) true a b := by
    rw [Fin.sum_univ_castSucc]
    simp only [extendM_last_row, Finset.sum_const_zero, add_zero]
    refine Finset.sum_congr rfl (fun a _ => ?_)
    rw [Fin.sum_univ_castSucc]
    simp only [extendM_last_col, extendM_castSucc, add_zero]
  funext a b
  unfold estimateJoint
  dsimp only
  rw [hM, hs]
  refine Fin.lastCases ?_ (fun a => ?_) a
  · rw [extendM_last_row, extendM_last_row]; simp
  · refine Fin.lastCases ?_ (fun b => ?_) b
    · rw [extendM_last_col, extendM_last_col]; simp
    · rw [extendM_castSucc, extendM_castSucc]

/-! ### Filters -/

omit [NeZero K] in
theorem numNoiseRates_extend (pcm : Fin K → Fin K → ℚ) (k : Fin K) :
    numNoiseRates (extendM pcm) k.castSucc = numNoiseRates pcm k := by
  unfold numNoiseRates
  rw [finRange_extend, List.countP_append, List.countP_map, List.countP_singleton]
  have hf : ((fun j => decide (extendM pcm j k.castSucc ≠ 0)) ∘ Fin.castSucc) = fun j : Fin K => decide (pcm j k ≠ 0) := by
    funext j
    simp
  rw [hf, extendM_last_row]
  simp

omit [NeZero K] in
theorem keepDiagonal_extend (pcm : Fin K → Fin K → ℚ) (minN : ℕ) (j k : Fin K) :
    keepDiagonal (extendM pcm) minN j.castSucc k.castSucc = keepDiagonal pcm minN j k ∧
    keepDiagonal (extendM pcm) minN (Fin.last K) k.castSucc = 0 := by
  unfold keepDiagonal
  dsimp only
  rw [numNoiseRates_extend]
  simp only [extendM_castSucc, extendM_last_row, Fin.castSucc_inj, if_neg (Fin.castSucc_ne_last k).symm]
  refine ⟨trivial, ?_⟩
  have h1 : 0 ≤ (max (pcm k k) minN - pcm k k) / numNoiseRates pcm k := by
    refine div_nonneg (by linarith [le_max_left (pcm k k) (minN : ℚ)]) ?_
    unfold numNoiseRates
    exact le_trans zero_le_one (le_max_right _ _)
  split_ifs with h
  · rfl
  · linarith

omit [NeZero K] in
theorem keepAtLeastN_extend (A A' : ArgSort ℚ) (pcm : Fin K → Fin K → ℚ) (minN : ℕ) (frac : ℚ) (j k : Fin K) :
    keepAtLeastN A' (extendM pcm) minN frac j.castSucc k.castSucc = keepAtLeastN A pcm minN frac j k ∧
    keepAtLeastN A' (extendM pcm) minN frac (Fin.last K) k.castSucc = 0 := by
  rw [keepAtLeastN_eq, keepAtLeastN_eq, keepAtLeastN_eq]
  unfold reducePruneCounts reducePruneCountsExact
  dsimp only
  rw [Fin.sum_univ_castSucc]
  have hk := fun j => (keepDiagonal_extend pcm minN j k).1
  have hl := (keepDiagonal_extend pcm minN k k).2
  simp only [hk, hl, Fin.castSucc_inj, if_neg (Fin.castSucc_ne_last k).symm, zero_mul, sub_zero, add_zero, true_and]
  decide +kernel

omit [NeZero K] in
theorem classIdx_extend (labels : Fin n → Fin K) (k : Fin K) : classIdx (extendL labels) k.castSucc = classIdx labels k := by
  unfold classIdx extendL
  simp only [Fin.castSucc_inj]

omit [NeZero K] in
theorem pruneByClass_extend (A : ArgSort ℚ) {c : ℕ} (k : Fin K) (minN : ℕ) (sub : Fin c → Fin K → ℚ)
    (col : Fin K → ℤ) (col' : Fin (K + 1) → ℤ) (hc : ∀ j, col' (Fin.castSucc j) = col j) :
    pruneByClass A k.castSucc minN (extendP sub) col' = pruneByClass A k minN sub col := by
  unfold pruneByClass
  simp only [hc, extendP_castSucc]

omit [NeZero K] in
theorem pruneByCount_extend (A : ArgSort ℚ) {c : ℕ} (k : Fin K) (minN : ℕ) (sub : Fin c → Fin K → ℚ)
    (col : Fin K → ℤ) (col' : Fin (K + 1) → ℤ) (hc : ∀ j, col' (Fin.castSucc j) = col j) (hl : col' (Fin.last K) = 0) :
    pruneByCount A k.castSucc minN (extendP sub) col' = pruneByCount A k minN sub col := by
  funext r
  rw [Bool.eq_iff_iff, pruneByCount_iff, pruneByCount_iff]
  refine and_congr_right (fun _ => ?_)
  constructor
  · rintro ⟨j, h1, h2, h3⟩
    revert h1 h2 h3
    refine Fin.lastCases ?_ (fun j => ?_) j
    · intro _ h2
      rw [hl] at h2
      omega
    · intro h1 h2 h3
      rw [hc] at h2 h3
      simp only [extendP_castSucc] at h3
      exact ⟨j, fun e => h1 (by rw [e]), h2, h3⟩
  · rintro ⟨j, h1, h2, h3⟩
    refine ⟨j.castSucc, fun e => h1 (Fin.castSucc_injective _ e), by rw [hc]; exact h2, ?_⟩
    rw [hc]
    simp only [extendP_castSucc]
    exact h3

omit [NeZero K] in
theorem maskByClass_extend (A : ArgSort ℚ) (labels : Fin n → Fin K) (P : Fin n → Fin K → ℚ) (minN : ℕ)
    (pcm : Fin K → Fin K → ℤ) (pcm' : Fin (K + 1) → Fin (K + 1) → ℤ)
    (hc : ∀ j k : Fin K, pcm' j.castSucc k.castSucc = pcm j k) :
    maskByClass A (extendL labels) (extendP P) minN pcm' = maskByClass A labels P minN pcm := by
  funext i
  unfold maskByClass
  rw [combineMasks_value, combineMasks_value]
  have h : ∀ r, pruneByClass A (extendL labels i) minN (classProbs (extendL labels) (extendP P) (extendL labels i))
      (fun j => pcm' j (extendL labels i)) r = pruneByClass A (labels i) minN
        (fun r => P ((classIdx (extendL labels) (extendL labels i)).get r)) (fun j => pcm j (labels i)) r := by
    intro r
    exact congrFun (pruneByClass_extend A (labels i) minN
      (fun r => P ((classIdx (extendL labels) (extendL labels i)).get r)) _ _ (fun j => hc j (labels i))) r
  simp only [h]
  exact mask_congr (M := fun idx r => pruneByClass A (labels i) minN (fun r => P (idx.get r)) (fun j => pcm j (labels i)) r)
    (classIdx_extend labels (labels i)) i _ _

omit [NeZero K] in
theorem maskByCount_extend (A : ArgSort ℚ) (labels : Fin n → Fin K) (P : Fin n → Fin K → ℚ) (minN : ℕ)
    (pcm : Fin K → Fin K → ℤ) (pcm' : Fin (K + 1) → Fin (K + 1) → ℤ)
    (hc : ∀ j k : Fin K, pcm' j.castSucc k.castSucc = pcm j k) (hl : ∀ k : Fin K, pcm' (Fin.last K) k.castSucc = 0) :
    maskByCount A (extendL labels) (extendP P) minN pcm' = maskByCount A labels P minN pcm := by
  funext i
  unfold maskByCount
  rw [combineMasks_value, combineMasks_value]
  have h : ∀ r, pruneByCount A (extendL labels i) minN (classProbs (extendL labels) (extendP P) (extendL labels i))
      (fun j => pcm' j (extendL labels i)) r = pruneByCount A (labels i) minN
        (fun r => P ((classIdx (extendL labels) (extendL labels i)).get r)) (fun j => pcm j (labels i)) r := by
    intro r
    exact congrFun (pruneByCount_extend A (labels i) minN
      (fun r => P ((classIdx (extendL labels) (extendL labels i)).get r)) _ _ (fun j => hc j (labels i)) (hl (labels i))) r
  simp only [h]
  exact mask_congr (M := fun idx r => pruneByCount A (labels i) minN (fun r => P (idx.get r)) (fun j => pcm j (labels i)) r)
    (classIdx_extend labels (labels i)) i _ _

/-- The arguments for one more class: a given confident joint gets a row and a column of zeros. -/
def extendArgs (args : Args K) : Args (K + 1) where
  filterBy := args.filterBy
  fracNoise := args.fracNoise
  numToRemove := args.numToRemove.map (fun v => extendV v 0)
  minExamples := args.minExamples
  confidentJoint := args.confidentJoint.map extendM
  nanInt := args.nanInt

theorem findLabelIssues_extend (A : ArgSort ℚ) (labels : Fin n → Fin K) (P : Fin n → Fin K → ℚ) (args : Args K)
    (hK : 2 ≤ K) (hP : ∀ i k, 0 ≤ P i k) (hn : args.numToRemove = none)
    (hJ : FiltersByJoint args.filterBy → args.confidentJoint = none → ∀ a, NoRoundingTies (unroundedJoint labels P a)) :
    findLabelIssues A (extendL labels) (extendP P) (extendArgs args) = findLabelIssues A labels P args := by
  have hred : reduceIssues (extendL labels) (extendP P) = reduceIssues labels P := funext (reduce_extend labels P hP)
  have hfb : (extendArgs args).filterBy = args.filterBy := rfl
  have hmin : (extendArgs args).minExamples = args.minExamples := rfl
  have hfr : (extendArgs args).fracNoise = args.fracNoise := rfl
  have hnr : (extendArgs args).numToRemove = none := by unfold extendArgs; rw [hn]; rfl
  have hlow : ∀ m, lowScoreIndices A (extendL labels) (extendP P) m = lowScoreIndices A labels P m := by
    intro m
    unfold lowScoreIndices
    rw [C133_scores m labels P hK hP, C133_num_issues A A labels P hP none none]
  have hpcm : FiltersByJoint args.filterBy → ∃ pcm pcm',
      pruneCountMatrix A (Filter.usedJoint A labels P args) labels args.minExamples args.fracNoise none
        args.nanInt = .ok pcm ∧
      pruneCountMatrix A (Filter.usedJoint A (extendL labels) (extendP P) (extendArgs args)) (extendL labels)
        args.minExamples args.fracNoise none (extendArgs args).nanInt = .ok pcm' ∧
      (∀ j k : Fin K, pcm' j.castSucc k.castSucc = pcm j k) ∧ ∀ k : Fin K, pcm' (Fin.last K) k.castSucc = 0 := by
    intro hu
    refine ⟨_, _, pruneCountMatrix_none A _ labels _ _ _, pruneCountMatrix_none A _ _ _ _ _, ?_⟩
    have hj : Filter.usedJoint A (extendL labels) (extendP P) (extendArgs args) =
        extendM (Filter.usedJoint A labels P args) := by
      unfold Filter.usedJoint extendArgs
      cases hc : args.confidentJoint with
      | some cj => rfl
      | none =>
        dsimp only [Option.map]
        rw [(C133_joint_partial A A labels P hP (hJ hu hc)).1]
        funext a b
        refine Fin.lastCases ?_ (fun a => ?_) a
        · rw [extendM_last_row, extendM_last_row]; rfl
        · refine Fin.lastCases ?_ (fun b => ?_) b
          · rw [extendM_last_col, extendM_last_col]; rfl
          · rw [extendM_castSucc, extendM_castSucc]
    have hT : (fun j k => extendM (Filter.usedJoint A labels P args) k j) =
        extendM (fun j k => Filter.usedJoint A labels P args k j) := by
      funext a b
      refine Fin.lastCases ?_ (fun a => ?_) a
      · rw [extendM_last_row, extendM_last_col]
      · refine Fin.lastCases ?_ (fun b => ?_) b
        · rw [extendM_last_col, extendM_last_row]
        · rw [extendM_castSucc, extendM_castSucc]
    rw [hj, hT]
    exact ⟨fun j k => (keepAtLeastN_extend A A _ _ _ j k).1, fun k => (keepAtLeastN_extend A A _ _ _ k k).2⟩
  unfold findLabelIssues rawMask
  rw [hnr, hn, hfb, hmin, hfr, hred]
  unfold FiltersByJoint at hpcm
  cases hf : args.filterBy <;> rw [hf] at hpcm <;> dsimp only
  · rw [hlow]
    simp
  · rw [hlow]
    simp
  · obtain ⟨pcm, pcm', h1, h2, h3, h4⟩ := hpcm (by simp)
    rw [h1, h2]
    dsimp only [bind, Except.bind, pure, Except.pure]
    rw [maskByCount_extend A labels P _ pcm pcm' h3 h4]
    simp
  · obtain ⟨pcm, pcm', h1, h2, h3, h4⟩ := hpcm (by simp)
    rw [h1, h2]
    dsimp only [bind, Except.bind, pure, Except.pure]
    rw [maskByClass_extend A labels P _ pcm pcm' h3]
    simp
  · obtain ⟨pcm, pcm', h1, h2, h3, h4⟩ := hpcm (by simp)
    rw [h1, h2]
    dsimp only [bind, Except.bind, pure, Except.pure]
    rw [maskByClass_extend A labels P _ pcm pcm' h3, maskByCount_extend A labels P _ pcm pcm' h3 h4]
    simp
  · have hfl := fun i => flagged_extend labels P (getConfidentThresholds labels P) hP i
    rw [hred, ← C133_thresholds] at hfl
    simp only [Option.isSome_none, Bool.false_eq_true, false_and, if_false, List.mem_cons, reduceCtorEq, List.not_mem_nil,
      or_self, bind, Except.bind, pure, Except.pure]
    congr 1
    funext i
    exact hfl i
  · simp only [Option.isSome_none, Bool.false_eq_true, false_and, if_false, List.mem_cons, reduceCtorEq, List.not_mem_nil,
      or_self, bind, Except.bind, pure, Except.pure]
    congr 1
    funext i
    have ha : argmax (extendP P i) ≠ extendL labels i ↔ argmax (P i) ≠ labels i := by
      unfold extendP extendL
      rw [argmax_extend (P i) (hP i)]
      exact not_congr Fin.castSucc_inj
    rw [decide_eq_decide.mpr ha]

/-- **C133 (partial).** `find_label_issues` flags the same examples with one more class nobody uses: with every filter if the
confident joint is given, and with an estimated one unless the rounding of its counts has to break a tie. Left out are the
removal of a given number of examples per class and data with only one class. -/
theorem C133_find_partial (A : ArgSort ℚ) (labels : Fin n → Fin K) (P : Fin n → Fin K → ℚ) (args : Args K)
    (hl : ∃ i j, labels i ≠ labels j) (hP : ∀ i k, 0 ≤ P i k ∧ P i k ≤ 1) (hn : args.numToRemove = none)
    (hJ : FiltersByJoint args.filterBy → args.confidentJoint = none → ∀ a, NoRoundingTies (unroundedJoint labels P a)) :
    findChecked A (extendL labels) (extendP P) (extendArgs args) = findChecked A labels P args := by
  obtain ⟨i, j, hij⟩ := hl
  have hr : InRange P := fun i k => ⟨by linarith [(hP i k).1], by linarith [(hP i k).2]⟩
  have hr' : InRange (extendP P) := by
    intro i k
    refine Fin.lastCases ?_ (fun k => ?_) k
    · rw [extendP_last]; norm_num
    · rw [extendP_castSucc]; exact hr i k
  have hK : 2 ≤ K := by
    by_contra h
    have : Subsingleton (Fin K) := Fin.subsingleton_iff_le_one.mpr (by omega)
    exact hij (Subsingleton.elim _ _)
  rw [(C115_accepts_partial A labels P ⟨i, j, hij⟩ hr).1,
    (C115_accepts_partial A (extendL labels) (extendP P) ⟨i, j, fun e => hij (Fin.castSucc_injective _ e)⟩ hr').1]
  exact findLabelIssues_extend A labels P args hK (fun i k => (hP i k).1) hn hJ

/-- With the counts 8/3 and 4/3 the theorem also applies to the filters that estimate the joint. -/
example : (∃ i j, thirdsLabels i ≠ thirdsLabels j) ∧ ∀ i k, 0 ≤ thirdsProbs i k ∧ thirdsProbs i k ≤ 1 := by
  decide +kernel

/-! ### Adjusted and entropy scores -/

theorem adjusted_le_iff (P : Fin n → Fin K → ℚ) (thr : Fin K → ℚ) (hP : RowStochastic P) (i j : Fin n) (a b : Fin K) :
    subtractConfidentThresholds P thr i a ≤ subtractConfidentThresholds P thr j b ↔ P i a - thr a ≤ P j b - thr b := by
  unfold subtractConfidentThresholds
  dsimp only
  have hD : ∀ i, ∑ k', (P i k' - thr k' + thr (argmax thr)) = 1 + ∑ k', (thr (argmax thr) - thr k') := by
    intro i
    rw [← (hP i).2, ← Finset.sum_add_distrib]
    exact Finset.sum_congr rfl (fun k _ => by ring)
  have hpos : 0 < 1 + ∑ k', (thr (argmax thr) - thr k') := by
    have : 0 ≤ ∑ k', (thr (argmax thr) - thr k') := Finset.sum_nonneg (fun k _ => by linarith [le_argmax thr k])
    linarith
  rw [hD, hD, div_le_div_iff_of_pos_right hpos]
  constructor <;> intro h <;> linarith

/-- **C133.** With `adjust_pred_probs` the order of the examples by self-confidence stays the same. -/
theorem C133_adjusted_order (labels : Fin n → Fin K) (P : Fin n → Fin K → ℚ) (hP : RowStochastic P) (i j : Fin n) :
    selfConfidence (extendL labels) (subtractConfidentThresholds (extendP P)
        (getConfidentThresholds (extendL labels) (extendP P))) i ≤
      selfConfidence (extendL labels) (subtractConfidentThresholds (extendP P)
        (getConfidentThresholds (extendL labels) (extendP P))) j ↔
    selfConfidence labels (subtractConfidentThresholds P (getConfidentThresholds labels P)) i ≤
      selfConfidence labels (subtractConfidentThresholds P (getConfidentThresholds labels P)) j := by
  have hP' : RowStochastic (extendP P) := by
    intro i
    refine ⟨fun k => ?_, ?_⟩
    · refine Fin.lastCases ?_ (fun k => ?_) k
      · rw [extendP_last]
      · rw [extendP_castSucc]; exact (hP i).1 k
    · rw [Fin.sum_univ_castSucc]
      simp only [extendP_castSucc, extendP_last, add_zero]
      exact (hP i).2
  unfold selfConfidence
  rw [adjusted_le_iff _ _ hP', adjusted_le_iff _ _ hP, C133_thresholds]
  unfold extendL
  simp only [extendP_castSucc, extendV_castSucc]

/-- Two sure examples. -/
def sureLabels : Fin 2 → Fin 2 := ![0, 1]

def sureProbs : Fin 2 → Fin 2 → ℚ := ![![3 / 4, 1 / 4], ![1 / 4, 3 / 4]]

example : RowStochastic sureProbs := by unfold RowStochastic sureProbs; decide +kernel

/-- **C133 fails for adjusted probabilities.** The threshold 2 of the class nobody uses enters the adjustment: every adjusted
score changes. -/
theorem C133_not_adjusted :
    selfConfidence sureLabels (subtractConfidentThresholds sureProbs (getConfidentThresholds sureLabels sureProbs)) 0 = 3 / 4 ∧
    selfConfidence (extendL sureLabels) (subtractConfidentThresholds (extendP sureProbs)
      (getConfidentThresholds (extendL sureLabels) (extendP sureProbs))) 0 = 4 / 7 := by
  have h1 : getConfidentThresholds sureLabels sureProbs = ![3 / 4, 3 / 4] := by
    funext k; revert k; decide +kernel
  rw [C133_thresholds, h1]
  decide +kernel

/-- **C133 fails for one class.** With a single class there is no margin and the call fails; with a class nobody uses beside
it the margin is computed. -/
theorem C133_not_one_class :
    (∃ e, labelQualityScores .normalizedMargin (fun _ : Fin 1 => (0 : Fin 1)) (fun _ _ => (1 : ℚ)) = .error e) ∧
    ∃ s, labelQualityScores .normalizedMargin (extendL (fun _ : Fin 1 => (0 : Fin 1))) (extendP (fun _ _ => (1 : ℚ))) =
      .ok s ∧ s 0 = 1 := by
  constructor
  · unfold labelQualityScores
    dsimp only
    rw [dif_neg (by decide +kernel)]
    exact ⟨_, rfl⟩
  · unfold labelQualityScores
    dsimp only
    rw [dif_pos (by decide +kernel)]
    exact ⟨_, rfl, by decide +kernel⟩

/-- One example of which the model says nothing. -/
noncomputable def evenRow : Fin 1 → Fin 2 → ℝ := fun _ _ => 1 / 2

omit [NeZero K] in
theorem entropy_score (labels : Fin n → Fin K) (P : Fin n → Fin K → ℝ) (hP : ∀ i k, 0 ≤ P i k ∧ P i k ≤ 1) (hK : 2 ≤ K) :
    confidenceWeightedEntropy labels P = .ok (fun i => Real.log (rowEntropy (P i) /
      max (selfConfidence labels P i) clippingLowerBound + 1) /
        max (rowEntropy (P i) / max (selfConfidence labels P i) clippingLowerBound) clippingLowerBound) := by
  unfold confidenceWeightedEntropy normalizedEntropy
  rw [if_neg (by rintro ⟨i, k, h | h⟩ <;> linarith [(hP i k).1, (hP i k).2]), if_neg (by omega)]
  rfl

/-- **C133 fails for the entropy score.** It is divided by the logarithm of the number of classes, used or not: the score
of this example is below 0.56 with two classes and above 0.57 with three. -/
theorem C133_not_entropy : ∃ s s' : Fin 1 → ℝ,
    confidenceWeightedEntropy (fun _ : Fin 1 => (0 : Fin 2)) evenRow = .ok s ∧
    confidenceWeightedEntropy (extendL (fun _ : Fin 1 => (0 : Fin 2))) (extendP evenRow) = .ok s' ∧
    s 0 < 56 / 100 ∧ 57 / 100 < s' 0 := by
  have hP : ∀ (i : Fin 1) (k : Fin 2), 0 ≤ evenRow i k ∧ evenRow i k ≤ 1 := by
    intro i k; unfold evenRow; norm_num
  have hP' : ∀ (i : Fin 1) (k : Fin 3), 0 ≤ extendP evenRow i k ∧ extendP evenRow i k ≤ 1 := by
    intro i k
    refine Fin.lastCases ?_ (fun k => ?_) k
    · rw [extendP_last]; norm_num
    · rw [extendP_castSucc]; exact hP i k
  refine ⟨_, _, entropy_score _ _ hP (by norm_num), entropy_score _ _ hP' (by norm_num), ?_, ?_⟩
  · have hl : Real.log 2 ≠ 0 := (Real.log_pos (by norm_num)).ne'
    have he : rowEntropy (evenRow 0) = 1 := by
      unfold rowEntropy evenRow
      rw [Fin.sum_univ_two, one_div, Real.log_inv]
      push_cast
      field_simp
      ring
    have hm : max (selfConfidence (fun _ : Fin 1 => (0 : Fin 2)) evenRow 0) clippingLowerBound = 1 / 2 := by
      unfold selfConfidence evenRow clippingLowerBound
      norm_num
    rw [he, hm]
    have hm2 : max ((1 : ℝ) / (1 / 2)) clippingLowerBound = 2 := by
      unfold clippingLowerBound
      norm_num
    rw [hm2]
    have h3 : Real.log ((1 : ℝ) / (1 / 2) + 1) = 1 + Real.log (3 / Real.exp 1) := by
      rw [Real.log_div (by norm_num) (Real.exp_pos 1).ne', Real.log_exp]
      norm_num
    have h4 := Real.log_le_sub_one_of_pos (div_pos (by norm_num : (0 : ℝ) < 3) (Real.exp_pos 1))
    have h5 : 3 / Real.exp 1 < 111 / 100 := by
      rw [div_lt_iff₀ (Real.exp_pos 1)]
      linarith [Real.exp_one_gt_d9]
    rw [h3]
    linarith
  · have h2 : 0 < Real.log 2 := Real.log_pos (by norm_num)
    have h3 : 0 < Real.log 3 := Real.log_pos (by norm_num)
    have he : rowEntropy (extendP evenRow 0) = Real.log 2 / Real.log 3 := by
      unfold rowEntropy
      rw [Fin.sum_univ_castSucc]
      simp only [extendP_castSucc, extendP_last]
      unfold evenRow
      rw [Fin.sum_univ_two, one_div, Real.log_inv]
      push_cast
      norm_num
      ring
    have hm : max (selfConfidence (extendL (fun _ : Fin 1 => (0 : Fin 2))) (extendP evenRow) 0) clippingLowerBound
        = 1 / 2 := by
      unfold selfConfidence extendL
      rw [extendP_castSucc]
      unfold evenRow clippingLowerBound
      norm_num
    rw [he, hm]
    set x : ℝ := Real.log 2 / Real.log 3 / (1 / 2) with hx
    have hle : x ≤ 3 / 2 := by
      rw [hx, div_le_iff₀ (by norm_num), div_le_iff₀ h3]
      have h27 : 4 * Real.log 2 ≤ 3 * Real.log 3 := by
        have e1 : 4 * Real.log 2 = Real.log (2 ^ 4) := by rw [Real.log_pow]; norm_num
        have e2 : 3 * Real.log 3 = Real.log (3 ^ 3) := by rw [Real.log_pow]; norm_num
        rw [e1, e2]
        exact Real.log_le_log (by norm_num) (by norm_num)
      linarith
    have hge : 1 ≤ x := by
      rw [hx, le_div_iff₀ (by norm_num), le_div_iff₀ h3]
      have e1 : 2 * Real.log 2 = Real.log (2 ^ 2) := by rw [Real.log_pow]; norm_num
      have : Real.log 3 ≤ Real.log (2 ^ 2) := Real.log_le_log (by norm_num) (by norm_num)
      linarith
    have hmx : max x clippingLowerBound = x := by
      refine max_eq_left (le_trans ?_ hge)
      unfold clippingLowerBound
      norm_num
    rw [hmx]
    have hlog := Real.le_log_one_add_of_nonneg (by linarith : 0 ≤ x)
    rw [lt_div_iff₀ (by linarith), add_comm x 1]
    refine lt_of_lt_of_le ?_ hlog
    rw [lt_div_iff₀ (by linarith)]
    nlinarith

end Cleanlab.Props
