import Verif.Props.ClassNumbering
import Verif.Props.FilterChecked

/-!
# C215: examples of other classes do not matter where these classes are excluded

A data set is part of a larger one. The labels of the part belong to a group of classes, and the model gives the examples of
the part no probability outside that group (up to `1e-6`). The other examples of the larger data set have labels outside the
group; nothing else is assumed about them.
-/

namespace Cleanlab.Props

open Np Cleanlab.Util Cleanlab.Count Cleanlab.Filter Cleanlab.Spec Cleanlab.Validation

variable {n N K : ℕ}

/-- The first data set is the part of the second one, at the places `e`, whose labels belong to the group `S`; the classes
outside `S` are excluded for the examples of the part. -/
structure IsPart (S : Fin K → Prop) (e : Fin n ↪o Fin N) (labels : Fin n → Fin K) (P : Fin n → Fin K → ℚ)
    (labels' : Fin N → Fin K) (P' : Fin N → Fin K → ℚ) : Prop where
  labels_eq : ∀ i, labels' (e i) = labels i
  rows_eq : ∀ i, P' (e i) = P i
  inside : ∀ i, S (labels i)
  covers : ∀ j, S (labels' j) → ∃ i, e i = j
  excluded : ∀ i k, ¬ S k → P i k < 1 / 10 ^ 6

variable {S : Fin K → Prop} {e : Fin n ↪o Fin N} {labels : Fin n → Fin K} {P : Fin n → Fin K → ℚ}
  {labels' : Fin N → Fin K} {P' : Fin N → Fin K → ℚ}

theorem part_classIdx (h : IsPart S e labels P labels' P') (k : Fin K) (hk : S k) :
    classIdx labels' k = (classIdx labels k).map e := by
  have hs : ∀ m, (List.finRange m).Pairwise (· < ·) := List.pairwise_lt_finRange
  refine List.Perm.eq_of_pairwise (le := (· < ·)) (fun a b _ _ h1 h2 => absurd h1 (not_lt.mpr h2.le)) ?_ ?_ ?_
  · exact (hs N).filter _
  · rw [List.pairwise_map]
    exact ((hs n).filter _).imp (fun hlt => e.lt_iff_lt.mpr hlt)
  · refine (List.perm_ext_iff_of_nodup (nodup_classIdx labels' k) ((nodup_classIdx labels k).map e.injective)).mpr (fun j => ?_)
    rw [mem_classIdx, List.mem_map]
    constructor
    · intro hj
      obtain ⟨i, rfl⟩ := h.covers j (by rw [hj]; exact hk)
      exact ⟨i, by rw [mem_classIdx, ← h.labels_eq]; exact hj, rfl⟩
    · rintro ⟨i, hi, rfl⟩
      rw [mem_classIdx] at hi
      rw [h.labels_eq, hi]

theorem part_numGiven (h : IsPart S e labels P labels' P') (k : Fin K) (hk : S k) :
    numGiven labels' k = numGiven labels k := by
  rw [← length_classIdx, ← length_classIdx, part_classIdx h k hk, List.length_map]

/-- The thresholds of the classes of the group are those of the part. -/
theorem part_thresholds (h : IsPart S e labels P labels' P') (k : Fin K) (hk : S k) :
    getConfidentThresholds labels' P' k = getConfidentThresholds labels P k := by
  have hm : classMean labels' P' k = classMean labels P k := by
    have hl : ((List.finRange N).filter (fun i => labels' i = k)).map (fun i => P' i k) =
        ((List.finRange n).filter (fun i => labels i = k)).map (fun i => P i k) := by
      have := part_classIdx h k hk
      unfold classIdx at this
      rw [this, List.map_map]
      exact List.map_congr_left (fun i _ => by rw [Function.comp_apply, h.rows_eq])
    unfold classMean
    dsimp only
    rw [hl]
  have hmem : k ∈ List.ofFn labels' ↔ k ∈ List.ofFn labels := by
    rw [List.mem_ofFn, List.mem_ofFn]
    constructor
    · rintro ⟨j, rfl⟩
      obtain ⟨i, rfl⟩ := h.covers j hk
      exact ⟨i, (h.labels_eq i).symm⟩
    · rintro ⟨i, rfl⟩
      exact ⟨e i, h.labels_eq i⟩
  unfold getConfidentThresholds
  rw [hm]
  simp only [hmem]

theorem part_reaches (h : IsPart S e labels P labels' P') (i : Fin n) (k : Fin K) :
    Reaches P' (getConfidentThresholds labels' P') (e i) k ↔ Reaches P (getConfidentThresholds labels P) i k := by
  unfold Reaches
  rw [h.rows_eq]
  by_cases hk : S k
  · rw [part_thresholds h k hk]
  · have h1 := h.excluded i k hk
    have h2 : thresholdsLowerBound ≤ getConfidentThresholds labels' P' k := le_max_right _ _
    have h3 : thresholdsLowerBound ≤ getConfidentThresholds labels P k := le_max_right _ _
    unfold thresholdsLowerBound at h2 h3
    constructor <;> intro hr <;> exfalso <;> linarith

theorem part_bool (h : IsPart S e labels P labels' P') (i : Fin n) (k : Fin K) :
    predProbsBool P' (getConfidentThresholds labels' P') (e i) k = predProbsBool P (getConfidentThresholds labels P) i k := by
  unfold predProbsBool
  rw [decide_eq_decide]
  have := part_reaches h i k
  unfold Reaches at this
  constructor
  · intro hx
    linarith [this.mp (by linarith)]
  · intro hx
    linarith [this.mpr (by linarith)]

theorem part_bins (h : IsPart S e labels P labels' P') (i : Fin n) :
    numConfidentBins P' (getConfidentThresholds labels' P') (e i) = numConfidentBins P (getConfidentThresholds labels P) i := by
  unfold numConfidentBins
  rw [funext (part_bool h i)]

variable [NeZero K]

theorem part_guess (h : IsPart S e labels P labels' P') (i : Fin n) :
    trueLabelGuess P' (getConfidentThresholds labels' P') (e i) = trueLabelGuess P (getConfidentThresholds labels P) i := by
  unfold trueLabelGuess
  rw [part_bins h, h.rows_eq]
  simp only [part_bool h]

/-- The counts of the confident joint for the labels of the group are those of the part. -/
theorem part_raw (h : IsPart S e labels P labels' P') (a : Fin K) (ha : S a) (b : Fin K) :
    confidentJointRaw labels' P' (getConfidentThresholds labels' P') a b =
      confidentJointRaw labels P (getConfidentThresholds labels P) a b := by
  classical
  have hc : (Finset.univ.filter (fun i => labels' i = a ∧ (∃ k, Reaches P' (getConfidentThresholds labels' P') i k) ∧
      trueLabelGuess P' (getConfidentThresholds labels' P') i = b)).card =
    (Finset.univ.filter (fun i => labels i = a ∧ (∃ k, Reaches P (getConfidentThresholds labels P) i k) ∧
      trueLabelGuess P (getConfidentThresholds labels P) i = b)).card := by
    symm
    refine Finset.card_bij (fun i _ => e i) ?_ (fun _ _ _ _ he => e.injective he) ?_
    · intro i hi
      simp only [Finset.mem_filter, Finset.mem_univ, true_and] at hi ⊢
      rw [h.labels_eq, part_guess h]
      simp only [part_reaches h]
      exact hi
    · intro j hj
      simp only [Finset.mem_filter, Finset.mem_univ, true_and] at hj
      obtain ⟨i, rfl⟩ := h.covers j (by rw [hj.1]; exact ha)
      refine ⟨i, ?_, rfl⟩
      simp only [Finset.mem_filter, Finset.mem_univ, true_and]
      rw [h.labels_eq, part_guess h] at hj
      simp only [part_reaches h] at hj
      exact hj
  unfold confidentJointRaw
  dsimp only
  rw [confidentJointRaw_count, confidentJointRaw_count]
  convert rfl using 2 <;> first | exact hc.symm | (congr 1; exact hc.symm)

omit [NeZero K] in
theorem roundRows_row (A : ArgSort ℚ) (c c' : Fin K → Fin K → ℚ) (a : Fin K) (h : c a = c' a) :
    roundRows A c a = roundRows A c' a := by
  unfold roundRows
  simp only [h]

theorem part_joint (h : IsPart S e labels P labels' P') (A : ArgSort ℚ) (args : Args K) (a : Fin K) (ha : S a) (b : Fin K) :
    Filter.usedJoint A labels' P' args a b = Filter.usedJoint A labels P args a b := by
  unfold Filter.usedJoint
  cases args.confidentJoint with
  | some cj => rfl
  | none =>
    dsimp only
    unfold computeConfidentJoint
    simp only [if_true]
    unfold calibrateConfidentJoint
    congr 1
    refine congrFun (roundRows_row A _ _ a (funext (fun b => ?_))) b
    rw [calibrateTotal_eq _ _ (fun a => Or.inl (raw_row_tiny _ _ _ a)),
      calibrateTotal_eq _ _ (fun a => Or.inl (raw_row_tiny _ _ _ a))]
    unfold calibrateRows
    rw [labelCounts_eq, labelCounts_eq, part_numGiven h a ha]
    simp only [part_raw h a ha]

omit [NeZero K] in
/-- A column of the prune counts depends on that column of the given matrix only. -/
theorem keepAtLeastN_col (A : ArgSort ℚ) (pcm pcm' : Fin K → Fin K → ℚ) (minN : ℕ) (frac : ℚ) (k : Fin K)
    (h : ∀ j, pcm' j k = pcm j k) (j : Fin K) : keepAtLeastN A pcm' minN frac j k = keepAtLeastN A pcm minN frac j k := by
  have hd : ∀ j, keepDiagonal pcm' minN j k = keepDiagonal pcm minN j k := by
    intro j
    unfold keepDiagonal numNoiseRates
    simp only [h]
  rw [keepAtLeastN_eq, keepAtLeastN_eq]
  unfold reducePruneCounts reducePruneCountsExact
  simp only [hd]

omit [NeZero K] in
theorem cast_mask (M : (c : ℕ) → (Fin c → Fin K → ℚ) → Fin c → Bool) {c c' : ℕ} (hc : c' = c) (f' : Fin c' → Fin K → ℚ)
    (f : Fin c → Fin K → ℚ) (hf : ∀ r, f' r = f (r.cast hc)) (r : Fin c') : M c' f' r = M c f (r.cast hc) := by
  subst hc
  have : f' = f := funext hf
  rw [this]
  rfl

omit [NeZero K] in
theorem mask_value (labels : Fin n → Fin K) (masks : ClassMasks labels) (i : Fin n) (k : Fin K) (hk : labels i = k) :
    combineMasks labels masks i = if (classIdx labels k).length > 1 then
      masks k ⟨(classIdx labels k).idxOf i, List.idxOf_lt_length_iff.mpr ((mem_classIdx labels k i).mpr hk)⟩ else false := by
  subst hk
  exact combineMasks_value labels masks i

omit [NeZero K] in
theorem idxOf_map_embedding (e : Fin n ↪o Fin N) (l : List (Fin n)) (i : Fin n) : (l.map e).idxOf (e i) = l.idxOf i := by
  induction l with
  | nil => rfl
  | cons x t ih =>
    rw [List.map_cons, List.idxOf_cons, List.idxOf_cons, ih]
    have : (e x == e i) = (x == i) := by
      rw [Bool.eq_iff_iff, beq_iff_eq, beq_iff_eq]
      exact e.injective.eq_iff
    rw [this]

omit [NeZero K] in
/-- Masks found class by class from the rows of the class are those of the part. -/
theorem part_masks (h : IsPart S e labels P labels' P') (M : Fin K → (c : ℕ) → (Fin c → Fin K → ℚ) → Fin c → Bool)
    (M' : Fin K → (c : ℕ) → (Fin c → Fin K → ℚ) → Fin c → Bool) (hM : ∀ k, S k → M' k = M k) (i : Fin n) :
    combineMasks labels' (fun k => M' k _ (classProbs labels' P' k)) (e i) =
      combineMasks labels (fun k => M k _ (classProbs labels P k)) i := by
  have hk := h.inside i
  have hidx := part_classIdx h (labels i) hk
  have hlen : (classIdx labels' (labels i)).length = (classIdx labels (labels i)).length := by rw [hidx, List.length_map]
  rw [mask_value labels' _ (e i) (labels i) (h.labels_eq i), mask_value labels _ i (labels i) rfl]
  refine if_congr (by rw [hlen]) ?_ rfl
  rw [hM _ hk, cast_mask (M (labels i)) hlen _ (classProbs labels P (labels i))]
  · congr 1
    apply Fin.ext
    simp only [Fin.val_cast]
    rw [hidx, idxOf_map_embedding]
  · intro r
    unfold classProbs
    rw [← h.rows_eq]
    congr 1
    simp only [List.get_eq_getElem, Fin.val_cast, hidx, List.getElem_map]

/-- **C215.** The examples of the part are flagged in the larger data set exactly if they are flagged when the part is searched
on its own: with every filter but the two that take the lowest scores of all examples, and with all options but a given number
of examples to remove. -/
theorem C215_same (h : IsPart S e labels P labels' P') (A : ArgSort ℚ) (args : Args K) (hn : args.numToRemove = none)
    (hf : args.filterBy ∉ [FilterBy.lowSelfConfidence, .lowNormalizedMargin]) :
    ∃ m m', findLabelIssues A labels P args = .ok m ∧ findLabelIssues A labels' P' args = .ok m' ∧ ∀ i, m' (e i) = m i := by
  have hred : ∀ i, reduceIssues labels' P' (e i) = reduceIssues labels P i := by
    intro i
    unfold reduceIssues
    rw [h.labels_eq, h.rows_eq]
  have hcol : ∀ k, S k → ∀ j, keepAtLeastN A (fun j k => Filter.usedJoint A labels' P' args k j) args.minExamples args.fracNoise j k =
      keepAtLeastN A (fun j k => Filter.usedJoint A labels P args k j) args.minExamples args.fracNoise j k :=
    fun k hk j => keepAtLeastN_col A _ _ _ _ k (fun j => part_joint h A args k hk j) j
  have hclass : ∀ i, maskByClass A labels' P' args.minExamples
      (keepAtLeastN A (fun j k => Filter.usedJoint A labels' P' args k j) args.minExamples args.fracNoise) (e i) =
      maskByClass A labels P args.minExamples
      (keepAtLeastN A (fun j k => Filter.usedJoint A labels P args k j) args.minExamples args.fracNoise) i := by
    intro i
    refine part_masks h (fun k c sub => pruneByClass A k args.minExamples sub _)
      (fun k c sub => pruneByClass A k args.minExamples sub _) (fun k hk => ?_) i
    funext c sub
    rw [funext (hcol k hk)]
  have hcount : ∀ i, maskByCount A labels' P' args.minExamples
      (keepAtLeastN A (fun j k => Filter.usedJoint A labels' P' args k j) args.minExamples args.fracNoise) (e i) =
      maskByCount A labels P args.minExamples
      (keepAtLeastN A (fun j k => Filter.usedJoint A labels P args k j) args.minExamples args.fracNoise) i := by
    intro i
    refine part_masks h (fun k c sub => pruneByCount A k args.minExamples sub _)
      (fun k c sub => pruneByCount A k args.minExamples sub _) (fun k hk => ?_) i
    funext c sub
    rw [funext (hcol k hk)]
  have hoff : ∀ i, e i ∈ offDiagonalIndices labels' P' (getConfidentThresholds labels' P') ↔
      i ∈ offDiagonalIndices labels P (getConfidentThresholds labels P) := by
    intro i
    unfold offDiagonalIndices confidentRows
    simp only [List.mem_filter, List.mem_finRange, true_and, decide_eq_true_eq, ne_eq]
    rw [part_guess h, h.labels_eq]
    unfold atLeastOneConfident
    rw [part_bins h]
  unfold findLabelIssues rawMask
  rw [hn]
  cases hfb : args.filterBy <;> rw [hfb] at hf <;>
    simp only [Option.isSome_none, Bool.false_eq_true, false_and, if_false, List.mem_cons, reduceCtorEq, List.not_mem_nil,
      or_self, bind, Except.bind, pure, Except.pure, pruneCountMatrix_none]
  · simp at hf
  · simp at hf
  · exact ⟨_, _, rfl, rfl, fun i => by rw [hcount, hred]⟩
  · exact ⟨_, _, rfl, rfl, fun i => by rw [hclass, hred]⟩
  · exact ⟨_, _, rfl, rfl, fun i => by rw [hcount, hclass, hred]⟩
  · exact ⟨_, _, rfl, rfl, fun i => by rw [hred, decide_eq_decide.mpr (hoff i)]⟩
  · exact ⟨_, _, rfl, rfl, fun i => by rw [hred, h.labels_eq, h.rows_eq]⟩

/-- **C215**, with the checks of the inputs: if the part has labels of two classes and all probabilities lie in `[0, 1]`, both
data sets are accepted. -/
theorem C215_checked (h : IsPart S e labels P labels' P') (A : ArgSort ℚ) (args : Args K) (hn : args.numToRemove = none)
    (hf : args.filterBy ∉ [FilterBy.lowSelfConfidence, .lowNormalizedMargin]) (hl : ∃ i j, labels i ≠ labels j)
    (hP : ∀ j k, 0 ≤ P' j k ∧ P' j k ≤ 1) :
    ∃ m m', findChecked A labels P args = .ok m ∧ findChecked A labels' P' args = .ok m' ∧ ∀ i, m' (e i) = m i := by
  have hr' : InRange P' := fun j k => ⟨by linarith [(hP j k).1], by linarith [(hP j k).2]⟩
  have hr : InRange P := fun i k => by rw [← h.rows_eq]; exact hr' (e i) k
  rw [(C115_accepts_partial A labels P hl hr).1, (C115_accepts_partial A labels' P' (by
    obtain ⟨i, j, hij⟩ := hl
    exact ⟨e i, e j, by rw [h.labels_eq, h.labels_eq]; exact hij⟩) hr').1]
  exact C215_same h A args hn hf

theorem part_flag (h : IsPart S e labels P labels' P') (i : Fin n) :
    (decide (e i ∈ offDiagonalIndices labels' P' (getConfidentThresholds labels' P')) && !(reduceIssues labels' P' (e i))) =
      (decide (i ∈ offDiagonalIndices labels P (getConfidentThresholds labels P)) && !(reduceIssues labels P i)) := by
  obtain ⟨m, m', h1, h2, h3⟩ := C215_same h (stableSort ℚ) { filterBy := .confidentLearning } rfl (by simp)
  unfold findLabelIssues rawMask at h1 h2
  simp only [Option.isSome_none, Bool.false_eq_true, false_and, if_false, List.mem_cons, reduceCtorEq, List.not_mem_nil,
      or_self, bind, Except.bind, pure, Except.pure] at h1 h2
  have := h3 i
  rw [← Except.ok.inj h1, ← Except.ok.inj h2] at this
  exact this

theorem part_count (h : IsPart S e labels P labels' P') [DecidablePred S] :
    (Finset.univ.filter (fun j => S (labels' j) ∧ (decide (j ∈ offDiagonalIndices labels' P' (getConfidentThresholds labels' P')) &&
      !(reduceIssues labels' P' j)) = true)).card =
    (Finset.univ.filter (fun i => (decide (i ∈ offDiagonalIndices labels P (getConfidentThresholds labels P)) &&
      !(reduceIssues labels P i)) = true)).card := by
  symm
  refine Finset.card_bij (fun i _ => e i) ?_ (fun _ _ _ _ he => e.injective he) ?_
  · intro i hi
    rw [Finset.mem_filter] at hi ⊢
    rw [part_flag h, h.labels_eq]
    exact ⟨Finset.mem_univ _, h.inside i, hi.2⟩
  · intro j hj
    rw [Finset.mem_filter] at hj
    obtain ⟨i, rfl⟩ := h.covers j hj.2.1
    refine ⟨i, ?_, rfl⟩
    rw [Finset.mem_filter]
    rw [part_flag h] at hj
    exact ⟨Finset.mem_univ _, hj.2.2⟩

/-- **C216**, what holds: the estimated number of issues of two unrelated data sets searched together is the sum of the two
numbers. -/
theorem C216_count_partial {n₁ n₂ : ℕ} (S : Fin K → Prop) (e₁ : Fin n₁ ↪o Fin N) (e₂ : Fin n₂ ↪o Fin N)
    (labels₁ : Fin n₁ → Fin K) (labels₂ : Fin n₂ → Fin K) (P₁ : Fin n₁ → Fin K → ℚ) (P₂ : Fin n₂ → Fin K → ℚ)
    (h₁ : IsPart S e₁ labels₁ P₁ labels' P') (h₂ : IsPart (fun k => ¬ S k) e₂ labels₂ P₂ labels' P') (A : ArgSort ℚ) :
    ∃ c₁ c₂, numLabelIssues A labels₁ P₁ none .offDiagonal = .ok c₁ ∧ numLabelIssues A labels₂ P₂ none .offDiagonal = .ok c₂ ∧
      numLabelIssues A labels' P' none .offDiagonal = .ok (c₁ + c₂) := by
  classical
  unfold numLabelIssues
  refine ⟨_, _, rfl, rfl, ?_⟩
  simp only [countP_finRange]
  rw [← part_count h₁, ← part_count h₂]
  norm_cast
  rw [← Finset.card_filter_add_card_filter_not (fun j => S (labels' j)), Finset.filter_filter, Finset.filter_filter]
  simp only [and_comm]

/-! ### Examples -/

/-- Three examples of the classes 0 and 1, among five classes. -/
def animalLabels : Fin 3 → Fin 5 := ![0, 0, 1]

def animalProbs : Fin 3 → Fin 5 → ℚ := ![![9/10, 1/10, 0, 0, 0], ![4/10, 6/10, 0, 0, 0], ![4/10, 6/10, 0, 0, 0]]

/-- The same with an example of class 2 in between, which is not confused with the first two classes. -/
def mixedLabels : Fin 4 → Fin 5 := ![0, 2, 0, 1]

def mixedProbs : Fin 4 → Fin 5 → ℚ :=
  ![![9/10, 1/10, 0, 0, 0], ![0, 0, 36/100, 32/100, 32/100], ![4/10, 6/10, 0, 0, 0], ![4/10, 6/10, 0, 0, 0]]

/-- The three examples have the places 0, 2 and 3. -/
def animalPlaces : Fin 3 ↪o Fin 4 := Fin.succAboveOrderEmb 1

theorem animals_part : IsPart (fun k => k < 2) animalPlaces animalLabels animalProbs mixedLabels mixedProbs where
  labels_eq := by decide +kernel
  rows_eq := by
    intro i
    funext k
    revert i k
    decide +kernel
  inside := by decide +kernel
  covers := by decide +kernel
  excluded := by decide +kernel

/-- The theorem applies, and one of the examples is flagged. -/
example : (∃ i j, animalLabels i ≠ animalLabels j) ∧ (∀ j k, 0 ≤ mixedProbs j k ∧ mixedProbs j k ≤ 1) ∧
    ((findLabelIssues (stableSort ℚ) animalLabels animalProbs { filterBy := .confidentLearning }).toOption.map List.ofFn) =
      some [false, true, false] := by
  decide +kernel

/-- **C216 fails.** The filter `low_self_confidence` takes as many examples as there are estimated issues, here one. On its
own, the example of the first data set with label 0 and the prediction 1 is flagged; with the other data set it is not,
and the example of class 2, which no filter flags on its own account, is flagged instead. -/
theorem C216_not_low_scores :
    ((findLabelIssues (stableSort ℚ) animalLabels animalProbs { filterBy := .lowSelfConfidence }).toOption.map List.ofFn) =
      some [false, true, false] ∧
    ((findLabelIssues (stableSort ℚ) mixedLabels mixedProbs { filterBy := .lowSelfConfidence }).toOption.map List.ofFn) =
      some [false, true, false, false] := by
  decide +kernel

end Cleanlab.Props
