import Verif.Lemmas.Filter
import Verif.Model.FilterChecked
import Verif.Props.Rank
import Verif.Props.FilterChecked
import Verif.Model.CrossValEstimates
import Verif.Model.Dataset

/-!
# C120: the order of the examples does not matter

A data set with its rows in another order is `labels ∘ σ`, `P ∘ σ` for a permutation `σ` of the positions: its row `i` is
row `σ i` of the original.
-/

namespace Cleanlab.Props

open Np Cleanlab.Util Cleanlab.Count Cleanlab.Rank Cleanlab.Filter Cleanlab.Spec Cleanlab.Validation

variable {n K : ℕ}

/-! ### Lists of positions -/

theorem filter_comp_perm (σ : Equiv.Perm (Fin n)) (p : Fin n → Bool) :
    (((List.finRange n).filter (fun i => p (σ i))).map σ).Perm ((List.finRange n).filter p) := by
  have h : ((List.finRange n).map σ).Perm (List.finRange n) := by
    refine (List.perm_ext_iff_of_nodup ((List.nodup_finRange n).map σ.injective) (List.nodup_finRange n)).mpr (fun i => ?_)
    exact ⟨fun _ => List.mem_finRange i, fun _ => List.mem_map.mpr ⟨σ.symm i, List.mem_finRange _, by simp⟩⟩
  have := h.filter p
  rwa [List.filter_map] at this

theorem map_filter_comp {α : Type} (σ : Equiv.Perm (Fin n)) (p : Fin n → Bool) (f : Fin n → α) :
    (((List.finRange n).filter (fun i => p (σ i))).map (fun i => f (σ i))).Perm (((List.finRange n).filter p).map f) := by
  have := (filter_comp_perm σ p).map f
  rwa [List.map_map] at this

theorem countP_comp (σ : Equiv.Perm (Fin n)) (p : Fin n → Bool) :
    (List.finRange n).countP (fun i => p (σ i)) = (List.finRange n).countP p := by
  rw [List.countP_eq_length_filter, List.countP_eq_length_filter]
  simpa using (filter_comp_perm σ p).length_eq

/-! ### Counts -/

theorem labelCounts_comp (σ : Equiv.Perm (Fin n)) (labels : Fin n → Fin K) :
    labelCounts (fun i => labels (σ i)) = labelCounts labels := by
  funext k
  unfold labelCounts
  rw [List.count_eq_countP, List.count_eq_countP, List.ofFn_eq_map, List.ofFn_eq_map, List.countP_map, List.countP_map]
  exact countP_comp σ (fun i => labels i == k)

theorem mem_ofFn_comp (σ : Equiv.Perm (Fin n)) (labels : Fin n → Fin K) (k : Fin K) :
    k ∈ List.ofFn (fun i => labels (σ i)) ↔ k ∈ List.ofFn labels := by
  rw [List.mem_ofFn', List.mem_ofFn']
  exact ⟨fun ⟨i, hi⟩ => ⟨σ i, hi⟩, fun ⟨i, hi⟩ => ⟨σ.symm i, by simpa using hi⟩⟩

/-- **C120.** The confident thresholds do not depend on the order of the examples. -/
theorem C120_thresholds (σ : Equiv.Perm (Fin n)) (labels : Fin n → Fin K) (P : Fin n → Fin K → ℚ) :
    getConfidentThresholds (fun i => labels (σ i)) (fun i => P (σ i)) = getConfidentThresholds labels P := by
  funext k
  have hp := map_filter_comp σ (fun i => decide (labels i = k)) (fun i => P i k)
  have hm : classMean (fun i => labels (σ i)) (fun i => P (σ i)) k = classMean labels P k := by
    unfold classMean
    dsimp only
    rw [hp.sum_eq, hp.length_eq]
  unfold getConfidentThresholds
  rw [hm]
  simp only [mem_ofFn_comp]

variable [NeZero K]

theorem raw_comp (σ : Equiv.Perm (Fin n)) (labels : Fin n → Fin K) (P : Fin n → Fin K → ℚ) (thr : Fin K → ℚ) :
    confidentJointRaw (fun i => labels (σ i)) (fun i => P (σ i)) thr = confidentJointRaw labels P thr := by
  funext a b
  have hp := map_filter_comp σ (fun i => atLeastOneConfident P thr i) (fun i => (trueLabelGuess P thr i, labels i))
  have hc : ∀ a b, Count.confusionMatrix ((confidentRows (fun i => P (σ i)) thr).map (trueLabelGuess (fun i => P (σ i)) thr))
      ((confidentRows (fun i => P (σ i)) thr).map (fun i => labels (σ i))) a b =
      Count.confusionMatrix ((confidentRows P thr).map (trueLabelGuess P thr)) ((confidentRows P thr).map labels) a b := by
    intro a b
    unfold Count.confusionMatrix
    rw [List.zip_map', List.zip_map']
    exact hp.count_eq (a, b)
  unfold confidentJointRaw
  dsimp only
  rw [hc]

/-- **C120.** The confident joint does not depend on the order of the examples, calibrated or not. -/
theorem C120_joint (A : ArgSort ℚ) (σ : Equiv.Perm (Fin n)) (labels : Fin n → Fin K) (P : Fin n → Fin K → ℚ)
    (thr : Fin K → ℚ) (calibrate : Bool) :
    computeConfidentJoint A (fun i => labels (σ i)) (fun i => P (σ i)) thr calibrate =
      computeConfidentJoint A labels P thr calibrate := by
  unfold computeConfidentJoint calibrateConfidentJoint calibrateTotal calibrateRows
  rw [raw_comp, labelCounts_comp]

omit [NeZero K] in
theorem estimateJointFrom_comp (A : ArgSort ℚ) (σ : Equiv.Perm (Fin n)) (labels : Fin n → Fin K) (cj : Fin K → Fin K → ℚ) :
    estimateJointFrom A cj (fun i => labels (σ i)) = estimateJointFrom A cj labels := by
  unfold estimateJointFrom calibrateConfidentJoint calibrateTotal calibrateRows
  rw [labelCounts_comp]

theorem offDiagonal_comp (σ : Equiv.Perm (Fin n)) (labels : Fin n → Fin K) (P : Fin n → Fin K → ℚ) (thr : Fin K → ℚ)
    (i : Fin n) : i ∈ offDiagonalIndices (fun i => labels (σ i)) (fun i => P (σ i)) thr ↔
      σ i ∈ offDiagonalIndices labels P thr := by
  unfold offDiagonalIndices confidentRows
  simp only [List.mem_filter, List.mem_finRange, true_and]
  rfl

theorem reduceIssues_comp (σ : Equiv.Perm (Fin n)) (labels : Fin n → Fin K) (P : Fin n → Fin K → ℚ) (i : Fin n) :
    reduceIssues (fun i => labels (σ i)) (fun i => P (σ i)) i = reduceIssues labels P (σ i) := rfl

/-- **C120.** The estimated number of label issues does not depend on the order of the examples. -/
theorem C120_num_issues (A : ArgSort ℚ) (σ : Equiv.Perm (Fin n)) (labels : Fin n → Fin K) (P : Fin n → Fin K → ℚ)
    (cj : Option (Fin K → Fin K → ℚ)) (method : EstimationMethod) :
    numLabelIssues A (fun i => labels (σ i)) (fun i => P (σ i)) cj method = numLabelIssues A labels P cj method := by
  unfold numLabelIssues
  cases method with
  | offDiagonal =>
    dsimp only
    rw [C120_thresholds]
    simp only [offDiagonal_comp, reduceIssues_comp]
    rw [countP_comp σ (fun i => decide (i ∈ offDiagonalIndices labels P (getConfidentThresholds labels P)) &&
      !(reduceIssues labels P i))]
  | offDiagonalCalibrated =>
    dsimp only
    rw [C120_thresholds, C120_joint, estimateJointFrom_comp]
  | offDiagonalCustom =>
    cases cj with
    | none => rfl
    | some c => dsimp only; rw [estimateJointFrom_comp]
  | other => rfl

/-! ### Scores -/

variable {F : Type} [Field F] [LinearOrder F]

omit [NeZero K] in
/-- **C120.** Every example keeps its label quality score. -/
theorem C120_scores (m : Method) (σ : Equiv.Perm (Fin n)) (labels : Fin n → Fin K) (P : Fin n → Fin K → F) :
    labelQualityScores m (fun i => labels (σ i)) (fun i => P (σ i)) =
      (labelQualityScores m labels P).map (fun s i => s (σ i)) := by
  unfold labelQualityScores
  cases m with
  | selfConfidence => rfl
  | normalizedMargin =>
    dsimp only
    have h : ∀ i, normalizedMargin (fun i => labels (σ i)) (fun i => P (σ i)) i = normalizedMargin labels P (σ i) :=
      fun i => rfl
    by_cases hs : ∀ i, (normalizedMargin labels P i).isSome
    · have hs' : ∀ i, (normalizedMargin (fun i => labels (σ i)) (fun i => P (σ i)) i).isSome := fun i => hs (σ i)
      rw [dif_pos hs, dif_pos hs']
      rfl
    · have hs' : ¬ ∀ i, (normalizedMargin (fun i => labels (σ i)) (fun i => P (σ i)) i).isSome := by
        intro h'
        exact hs (fun i => by simpa [h] using h' (σ.symm i))
      rw [dif_neg hs, dif_neg hs']
      rfl

/-- The scores along a sorted list of all positions. -/
theorem sorted_scores {α : Type} [LinearOrder α] (σ : Equiv.Perm (Fin n)) (s : Fin n → α) (l l' : List (Fin n))
    (hl : (l.map s).Perm ((List.finRange n).map s)) (hl' : (l'.map (fun i => s (σ i))).Perm ((List.finRange n).map (fun i => s (σ i))))
    (h : (l.map s).Pairwise (· ≤ ·)) (h' : (l'.map (fun i => s (σ i))).Pairwise (· ≤ ·)) :
    l'.map (fun i => s (σ i)) = l.map s := by
  have hp : ((List.finRange n).map (fun i => s (σ i))).Perm ((List.finRange n).map s) := by
    simpa using map_filter_comp σ (fun _ => true) s
  exact ((hl'.trans hp).trans hl.symm).eq_of_pairwise (fun a b _ _ h1 h2 => le_antisymm h1 h2) h' h

/-- **C120.** The examples with the lowest scores have the same scores, whatever the order and whichever of several equal
scores comes first. -/
theorem C120_top_issues {α : Type} [LinearOrder α] (A A' : ArgSort α) (σ : Equiv.Perm (Fin n)) (s : Fin n → α)
    (top : Option ℕ) :
    (findTopIssues A' (fun i => s (σ i)) top).map (fun i => s (σ i)) = (findTopIssues A s top).map s := by
  unfold findTopIssues
  dsimp only
  rw [List.map_take, List.map_take]
  congr 1
  refine sorted_scores σ s _ _ ((A.perm_indices s).map s) ((A'.perm_indices _).map _) ?_ ?_
  · exact List.pairwise_map.mpr (A.pairwise_indices s)
  · exact List.pairwise_map.mpr (A'.pairwise_indices _)

/-! ### Masks -/

omit [NeZero K] in
theorem mem_take_indices_iff {α : Type} [LinearOrder α] (A : ArgSort α) {c : ℕ} (v : Fin c → α) (m : ℕ) (r : Fin c)
    (h : ∀ s, s ≠ r → v s ≠ v r) :
    r ∈ (A.indices v).take m ↔ (Finset.univ.filter (fun s => v s < v r)).card < m := by
  have hcard := card_take_indices A v m
  constructor
  · intro hr
    have hsub : Finset.univ.filter (fun s => v s < v r) ⊂ Finset.univ.filter (fun s => s ∈ (A.indices v).take m) := by
      refine (Finset.ssubset_iff_of_subset (fun s hs => ?_)).mpr ⟨r, by simpa using hr, by simp⟩
      by_contra hn
      have h1 := take_indices_le A v m r s hr (by simpa using hn)
      exact absurd (by simpa using hs : v s < v r) (not_lt.mpr h1)
    have := Finset.card_lt_card hsub
    omega
  · intro hlt
    by_contra hr
    have hsub : Finset.univ.filter (fun s => s ∈ (A.indices v).take m) ⊆ Finset.univ.filter (fun s => v s < v r) := by
      intro s hs
      have hs' : s ∈ (A.indices v).take m := by simpa using hs
      have hne : s ≠ r := fun e => hr (e ▸ hs')
      simpa using lt_of_le_of_ne (take_indices_le A v m s r hs' hr) (h s hne)
    have h1 := Finset.card_le_card hsub
    have h2 : (Finset.univ.filter (fun s => v s < v r)).card < c := by
      have : Finset.univ.filter (fun s => v s < v r) ⊂ Finset.univ :=
        (Finset.ssubset_iff_of_subset (Finset.subset_univ _)).mpr ⟨r, Finset.mem_univ _, by simp⟩
      simpa using Finset.card_lt_card this
    omega

omit [NeZero K] in
/-- Counting the rows of one class. -/
theorem card_class (labels : Fin n → Fin K) (k : Fin K) (p : Fin n → Prop) [DecidablePred p] :
    (Finset.univ.filter (fun r : Fin (classIdx labels k).length => p ((classIdx labels k).get r))).card =
      (Finset.univ.filter (fun i => labels i = k ∧ p i)).card := by
  apply Finset.card_bij (fun r _ => (classIdx labels k).get r)
  · intro r hr
    have hk : labels ((classIdx labels k).get r) = k := (mem_classIdx _ _ _).mp (List.get_mem _ _)
    simp only [Finset.mem_filter, Finset.mem_univ, true_and] at hr ⊢
    exact ⟨hk, hr⟩
  · intro r _ s _ hrs
    exact (List.nodup_iff_injective_get.mp (nodup_classIdx labels k)) hrs
  · intro i hi
    simp only [Finset.mem_filter, Finset.mem_univ, true_and] at hi
    obtain ⟨r, hr⟩ := List.get_of_mem ((mem_classIdx labels k i).mpr hi.1)
    exact ⟨r, by rw [Finset.mem_filter, hr]; exact ⟨Finset.mem_univ _, hi.2⟩, hr⟩

omit [NeZero K] in
/-- The mask by class for an example whose probability of its label no other example of the class shares: fewer examples of
the class are below it than the class has to lose. -/
theorem maskByClass_iff (A : ArgSort ℚ) (labels : Fin n → Fin K) (P : Fin n → Fin K → ℚ) (minN : ℕ)
    (pcm : Fin K → Fin K → ℤ) (i : Fin n)
    (h : ∀ i', i' ≠ i → labels i' = labels i → P i' (labels i) ≠ P i (labels i)) :
    maskByClass A labels P minN pcm i = true ↔ 1 < numGiven labels (labels i) ∧ minN < numGiven labels (labels i) ∧
      ((Finset.univ.filter (fun i' => labels i' = labels i ∧ P i' (labels i) < P i (labels i))).card : ℤ) <
        numGiven labels (labels i) - pcm (labels i) (labels i) := by
  unfold maskByClass
  by_cases hlen : (classIdx labels (labels i)).length > 1
  swap
  · rw [combineMasks_short labels _ i hlen, ← length_classIdx]
    simp only [Bool.false_eq_true, false_iff]
    exact fun hh => hlen hh.1
  obtain ⟨r, hr⟩ := List.get_of_mem ((mem_classIdx labels (labels i) i).mpr rfl)
  generalize hk : labels i = k at *
  rw [← length_classIdx]
  subst hr
  rw [combineMasks_get labels _ k r hlen]
  have hd : ∀ s, s ≠ r → classProbs labels P k s k ≠ classProbs labels P k r k := by
    intro s hs
    refine h _ (fun e => hs ?_) ((mem_classIdx _ _ _).mp (List.get_mem _ _))
    exact (List.nodup_iff_injective_get.mp (nodup_classIdx labels k)) e
  have hm := mem_take_indices_iff A (fun s => classProbs labels P k s k)
    (((classIdx labels k).length : ℤ) - pcm k k).toNat r hd
  have hc := card_class labels k (fun i' => P i' k < P ((classIdx labels k).get r) k)
  unfold classProbs at hm
  rw [hc] at hm
  unfold pruneByClass classProbs
  dsimp only
  split_ifs with h1 h2
  · rw [decide_eq_true_eq, hm]
    omega
  · simp only [false_iff]
    omega
  · simp only [false_iff]
    omega

omit [NeZero K] in
/-- The mask by noise rate for an example with margins no other example of its class shares. -/
theorem maskByCount_iff (A : ArgSort ℚ) (labels : Fin n → Fin K) (P : Fin n → Fin K → ℚ) (minN : ℕ)
    (pcm : Fin K → Fin K → ℤ) (i : Fin n)
    (h : ∀ i', i' ≠ i → labels i' = labels i → ∀ j, j ≠ labels i →
      P i' j - P i' (labels i) ≠ P i j - P i (labels i)) :
    maskByCount A labels P minN pcm i = true ↔ 1 < numGiven labels (labels i) ∧ minN < numGiven labels (labels i) ∧
      ∃ j, j ≠ labels i ∧ ((Finset.univ.filter (fun i' => labels i' = labels i ∧
        P i j - P i (labels i) < P i' j - P i' (labels i))).card : ℤ) < pcm j (labels i) := by
  unfold maskByCount
  by_cases hlen : (classIdx labels (labels i)).length > 1
  swap
  · rw [combineMasks_short labels _ i hlen, ← length_classIdx]
    simp only [Bool.false_eq_true, false_iff]
    exact fun hh => hlen hh.1
  obtain ⟨r, hr⟩ := List.get_of_mem ((mem_classIdx labels (labels i) i).mpr rfl)
  generalize hk : labels i = k at *
  rw [← length_classIdx]
  subst hr
  rw [combineMasks_get labels _ k r hlen, pruneByCount_iff]
  have hm : ∀ j, j ≠ k → ∀ m, r ∈ (A.indices (fun r => -(classProbs labels P k r j - classProbs labels P k r k))).take m ↔
      (Finset.univ.filter (fun i' => labels i' = k ∧ P ((classIdx labels k).get r) j - P ((classIdx labels k).get r) k <
        P i' j - P i' k)).card < m := by
    intro j hj m
    rw [mem_take_indices_iff A _ m r]
    · have hc := card_class labels k (fun i' => P ((classIdx labels k).get r) j - P ((classIdx labels k).get r) k <
        P i' j - P i' k)
      rw [← hc]
      unfold classProbs
      simp only [neg_lt_neg_iff]
    · intro s hs e
      refine h _ (fun e' => hs ?_) ((mem_classIdx _ _ _).mp (List.get_mem _ _)) j hj (neg_injective e)
      exact (List.nodup_iff_injective_get.mp (nodup_classIdx labels k)) e'
  constructor
  · rintro ⟨h1, j, hj, hp, ht⟩
    exact ⟨hlen, h1, j, fun e => hj e.symm, by have := (hm j (fun e => hj e.symm) _).mp ht; omega⟩
  · rintro ⟨_, h1, j, hj, hp⟩
    have hp' : pcm j k > 0 := by omega
    exact ⟨h1, j, fun e => hj e.symm, hp', (hm j hj _).mpr (by omega)⟩

/-- Two examples of one class differ in the probability of their label. -/
def ProbsDiffer (labels : Fin n → Fin K) (P : Fin n → Fin K → ℚ) : Prop :=
  ∀ i i', i' ≠ i → labels i' = labels i → P i' (labels i) ≠ P i (labels i)

/-- Two examples of one class differ in each of their margins. -/
def MarginsDiffer (labels : Fin n → Fin K) (P : Fin n → Fin K → ℚ) : Prop :=
  ∀ i i', i' ≠ i → labels i' = labels i → ∀ j, j ≠ labels i → P i' j - P i' (labels i) ≠ P i j - P i (labels i)

/-- What the filter sorts by is different for different examples; nothing for the two filters that do not sort. -/
def NoTies (by_ : FilterBy) (labels : Fin n → Fin K) (P : Fin n → Fin K → ℚ) : Prop :=
  match by_ with
  | .pruneByClass => ProbsDiffer labels P
  | .pruneByNoiseRate => MarginsDiffer labels P
  | .both => ProbsDiffer labels P ∧ MarginsDiffer labels P
  | .lowSelfConfidence => ∀ s, labelQualityScores .selfConfidence labels P = .ok s → Function.Injective s
  | .lowNormalizedMargin => ∀ s, labelQualityScores .normalizedMargin labels P = .ok s → Function.Injective s
  | .confidentLearning => True
  | .predictedNeqGiven => True

omit [NeZero K] in
theorem card_comp (σ : Equiv.Perm (Fin n)) (p : Fin n → Prop) [DecidablePred p] :
    (Finset.univ.filter (fun i => p (σ i))).card = (Finset.univ.filter p).card := by
  apply Finset.card_bij (fun i _ => σ i)
  · intro i hi; simpa using hi
  · intro i _ j _ hij; exact σ.injective hij
  · intro j hj
    exact ⟨σ.symm j, by simpa using hj, by simp⟩

omit [NeZero K] in
theorem numGiven_comp (σ : Equiv.Perm (Fin n)) (labels : Fin n → Fin K) (k : Fin K) :
    numGiven (fun i => labels (σ i)) k = numGiven labels k := by
  unfold numGiven
  exact card_comp σ (fun i => labels i = k)

omit [NeZero K] in
theorem probsDiffer_comp (σ : Equiv.Perm (Fin n)) (labels : Fin n → Fin K) (P : Fin n → Fin K → ℚ)
    (h : ProbsDiffer labels P) : ProbsDiffer (fun i => labels (σ i)) (fun i => P (σ i)) :=
  fun i i' hne hl => h (σ i) (σ i') (fun e => hne (σ.injective e)) hl

omit [NeZero K] in
theorem marginsDiffer_comp (σ : Equiv.Perm (Fin n)) (labels : Fin n → Fin K) (P : Fin n → Fin K → ℚ)
    (h : MarginsDiffer labels P) : MarginsDiffer (fun i => labels (σ i)) (fun i => P (σ i)) :=
  fun i i' hne hl => h (σ i) (σ i') (fun e => hne (σ.injective e)) hl

omit [NeZero K] in
theorem maskByClass_comp (A : ArgSort ℚ) (σ : Equiv.Perm (Fin n)) (labels : Fin n → Fin K) (P : Fin n → Fin K → ℚ)
    (minN : ℕ) (pcm : Fin K → Fin K → ℤ) (h : ProbsDiffer labels P) (i : Fin n) :
    maskByClass A (fun i => labels (σ i)) (fun i => P (σ i)) minN pcm i = maskByClass A labels P minN pcm (σ i) := by
  rw [Bool.eq_iff_iff, maskByClass_iff A labels P minN pcm (σ i) (h (σ i)),
    maskByClass_iff A _ _ minN pcm i (probsDiffer_comp σ labels P h i), numGiven_comp,
    card_comp σ (fun i' => labels i' = labels (σ i) ∧ P i' (labels (σ i)) < P (σ i) (labels (σ i)))]

omit [NeZero K] in
theorem maskByCount_comp (A : ArgSort ℚ) (σ : Equiv.Perm (Fin n)) (labels : Fin n → Fin K) (P : Fin n → Fin K → ℚ)
    (minN : ℕ) (pcm : Fin K → Fin K → ℤ) (h : MarginsDiffer labels P) (i : Fin n) :
    maskByCount A (fun i => labels (σ i)) (fun i => P (σ i)) minN pcm i = maskByCount A labels P minN pcm (σ i) := by
  rw [Bool.eq_iff_iff, maskByCount_iff A labels P minN pcm (σ i) (h (σ i)),
    maskByCount_iff A _ _ minN pcm i (marginsDiffer_comp σ labels P h i), numGiven_comp]
  have hc : ∀ j, _ := fun j => card_comp σ (fun i' => labels i' = labels (σ i) ∧
    P (σ i) j - P (σ i) (labels (σ i)) < P i' j - P i' (labels (σ i)))
  simp only [hc]

theorem pruneCountMatrix_comp (A : ArgSort ℚ) (σ : Equiv.Perm (Fin n)) (labels : Fin n → Fin K) (P : Fin n → Fin K → ℚ)
    (args : Args K) :
    pruneCountMatrix A (Filter.usedJoint A (fun i => labels (σ i)) (fun i => P (σ i)) args) (fun i => labels (σ i))
        args.minExamples args.fracNoise args.numToRemove args.nanInt =
      pruneCountMatrix A (Filter.usedJoint A labels P args) labels args.minExamples args.fracNoise args.numToRemove
        args.nanInt := by
  have hj : Filter.usedJoint A (fun i => labels (σ i)) (fun i => P (σ i)) args = Filter.usedJoint A labels P args := by
    unfold Filter.usedJoint
    rw [C120_thresholds, C120_joint]
  rw [hj]
  unfold pruneCountMatrix roundRemoval removalMatrix
  rw [labelCounts_comp]

theorem lowScore_comp (A : ArgSort ℚ) (σ : Equiv.Perm (Fin n)) (labels : Fin n → Fin K) (P : Fin n → Fin K → ℚ)
    (m : Method) (h : ∀ s, labelQualityScores m labels P = .ok s → Function.Injective s) :
    (do let idx ← lowScoreIndices A (fun i => labels (σ i)) (fun i => P (σ i)) m
        return fun i => decide (i ∈ idx) : Except String (Fin n → Bool)) =
      (do let idx ← lowScoreIndices A labels P m
          return fun i => decide (i ∈ idx) : Except String (Fin n → Bool)).map (fun mask i => mask (σ i)) := by
  unfold lowScoreIndices
  rw [C120_scores, C120_num_issues]
  cases hs : labelQualityScores m labels P with
  | error e => rfl
  | ok s =>
    have hinj := h s hs
    cases hn : numLabelIssues A labels P none .offDiagonal with
    | error e => rfl
    | ok num =>
      dsimp only [Except.map, bind, Except.bind, pure, Except.pure]
      congr 1
      funext i
      rw [decide_eq_decide, mem_take_indices_iff A s _ (σ i) (fun t ht e => ht (hinj e)),
        mem_take_indices_iff A (fun i => s (σ i)) _ i (fun t ht e => ht (σ.injective (hinj e))),
        card_comp σ (fun t => s t < s (σ i))]

theorem rawMask_comp (A : ArgSort ℚ) (σ : Equiv.Perm (Fin n)) (labels : Fin n → Fin K) (P : Fin n → Fin K → ℚ)
    (args : Args K) (h : NoTies args.filterBy labels P) :
    rawMask A (fun i => labels (σ i)) (fun i => P (σ i)) args =
      (rawMask A labels P args).map (fun mask i => mask (σ i)) := by
  unfold rawMask
  unfold NoTies at h
  cases hf : args.filterBy <;> rw [hf] at h <;> dsimp only at h ⊢
  · exact lowScore_comp A σ labels P _ h
  · exact lowScore_comp A σ labels P _ h
  · rw [pruneCountMatrix_comp]
    cases pruneCountMatrix A (Filter.usedJoint A labels P args) labels args.minExamples args.fracNoise args.numToRemove
      args.nanInt with
    | error e => rfl
    | ok pcm =>
      dsimp only [Except.map, bind, Except.bind, pure, Except.pure]
      congr 1
      funext i
      exact maskByCount_comp A σ labels P _ pcm h i
  · rw [pruneCountMatrix_comp]
    cases pruneCountMatrix A (Filter.usedJoint A labels P args) labels args.minExamples args.fracNoise args.numToRemove
      args.nanInt with
    | error e => rfl
    | ok pcm =>
      dsimp only [Except.map, bind, Except.bind, pure, Except.pure]
      congr 1
      funext i
      exact maskByClass_comp A σ labels P _ pcm h i
  · rw [pruneCountMatrix_comp]
    cases pruneCountMatrix A (Filter.usedJoint A labels P args) labels args.minExamples args.fracNoise args.numToRemove
      args.nanInt with
    | error e => rfl
    | ok pcm =>
      dsimp only [Except.map, bind, Except.bind, pure, Except.pure]
      congr 1
      funext i
      rw [maskByClass_comp A σ labels P _ pcm h.1 i, maskByCount_comp A σ labels P _ pcm h.2 i]
  · rw [C120_thresholds]
    dsimp only [Except.map]
    congr 1
    funext i
    rw [decide_eq_decide, offDiagonal_comp]
  · rfl

theorem findLabelIssues_comp (A : ArgSort ℚ) (σ : Equiv.Perm (Fin n)) (labels : Fin n → Fin K) (P : Fin n → Fin K → ℚ)
    (args : Args K) (h : NoTies args.filterBy labels P) :
    findLabelIssues A (fun i => labels (σ i)) (fun i => P (σ i)) args =
      (findLabelIssues A labels P args).map (fun mask i => mask (σ i)) := by
  unfold findLabelIssues
  rw [rawMask_comp A σ labels P args h]
  split_ifs
  · rfl
  · cases rawMask A labels P args <;> rfl
  · cases rawMask A labels P args <;> rfl

omit [NeZero K] in
theorem accepted_comp (σ : Equiv.Perm (Fin n)) (labels : Fin n → Fin K) (P : Fin n → Fin K → ℚ) :
    (InRange (fun i => P (σ i)) ↔ InRange P) ∧
    ((∃ i j, labels (σ i) ≠ labels (σ j)) ↔ ∃ i j, labels i ≠ labels j) ∧
    ((∀ i, (labels (σ i) : ℕ) = 0) ↔ ∀ i, (labels i : ℕ) = 0) := by
  refine ⟨⟨fun h i => ?_, fun h i => h (σ i)⟩, ⟨fun ⟨i, j, h⟩ => ⟨σ i, σ j, h⟩, fun ⟨i, j, h⟩ => ⟨σ.symm i, σ.symm j, by simpa using h⟩⟩,
    fun h i => by simpa using h (σ.symm i), fun h i => h (σ i)⟩
  simpa using h (σ.symm i)

/-- **C120 (partial).** `find_label_issues` accepts the data in one order if it accepts it in another, and flags the same
examples, unless the filter sorts by something two of them share. -/
theorem C120_find_partial (A : ArgSort ℚ) (σ : Equiv.Perm (Fin n)) (labels : Fin n → Fin K) (P : Fin n → Fin K → ℚ)
    (args : Args K) (h : NoTies args.filterBy labels P) (mask : Fin n → Bool) :
    findChecked A (fun i => labels (σ i)) (fun i => P (σ i)) args = .ok (fun i => mask (σ i)) ↔
      findChecked A labels P args = .ok mask := by
  obtain ⟨h1, h2, h3⟩ := accepted_comp σ labels P
  rw [C115_find_iff, C115_find_iff, h1, h2, h3, findLabelIssues_comp A σ labels P args h]
  have hr : (findLabelIssues A labels P args).map (fun mask i => mask (σ i)) = .ok (fun i => mask (σ i)) ↔
      findLabelIssues A labels P args = .ok mask := by
    cases findLabelIssues A labels P args with
    | error e => simp [Except.map]
    | ok m =>
      simp only [Except.map, Except.ok.injEq]
      constructor
      · intro e
        funext i
        simpa using congrFun e (σ.symm i)
      · rintro rfl; rfl
  rw [hr]

/-- Two examples have a margin of 1/10, all probabilities of the given label differ. -/
example : NoTies .both (![0, 0, 1] : Fin 3 → Fin 2) ![![3 / 10, 7 / 10], ![9 / 10, 1 / 10], ![2 / 5, 3 / 5]] := by
  constructor
  · intro i i' hne hl
    revert i i'
    decide +kernel
  · intro i i' hne hl
    revert i i'
    decide +kernel

/-- **C120 (partial).** With a ranking, the same examples are returned, with the same scores from first to last. -/
theorem C120_ranked_partial {α : Type} [LinearOrder α] (A : ArgSort ℚ) (A' : ArgSort α) (σ : Equiv.Perm (Fin n))
    (labels : Fin n → Fin K) (P : Fin n → Fin K → ℚ) (args : Args K) (s : Fin n → α) (h : NoTies args.filterBy labels P)
    (l l' : List (Fin n)) (hl : findRankedChecked A A' labels P args s = .ok l)
    (hl' : findRankedChecked A A' (fun i => labels (σ i)) (fun i => P (σ i)) args (fun i => s (σ i)) = .ok l') :
    (l'.map σ).Perm l ∧ l'.map (fun i => s (σ i)) = l.map s := by
  obtain ⟨m, hm, rfl⟩ := findRankedChecked_mask A A' labels P args s l hl
  obtain ⟨m', hm', rfl⟩ := findRankedChecked_mask A A' _ _ args _ l' hl'
  have hmm := (C120_find_partial A σ labels P args h m).mpr hm
  rw [hm'] at hmm
  obtain rfl := Except.ok.inj hmm
  have hp := orderLabelIssues_perm A' m s
  have hp' := orderLabelIssues_perm A' (fun i => m (σ i)) (fun i => s (σ i))
  have hperm : ((orderLabelIssues A' (fun i => m (σ i)) (fun i => s (σ i))).map σ).Perm (orderLabelIssues A' m s) :=
    ((hp'.map σ).trans (filter_comp_perm σ m)).trans hp.symm
  refine ⟨hperm, ?_⟩
  have hps := hperm.map s
  rw [List.map_map] at hps
  refine hps.eq_of_pairwise (fun a b _ _ h1 h2 => le_antisymm h1 h2) ?_ ?_
  · exact List.pairwise_map.mpr (orderLabelIssues_sorted A' _ _)
  · exact List.pairwise_map.mpr (orderLabelIssues_sorted A' _ _)

/-- **C120.** With `low_self_confidence` and `low_normalized_margin` at least the number of examples flagged is the same in
every order, whatever ties there are. -/
theorem C120_number (A A' : ArgSort ℚ) (σ : Equiv.Perm (Fin n)) (labels : Fin n → Fin K) (P : Fin n → Fin K → ℚ)
    (args : Args K) (hf : args.filterBy = .lowSelfConfidence ∨ args.filterBy = .lowNormalizedMargin)
    (mask mask' : Fin n → Bool) (h : findLabelIssues A labels P args = .ok mask)
    (h' : findLabelIssues A' (fun i => labels (σ i)) (fun i => P (σ i)) args = .ok mask') :
    (Finset.univ.filter (fun i => mask' i = true)).card = (Finset.univ.filter (fun i => mask i = true)).card := by
  have key : ∀ (B : ArgSort ℚ) (labels : Fin n → Fin K) (P : Fin n → Fin K → ℚ) (mask : Fin n → Bool),
      findLabelIssues B labels P args = .ok mask → ∃ num, numLabelIssues B labels P none .offDiagonal = .ok num ∧
        (Finset.univ.filter (fun i => mask i = true)).card = min num.toNat n := by
    intro B labels P mask h
    unfold findLabelIssues at h
    split at h
    · exact absurd h (by simp)
    · have hlow : ∀ m, (do let idx ← lowScoreIndices B labels P m
                           return fun i => decide (i ∈ idx) : Except String (Fin n → Bool)) = .ok mask →
          ∃ num, numLabelIssues B labels P none .offDiagonal = .ok num ∧
            (Finset.univ.filter (fun i => mask i = true)).card = min num.toNat n := by
        intro m hm
        unfold lowScoreIndices at hm
        cases hs : labelQualityScores m labels P with
        | error e => rw [hs] at hm; cases hm
        | ok s =>
          cases hn : numLabelIssues B labels P none .offDiagonal with
          | error e => rw [hs, hn] at hm; cases hm
          | ok num =>
            rw [hs, hn] at hm
            obtain rfl := Except.ok.inj hm
            refine ⟨num, rfl, ?_⟩
            simpa using card_take_indices B s num.toNat
      unfold rawMask at h
      rcases hf with hf | hf <;> rw [hf] at h
      · refine hlow .selfConfidence ?_
        cases hx : (do let idx ← lowScoreIndices B labels P .selfConfidence
                       return fun i => decide (i ∈ idx) : Except String (Fin n → Bool)) with
        | error e => rw [hx] at h; cases h
        | ok m => rw [hx] at h; exact h
      · refine hlow .normalizedMargin ?_
        cases hx : (do let idx ← lowScoreIndices B labels P .normalizedMargin
                       return fun i => decide (i ∈ idx) : Except String (Fin n → Bool)) with
        | error e => rw [hx] at h; cases h
        | ok m => rw [hx] at h; exact h
  obtain ⟨num, hn, hc⟩ := key A labels P mask h
  obtain ⟨num', hn', hc'⟩ := key A' _ _ mask' h'
  rw [C120_num_issues] at hn'
  have : num' = num := by
    unfold numLabelIssues at hn hn'
    rw [hn] at hn'
    exact (Except.ok.inj hn').symm
  rw [hc, hc', this]

/-! ### Ties -/

/-- Four examples of three classes; the first one is predicted to be of class 1 and has the self-confidence of the second
one. -/
def tieLabels : Fin 4 → Fin 3 := ![0, 0, 1, 2]
/-- Their predicted probabilities. -/
def tieProbs : Fin 4 → Fin 3 → ℚ :=
  ![![2 / 5, 3 / 5, 0], ![2 / 5, 3 / 10, 3 / 10], ![1 / 5, 3 / 5, 1 / 5], ![1 / 10, 1 / 10, 4 / 5]]

theorem tie_num (A : ArgSort ℚ) : numLabelIssues A tieLabels tieProbs none .offDiagonal = .ok 1 := by
  unfold numLabelIssues
  dsimp only
  congr 1
  decide +kernel

theorem tie_mask (A : ArgSort ℚ) : findLabelIssues A tieLabels tieProbs { filterBy := .lowSelfConfidence } =
    .ok (fun i => decide (i ∈ (A.indices (fun i => tieProbs i (tieLabels i))).take 1)) := by
  have hraw : rawMask A tieLabels tieProbs { filterBy := .lowSelfConfidence } =
      .ok (fun i => decide (i ∈ (A.indices (fun i => tieProbs i (tieLabels i))).take 1)) := by
    unfold rawMask lowScoreIndices
    dsimp only
    rw [tie_num]
    rfl
  unfold findLabelIssues
  rw [hraw]
  rfl

/-- **C120 fails for ties.** The first two examples have the same self-confidence and one issue is to be flagged. Whichever
sort is used, exchanging the two examples does not exchange what is said about them: in one order the mislabelled example
is flagged, in the other order the one that is correctly labelled. -/
theorem C120_not_ties (A : ArgSort ℚ) : ∃ mask mask' : Fin 4 → Bool,
    findChecked A tieLabels tieProbs { filterBy := .lowSelfConfidence } = .ok mask ∧
    findChecked A (fun i => tieLabels (Equiv.swap 0 1 i)) (fun i => tieProbs (Equiv.swap 0 1 i))
      { filterBy := .lowSelfConfidence } = .ok mask' ∧
    mask 0 ≠ mask' (Equiv.swap 0 1 0) ∧ mask 1 ≠ mask' (Equiv.swap 0 1 1) ∧ mask 0 ≠ mask 1 := by
  set s : Fin 4 → ℚ := fun i => tieProbs i (tieLabels i) with hs
  set m : Fin 4 → Bool := fun i => decide (i ∈ (A.indices s).take 1) with hm
  have hin : InRange tieProbs := by unfold InRange; decide +kernel
  have hne : ∃ i j, tieLabels i ≠ tieLabels j := ⟨0, 2, by decide⟩
  have hl : (fun i => tieLabels (Equiv.swap 0 1 i)) = tieLabels := by funext i; revert i; decide +kernel
  have hsc : (fun i => tieProbs (Equiv.swap 0 1 i) (tieLabels (Equiv.swap 0 1 i))) = s := by
    funext i; revert i; decide +kernel
  have h1 : findLabelIssues A tieLabels tieProbs { filterBy := .lowSelfConfidence } = .ok m := tie_mask A
  have h2 : findLabelIssues A (fun i => tieLabels (Equiv.swap 0 1 i)) (fun i => tieProbs (Equiv.swap 0 1 i))
      { filterBy := .lowSelfConfidence } = .ok m := by
    have hraw : rawMask A (fun i => tieLabels (Equiv.swap 0 1 i)) (fun i => tieProbs (Equiv.swap 0 1 i))
        { filterBy := .lowSelfConfidence } = .ok m := by
      unfold rawMask lowScoreIndices
      dsimp only
      rw [C120_num_issues, tie_num]
      show Except.ok _ = _
      rw [hm, ← hsc]
      rfl
    unfold findLabelIssues
    rw [hraw]
    rfl
  obtain ⟨a1, a2, _⟩ := accepted_comp (Equiv.swap (0 : Fin 4) 1) tieLabels tieProbs
  refine ⟨m, m, (C115_find_iff A _ _ _ m).mpr ⟨⟨by norm_num, hin, Or.inl hne⟩, h1⟩,
    (C115_find_iff A _ _ _ m).mpr ⟨⟨by norm_num, a1.mpr hin, Or.inl (a2.mpr hne)⟩, h2⟩, ?_⟩
  have hd : m 0 ≠ m 1 := by
    intro e
    have hc : (Finset.univ.filter (fun r => r ∈ (A.indices s).take 1)).card = 1 := card_take_indices A s 1
    by_cases h0 : (0 : Fin 4) ∈ (A.indices s).take 1
    · have h1 : (1 : Fin 4) ∈ (A.indices s).take 1 := by
        have : m 1 = true := by rw [← e]; exact decide_eq_true h0
        exact of_decide_eq_true this
      have hsub : ({0, 1} : Finset (Fin 4)) ⊆ Finset.univ.filter (fun r => r ∈ (A.indices s).take 1) := by
        intro r hr
        rcases Finset.mem_insert.mp hr with rfl | hr
        · simpa using h0
        · rw [Finset.mem_singleton] at hr
          subst hr
          simpa using h1
      have := Finset.card_le_card hsub
      rw [hc] at this
      exact absurd this (by decide)
    · obtain ⟨r, hr⟩ := Finset.card_pos.mp (by rw [hc]; norm_num :
        0 < (Finset.univ.filter (fun r => r ∈ (A.indices s).take 1)).card)
      have hr' : r ∈ (A.indices s).take 1 := by simpa using hr
      have hle := take_indices_le A s 1 r 0 hr' h0
      have hr01 : r = 0 ∨ r = 1 := by
        revert hle
        clear hr hr'
        revert r
        rw [hs]
        decide +kernel
      rcases hr01 with rfl | rfl
      · exact h0 hr'
      · have : m 0 = true := by rw [e]; exact decide_eq_true hr'
        exact h0 (of_decide_eq_true this)
  refine ⟨?_, ?_, hd⟩
  · rw [Equiv.swap_apply_left]; exact hd
  · rw [Equiv.swap_apply_right]; exact hd.symm

/-! ### Estimates and summaries of the data set -/

/-- **C120.** The estimates of the noise from probabilities do not depend on the order of the examples. -/
theorem C120_estimates (A : ArgSort ℚ) (σ : Equiv.Perm (Fin n)) (labels : Fin n → Fin K) (P : Fin n → Fin K → ℚ)
    (thr : Option (Fin K → ℚ)) (converge : Bool) (method : Latent.PyMethod K) (calibrate : Bool) :
    CrossVal.fromProbabilities A (fun i => labels (σ i)) (fun i => P (σ i)) thr converge method calibrate =
      CrossVal.fromProbabilities A labels P thr converge method calibrate := by
  have hj : CrossVal.jointOf A (fun i => labels (σ i)) (fun i => P (σ i)) thr calibrate =
      CrossVal.jointOf A labels P thr calibrate := by
    unfold CrossVal.jointOf
    cases thr with
    | none => dsimp only; rw [C120_thresholds, C120_joint]
    | some t => exact C120_joint A σ labels P t calibrate
  unfold CrossVal.fromProbabilities Latent.estimateLatent
  rw [hj, labelCounts_comp]

/-- The inputs of the functions of `dataset.py` with the examples in another order. -/
def reorder (σ : Equiv.Perm (Fin n)) (x : Dataset.Inputs n K) : Dataset.Inputs n K :=
  { x with labels := x.labels.map (fun l i => l (σ i)), predProbs := x.predProbs.map (fun P i => P (σ i)) }

theorem estimateJoint_comp (A : ArgSort ℚ) (σ : Equiv.Perm (Fin n)) (labels : Fin n → Fin K) (P : Fin n → Fin K → ℚ) :
    estimateJoint A (fun i => labels (σ i)) (fun i => P (σ i)) = estimateJoint A labels P := by
  unfold estimateJoint
  rw [C120_thresholds, C120_joint]

theorem dataset_joint (A : ArgSort ℚ) (σ : Equiv.Perm (Fin n)) (x : Dataset.Inputs n K) :
    Dataset.usedJoint A (reorder σ x) = Dataset.usedJoint A x := by
  obtain ⟨labels, P, joint, num, cj⟩ := x
  unfold Dataset.usedJoint reorder Dataset.estimateJointAny
  cases joint with
  | some j => rfl
  | none =>
    cases cj with
    | none =>
      cases labels with
      | none => rfl
      | some l =>
        cases P with
        | none => rfl
        | some P => exact congrArg Except.ok (estimateJoint_comp A σ l P)
    | some c =>
      cases labels with
      | none => rfl
      | some l => exact congrArg Except.ok (estimateJointFrom_comp A σ l c)

omit [NeZero K] in
theorem dataset_num (σ : Equiv.Perm (Fin n)) (x : Dataset.Inputs n K) (cj : Option (Fin K → Fin K → ℚ)) :
    Dataset.getNumExamples (reorder σ x).labels cj = Dataset.getNumExamples x.labels cj := by
  obtain ⟨labels, P, joint, num, c⟩ := x
  cases labels <;> rfl

/-- **C120.** The ranking of the classes and the table of overlapping classes do not depend on the order of the
examples. -/
theorem C120_tables (A : ArgSort ℚ) (σ : Equiv.Perm (Fin n)) (x : Dataset.Inputs n K) (asymmetric : Bool) :
    Dataset.rankClasses A (reorder σ x) = Dataset.rankClasses A x ∧
      Dataset.overlappingClasses A asymmetric (reorder σ x) = Dataset.overlappingClasses A asymmetric x := by
  unfold Dataset.rankClasses Dataset.overlappingClasses
  rw [dataset_joint, dataset_num, dataset_num]
  exact ⟨rfl, rfl⟩

theorem numChecked_comp (A : ArgSort ℚ) (σ : Equiv.Perm (Fin n)) (labels : Fin n → Fin K) (P : Fin n → Fin K → ℚ)
    (cj : Option (Fin K → Fin K → ℚ)) (method : EstimationMethod) :
    (numChecked A (fun i => labels (σ i)) (fun i => P (σ i)) cj method).toOption =
      (numChecked A labels P cj method).toOption := by
  obtain ⟨h1, h2, _⟩ := accepted_comp σ labels P
  have hv : Filter.validate false (fun i => labels (σ i)) (fun i => P (σ i)) = .ok () ↔
      Filter.validate false labels P = .ok () := by rw [validate_iff, validate_iff, h1, h2]
  unfold numChecked
  rw [C120_num_issues]
  cases ha : Filter.validate false labels P with
  | ok u => rw [hv.mpr ha]
  | error e =>
    cases hb : Filter.validate false (fun i => labels (σ i)) (fun i => P (σ i)) with
    | ok u => rw [hv.mp hb] at ha; cases ha
    | error e' => rfl

theorem overallHealth_comp (A : ArgSort ℚ) (σ : Equiv.Perm (Fin n)) (x : Dataset.Inputs n K) :
    (Dataset.overallHealth A (reorder σ x)).toOption = (Dataset.overallHealth A x).toOption := by
  have hj := dataset_joint A σ x
  unfold Dataset.overallHealth
  rw [hj, dataset_num]
  obtain ⟨labels, P, joint, num, cj⟩ := x
  cases labels with
  | none => rfl
  | some l =>
    cases P with
    | none => rfl
    | some P =>
      have hn := numChecked_comp A σ l P cj .offDiagonal
      have key : ∀ num : Except String ℚ,
          ((do let v ← num
               let issues ← numChecked A (fun i => l (σ i)) (fun i => P (σ i)) cj .offDiagonal
               if v = 0 then .error "division by zero" else .ok (1 - issues / v) : Except String ℚ)).toOption =
          ((do let v ← num
               let issues ← numChecked A l P cj .offDiagonal
               if v = 0 then .error "division by zero" else .ok (1 - issues / v) : Except String ℚ)).toOption := by
        intro num
        cases num with
        | error e => rfl
        | ok v =>
          cases ha : numChecked A (fun i => l (σ i)) (fun i => P (σ i)) cj .offDiagonal with
          | error e =>
            cases hb : numChecked A l P cj .offDiagonal with
            | error e' => rfl
            | ok z => rw [ha, hb] at hn; cases hn
          | ok z =>
            cases hb : numChecked A l P cj .offDiagonal with
            | error e' => rw [ha, hb] at hn; cases hn
            | ok z' =>
              rw [ha, hb] at hn
              obtain rfl : z = z' := Option.some.inj hn
              rfl
      cases num with
      | some m => exact key (.ok m)
      | none => exact key (Dataset.getNumExamples (some l) cj)

/-- **C120.** The overall label health and the whole health summary do not depend on the order of the examples. -/
theorem C120_health (A : ArgSort ℚ) (σ : Equiv.Perm (Fin n)) (x : Dataset.Inputs n K) (asymmetric : Bool) :
    (∀ h, Dataset.overallHealth A (reorder σ x) = .ok h ↔ Dataset.overallHealth A x = .ok h) ∧
    ∀ s, Dataset.healthSummary A asymmetric (reorder σ x) = .ok s ↔ Dataset.healthSummary A asymmetric x = .ok s := by
  have hopt : ∀ {α : Type} (a b : Except String α), a.toOption = b.toOption → ∀ v, a = .ok v ↔ b = .ok v := by
    intro α a b hab v
    cases a <;> cases b <;> simp_all [Except.toOption]
  refine ⟨hopt _ _ (overallHealth_comp A σ x), hopt _ _ ?_⟩
  unfold Dataset.healthSummary
  rw [dataset_joint, dataset_num]
  cases Dataset.usedJoint A x with
  | error e => rfl
  | ok joint =>
    have hnum : (reorder σ x).numExamples = x.numExamples := rfl
    rw [hnum]
    have key : ∀ v : Except String ℚ,
        ((do let num ← v
             let classes ← Dataset.rankClasses A { reorder σ x with joint := some joint, numExamples := some num }
             let pairs ← Dataset.overlappingClasses A asymmetric
               { reorder σ x with joint := some joint, numExamples := some num }
             let health ← Dataset.overallHealth A { reorder σ x with joint := none, numExamples := some num }
             return ({ health := health, joint := joint, classes := classes, pairs := pairs } : Dataset.Summary K) :
               Except String (Dataset.Summary K))).toOption =
        ((do let num ← v
             let classes ← Dataset.rankClasses A { x with joint := some joint, numExamples := some num }
             let pairs ← Dataset.overlappingClasses A asymmetric { x with joint := some joint, numExamples := some num }
             let health ← Dataset.overallHealth A { x with joint := none, numExamples := some num }
             return ({ health := health, joint := joint, classes := classes, pairs := pairs } : Dataset.Summary K) :
               Except String (Dataset.Summary K))).toOption := by
      intro v
      cases v with
      | error e => rfl
      | ok num =>
        have h1 := C120_tables A σ { x with joint := some joint, numExamples := some num } asymmetric
        have h2 := overallHealth_comp A σ { x with joint := none, numExamples := some num }
        have e1 : reorder σ { x with joint := some joint, numExamples := some num } =
          { reorder σ x with joint := some joint, numExamples := some num } := rfl
        have e2 : reorder σ { x with joint := none, numExamples := some num } =
          { reorder σ x with joint := none, numExamples := some num } := rfl
        rw [e1] at h1
        rw [e2] at h2
        show (do let classes ← Dataset.rankClasses A { reorder σ x with joint := some joint, numExamples := some num }
                 let pairs ← Dataset.overlappingClasses A asymmetric
                   { reorder σ x with joint := some joint, numExamples := some num }
                 let health ← Dataset.overallHealth A { reorder σ x with joint := none, numExamples := some num }
                 return ({ health := health, joint := joint, classes := classes, pairs := pairs } : Dataset.Summary K) :
                   Except String (Dataset.Summary K)).toOption = _
        rw [h1.1, h1.2]
        dsimp only [bind, Except.bind, pure, Except.pure]
        cases Dataset.rankClasses A { x with joint := some joint, numExamples := some num } with
        | error e => rfl
        | ok cl =>
          cases Dataset.overlappingClasses A asymmetric { x with joint := some joint, numExamples := some num } with
          | error e => rfl
          | ok pr =>
            dsimp only
            revert h2
            cases Dataset.overallHealth A { reorder σ x with joint := none, numExamples := some num } <;>
              cases Dataset.overallHealth A { x with joint := none, numExamples := some num } <;> intro h2
            · rfl
            · cases h2
            · cases h2
            · obtain rfl := Option.some.inj h2
              rfl
    cases hx : x.numExamples with
    | some m => exact key (.ok m)
    | none => exact key (Dataset.getNumExamples x.labels none)

end Cleanlab.Props
