import Verif.Model.Filter
import Verif.Lemmas.Count

/-! # Helper lemmas for `filter.py` and `rank.py` -/

namespace Np

/-- The first `m` entries of an argsort are `min m n` distinct positions. -/
theorem card_take_indices {α : Type} [LinearOrder α] (A : ArgSort α) {c : ℕ} (v : Fin c → α) (m : ℕ) :
    (Finset.univ.filter (fun r => r ∈ (A.indices v).take m)).card = min m c := by
  have : (Finset.univ.filter (fun r => r ∈ (A.indices v).take m)) = ((A.indices v).take m).toFinset := by
    ext r; simp
  rw [this, List.toFinset_card_of_nodup ((A.nodup_indices v).sublist (List.take_sublist _ _)),
    List.length_take, A.length_indices]

/-- Taking the first `m` positions of an argsort leaves out only positions with values at least as
large. -/
theorem take_indices_le {α : Type} [LinearOrder α] (A : ArgSort α) {c : ℕ} (v : Fin c → α) (m : ℕ)
    (r s : Fin c) (hr : r ∈ (A.indices v).take m) (hs : s ∉ (A.indices v).take m) : v r ≤ v s := by
  have hp := A.pairwise_indices v
  have hmem : s ∈ (A.indices v).take m ++ (A.indices v).drop m := by
    rw [List.take_append_drop]; exact A.mem_indices v s
  rw [← List.take_append_drop m (A.indices v), List.pairwise_append] at hp
  rcases List.mem_append.mp hmem with h | h
  · exact absurd h hs
  · exact hp.2.2 r hr s h

end Np

namespace Cleanlab.Filter

open Np Cleanlab.Util Cleanlab.Count Cleanlab.Rank Cleanlab.Spec

variable {n K : ℕ}

theorem idxOf_getElem' {α : Type} [DecidableEq α] {l : List α} (hl : l.Nodup) (r : Fin l.length) :
    l.idxOf (l.get r) = r.1 := by
  simpa using List.get_idxOf hl r

theorem mem_classIdx (labels : Fin n → Fin K) (k : Fin K) (i : Fin n) :
    i ∈ classIdx labels k ↔ labels i = k := by
  simp [classIdx]

theorem nodup_classIdx (labels : Fin n → Fin K) (k : Fin K) : (classIdx labels k).Nodup :=
  (List.nodup_finRange n).filter _

theorem length_classIdx (labels : Fin n → Fin K) (k : Fin K) :
    (classIdx labels k).length = numGiven labels k := by
  unfold classIdx numGiven
  rw [← List.countP_eq_length_filter, countP_finRange]
  simp

theorem assignClass_get (labels : Fin n → Fin K) (k : Fin K)
    (mask : Fin (classIdx labels k).length → Bool) (old : Fin n → Bool)
    (r : Fin (classIdx labels k).length) :
    assignClass labels k mask old ((classIdx labels k).get r) = mask r := by
  unfold assignClass
  rw [dif_pos (List.get_mem _ _)]
  congr 1
  apply Fin.ext
  exact idxOf_getElem' (nodup_classIdx labels k) r

theorem assignClass_other (labels : Fin n → Fin K) (k : Fin K)
    (mask : Fin (classIdx labels k).length → Bool) (old : Fin n → Bool) (i : Fin n)
    (h : labels i ≠ k) : assignClass labels k mask old i = old i := by
  unfold assignClass
  rw [dif_neg (by rw [mem_classIdx]; exact h)]

/-- Combining the masks in any order of classes. -/
theorem foldl_combine (labels : Fin n → Fin K) (masks : ClassMasks labels) (l : List (Fin K))
    (init : Fin n → Bool) (i : Fin n) (h : i ∈ classIdx labels (labels i)) :
    l.foldl (fun m k => if (classIdx labels k).length > 1 then assignClass labels k (masks k) m else m)
      init i =
    if labels i ∈ l ∧ (classIdx labels (labels i)).length > 1 then
      masks (labels i) ⟨(classIdx labels (labels i)).idxOf i, List.idxOf_lt_length_iff.mpr h⟩
    else init i := by
  induction l generalizing init with
  | nil => simp
  | cons k l ih =>
    rw [List.foldl_cons, ih]
    by_cases hlen : (classIdx labels (labels i)).length > 1
    · by_cases hl : labels i ∈ l
      · rw [if_pos ⟨hl, hlen⟩, if_pos ⟨List.mem_cons_of_mem _ hl, hlen⟩]
      · rw [if_neg (fun hh => hl hh.1)]
        by_cases hk : labels i = k
        · subst hk
          rw [if_pos hlen, if_pos ⟨List.mem_cons_self, hlen⟩]
          unfold assignClass
          rw [dif_pos h]
        · rw [if_neg (c := labels i ∈ k :: l ∧ _) (fun hh => by
            rcases List.mem_cons.mp hh.1 with h1 | h1
            · exact hk h1
            · exact hl h1)]
          split_ifs
          · exact assignClass_other labels k _ init i hk
          · rfl
    · have e1 : ¬ (labels i ∈ l ∧ (classIdx labels (labels i)).length > 1) := fun hh => hlen hh.2
      have e2 : ¬ (labels i ∈ k :: l ∧ (classIdx labels (labels i)).length > 1) := fun hh => hlen hh.2
      rw [if_neg e1, if_neg e2]
      by_cases hk : labels i = k
      · subst hk
        rw [if_neg hlen]
      · split_ifs
        · exact assignClass_other labels k _ init i hk
        · rfl

theorem combineMasks_get (labels : Fin n → Fin K) (masks : ClassMasks labels) (k : Fin K)
    (r : Fin (classIdx labels k).length) (hlen : (classIdx labels k).length > 1) :
    combineMasks labels masks ((classIdx labels k).get r) = masks k r := by
  have hk : labels ((classIdx labels k).get r) = k := (mem_classIdx _ _ _).mp (List.get_mem _ _)
  unfold combineMasks
  rw [foldl_combine labels masks _ _ _ (by rw [mem_classIdx])]
  generalize hi : (classIdx labels k).get r = i at *
  subst hk
  rw [if_pos ⟨List.mem_finRange _, hlen⟩]
  congr 1
  apply Fin.ext
  have := idxOf_getElem' (nodup_classIdx labels (labels i)) r
  rw [hi] at this
  exact this

theorem combineMasks_short (labels : Fin n → Fin K) (masks : ClassMasks labels) (i : Fin n)
    (hlen : ¬ (classIdx labels (labels i)).length > 1) : combineMasks labels masks i = false := by
  unfold combineMasks
  rw [foldl_combine labels masks _ _ _ (by rw [mem_classIdx]), if_neg (fun h => hlen h.2)]

/-- Number of flagged examples of one class after combination. -/
theorem card_combineMasks (labels : Fin n → Fin K) (masks : ClassMasks labels) (k : Fin K) :
    (Finset.univ.filter (fun i => labels i = k ∧ combineMasks labels masks i = true)).card =
      if (classIdx labels k).length > 1 then (Finset.univ.filter (fun r => masks k r = true)).card else 0 := by
  split_ifs with hlen
  · symm
    apply Finset.card_bij (fun r _ => (classIdx labels k).get r)
    · intro r hr
      simp only [Finset.mem_filter, Finset.mem_univ, true_and] at hr ⊢
      exact ⟨(mem_classIdx _ _ _).mp (List.get_mem _ _), by rw [combineMasks_get labels masks k r hlen, hr]⟩
    · intro r _ s _ h
      exact (List.nodup_iff_injective_get.mp (nodup_classIdx labels k)) h
    · intro i hi
      simp only [Finset.mem_filter, Finset.mem_univ, true_and] at hi
      obtain ⟨r, hr⟩ := List.get_of_mem ((mem_classIdx labels k i).mpr hi.1)
      refine ⟨r, ?_, hr⟩
      simp only [Finset.mem_filter, Finset.mem_univ, true_and]
      rw [← combineMasks_get labels masks k r hlen, hr, hi.2]
  · rw [Finset.card_eq_zero, Finset.filter_eq_empty_iff]
    rintro i _ ⟨h1, h2⟩
    subst h1
    rw [combineMasks_short labels masks i hlen] at h2
    exact absurd h2 (by simp)

/-- The mask by count is the union over the other classes. -/
theorem foldl_pruneByCountStep (A : ArgSort ℚ) {c : ℕ} (k : Fin K) (sub : Fin c → Fin K → ℚ)
    (col : Fin K → ℤ) (l : List (Fin K)) (m : Fin c → Bool) (r : Fin c) :
    l.foldl (pruneByCountStep A k sub col) m r = true ↔
      m r = true ∨ ∃ j ∈ l, k ≠ j ∧ col j > 0 ∧
        r ∈ (A.indices (fun r => -(sub r j - sub r k))).take (col j).toNat := by
  induction l generalizing m with
  | nil => simp
  | cons j l ih =>
    rw [List.foldl_cons, ih]
    unfold pruneByCountStep
    split_ifs with h
    · simp only [Bool.or_eq_true, decide_eq_true_eq]
      constructor
      · rintro ((h1 | h1) | ⟨j', hj', h2⟩)
        · exact Or.inl h1
        · exact Or.inr ⟨j, List.mem_cons_self, h.1, h.2, h1⟩
        · exact Or.inr ⟨j', List.mem_cons_of_mem _ hj', h2⟩
      · rintro (h1 | ⟨j', hj', h2⟩)
        · exact Or.inl (Or.inl h1)
        · rcases List.mem_cons.mp hj' with rfl | hj'
          · exact Or.inl (Or.inr h2.2.2)
          · exact Or.inr ⟨j', hj', h2⟩
    · constructor
      · rintro (h1 | ⟨j', hj', h2⟩)
        · exact Or.inl h1
        · exact Or.inr ⟨j', List.mem_cons_of_mem _ hj', h2⟩
      · rintro (h1 | ⟨j', hj', h2⟩)
        · exact Or.inl h1
        · rcases List.mem_cons.mp hj' with rfl | hj'
          · exact absurd ⟨h2.1, h2.2.1⟩ h
          · exact Or.inr ⟨j', hj', h2⟩

theorem pruneByCount_iff (A : ArgSort ℚ) {c : ℕ} (k : Fin K) (minN : ℕ) (sub : Fin c → Fin K → ℚ)
    (col : Fin K → ℤ) (r : Fin c) :
    pruneByCount A k minN sub col r = true ↔ minN < c ∧ ∃ j, k ≠ j ∧ col j > 0 ∧
        r ∈ (A.indices (fun r => -(sub r j - sub r k))).take (col j).toNat := by
  unfold pruneByCount
  split_ifs with h
  · simp; omega
  · rw [foldl_pruneByCountStep]
    simp only [Bool.false_eq_true, false_or, List.mem_finRange, true_and]
    constructor
    · intro h1; exact ⟨by omega, h1⟩
    · intro h1; exact h1.2

/-- At most the sum of the off-diagonal counts of the column is flagged. -/
theorem card_pruneByCount_le (A : ArgSort ℚ) {c : ℕ} (k : Fin K) (minN : ℕ) (sub : Fin c → Fin K → ℚ)
    (col : Fin K → ℤ) :
    (Finset.univ.filter (fun r => pruneByCount A k minN sub col r = true)).card ≤
      ∑ j ∈ Finset.univ.filter (fun j => j ≠ k), (col j).toNat := by
  have hsub : Finset.univ.filter (fun r => pruneByCount A k minN sub col r = true) ⊆
      (Finset.univ.filter (fun j => j ≠ k)).biUnion (fun j => Finset.univ.filter
        (fun r => r ∈ (A.indices (fun r => -(sub r j - sub r k))).take (col j).toNat)) := by
    intro r hr
    simp only [Finset.mem_filter, Finset.mem_univ, true_and, Finset.mem_biUnion] at hr ⊢
    obtain ⟨_, j, hj, _, hr⟩ := (pruneByCount_iff A k minN sub col r).mp hr
    exact ⟨j, hj.symm, hr⟩
  refine (Finset.card_le_card hsub).trans (Finset.card_biUnion_le.trans ?_)
  apply Finset.sum_le_sum
  intro j _
  rw [card_take_indices]
  exact min_le_left _ _

theorem card_pruneByClass (A : ArgSort ℚ) {c : ℕ} (k : Fin K) (minN : ℕ) (sub : Fin c → Fin K → ℚ)
    (col : Fin K → ℤ) :
    (Finset.univ.filter (fun r => pruneByClass A k minN sub col r = true)).card =
      if c > minN then min ((c : ℤ) - col k).toNat c else 0 := by
  unfold pruneByClass
  split_ifs with h1
  · simp only
    split_ifs with h2
    · simp only [decide_eq_true_eq]
      rw [card_take_indices]
    · have : ((c : ℤ) - col k).toNat = 0 := by omega
      simp [this]
  · simp

theorem card_split (labels : Fin n → Fin K) (mask : Fin n → Bool) (k : Fin K) :
    (Finset.univ.filter (fun i => labels i = k ∧ mask i = true)).card +
      (Finset.univ.filter (fun i => labels i = k ∧ mask i = false)).card = numGiven labels k := by
  unfold numGiven
  rw [← Finset.card_union_of_disjoint]
  · congr 1
    ext i
    simp only [Finset.mem_union, Finset.mem_filter, Finset.mem_univ, true_and]
    cases mask i <;> simp
  · rw [Finset.disjoint_filter]
    rintro i _ ⟨_, h1⟩ ⟨_, h2⟩
    rw [h1] at h2; exact absurd h2 (by simp)

theorem trunc_of_nonneg {x : ℚ} (h : 0 ≤ x) : trunc x = ⌊x⌋ := by unfold trunc; rw [if_pos h]

theorem trunc_mono {x y : ℚ} (h : x ≤ y) : trunc x ≤ trunc y := by
  unfold trunc
  split_ifs with h1 h2 h2
  · exact Int.floor_le_floor h
  · exact absurd (h1.trans h) h2
  · have : ⌈x⌉ ≤ 0 := Int.ceil_le.mpr (by push_cast; linarith)
    exact this.trans (Int.floor_nonneg.mpr h2)
  · exact Int.ceil_le_ceil h

theorem trunc_intCast (z : ℤ) : trunc (z : ℚ) = z := by
  unfold trunc; split_ifs <;> simp

theorem keepAtLeastN_eq (A : ArgSort ℚ) (pcm : Fin K → Fin K → ℚ) (minN : ℕ) (frac : ℚ) (j k : Fin K) :
    keepAtLeastN A pcm minN frac j k = reducePruneCounts (keepDiagonal pcm minN) frac j k := by
  unfold keepAtLeastN
  exact roundRows_intCast A _ j k _ rfl

theorem keepDiagonal_off_nonneg (pcm : Fin K → Fin K → ℚ) (minN : ℕ) (j k : Fin K) (h : j ≠ k) :
    0 ≤ keepDiagonal pcm minN j k := by
  unfold keepDiagonal
  simp only [if_neg h]
  split_ifs with h1
  · exact le_refl _
  · exact not_lt.mp h1

theorem reduce_diag_ge (m : Fin K → Fin K → ℚ) (frac : ℚ) (hf : frac ≤ 1) (k : Fin K)
    (hm : ∀ j, j ≠ k → 0 ≤ m j k) : m k k ≤ reducePruneCountsExact m frac k k := by
  unfold reducePruneCountsExact
  simp only [if_true]
  have : 0 ≤ ∑ a, (m a k - if a = k then m a k else m a k * frac) := by
    apply Finset.sum_nonneg
    intro a _
    split_ifs with h
    · simp
    · have := hm a h
      nlinarith
  linarith

theorem keepAtLeastN_diag (A : ArgSort ℚ) (pcm : Fin K → Fin K → ℚ) (minN : ℕ) (frac : ℚ) (hf : frac ≤ 1)
    (k : Fin K) : (minN : ℤ) ≤ keepAtLeastN A pcm minN frac k k := by
  rw [keepAtLeastN_eq]
  unfold reducePruneCounts
  have h1 := reduce_diag_ge (keepDiagonal pcm minN) frac hf k
    (fun j hj => keepDiagonal_off_nonneg pcm minN j k hj)
  have h2 : (minN : ℚ) ≤ keepDiagonal pcm minN k k := by
    unfold keepDiagonal; simp
  have h3 := trunc_mono (h2.trans h1)
  have h4 : trunc (minN : ℚ) = minN := by exact_mod_cast trunc_intCast (minN : ℤ)
  omega

theorem reduceIssues_false_iff [NeZero K] (labels : Fin n → Fin K) (P : Fin n → Fin K → ℚ) (i : Fin n)
    (h : reduceIssues labels P i = false) :
    ∃ j, j ≠ labels i ∧ P i (labels i) + 1 / 1000000 ≤ P i j := by
  unfold reduceIssues at h
  rw [decide_eq_false_iff_not] at h
  set q := Function.update (P i) (labels i) (P i (labels i) + floatingPointComparison) with hq
  refine ⟨argmax q, h, ?_⟩
  have h1 := le_argmax q (labels i)
  have h2 : q (labels i) = P i (labels i) + 1 / 1000000 := by
    rw [hq, Function.update_self]; rfl
  have h3 : q (argmax q) = P i (argmax q) := by
    conv_lhs => rw [hq]
    rw [Function.update_of_ne h]
  rw [h2, h3] at h1
  exact h1

theorem orderLabelIssues_perm {α : Type} [LinearOrder α] (A : ArgSort α) (mask : Fin n → Bool)
    (scores : Fin n → α) :
    (orderLabelIssues A mask scores).Perm ((List.finRange n).filter mask) := by
  unfold orderLabelIssues
  simp only
  have h := (A.perm_indices (fun r => scores (((List.finRange n).filter mask).get r))).map
    ((List.finRange n).filter mask).get
  refine h.trans ?_
  rw [List.map_get_finRange]

theorem orderLabelIssues_sorted {α : Type} [LinearOrder α] (A : ArgSort α) (mask : Fin n → Bool)
    (scores : Fin n → α) :
    (orderLabelIssues A mask scores).Pairwise (fun i j => scores i ≤ scores j) := by
  unfold orderLabelIssues
  simp only
  rw [List.pairwise_map]
  exact A.pairwise_indices _

/-- The final step of `find_label_issues` for the filters other than `low_*`. -/
theorem findLabelIssues_of_raw (A : ArgSort ℚ) [NeZero K] (labels : Fin n → Fin K) (P : Fin n → Fin K → ℚ)
    (args : Args K) (hf : args.filterBy ≠ .lowSelfConfidence ∧ args.filterBy ≠ .lowNormalizedMargin)
    (hn : args.numToRemove = none ∨ (args.filterBy ≠ .confidentLearning ∧ args.filterBy ≠ .predictedNeqGiven))
    (m : Fin n → Bool) (h : rawMask A labels P args = .ok m) :
    findLabelIssues A labels P args = .ok (fun i => m i && !(reduceIssues labels P i)) := by
  unfold findLabelIssues
  rw [if_neg (by
    rintro ⟨h1, h2⟩
    rcases hn with hn | hn
    · rw [hn] at h1; simp at h1
    · simp only [List.mem_cons, List.not_mem_nil, or_false] at h2
      rcases h2 with h2 | h2 | h2 | h2
      · exact hn.1 h2
      · exact hn.2 h2
      · exact hf.2 h2
      · exact hf.1 h2), h]
  have h3 : ¬ (args.filterBy ∈ [FilterBy.lowSelfConfidence, .lowNormalizedMargin]) := by
    simp only [List.mem_cons, List.not_mem_nil, or_false]
    rintro (h3 | h3)
    · exact hf.1 h3
    · exact hf.2 h3
  show (if _ then _ else _) = _
  rw [if_neg h3]
  rfl

/-- Conversely, what a successful call returned. -/
theorem raw_of_findLabelIssues (A : ArgSort ℚ) [NeZero K] (labels : Fin n → Fin K) (P : Fin n → Fin K → ℚ)
    (args : Args K) (hf : args.filterBy ≠ .lowSelfConfidence ∧ args.filterBy ≠ .lowNormalizedMargin)
    (mask : Fin n → Bool) (h : findLabelIssues A labels P args = .ok mask) :
    ∃ m, rawMask A labels P args = .ok m ∧ mask = fun i => m i && !(reduceIssues labels P i) := by
  unfold findLabelIssues at h
  split at h
  · exact absurd h (by simp)
  · have h3 : ¬ (args.filterBy ∈ [FilterBy.lowSelfConfidence, .lowNormalizedMargin]) := by
      simp only [List.mem_cons, List.not_mem_nil, or_false]
      rintro (h3 | h3)
      · exact hf.1 h3
      · exact hf.2 h3
    cases hr : rawMask A labels P args with
    | error e => rw [hr] at h; exact absurd h (by simp [bind, Except.bind])
    | ok m =>
      rw [hr] at h
      simp only [bind, Except.bind, if_neg h3, pure, Except.pure] at h
      exact ⟨m, rfl, (Except.ok.inj h).symm⟩

/-- The count matrix without a removal vector. -/
theorem pruneCountMatrix_none (A : ArgSort ℚ) (cj : Fin K → Fin K → ℚ) (labels : Fin n → Fin K) (minN : ℕ)
    (frac : ℚ) (nanInt : ℤ) : pruneCountMatrix A cj labels minN frac none nanInt =
      .ok (keepAtLeastN A (fun j k => cj k j) minN frac) := rfl

theorem reduceIssues_iff [NeZero K] (labels : Fin n → Fin K) (P : Fin n → Fin K → ℚ) (i : Fin n) :
    reduceIssues labels P i = true ↔
      IsPrediction (fun j => P i j + if j = labels i then 1 / 1000000 else 0) (labels i) := by
  unfold reduceIssues
  rw [decide_eq_true_eq, argmax_eq_iff_isPrediction]
  have : Function.update (P i) (labels i) (P i (labels i) + floatingPointComparison) =
      fun j => P i j + if j = labels i then 1 / 1000000 else 0 := by
    funext j
    by_cases h : j = labels i
    · subst h; simp [floatingPointComparison]
    · simp [h]
  rw [this]

/-- An example with a clearly better class is not excused by the final step. -/
theorem reduceIssues_false [NeZero K] (labels : Fin n → Fin K) (P : Fin n → Fin K → ℚ) (i : Fin n)
    (h : ∃ l, l ≠ labels i ∧ P i (labels i) + 1 / 1000000 < P i l) : reduceIssues labels P i = false := by
  rw [← Bool.not_eq_true, reduceIssues_iff]
  rintro ⟨h1, _⟩
  obtain ⟨l, hl, h2⟩ := h
  have := h1 l
  simp only [if_true, if_neg hl] at this
  linarith

theorem numKept_add (labels : Fin n → Fin K) (mask : Fin n → Bool) (k : Fin K) :
    numFlagged labels mask k + numKept labels mask k = numGiven labels k :=
  card_split labels mask k

/-- Flagging fewer examples keeps more. -/
theorem numKept_mono (labels : Fin n → Fin K) (m1 m2 : Fin n → Bool) (h : ∀ i, m2 i = true → m1 i = true)
    (k : Fin K) : numKept labels m1 k ≤ numKept labels m2 k := by
  apply Finset.card_le_card
  intro i
  simp only [Finset.mem_filter, Finset.mem_univ, true_and]
  rintro ⟨h1, h2⟩
  refine ⟨h1, ?_⟩
  rw [← Bool.not_eq_true]
  intro h3
  rw [h i h3] at h2
  exact absurd h2 (by simp)

theorem numFlagged_maskByClass (A : ArgSort ℚ) (labels : Fin n → Fin K) (P : Fin n → Fin K → ℚ) (minN : ℕ)
    (pcm : Fin K → Fin K → ℤ) (k : Fin K) :
    numFlagged labels (maskByClass A labels P minN pcm) k =
      if 1 < numGiven labels k ∧ minN < numGiven labels k then
        min ((numGiven labels k : ℤ) - pcm k k).toNat (numGiven labels k) else 0 := by
  unfold numFlagged maskByClass
  rw [card_combineMasks, card_pruneByClass, length_classIdx]
  split_ifs <;> first | rfl | (exfalso; omega)

theorem numFlagged_maskByCount_le (A : ArgSort ℚ) (labels : Fin n → Fin K) (P : Fin n → Fin K → ℚ) (minN : ℕ)
    (pcm : Fin K → Fin K → ℤ) (k : Fin K) :
    numFlagged labels (maskByCount A labels P minN pcm) k ≤
      ∑ j ∈ Finset.univ.filter (fun j => j ≠ k), (pcm j k).toNat := by
  unfold numFlagged maskByCount
  rw [card_combineMasks]
  split_ifs
  · exact card_pruneByCount_le A k minN _ _
  · exact Nat.zero_le _

/-- Which examples of a class `_prune_by_class` selects. -/
theorem maskByClass_get (A : ArgSort ℚ) (labels : Fin n → Fin K) (P : Fin n → Fin K → ℚ) (minN : ℕ)
    (pcm : Fin K → Fin K → ℤ) (k : Fin K) (r : Fin (classIdx labels k).length) :
    maskByClass A labels P minN pcm ((classIdx labels k).get r) = true ↔
      1 < numGiven labels k ∧ minN < numGiven labels k ∧
      r ∈ (A.indices (fun r => classProbs labels P k r k)).take ((numGiven labels k : ℤ) - pcm k k).toNat := by
  have hk : labels ((classIdx labels k).get r) = k := (mem_classIdx _ _ _).mp (List.get_mem _ _)
  by_cases hlen : (classIdx labels k).length > 1
  · unfold maskByClass
    rw [combineMasks_get labels _ k r hlen]
    rw [length_classIdx] at hlen
    unfold pruneByClass
    simp only [length_classIdx]
    split_ifs with h1 h2
    · simp only [decide_eq_true_eq]
      exact ⟨fun h => ⟨hlen, h1, h⟩, fun h => h.2.2⟩
    · have : ((numGiven labels k : ℤ) - pcm k k).toNat = 0 := by omega
      simp [this]
    · simp; omega
  · unfold maskByClass
    rw [combineMasks_short labels _ _ (by rw [hk]; exact hlen)]
    rw [length_classIdx] at hlen
    simp; omega

theorem maskByCount_get (A : ArgSort ℚ) (labels : Fin n → Fin K) (P : Fin n → Fin K → ℚ) (minN : ℕ)
    (pcm : Fin K → Fin K → ℤ) (k : Fin K) (r : Fin (classIdx labels k).length) :
    maskByCount A labels P minN pcm ((classIdx labels k).get r) = true ↔
      1 < numGiven labels k ∧ minN < numGiven labels k ∧ ∃ j, k ≠ j ∧ pcm j k > 0 ∧
      r ∈ (A.indices (fun r => -(classProbs labels P k r j - classProbs labels P k r k))).take
        (pcm j k).toNat := by
  have hk : labels ((classIdx labels k).get r) = k := (mem_classIdx _ _ _).mp (List.get_mem _ _)
  by_cases hlen : (classIdx labels k).length > 1
  · unfold maskByCount
    rw [combineMasks_get labels _ k r hlen, pruneByCount_iff]
    have hl := length_classIdx labels k
    exact ⟨fun h => ⟨by omega, by omega, h.2⟩, fun h => ⟨by omega, h.2.2⟩⟩
  · unfold maskByCount
    rw [combineMasks_short labels _ _ (by rw [hk]; exact hlen)]
    rw [length_classIdx] at hlen
    simp; omega

theorem exists_get (labels : Fin n → Fin K) (i : Fin n) :
    ∃ r, (classIdx labels (labels i)).get r = i :=
  List.mem_iff_get.mp ((mem_classIdx labels (labels i) i).mpr rfl)

theorem exists_get_of (labels : Fin n → Fin K) (i : Fin n) (k : Fin K) (h : labels i = k) :
    ∃ r, (classIdx labels k).get r = i := by subst h; exact exists_get labels i

theorem mem_take_mono {α : Type} (l : List α) {a b : ℕ} (h : a ≤ b) (x : α) (hx : x ∈ l.take a) :
    x ∈ l.take b := by
  have : l.take a = (l.take b).take a := by rw [List.take_take, min_eq_left h]
  rw [this] at hx
  exact List.mem_of_mem_take hx

/-- Column `k` of the count matrix is antitone on the diagonal and monotone off it in `frac_noise`. -/
theorem reducePruneCounts_mono (m : Fin K → Fin K → ℚ) (f1 f2 : ℚ) (hf : f1 ≤ f2) (k : Fin K)
    (hm : ∀ j, j ≠ k → 0 ≤ m j k) :
    (∀ j, j ≠ k → reducePruneCounts m f1 j k ≤ reducePruneCounts m f2 j k) ∧
      reducePruneCounts m f2 k k ≤ reducePruneCounts m f1 k k := by
  constructor
  · intro j hj
    apply trunc_mono
    unfold reducePruneCountsExact
    simp only [if_neg hj]
    exact mul_le_mul_of_nonneg_left hf (hm j hj)
  · apply trunc_mono
    unfold reducePruneCountsExact
    simp only [if_true]
    have : ∀ a, (m a k - if a = k then m a k else m a k * f2) ≤ (m a k - if a = k then m a k else m a k * f1) := by
      intro a
      split_ifs with h
      · exact le_refl _
      · have := mul_le_mul_of_nonneg_left hf (hm a h)
        linarith
    have := Finset.sum_le_sum (fun a (_ : a ∈ Finset.univ) => this a)
    linarith

/-- With a count matrix of integers, the number of removals scheduled off the diagonal leaves room for
`minN` examples when `minN ≤ 1` or the diagonal entry is at least `minN`. -/
theorem offDiagonal_removed_le (A : ArgSort ℚ) (cj : Fin K → Fin K → ℤ) (hnn : ∀ a b, 0 ≤ cj a b) (minN : ℕ)
    (frac : ℚ) (h0 : 0 ≤ frac) (h1 : frac ≤ 1) (k : Fin K) (hk : minN ≤ 1 ∨ (minN : ℤ) ≤ cj k k) :
    ((∑ j ∈ Finset.univ.filter (fun j => j ≠ k),
        (keepAtLeastN A (fun j k => (cj k j : ℚ)) minN frac j k).toNat : ℕ) : ℤ) +
      min (minN : ℤ) (∑ b, cj k b) ≤ ∑ b, cj k b := by
  have hcol : ∀ j, j ≠ k → ((keepAtLeastN A (fun j k => (cj k j : ℚ)) minN frac j k).toNat : ℤ) ≤
      (if (minN : ℤ) ≤ cj k k then cj k j else max (cj k j - 1) 0) := by
    intro j hj
    rw [keepAtLeastN_eq]
    unfold reducePruneCounts reducePruneCountsExact
    simp only [if_neg hj]
    have hd := keepDiagonal_off_nonneg (fun j k => (cj k j : ℚ)) minN j k hj
    have hle : keepDiagonal (fun j k => (cj k j : ℚ)) minN j k * frac ≤
        keepDiagonal (fun j k => (cj k j : ℚ)) minN j k := by nlinarith
    rw [Int.toNat_of_nonneg (by rw [trunc_of_nonneg (by positivity)]; exact Int.floor_nonneg.mpr (by positivity))]
    refine (trunc_mono hle).trans ?_
    rw [trunc_of_nonneg hd]
    unfold keepDiagonal
    simp only [if_neg hj]
    split_ifs with h2 h3 h3
    · simp; exact hnn k j
    · simp
    · have : max (cj k k : ℚ) (minN : ℚ) = cj k k := max_eq_left (by exact_mod_cast h3)
      rw [this]
      simp
    · have hm1 : minN = 1 := by
        rcases hk with hk | hk
        · have := hnn k k; omega
        · exact absurd hk h3
      have hkk : cj k k = 0 := by have := hnn k k; subst hm1; push_cast at h3; omega
      subst hm1
      rw [hkk]
      push_cast
      rw [show max (0:ℚ) 1 = 1 from max_eq_right (by norm_num)]
      refine le_trans ?_ (le_max_left _ _)
      have hpos : 0 < 1 / numNoiseRates (fun j k => (cj k j : ℚ)) k := by
        have : (1 : ℚ) ≤ numNoiseRates (fun j k => (cj k j : ℚ)) k := le_max_right _ _
        positivity
      have : ⌊(cj k j : ℚ) - (1 - 0) / numNoiseRates (fun j k => (cj k j : ℚ)) k⌋ < cj k j := by
        rw [Int.floor_lt, sub_zero]
        linarith
      omega
  have hsum : ((∑ j ∈ Finset.univ.filter (fun j => j ≠ k),
        (keepAtLeastN A (fun j k => (cj k j : ℚ)) minN frac j k).toNat : ℕ) : ℤ) ≤
      ∑ j ∈ Finset.univ.filter (fun j => j ≠ k),
        (if (minN : ℤ) ≤ cj k k then cj k j else max (cj k j - 1) 0) := by
    push_cast
    apply Finset.sum_le_sum
    intro j hj
    have := hcol j (Finset.mem_filter.mp hj).2
    simpa using this
  have htot : ∑ b, cj k b = cj k k + ∑ j ∈ Finset.univ.filter (fun j => j ≠ k), cj k j := by
    rw [Finset.filter_ne', ← Finset.add_sum_erase _ _ (Finset.mem_univ k)]
  split_ifs at hsum with h3
  · omega
  · have hm1 : minN = 1 := by
      rcases hk with hk | hk
      · have := hnn k k; omega
      · exact absurd hk h3
    subst hm1
    by_cases hall : ∀ j, j ≠ k → cj k j = 0
    · have : ∑ j ∈ Finset.univ.filter (fun j => j ≠ k), max (cj k j - 1) 0 = 0 := by
        apply Finset.sum_eq_zero
        intro j hj
        rw [hall j (Finset.mem_filter.mp hj).2]; rfl
      have : ∑ j ∈ Finset.univ.filter (fun j => j ≠ k), cj k j = 0 :=
        Finset.sum_eq_zero (fun j hj => hall j (Finset.mem_filter.mp hj).2)
      have := hnn k k
      omega
    · push Not at hall
      obtain ⟨j0, hj0, hne⟩ := hall
      have : ∑ j ∈ Finset.univ.filter (fun j => j ≠ k), max (cj k j - 1) 0 <
          ∑ j ∈ Finset.univ.filter (fun j => j ≠ k), cj k j := by
        apply Finset.sum_lt_sum
        · intro j _; have := hnn k j; omega
        · exact ⟨j0, by simp [hj0], by have := hnn k j0; omega⟩
      have := hnn k k
      omega

end Cleanlab.Filter
