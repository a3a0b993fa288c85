import Verif.Props.ExactErrors
import Verif.Props.Segmentation
import Verif.Props.Token
import Verif.Props.MultilabelFilter
import Verif.Props.CleanFit

/-!
# C153: predictions certain of the truth reveal exactly the wrong labels, in every module
-/

namespace Cleanlab.Props

open Np Cleanlab.Util Cleanlab.Count Cleanlab.Rank Cleanlab.Filter Cleanlab.Batched Cleanlab.Spec

variable {n K : ℕ}

/-- A prediction that is certain of class `t`. -/
def oneHot (t k : Fin K) : ℚ := if k = t then 1 else 0

theorem oneHot_self (t : Fin K) : oneHot t t = 1 := if_pos rfl

theorem oneHot_ne {t k : Fin K} (h : k ≠ t) : oneHot t k = 0 := if_neg h

theorem isPrediction_oneHot (t : Fin K) : IsPrediction (oneHot t) t := by
  refine ⟨fun j => ?_, fun j hj => ?_⟩
  · unfold oneHot; rw [if_pos rfl]; split_ifs <;> norm_num
  · rw [oneHot_self, oneHot_ne hj.ne]; norm_num

theorem argmax_oneHot [NeZero K] (t : Fin K) : argmax (oneHot t) = t :=
  (argmax_eq_iff_isPrediction _ _).mpr (isPrediction_oneHot t)

theorem certain_eq (truth : Fin n → Fin K) : certain truth = fun i => oneHot (truth i) := rfl

theorem confidentThreshold_le_one (b : List (Ex K)) (hb : ∀ e ∈ b, ∀ k, e.2 k ≤ 1) (k : Fin K)
    (hk : labelCounts (labelsOf b) k ≠ 0) : getConfidentThresholds (labelsOf b) (probsOf b) k ≤ 1 := by
  unfold getConfidentThresholds
  refine max_le ?_ (by unfold thresholdsLowerBound; norm_num)
  have hmem : k ∈ List.ofFn (labelsOf b) := by
    rw [labelCounts_eq] at hk
    obtain ⟨i, hi⟩ := Finset.card_pos.mp (Nat.pos_of_ne_zero hk)
    rw [mem_ofFn_iff]
    exact ⟨i, by simpa using hi⟩
  rw [if_pos hmem, classMean_eq]
  unfold meanSelfConfidence
  apply div_le_one_of_le₀ _ (Nat.cast_nonneg _)
  calc ∑ j ∈ Finset.univ.filter (fun j => labelsOf b j = k), probsOf b j k
      ≤ ∑ j ∈ Finset.univ.filter (fun j => labelsOf b j = k), (1 : ℚ) :=
        Finset.sum_le_sum (fun j _ => hb _ (List.get_mem b j) k)
    _ = numGiven (labelsOf b) k := by simp [numGiven]

/-- Streaming thresholds of probabilities are at most 1. -/
theorem streaming_le_one (bs : List (List (Ex K))) (hb : ∀ b ∈ bs, ∀ e ∈ b, ∀ k, e.2 k ≤ 1) (s : Inspector K)
    (hs : ∀ k, s.thr k ≤ 1) (k : Fin K) : (bs.foldl updateThresholds s).thr k ≤ 1 := by
  induction bs generalizing s with
  | nil => exact hs k
  | cons b bs ih =>
    rw [List.foldl_cons]
    refine ih (fun b' h' => hb b' (List.mem_cons_of_mem _ h')) _ (fun k => ?_)
    unfold updateThresholds
    dsimp only
    refine max_le ?_ (by unfold thresholdsLowerBound; norm_num)
    apply div_le_one_of_le₀ _ (le_max_of_le_right zero_le_one)
    refine le_trans ?_ (le_max_left _ _)
    push_cast
    refine add_le_add ?_ ?_
    · exact mul_le_of_le_one_right (Nat.cast_nonneg _) (hs k)
    · by_cases hk : labelCounts (labelsOf b) k = 0
      · rw [hk]; simp
      · exact mul_le_of_le_one_right (Nat.cast_nonneg _)
          (confidentThreshold_le_one b (hb b (List.mem_cons_self ..)) k hk)

theorem countP_card {α : Type} (l : List α) (m : ℕ) (hm : m = l.length) (p : α → Bool) :
    l.countP p = (Finset.univ.filter (fun r : Fin m => p (l[r.val]'(hm ▸ r.isLt)) = true)).card := by
  subst hm
  rw [← countP_finRange (fun r : Fin l.length => p (l[r.val]'r.isLt))]
  conv_lhs => rw [← List.map_getElem_finRange l]
  rw [List.countP_map]
  rfl

/-- The selection of both batched algorithms, for predictions that are certain. -/
theorem certain_top [NeZero K] (A : ArgSort ℚ) (data : List (Ex K)) (hc : ∀ e ∈ data, ∃ t, e.2 = oneHot t)
    (bs : List (List (Ex K))) (hf : bs.flatten = data) (r : ℕ) (hr : r < data.length) :
    r ∈ (findTopIssues A (data.map (selfConfidenceScore (bs.foldl updateThresholds {}).thr)).get
      (some (data.countP (fun e => decide (IsOffDiagonal (bs.foldl updateThresholds {}).thr e))))).map Fin.val ↔
      data[r].1 ≠ argmax data[r].2 := by
  set thr := (bs.foldl updateThresholds {}).thr with hthr
  have hle : ∀ k, thr k ≤ 1 := by
    intro k
    refine streaming_le_one bs (fun b hb e he k => ?_) {} (fun k => zero_le_one) k
    obtain ⟨t, ht⟩ := hc e (by rw [← hf]; exact List.mem_flatten.mpr ⟨b, hb, he⟩)
    rw [ht]
    unfold oneHot
    split_ifs <;> norm_num
  have hoff : ∀ e ∈ data, (decide (IsOffDiagonal thr e) = true ↔ e.1 ≠ argmax e.2) := by
    intro e he
    obtain ⟨t, ht⟩ := hc e he
    rw [decide_eq_true_eq]
    unfold IsOffDiagonal
    rw [ht, argmax_oneHot]
    constructor
    · rintro ⟨k, hk, hne, -⟩
      rw [← (argmax_eq_iff_isPrediction _ _).mpr hk, argmax_oneHot] at hne
      exact hne.symm
    · intro hne
      refine ⟨t, isPrediction_oneHot t, hne.symm, ?_⟩
      rw [oneHot_self]
      have := hle t
      linarith
  have hlen : (data.map (selfConfidenceScore thr)).length = data.length := List.length_map _
  rw [countP_card data _ hlen]
  have hfil : (Finset.univ.filter (fun r : Fin (data.map (selfConfidenceScore thr)).length =>
      decide (IsOffDiagonal thr (data[r.val]'(hlen ▸ r.isLt))) = true)) =
      Finset.univ.filter (fun r : Fin (data.map (selfConfidenceScore thr)).length =>
        (data[r.val]'(hlen ▸ r.isLt)).1 ≠ argmax (data[r.val]'(hlen ▸ r.isLt)).2) := by
    ext r
    simp only [Finset.mem_filter, Finset.mem_univ, true_and]
    exact hoff _ (List.getElem_mem _)
  rw [hfil]
  unfold findTopIssues
  dsimp only
  rw [if_neg (by
    rw [not_lt]
    exact (Finset.card_le_univ _).trans (by simp))]
  have key := take_indices_iff A (data.map (selfConfidenceScore thr)).get
    (fun r => (data[r.val]'(hlen ▸ r.isLt)).1 ≠ argmax (data[r.val]'(hlen ▸ r.isLt)).2) (by
      intro r s h1 h2
      have e1 : ∀ q : Fin (data.map (selfConfidenceScore thr)).length, (data.map (selfConfidenceScore thr)).get q =
          (data[q.val]'(hlen ▸ q.isLt)).2 (data[q.val]'(hlen ▸ q.isLt)).1 := by
        intro q
        simp only [List.get_eq_getElem, List.getElem_map]
        rfl
      rw [e1, e1]
      obtain ⟨t, ht⟩ := hc _ (List.getElem_mem (hlen ▸ r.isLt : r.val < data.length))
      obtain ⟨u, hu⟩ := hc _ (List.getElem_mem (hlen ▸ s.isLt : s.val < data.length))
      rw [ht, argmax_oneHot] at h1
      rw [hu, argmax_oneHot, not_not] at h2
      rw [ht, hu, h2, oneHot_ne h1, oneHot_self]
      norm_num)
  rw [List.mem_map]
  constructor
  · rintro ⟨q, hq, rfl⟩
    exact (key q).mp hq
  · intro h
    exact ⟨⟨r, hlen ▸ hr⟩, (key ⟨r, hlen ▸ hr⟩).mpr h, rfl⟩

/-- **C153, batched.** `find_label_issues_batched` flags exactly the wrong labels, for every batch size and number of workers. -/
theorem C153_batched [NeZero K] (A : ArgSort ℚ) (jobs : ℕ → Jobs) (batchSize : ℕ) (hb : 1 ≤ batchSize) (data : List (Ex K))
    (hd : data ≠ []) (truth : Fin data.length → Fin K) (hc : ∀ i, probsOf data i = oneHot (truth i)) :
    findLabelIssuesBatched A selfConfidenceScore false jobs batchSize data =
      some (.ok (fun i => decide (labelsOf data i ≠ truth i))) := by
  obtain ⟨bs, thr, -, hf, rfl, h⟩ := batched_eq A selfConfidenceScore jobs batchSize data hb hd
  rw [h]
  congr 2
  funext i
  have hc' : ∀ e ∈ data, ∃ t, e.2 = oneHot t := by
    intro e he
    obtain ⟨r, hr, rfl⟩ := List.getElem_of_mem he
    exact ⟨_, hc ⟨r, hr⟩⟩
  have h1 := certain_top A data hc' bs hf i.val i.isLt
  have hg : data[i.val].2 = oneHot (truth i) := hc i
  rw [hg, argmax_oneHot] at h1
  have hred : labelsOf data i ≠ truth i → reduceIssues (labelsOf data) (probsOf data) i = false := by
    intro hne
    apply Filter.reduceIssues_false
    rw [hc i]
    exact ⟨truth i, hne.symm, by rw [oneHot_ne hne, oneHot_self]; norm_num⟩
  by_cases hi : labelsOf data i = truth i
  · have : ¬ data[i.val].1 ≠ truth i := not_not.mpr hi
    rw [decide_eq_false (fun hh => this (h1.mp hh)), decide_eq_false (not_not.mpr hi)]
    rfl
  · rw [decide_eq_true (h1.mpr hi), decide_eq_true hi, hred hi]
    rfl

/-- **C153, image segmentation.** Without down-sampling, `find_label_issues` flags exactly the wrong pixels, for every batch size
and number of workers. -/
theorem C153_segmentation {N h w : ℕ} [NeZero K] (A : ArgSort ℚ) (jobs : ℕ → Jobs) (batchSize : ℕ) (hb : 1 ≤ batchSize)
    (labels truth : Segmentation.Stack N h w (Fin K)) (hne : 0 < N * (h * w)) :
    Segmentation.findIssues A jobs batchSize labels (fun n i j => oneHot (truth n i j)) =
      .ok (fun n i j => decide (labels n i j ≠ truth n i j)) := by
  obtain ⟨bs, hf, hr⟩ := ranked_eq A jobs batchSize labels (fun n i j => oneHot (truth n i j)) hne
  rw [findIssues_eq A jobs batchSize hb labels _ _ hr]
  congr 1
  funext n i j
  have hc' : ∀ e ∈ allPixels labels (fun n i j => oneHot (truth n i j)), ∃ t, e.2 = oneHot t := by
    intro e he
    rw [allPixels_eq, List.mem_ofFn] at he
    obtain ⟨r, rfl⟩ := he
    exact ⟨_, rfl⟩
  have hlt : flatIdx n i j < (allPixels labels (fun n i j => oneHot (truth n i j))).length := by
    rw [length_allPixels]; exact flatIdx_lt n i j
  have h1 := certain_top A _ hc' bs hf (flatIdx n i j) hlt
  rw [allPixels_get] at h1
  dsimp only at h1
  rw [argmax_oneHot] at h1
  unfold Segmentation.agrees
  rw [argmax_oneHot]
  by_cases hi : labels n i j = truth n i j
  · rw [decide_eq_false (fun hh => h1.mp hh hi), decide_eq_false (not_not.mpr hi)]
    rfl
  · rw [decide_eq_true (h1.mpr hi), decide_eq_true hi]
    simp [Ne.symm hi]

/-- The token at position `(i, j)` has given label `a` and true class `t`. -/
def TokenPair (labels truth : List (List (Fin K))) (i j : ℕ) (a t : Fin K) : Prop :=
  (∃ row, labels[i]? = some row ∧ row[j]? = some a) ∧ ∃ row, truth[i]? = some row ∧ row[j]? = some t

/-- Predictions for tokens, certain of their true classes. -/
def tokenProbs (truth : List (List (Fin K))) : List (List (Fin K → ℚ)) := truth.map (List.map oneHot)

theorem tokenPair_of_isToken {labels truth : List (List (Fin K))} {i j : ℕ} {a : Fin K} {q : Fin K → ℚ}
    (h : IsToken labels (tokenProbs truth) i j a q) : ∃ t, q = oneHot t ∧ TokenPair labels truth i j a t := by
  obtain ⟨h1, row, h2, h3⟩ := h
  unfold tokenProbs at h2
  rw [List.getElem?_map] at h2
  cases ht : truth[i]? with
  | none => rw [ht] at h2; cases h2
  | some r =>
    rw [ht] at h2
    cases h2
    rw [List.getElem?_map] at h3
    cases hx : r[j]? with
    | none => rw [hx] at h3; cases h3
    | some t =>
      rw [hx] at h3
      cases h3
      exact ⟨t, rfl, h1, r, ht, hx⟩

theorem tokenPair_unique {labels truth : List (List (Fin K))} {i j : ℕ} {a a' t t' : Fin K}
    (h : TokenPair labels truth i j a t) (h' : TokenPair labels truth i j a' t') : a = a' ∧ t = t' := by
  obtain ⟨⟨r1, a1, a2⟩, r2, a3, a4⟩ := h
  obtain ⟨⟨s1, b1, b2⟩, s2, b3, b4⟩ := h'
  rw [a1] at b1; cases b1
  rw [a3] at b3; cases b3
  rw [a2] at b2; rw [a4] at b4
  exact ⟨Option.some.inj b2, Option.some.inj b4⟩

theorem token_shape {labels truth : List (List (Fin K))} (h : labels.map List.length = truth.map List.length) :
    labels.map List.length = (tokenProbs truth).map List.length := by
  unfold tokenProbs
  rw [h, List.map_map]
  exact List.map_congr_left (fun r _ => by simp)

/-- Every position of a token is a position of the flat data. -/
theorem flat_of_tokenPair {labels truth : List (List (Fin K))} (hshape : labels.map List.length = truth.map List.length)
    {i j : ℕ} {a t : Fin K} (h : TokenPair labels truth i j a t) :
    ∃ r : Fin (labels.flatten.zip (tokenProbs truth).flatten).length, r.val = tokensBefore labels i j ∧
      labelsOf _ r = a ∧ probsOf _ r = oneHot t := by
  obtain ⟨⟨row, h1, h2⟩, row', h3, h4⟩ := h
  have hg := flatten_get labels i j row a h1 h2
  have hlt : tokensBefore labels i j < labels.flatten.length := (List.getElem?_eq_some_iff.mp hg).1
  have hlen := (flattenData_eq labels (tokenProbs truth) (token_shape hshape)).2
  refine ⟨⟨tokensBefore labels i j, by rw [hlen]; exact hlt⟩, rfl, ?_⟩
  have htok := isToken_of labels (tokenProbs truth) (token_shape hshape) ⟨tokensBefore labels i j, by rw [hlen]; exact hlt⟩ i j row h1
    (List.getElem?_eq_some_iff.mp h2).1 rfl
  obtain ⟨t', hq, hp⟩ := tokenPair_of_isToken htok
  obtain ⟨rfl, rfl⟩ := tokenPair_unique hp ⟨⟨row, h1, h2⟩, row', h3, h4⟩
  exact ⟨rfl, hq⟩

/-- The flagged tokens, given which positions of the flat data are flagged. -/
theorem token_flagged [NeZero K] {labels truth : List (List (Fin K))} (hshape : labels.map List.length = truth.map List.length)
    (mask : Fin (labels.flatten.zip (tokenProbs truth).flatten).length → Bool)
    (hm : ∀ r, mask r = true ↔ labelsOf _ r ≠ argmax (probsOf _ r)) (i j : ℕ) :
    (∃ r, mask r = true ∧ ∃ row, labels[i]? = some row ∧ j < row.length ∧ r.val = tokensBefore labels i j) ↔
      ∃ a t, TokenPair labels truth i j a t ∧ a ≠ t := by
  constructor
  · rintro ⟨r, hr, row, h1, h2, h3⟩
    obtain ⟨t, hq, hp⟩ := tokenPair_of_isToken (isToken_of labels (tokenProbs truth) (token_shape hshape) r i j row h1 h2 h3)
    refine ⟨_, t, hp, ?_⟩
    have := (hm r).mp hr
    rwa [hq, argmax_oneHot] at this
  · rintro ⟨a, t, hp, hne⟩
    obtain ⟨r, hr, ha, hq⟩ := flat_of_tokenPair hshape hp
    obtain ⟨⟨row, h1, h2⟩, -⟩ := hp
    refine ⟨r, (hm r).mpr ?_, row, h1, (List.getElem?_eq_some_iff.mp h2).1, hr⟩
    rw [ha, hq, argmax_oneHot]
    exact hne

/-- **C153, token classification.** Whatever the filter, exactly the tokens with wrong labels are returned, each once, if every class
has a token with a correct label. -/
theorem C153_token {α : Type} [LinearOrder α] (A : ArgSort ℚ) (A' : ArgSort α) [NeZero K] (score : Token.Scorer K α) (hK : 2 ≤ K)
    (labels truth : List (List (Fin K))) (f : FilterBy) (hshape : labels.map List.length = truth.map List.length)
    (hc : ∀ k, ∃ i j, TokenPair labels truth i j k k)
    (hs : ∃ s, score _ (labelsOf (labels.flatten.zip (tokenProbs truth).flatten)) (probsOf _) = .ok s) :
    ∃ l, Token.findLabelIssues A A' score labels (tokenProbs truth) { filterBy := f } = .ok l ∧ l.Nodup ∧
      ∀ i j, (i, j) ∈ l ↔ ∃ a t, TokenPair labels truth i j a t ∧ a ≠ t := by
  set data := labels.flatten.zip (tokenProbs truth).flatten with hdata
  obtain ⟨s, hs⟩ := hs
  have hP : probsOf data = certain (fun r => argmax (probsOf data r)) := by
    funext r
    have he : data.get r ∈ data := List.get_mem data r
    have h2 := (List.of_mem_zip he).2
    obtain ⟨row, hrow, hq⟩ := List.mem_flatten.mp h2
    unfold tokenProbs at hrow
    obtain ⟨ts, -, rfl⟩ := List.mem_map.mp hrow
    obtain ⟨t, -, ht⟩ := List.mem_map.mp hq
    have hq : probsOf data r = oneHot t := ht.symm
    rw [certain_eq, hq]
    dsimp only
    rw [hq, argmax_oneHot]
  have hc' : ∀ k, ∃ r, labelsOf data r = k ∧ argmax (probsOf data r) = k := by
    intro k
    obtain ⟨i, j, hp⟩ := hc k
    obtain ⟨r, -, ha, hq⟩ := flat_of_tokenPair hshape hp
    exact ⟨r, ha, by rw [hq, argmax_oneHot]⟩
  have hsep := C151_certain (labelsOf data) (fun r => argmax (probsOf data r)) hK hc'
  have hm := C151_certain_all A (labelsOf data) (fun r => argmax (probsOf data r)) hK hc' { filterBy := f } rfl rfl
    (fun cj hc => by cases hc) hsep.diag
  rw [← (C151_accepted A hsep { filterBy := f } none .offDiagonal).1, ← hP] at hm
  obtain ⟨l, hl, hnd, hmem, -⟩ := C31_one_to_one A A' score labels (tokenProbs truth) { filterBy := f } (token_shape hshape) s hs _ hm
  refine ⟨l, hl, hnd, fun i j => ?_⟩
  rw [hmem]
  exact token_flagged hshape _ (fun r => decide_eq_true_iff) i j

/-- **C153, token classification with little memory.** Here no class needs a correct label. -/
theorem C153_token_low_memory (A : ArgSort ℚ) [NeZero K] (jobs : ℕ → Jobs) (batchSize : ℕ) (hb : 1 ≤ batchSize)
    (labels truth : List (List (Fin K))) (hshape : labels.map List.length = truth.map List.length) (hne : labels.flatten ≠ []) :
    ∃ l, Token.findLabelIssuesLowMemory A selfConfidenceScore jobs batchSize labels (tokenProbs truth) = some (.ok l) ∧ l.Nodup ∧
      ∀ i j, (i, j) ∈ l ↔ ∃ a t, TokenPair labels truth i j a t ∧ a ≠ t := by
  obtain ⟨hd, hlen⟩ := flattenData_eq labels (tokenProbs truth) (token_shape hshape)
  set data := labels.flatten.zip (tokenProbs truth).flatten with hdata
  have hdne : data ≠ [] := by
    rw [← List.length_pos_iff_ne_nil, hlen]
    exact List.length_pos_iff_ne_nil.mpr hne
  have hP : ∀ r, probsOf data r = oneHot (argmax (probsOf data r)) := by
    intro r
    have he : data.get r ∈ data := List.get_mem data r
    have h2 := (List.of_mem_zip he).2
    obtain ⟨row, hrow, hq⟩ := List.mem_flatten.mp h2
    unfold tokenProbs at hrow
    obtain ⟨ts, -, rfl⟩ := List.mem_map.mp hrow
    obtain ⟨t, -, ht⟩ := List.mem_map.mp hq
    have hq : probsOf data r = oneHot t := ht.symm
    rw [hq, argmax_oneHot]
  have hm := C153_batched A jobs batchSize hb data hdne (fun r => argmax (probsOf data r)) hP
  obtain ⟨l, hl, h1, -, h3, -⟩ := map_lookup labels _ hlen ((List.finRange _).filter (fun i => decide (labelsOf data i ≠ argmax (probsOf data i))))
    ((List.nodup_finRange _).filter _)
  refine ⟨l, ?_, h1, fun i j => ?_⟩
  · unfold Token.findLabelIssuesLowMemory
    simp only [hd]
    unfold findLabelIssuesBatchedIndices
    rw [hm]
    exact congrArg some hl
  · rw [h3, ← token_flagged hshape (fun r => decide (labelsOf data r ≠ argmax (probsOf data r))) (fun r => decide_eq_true_iff) i j]
    simp only [List.mem_filter, List.mem_finRange, true_and]
    exact Iff.rfl

/-- Multi-label predictions that are certain of the classes an example has. -/
def certainClasses (T : Fin n → Fin K → Bool) (i : Fin n) (k : Fin K) : ℚ := if T i k then 1 else 0

theorem stackComplement_certain (T : Fin n → Fin K → Bool) (k : Fin K) :
    Multilabel.stackComplement (certainClasses T) k = certain (Multilabel.binaryLabels T k) := by
  funext i c
  unfold Multilabel.stackComplement certainClasses certain Multilabel.binaryLabels
  cases T i k <;> fin_cases c <;> simp

theorem binaryLabels_ne_iff (y T : Fin n → Fin K → Bool) (k : Fin K) (i : Fin n) :
    Multilabel.binaryLabels y k i ≠ Multilabel.binaryLabels T k i ↔ y i k ≠ T i k := by
  unfold Multilabel.binaryLabels
  cases y i k <;> cases T i k <;> decide

theorem binary_certain (A : ArgSort ℚ) (y T : Fin n → Fin K → Bool)
    (hc : ∀ k, (∃ i, y i k = true ∧ T i k = true) ∧ ∃ i, y i k = false ∧ T i k = false) (f : FilterBy) (k : Fin K) :
    findChecked A (Multilabel.binaryLabels y k) (Multilabel.stackComplement (certainClasses T) k) { filterBy := f } =
      .ok (fun i => decide (y i k ≠ T i k)) := by
  rw [stackComplement_certain]
  have hc' : ∀ c : Fin 2, ∃ i, Multilabel.binaryLabels y k i = c ∧ Multilabel.binaryLabels T k i = c := by
    intro c
    unfold Multilabel.binaryLabels
    obtain ⟨⟨i, h1, h2⟩, j, h3, h4⟩ := hc k
    fin_cases c
    · exact ⟨j, by rw [h3]; rfl, by rw [h4]; rfl⟩
    · exact ⟨i, by rw [h1]; rfl, by rw [h2]; rfl⟩
  have hsep := C151_certain (Multilabel.binaryLabels y k) (Multilabel.binaryLabels T k) le_rfl hc'
  rw [(C151_accepted A hsep { filterBy := f } none .offDiagonal).1, C151_certain_all A _ _ le_rfl hc' _ rfl rfl (fun cj hc => by cases hc) hsep.diag]
  congr 1
  funext i
  rw [decide_eq_decide]
  exact binaryLabels_ne_iff y T k i

/-- **C153, multi-label, class by class.** `find_multilabel_issues_per_class` flags, for each class, exactly the examples for which
this class is wrongly given or wrongly missing. -/
theorem C153_multilabel_per_class (A : ArgSort ℚ) (y T : Fin n → Fin K → Bool)
    (hc : ∀ k, (∃ i, y i k = true ∧ T i k = true) ∧ ∃ i, y i k = false ∧ T i k = false) (f : FilterBy) :
    Multilabel.issuesPerClass A y (certainClasses T) { filterBy := f } = .ok (fun k i => decide (y i k ≠ T i k)) :=
  (collect_ok_iff _ _).mpr (fun k => binary_certain A y T hc f k)

theorem multilabel_union (A : ArgSort ℚ) (y T : Fin n → Fin K → Bool)
    (hc : ∀ k, (∃ i, y i k = true ∧ T i k = true) ∧ ∃ i, y i k = false ∧ T i k = false) (f : FilterBy) :
    Multilabel.unionMask A y (certainClasses T) { filterBy := f } = .ok (fun i => decide (∃ k, y i k ≠ T i k)) := by
  obtain ⟨mask, hm, hi⟩ := unionMask_iff A y (certainClasses T) { filterBy := f } (fun k i => decide (y i k ≠ T i k))
    (fun k => binary_certain A y T hc f k)
  rw [hm]
  congr 1
  funext i
  rw [Bool.eq_iff_iff, hi]
  simp

theorem foldl_ema_lt {a : ℚ} (ha0 : 0 < a) (ha1 : a < 1) (l : List ℚ) (x : ℚ) (h : ∀ z ∈ x :: l, z ≤ 1) (hz : ∃ z ∈ x :: l, z < 1) :
    l.foldl (fun acc si => a * si + (1 - a) * acc) x < 1 := by
  induction l generalizing x with
  | nil =>
    obtain ⟨z, hz, hlt⟩ := hz
    rw [List.mem_singleton.mp hz] at hlt
    exact hlt
  | cons y l ih =>
    rw [List.foldl_cons]
    have hx := h x (by simp)
    have hy := h y (by simp)
    have hle : a * y + (1 - a) * x ≤ 1 := by nlinarith
    refine ih _ (fun z hz => ?_) ?_
    · rcases List.mem_cons.mp hz with rfl | hz
      · exact hle
      · exact h z (by simp [hz])
    · obtain ⟨z, hz, hlt⟩ := hz
      rcases List.mem_cons.mp hz with rfl | hz
      · exact ⟨_, List.mem_cons_self .., by nlinarith⟩
      · rcases List.mem_cons.mp hz with rfl | hz
        · exact ⟨_, List.mem_cons_self .., by nlinarith⟩
        · exact ⟨z, List.mem_cons_of_mem _ hz, hlt⟩

theorem ema_lt_one [NeZero K] (s : Fin K → ℚ) (h : ∀ k, s k ≤ 1) (hlt : ∃ k, s k < 1) (v : ℚ)
    (hv : Multilabel.ema (some (4 / 5)) s = .ok v) : v < 1 := by
  rw [ema_some (4 / 5) s (by norm_num) (by norm_num)] at hv
  have hmem := Multilabel.mem_sortDesc s
  cases hd : Multilabel.sortDesc s with
  | nil => rw [hd] at hv; cases hv
  | cons x xs =>
    rw [hd] at hv hmem
    rw [← Except.ok.inj hv]
    refine foldl_ema_lt (by norm_num) (by norm_num) xs x (fun z hz => ?_) ?_
    · obtain ⟨k, rfl⟩ := (hmem z).mp hz
      exact h k
    · obtain ⟨k, hk⟩ := hlt
      exact ⟨s k, (hmem _).mpr ⟨k, rfl⟩, hk⟩

/-- **C153, multi-label.** Whatever the filter, exactly the examples with a wrong or a missing class are flagged. -/
theorem C153_multilabel (A A' : ArgSort ℚ) (hK : 2 ≤ K) (y T : Fin n → Fin K → Bool)
    (hc : ∀ k, (∃ i, y i k = true ∧ T i k = true) ∧ ∃ i, y i k = false ∧ T i k = false) (f : FilterBy) :
    Multilabel.multilabelIssues A A' y (certainClasses T) { filterBy := f } = .ok (fun i => decide (∃ k, y i k ≠ T i k)) := by
  unfold Multilabel.multilabelIssues
  by_cases hl : Multilabel.isLow ({ filterBy := f } : Multilabel.MLArgs K) = true
  · rw [if_pos hl]
    have : NeZero K := ⟨by omega⟩
    unfold Multilabel.lowIndices Multilabel.numErrors
    rw [multilabel_union A y T hc]
    have hval : ∀ k i, givenProb y (certainClasses T) i k = if y i k = T i k then 1 else 0 := by
      intro k i
      unfold givenProb certainClasses
      cases y i k <;> cases T i k <;> simp
    have hs : ∃ s, Multilabel.scorer Multilabel.selfConf y (certainClasses T) = .ok s ∧
        ∀ i, Multilabel.ema (some (4 / 5)) (fun k => if y i k = T i k then (1 : ℚ) else 0) = .ok (s i) := by
      choose s h1 h2 h3 using fun i => C23_ema_between (4 / 5) (by norm_num) (by norm_num) (fun k => if y i k = T i k then (1 : ℚ) else 0)
      refine ⟨s, ?_, h1⟩
      unfold Multilabel.scorer
      have hml : Multilabel.isMultilabel y = true := by
        obtain ⟨⟨i, h, -⟩, j, h', -⟩ := hc 0
        exact decide_eq_true ⟨by omega, ⟨i, 0, h⟩, j, 0, h'⟩
      rw [if_pos hml, classScores_selfConf]
      refine (collect_ok_iff _ _).mpr (fun i => ?_)
      rw [← h1 i]
      congr 1
      funext k
      exact hval k i
    obtain ⟨s, hs, hse⟩ := hs
    rw [hs]
    dsimp only [bind, Except.bind, pure, Except.pure]
    congr 1
    funext i
    rw [countP_finRange, decide_eq_decide]
    have hset : (Finset.univ.filter (fun i : Fin n => decide (∃ k, y i k ≠ T i k) = true)) =
        Finset.univ.filter (fun i => ∃ k, y i k ≠ T i k) := by
      ext i; simp
    rw [hset]
    refine take_indices_iff A' s (fun i => ∃ k, y i k ≠ T i k) (fun r q hr hq => ?_) i
    have h1 : s r < 1 := by
      refine ema_lt_one _ (fun k => by split_ifs <;> norm_num) ?_ _ (hse r)
      obtain ⟨k, hk⟩ := hr
      exact ⟨k, by rw [if_neg hk]; norm_num⟩
    have h2 : (1 : ℚ) ≤ s q := by
      obtain ⟨v, hv, ⟨k, hk⟩, -⟩ := C23_ema_between (4 / 5) (by norm_num) (by norm_num) (fun k => if y q k = T q k then (1 : ℚ) else 0)
      rw [hse q] at hv
      rw [Except.ok.inj hv]
      refine le_trans ?_ hk
      rw [if_pos (not_not.mp (fun h => hq ⟨k, h⟩))]
    linarith
  · rw [if_neg hl]
    exact multilabel_union A y T hc f

/-- The mask that a new `CleanLearning` object computes. -/
theorem certain_mask [NeZero K] (hK : 2 ≤ K) (cfg : CleanLearning.Settings K) (hpu : cfg.pulearning = none)
    (kw : CleanLearning.Kwargs K) (hu : kw.unsupported = false) (hj : kw.confidentJoint = none)
    (hnum : kw.numToRemove = none) (hfrac : kw.fracNoise.getD 1 = 1) (c : CleanLearning.Call K)
    (hn : c.noiseMatrix = none) (hi : c.inverseNoiseMatrix = none) (ht : c.thresholds = none) (truth : Fin c.n → Fin K)
    (hcP : c.probs = certain truth) (hc : ∀ k, ∃ i, c.labels i = k ∧ truth i = k)
    (hmin : ∀ k, kw.minExamples.getD 10 ≤ numPairs c.labels truth k k) :
    (CleanLearning.findMask cfg (CleanLearning.fresh kw) c).2 = .ok (fun i => decide (c.labels i ≠ truth i)) := by
  have hsep := C151_certain c.labels truth hK hc
  have hjoint : c.joint cfg.sort = fun s y => (numPairs c.labels truth s y : ℚ) := by
    funext x b
    unfold CleanLearning.Call.joint
    rw [hcP, ht, Option.getD_none]
    rw [C151_confident_joint cfg.sort hsep true x b]
    simp
  have hm := findMask_eq cfg hpu (CleanLearning.fresh kw) c kw rfl hu hn hi (by
    rintro cj (h | ⟨-, h⟩)
    · rw [hj] at h; cases h
    · cases h)
  rw [hm, hcP]
  rw [(C151_accepted cfg.sort hsep _ none .offDiagonal).1]
  refine C151_certain_all cfg.sort c.labels truth hK hc _ hnum hfrac ?_ hmin
  intro cj hcj
  have hcj : passedJoint cfg kw (CleanLearning.fresh kw).confidentJoint c = some cj := hcj
  unfold passedJoint at hcj
  rw [hj] at hcj
  dsimp only at hcj
  split_ifs at hcj
  rw [← Option.some.inj hcj, ← hjoint]
  rfl

/-- **C153, training.** A new `CleanLearning` object, given such predictions (or computing them by cross-validation), trains on
exactly the examples with correct labels, whatever the filter, if every class has as many correct labels as
`min_examples_per_class` asks for (here 10 unless given). -/
theorem C153_training [NeZero K] (hK : 2 ≤ K) (cfg : CleanLearning.Settings K) (hpu : cfg.pulearning = none)
    (hlow : cfg.lowMemory = false) (kw : CleanLearning.Kwargs K) (hu : kw.unsupported = false) (hj : kw.confidentJoint = none)
    (hnum : kw.numToRemove = none) (hfrac : kw.fracNoise.getD 1 = 1) (a : CleanLearning.FitCall K) (harg : a.labelIssues = none)
    (hn : a.noiseMatrix = none) (hi : a.inverseNoiseMatrix = none) (ht : a.thresholds = none) (truth : Fin a.n → Fin K)
    (hP : a.toCall.probs = certain truth) (hc : ∀ k, ∃ i, a.labels i = k ∧ truth i = k)
    (hmin : ∀ k, kw.minExamples.getD 10 ≤ numPairs a.labels truth k k) (t : CleanLearning.Training a.n K)
    (h : (CleanLearning.fit cfg (CleanLearning.fresh kw) a).2 = .ok t) :
    TrainsOnRest a.labels (fun i => a.labels i ≠ truth i) t := by
  obtain ⟨df, hdf, hrest⟩ := C56_trains_on_found cfg (CleanLearning.fresh kw) a harg t h
  set c : CleanLearning.Call K := { a.toCall with saveSpace := false } with hcdef
  have hmask := certain_mask hK cfg hpu kw hu hj hnum hfrac c hn hi ht truth hP hc hmin
  have hflag : ∀ i : Fin a.n, (df.map (·.isLabelIssue))[i.val]? = some true ↔ a.labels i ≠ truth i := by
    intro i
    unfold CleanLearning.findLabelIssues at hdf
    cases hck : CleanLearning.checkCall cfg c with
    | error e => rw [hck] at hdf; cases hdf
    | ok u =>
      rw [hck, hlow] at hdf
      dsimp only at hdf
      rw [if_neg (by decide)] at hdf
      rw [show CleanLearning.findMask cfg (CleanLearning.fresh kw) c =
        ((CleanLearning.findMask cfg (CleanLearning.fresh kw) c).1, (CleanLearning.findMask cfg (CleanLearning.fresh kw) c).2) from rfl, hmask] at hdf
      unfold CleanLearning.issueTable at hdf
      dsimp only [Except.bind, bind, pure, Except.pure] at hdf
      cases hq : CleanLearning.qualityScores cfg (CleanLearning.findMask cfg (CleanLearning.fresh kw) c).1 c.labels c.probs with
      | error e => rw [hq] at hdf; cases hdf
      | ok sc =>
        rw [hq] at hdf
        dsimp only at hdf
        rw [← Except.ok.inj hdf]
        rw [List.map_map, List.getElem?_map, List.getElem?_eq_getElem (by rw [List.length_finRange]; exact i.isLt)]
        simp
        exact Iff.rfl
  have : (fun i : Fin a.n => (df.map (·.isLabelIssue))[i.val]? = some true) = fun i => a.labels i ≠ truth i := by
    funext i; exact propext (hflag i)
  rwa [this] at hrest

/-- **C153, training returns.** If the predictions are passed to `fit` and their scores can be computed, it does not raise. -/
theorem C153_training_returns [NeZero K] (hK : 2 ≤ K) (cfg : CleanLearning.Settings K) (hpu : cfg.pulearning = none)
    (hlow : cfg.lowMemory = false) (kw : CleanLearning.Kwargs K) (hu : kw.unsupported = false) (hj : kw.confidentJoint = none)
    (hnum : kw.numToRemove = none) (hfrac : kw.fracNoise.getD 1 = 1) (a : CleanLearning.FitCall K) (harg : a.labelIssues = none)
    (hn : a.noiseMatrix = none) (hi : a.inverseNoiseMatrix = none) (ht : a.thresholds = none) (truth : Fin a.n → Fin K)
    (hP : a.predProbs = some (certain truth)) (hc : ∀ k, ∃ i, a.labels i = k ∧ truth i = k)
    (hmin : ∀ k, kw.minExamples.getD 10 ≤ numPairs a.labels truth k k) (hw : a.weightInKwargs = false)
    (hsw : a.sampleWeight = none ∨ a.clfTakesWeight = true) (hsc : ∃ sc, cfg.scores a.labels (certain truth) = .ok sc) :
    ∃ t, (CleanLearning.fit cfg (CleanLearning.fresh kw) a).2 = .ok t := by
  set c : CleanLearning.Call K := { a.toCall with saveSpace := false } with hcdef
  have hcP : c.probs = certain truth := by
    show a.predProbs.getD a.cvProbs = _
    rw [hP]; rfl
  have hmask := certain_mask hK cfg hpu kw hu hj hnum hfrac c hn hi ht truth hcP hc hmin
  have hsep := C151_certain a.labels truth hK hc
  have htwo : ∃ i j, a.labels i ≠ a.labels j := by
    obtain ⟨i, hi, -⟩ := hc ⟨0, by omega⟩
    obtain ⟨j, hj, -⟩ := hc ⟨1, by omega⟩
    exact ⟨i, j, by rw [hi, hj]; simp⟩
  have hck : CleanLearning.checkCall cfg c = .ok () := by
    have h1 : CleanLearning.checkInputs c = .ok () := by
      unfold CleanLearning.checkInputs
      rw [if_neg (not_not.mpr htwo), show c.predProbs = some (certain truth) from hP]
      exact (validate_iff _ _ _).mpr ⟨htwo.choose.pos, Or.inr htwo, hsep.inRange⟩
    unfold CleanLearning.checkCall
    rw [h1, show c.noiseMatrix = none from hn, show c.inverseNoiseMatrix = none from hi, show c.predProbs = some (certain truth) from hP]
    rfl
  obtain ⟨sc, hsc⟩ := hsc
  have hkw : (CleanLearning.findMask cfg (CleanLearning.fresh kw) c).1.kwargs.isNone = false := by
    obtain ⟨⟨kw', h, -⟩, -⟩ := findMask_spec cfg hpu (CleanLearning.fresh kw) c kw rfl
    rw [h]; rfl
  have htab : CleanLearning.issueTable cfg (CleanLearning.findMask cfg (CleanLearning.fresh kw) c).1 c (fun i => decide (c.labels i ≠ truth i)) =
      .ok ((List.finRange a.n).map (fun i => ⟨decide (a.labels i ≠ truth i), sc i, a.labels i, argmax (certain truth i)⟩)) := by
    unfold CleanLearning.issueTable CleanLearning.qualityScores
    rw [hkw, hcP, if_neg (by decide)]
    rw [show cfg.scores c.labels (certain truth) = .ok sc from hsc]
    rfl
  unfold CleanLearning.fit
  rw [if_neg (by rw [hw]; decide), if_neg (by rcases hsw with h | h <;> simp [h]), harg]
  dsimp only
  unfold CleanLearning.findLabelIssues
  rw [← hcdef, hck, hlow]
  dsimp only
  rw [if_neg (by decide)]
  rw [show CleanLearning.findMask cfg (CleanLearning.fresh kw) c =
    ((CleanLearning.findMask cfg (CleanLearning.fresh kw) c).1, (CleanLearning.findMask cfg (CleanLearning.fresh kw) c).2) from rfl, hmask]
  dsimp only [Except.bind]
  rw [htab]
  dsimp only
  unfold CleanLearning.processArg
  dsimp only
  rw [dif_pos (by simp), if_neg]
  · exact ⟨_, rfl⟩
  · simp only [Option.any_some, List.map_map, decide_eq_true_eq, not_not]
    rw [List.ofFn_eq_map]
    rfl

/-! ## Concrete cases -/

/-- Four examples, the last of which is labeled wrongly. -/
def certData : List (Ex 2) := [(0, oneHot 0), (1, oneHot 1), (0, oneHot 0), (1, oneHot 0)]

example (A : ArgSort ℚ) (jobs : ℕ → Jobs) : findLabelIssuesBatched A selfConfidenceScore false jobs 3 certData =
    some (.ok (fun i => decide (labelsOf certData i ≠ (![0, 1, 0, 0] : Fin 4 → Fin 2) i))) :=
  C153_batched A jobs 3 (by decide) certData (by decide) ![0, 1, 0, 0] (by
    intro i
    change Fin 4 at i
    fin_cases i <;> rfl)

example : (findLabelIssuesBatched (stableSort ℚ) selfConfidenceScore false (fun _ => .one) 3 certData).map
    (fun r => r.toOption.map (fun m => (List.finRange 4).map m)) = some (some [false, false, false, true]) := by decide +kernel

example (A : ArgSort ℚ) (jobs : ℕ → Jobs) (b : ℕ) (hb : 1 ≤ b) :=
  C153_segmentation A jobs b hb (fun (_ : Fin 2) (i : Fin 3) (_ : Fin 4) => if i = 0 then (0 : Fin 3) else 1) (fun _ _ j => if j = 0 then 2 else 1)
    (by decide)

theorem exists_ok_of_toBool {ε α : Type} {x : Except ε α} (h : x.toBool = true) : ∃ s, x = .ok s := by
  cases x with
  | error e => cases h
  | ok s => exact ⟨s, rfl⟩

/-- Two sentences; the second token of the second one is labeled wrongly. -/
example (A A' : ArgSort ℚ) (f : FilterBy) :
    ∃ l, Token.findLabelIssues A A' (Token.methodScorer .selfConfidence) [[(0 : Fin 2)], [1, 0]] (tokenProbs [[0], [1, 1]]) { filterBy := f } = .ok l ∧
      (1, 1) ∈ l ∧ (1, 0) ∉ l := by
  obtain ⟨l, h1, -, h3⟩ := C153_token A A' (Token.methodScorer .selfConfidence) (by decide) [[(0 : Fin 2)], [1, 0]] [[0], [1, 1]] f (by decide)
    (by
      intro k
      fin_cases k
      · exact ⟨0, 0, ⟨_, rfl, rfl⟩, _, rfl, rfl⟩
      · exact ⟨1, 0, ⟨_, rfl, rfl⟩, _, rfl, rfl⟩)
    (exists_ok_of_toBool (by decide +kernel))
  refine ⟨l, h1, (h3 1 1).mpr ⟨0, 1, ⟨⟨_, rfl, rfl⟩, _, rfl, rfl⟩, by decide⟩, fun h => ?_⟩
  obtain ⟨a, t, hp, hne⟩ := (h3 1 0).mp h
  have h0 : TokenPair [[(0 : Fin 2)], [1, 0]] [[0], [1, 1]] 1 0 1 1 := ⟨⟨_, rfl, rfl⟩, _, rfl, rfl⟩
  obtain ⟨rfl, rfl⟩ := tokenPair_unique hp h0
  exact hne rfl

/-- Four examples, of which the last is labeled wrongly. -/
example : ∃ t, (CleanLearning.fit cfg2 (CleanLearning.fresh kw1)
    { n := 4, labels := ![0, 1, 0, 1], predProbs := some (certain ![0, 1, 0, 0]), cvProbs := fun _ _ => 0 }).2 = .ok t ∧
    TrainsOnRest ![(0 : Fin 2), 1, 0, 1] (fun i => i = 3) t := by
  have hc : ∀ k, ∃ i, (![0, 1, 0, 1] : Fin 4 → Fin 2) i = k ∧ (![0, 1, 0, 0] : Fin 4 → Fin 2) i = k := by decide
  have hmin : ∀ k, kw1.minExamples.getD 10 ≤ numPairs (![0, 1, 0, 1] : Fin 4 → Fin 2) (![0, 1, 0, 0] : Fin 4 → Fin 2) k k := by decide
  obtain ⟨t, ht⟩ := C153_training_returns (by decide) cfg2 rfl rfl kw1 rfl rfl rfl rfl
    { n := 4, labels := ![0, 1, 0, 1], predProbs := some (certain ![0, 1, 0, 0]), cvProbs := fun _ _ => 0 } rfl rfl rfl rfl ![0, 1, 0, 0]
    rfl hc hmin rfl (Or.inl rfl) ⟨_, rfl⟩
  refine ⟨t, ht, ?_⟩
  have := C153_training (by decide) cfg2 rfl rfl kw1 rfl rfl rfl rfl
    { n := 4, labels := ![0, 1, 0, 1], predProbs := some (certain ![0, 1, 0, 0]), cvProbs := fun _ _ => 0 } rfl rfl rfl rfl ![0, 1, 0, 0]
    rfl hc hmin t ht
  have he : (fun i => (![0, 1, 0, 1] : Fin 4 → Fin 2) i ≠ (![0, 1, 0, 0] : Fin 4 → Fin 2) i) = fun i => i = 3 := by
    funext i; revert i; decide
  exact he ▸ this

/-- The third example lacks class 1. -/
example (A A' : ArgSort ℚ) (f : FilterBy) :
    Multilabel.multilabelIssues A A' ![![true, false], ![false, true], ![true, false]] (certainClasses ![![true, false], ![false, true], ![true, true]])
      { filterBy := f } = .ok (fun i => decide (i = 2)) := by
  rw [C153_multilabel A A' (by decide) _ _ (by decide)]
  congr 1
  funext i
  revert i
  decide

end Cleanlab.Props
