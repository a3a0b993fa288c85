import Verif.Props.BatchedFind
import Verif.Props.Segmentation
import Verif.Props.BetterPrediction
import Verif.Props.FartherOutliers

/-!
# C230: better predictions and the search in batches
-/

namespace Cleanlab.Props

open Np Cleanlab.Util Cleanlab.Count Cleanlab.Rank Cleanlab.Filter Cleanlab.Batched Cleanlab.Spec

variable {K : ℕ}

/-- The given label is at least as probable as before, every other class at most as probable. -/
def BetterRow (e e' : Ex K) : Prop := e'.1 = e.1 ∧ e.2 e.1 ≤ e'.2 e.1 ∧ ∀ k, k ≠ e.1 → e'.2 k ≤ e.2 k

/-- The order of the other classes by probability has remained. -/
def SameRivals (e e' : Ex K) : Prop := ∀ k l, k ≠ e.1 → l ≠ e.1 → (e'.2 k ≤ e'.2 l ↔ e.2 k ≤ e.2 l)

theorem BetterRow.refl (e : Ex K) : BetterRow e e := ⟨rfl, le_rfl, fun _ _ => le_rfl⟩

theorem given_better {b b' : List (Ex K)} (h : List.Forall₂ BetterRow b b') (k : Fin K) : given b' k = given b k := by
  induction h with
  | nil => rfl
  | @cons x y l l' hxy _ ih =>
    unfold given at ih ⊢
    rw [List.countP_cons, List.countP_cons, ih, hxy.1]

theorem mass_better {b b' : List (Ex K)} (h : List.Forall₂ BetterRow b b') (k : Fin K) : mass b k ≤ mass b' k := by
  induction h with
  | nil => exact le_rfl
  | @cons x y l l' hxy _ ih =>
    unfold mass at ih ⊢
    rw [List.filter_cons, List.filter_cons, hxy.1]
    by_cases hk : x.1 = k
    · have := hxy.2.1
      rw [hk] at this
      simp only [hk, decide_true, if_true, List.map_cons, List.sum_cons]
      linarith
    · simp only [hk, decide_false, Bool.false_eq_true, if_false]
      exact ih

/-- Better predictions do not lower the thresholds computed in batches. -/
theorem streaming_better {bs bs' : List (List (Ex K))} (h : List.Forall₂ (List.Forall₂ BetterRow) bs bs') (s s' : Inspector K)
    (hc : s'.perClass = s.perClass) (ht : ∀ k, s.thr k ≤ s'.thr k) (k : Fin K) :
    (bs.foldl updateThresholds s).thr k ≤ (bs'.foldl updateThresholds s').thr k := by
  induction h generalizing s s' with
  | nil => exact ht k
  | @cons b b' l l' hb _ ih =>
    rw [List.foldl_cons, List.foldl_cons]
    refine ih _ _ ?_ (fun k => ?_)
    · unfold updateThresholds
      dsimp only
      funext k
      rw [labelCounts_labelsOf, labelCounts_labelsOf, given_better hb, hc]
    · unfold updateThresholds
      dsimp only
      rw [labelCounts_labelsOf, labelCounts_labelsOf, given_better hb, hc]
      refine max_le_max (div_le_div_of_nonneg_right (add_le_add ?_ ?_) (le_trans zero_le_one (le_max_right _ _))) le_rfl
      · exact mul_le_mul_of_nonneg_left (ht k) (Nat.cast_nonneg _)
      · refine mul_le_mul_of_nonneg_left ?_ (Nat.cast_nonneg _)
        rcases Nat.eq_zero_or_pos (given b k) with h0 | h0
        · rw [thresholds_of_zero b k h0, thresholds_of_zero b' k (by rw [given_better hb]; exact h0)]
        · rw [thresholds_of_pos b k h0, thresholds_of_pos b' k (by rw [given_better hb]; exact h0), given_better hb]
          exact max_le_max (div_le_div_of_nonneg_right (mass_better hb k) (Nat.cast_nonneg _)) le_rfl

theorem loopBatches_forall₂ {α : Type} (R : α → α → Prop) (bs fuel : ℕ) (l l' : List α) (h : List.Forall₂ R l l')
    (r r' : List (List α)) (hr : loopBatches bs fuel l = some r) (hr' : loopBatches bs fuel l' = some r') :
    List.Forall₂ (List.Forall₂ R) r r' := by
  induction fuel generalizing l l' r r' with
  | zero =>
    unfold loopBatches at hr hr'
    split_ifs at hr hr'
    rw [← Option.some.inj hr, ← Option.some.inj hr']
    exact List.Forall₂.nil
  | succ fuel ih =>
    unfold loopBatches at hr hr'
    by_cases h0 : l = []
    · have h0' : l' = [] := by subst h0; cases h; rfl
      rw [if_pos h0] at hr
      rw [if_pos h0'] at hr'
      rw [← Option.some.inj hr, ← Option.some.inj hr']
      exact List.Forall₂.nil
    · have h0' : l' ≠ [] := by rintro rfl; cases h; exact h0 rfl
      rw [if_neg h0] at hr
      rw [if_neg h0'] at hr'
      obtain ⟨t, ht, rfl⟩ := Option.map_eq_some_iff.mp hr
      obtain ⟨t', ht', rfl⟩ := Option.map_eq_some_iff.mp hr'
      exact List.Forall₂.cons (List.forall₂_take bs h) (ih _ _ (List.forall₂_drop bs h) _ _ ht ht')

variable [NeZero K]

omit [NeZero K] in
/-- A confident prediction of another class has been one before. -/
theorem offDiagonal_better {thr thr' : Fin K → ℚ} (ht : ∀ k, thr k ≤ thr' k) {e e' : Ex K} (h : BetterRow e e')
    (hs : SameRivals e e') (ho : IsOffDiagonal thr' e') : IsOffDiagonal thr e := by
  obtain ⟨k, hk, hne, hr⟩ := ho
  rw [h.1] at hne
  have h2 := h.2.2 k hne
  refine ⟨k, ⟨fun j => ?_, fun j hj => ?_⟩, hne, by linarith [ht k]⟩
  · by_cases hj : j = e.1
    · have := hk.1 j
      rw [hj] at this ⊢
      linarith [h.2.1]
    · exact (hs j k hj hne).mp (hk.1 j)
  · by_cases hj' : j = e.1
    · have := hk.2 j hj
      rw [hj'] at this ⊢
      linarith [h.2.1]
    · exact not_le.mp fun hle => absurd ((hs k j hne hj').mpr hle) (not_le.mpr (hk.2 j hj))

omit [NeZero K] in
theorem lifted_better (c : Fin K) (p p' : Fin K → ℚ) (h1 : p c ≤ p' c) (h2 : ∀ k, k ≠ c → p' k ≤ p k)
    (h : IsPrediction (fun j => p j + if j = c then 1 / 1000000 else 0) c) :
    IsPrediction (fun j => p' j + if j = c then 1 / 1000000 else 0) c := by
  refine ⟨fun j => ?_, fun j hj => ?_⟩
  · by_cases hjc : j = c
    · rw [hjc]
    · have := h.1 j
      simp only [if_neg hjc, if_true] at this ⊢
      linarith [h2 j hjc]
  · have := h.2 j hj
    simp only [if_neg hj.ne, if_true] at this ⊢
    linarith [h2 j hj.ne]

omit [NeZero K] in
theorem card_below (l : List ℚ) (r : Fin l.length) (v : ℚ) (hv : l.get r = v) :
    (Finset.univ.filter (fun s => l.get s < l.get r)).card = l.countP (fun x => decide (x < v)) := by
  have h3 := countP_finRange (fun s : Fin l.length => decide (l.get s < v))
  have h4 : (List.finRange l.length).countP (fun s : Fin l.length => decide (l.get s < v)) =
      ((List.finRange l.length).map l.get).countP (fun x => decide (x < v)) := by
    rw [List.countP_map]
    rfl
  rw [List.map_get_finRange] at h4
  rw [← h4, h3, hv]
  congr 1
  ext s
  simp

omit [NeZero K] in
/-- Which examples are among the selected, if no other has the same score. -/
theorem selected_iff (A : ArgSort ℚ) (l : List ℚ) (c : ℕ) (hc : c ≤ l.length) (i : ℕ) (hi : i < l.length)
    (hne : ∀ j (hj : j < l.length), j ≠ i → l[j] ≠ l[i]) :
    i ∈ (findTopIssues A l.get (some c)).map Fin.val ↔ l.countP (fun x => decide (x < l[i])) < c := by
  have h1 : i ∈ (findTopIssues A l.get (some c)).map Fin.val ↔ (⟨i, hi⟩ : Fin l.length) ∈ (A.indices l.get).take c := by
    unfold findTopIssues
    dsimp only
    rw [if_neg (by omega), List.mem_map]
    constructor
    · rintro ⟨a, ha, rfl⟩
      exact ha
    · intro h
      exact ⟨_, h, rfl⟩
  rw [h1, mem_take_indices_iff A l.get c ⟨i, hi⟩ (fun s hs => hne s.val s.isLt (fun h => hs (Fin.ext h)))]
  rw [card_below l ⟨i, hi⟩ l[i] rfl]

omit [NeZero K] in
/-- The number of issues that are looked for does not rise if predictions get better and the order of the other classes remains. -/
theorem offDiagonal_count {thr thr' : Fin K → ℚ} (ht : ∀ k, thr k ≤ thr' k) {l l' : List (Ex K)}
    (h : List.Forall₂ (fun e e' => BetterRow e e' ∧ SameRivals e e') l l') :
    l'.countP (fun e => decide (IsOffDiagonal thr' e)) ≤ l.countP (fun e => decide (IsOffDiagonal thr e)) :=
  countP_forall₂ (fun x y => BetterRow y x ∧ SameRivals y x) _ _
    (fun _ _ hxy hx => decide_eq_true (offDiagonal_better ht hxy.1 hxy.2 (of_decide_eq_true hx))) _ _ h.flip

omit [NeZero K] in
theorem forall₂_one (data data' : List (Ex K)) (hlen : data'.length = data.length) (i : ℕ) (hi : i < data.length)
    (h : BetterRow data[i] (data'[i]'(hlen ▸ hi))) (hs : SameRivals data[i] (data'[i]'(hlen ▸ hi)))
    (hsame : ∀ j (hj : j < data.length), j ≠ i → data'[j]'(hlen ▸ hj) = data[j]) :
    List.Forall₂ (fun e e' => BetterRow e e' ∧ SameRivals e e') data data' := by
  rw [List.forall₂_iff_get]
  refine ⟨hlen.symm, fun j h1 h2 => ?_⟩
  by_cases hj : j = i
  · subst hj
    exact ⟨h, hs⟩
  · rw [List.get_eq_getElem, List.get_eq_getElem, hsame j h1 hj]
    exact ⟨BetterRow.refl _, fun _ _ _ _ => Iff.rfl⟩

omit [NeZero K] in
/-- An example that is not selected is not selected with a better prediction. -/
theorem still_unselected (A : ArgSort ℚ) (thr thr' : Fin K → ℚ) (hthr : ∀ k, thr k ≤ thr' k) (data data' : List (Ex K))
    (hlen : data'.length = data.length) (i : ℕ) (hi : i < data.length) (h : BetterRow data[i] (data'[i]'(hlen ▸ hi)))
    (hs : SameRivals data[i] (data'[i]'(hlen ▸ hi))) (hsame : ∀ j (hj : j < data.length), j ≠ i → data'[j]'(hlen ▸ hj) = data[j])
    (hne : ∀ j (hj : j < data.length), j ≠ i → data[j].2 data[j].1 ≠ data[i].2 data[i].1)
    (hno : i ∉ (findTopIssues A (data.map (selfConfidenceScore thr)).get
      (some (data.countP (fun e => decide (IsOffDiagonal thr e))))).map Fin.val) :
    i ∉ (findTopIssues A (data'.map (selfConfidenceScore thr')).get
      (some (data'.countP (fun e => decide (IsOffDiagonal thr' e))))).map Fin.val := by
  have hi' : i < data'.length := hlen ▸ hi
  have hcount := offDiagonal_count hthr (forall₂_one data data' hlen i hi h hs hsame)
  intro hc
  have hget : ∀ j (hj : j < data.length), (data.map (selfConfidenceScore thr))[j]'(by simpa using hj) = data[j].2 data[j].1 := fun j hj => by
    rw [List.getElem_map]
    rfl
  have hget' : ∀ j (hj : j < data'.length), (data'.map (selfConfidenceScore thr'))[j]'(by simpa using hj) = data'[j].2 data'[j].1 :=
    fun j hj => by
      rw [List.getElem_map]
      rfl
  rw [selected_iff A _ _ (by rw [List.length_map]; exact List.countP_le_length) i (by simpa using hi) (fun j hj hji => by
    rw [List.length_map] at hj
    rw [hget j hj, hget i hi]
    exact hne j hj hji), not_lt] at hno
  have hlow : (data'.map (selfConfidenceScore thr')).countP (fun x => decide (x < data'[i].2 data'[i].1)) <
      data'.countP (fun e => decide (IsOffDiagonal thr' e)) := by
    obtain ⟨a, ha, hav⟩ := List.mem_map.mp hc
    unfold findTopIssues at ha
    dsimp only at ha
    rw [if_neg (by rw [List.length_map, not_lt]; exact List.countP_le_length)] at ha
    have := take_indices_card A _ _ _ ha
    rwa [card_below _ a (data'[i].2 data'[i].1) (by
      rw [List.get_eq_getElem]
      simp only [hav]
      exact hget' i hi')] at this
  have hmono : (data.map (selfConfidenceScore thr)).countP (fun x => decide (x < data[i].2 data[i].1)) ≤
      (data'.map (selfConfidenceScore thr')).countP (fun x => decide (x < data'[i].2 data'[i].1)) := by
    refine countP_forall₂ (fun x y => y = x ∨ x = data[i].2 data[i].1) _ _ (fun x y hxy hx => decide_eq_true ?_) _ _ ?_
    · have hx := of_decide_eq_true hx
      have hup : data[i].2 data[i].1 ≤ data'[i].2 data'[i].1 := by
        rw [h.1]
        exact h.2.1
      rcases hxy with rfl | rfl
      · exact lt_of_lt_of_le hx hup
      · exact absurd hx (lt_irrefl _)
    · rw [List.forall₂_iff_get]
      refine ⟨by rw [List.length_map, List.length_map, hlen], fun j h1 h2 => ?_⟩
      rw [List.length_map] at h1 h2
      rw [List.get_eq_getElem, List.get_eq_getElem, hget j h1, hget' j h2]
      by_cases hj : j = i
      · subst hj
        exact Or.inr rfl
      · rw [hsame j h1 hj]
        exact Or.inl rfl
  rw [hget i hi] at hno
  omega

/-- **C230 (partial).** If the prediction for one example gets better and the order of the other classes in it remains, then the search
in batches does not report the example unless it did before, provided no other example had the same score. Missing: other orders of the
other classes, and ties. -/
theorem C230_same_rivals_partial (A : ArgSort ℚ) (jobs jobs' : ℕ → Jobs) (batchSize : ℕ) (hb : 1 ≤ batchSize) (data data' : List (Ex K))
    (hlen : data'.length = data.length) (i : ℕ) (hi : i < data.length) (h : BetterRow data[i] (data'[i]'(hlen ▸ hi)))
    (hs : SameRivals data[i] (data'[i]'(hlen ▸ hi))) (hsame : ∀ j (hj : j < data.length), j ≠ i → data'[j]'(hlen ▸ hj) = data[j])
    (hne : ∀ j (hj : j < data.length), j ≠ i → data[j].2 data[j].1 ≠ data[i].2 data[i].1) (mask : Fin data.length → Bool)
    (mask' : Fin data'.length → Bool) (hm : findLabelIssuesBatched A selfConfidenceScore false jobs batchSize data = some (.ok mask))
    (hm' : findLabelIssuesBatched A selfConfidenceScore false jobs' batchSize data' = some (.ok mask'))
    (hno : mask ⟨i, hi⟩ = false) : mask' ⟨i, hlen ▸ hi⟩ = false := by
  have hi' : i < data'.length := hlen ▸ hi
  have hd : data ≠ [] := List.ne_nil_of_length_pos (by omega)
  have hd' : data' ≠ [] := List.ne_nil_of_length_pos (by omega)
  obtain ⟨bs, thr, hbs, -, et, e⟩ := batched_eq A selfConfidenceScore jobs batchSize data hb hd
  obtain ⟨bs', thr', hbs', -, et', e'⟩ := batched_eq A selfConfidenceScore jobs' batchSize data' hb hd'
  have hthr : ∀ k, thr k ≤ thr' k := fun k => by
    unfold batches at hbs hbs'
    rw [hlen] at hbs'
    rw [et, et']
    exact streaming_better (loopBatches_forall₂ _ _ _ _ _ ((forall₂_one data data' hlen i hi h hs hsame).imp fun _ _ h => h.1) _ _
      hbs hbs') _ _ rfl (fun _ => le_rfl) k
  rw [hm] at e
  rw [hm'] at e'
  have e := Except.ok.inj (Option.some.inj e)
  have e' := Except.ok.inj (Option.some.inj e')
  by_contra hc
  rw [Bool.not_eq_false, e'] at hc
  rw [e] at hno
  simp only [Bool.and_eq_true, decide_eq_true_eq, Bool.not_eq_true'] at hc
  have hred : reduceIssues (labelsOf data) (probsOf data) ⟨i, hi⟩ = false := by
    by_contra hr
    rw [Bool.not_eq_false, reduceIssues_iff] at hr
    have hr' : reduceIssues (labelsOf data') (probsOf data') ⟨i, hi'⟩ = true := by
      rw [reduceIssues_iff]
      have hl : labelsOf data' ⟨i, hi'⟩ = labelsOf data ⟨i, hi⟩ := h.1
      simp only [hl]
      exact lifted_better _ _ _ h.2.1 h.2.2 hr
    rw [hr'] at hc
    exact absurd hc.2 (by decide)
  dsimp only at hno
  rw [hred] at hno
  simp only [Bool.not_false, Bool.and_true, decide_eq_false_iff_not] at hno
  exact still_unselected A thr thr' hthr data data' hlen i hi h hs hsame hne hno hc.1

open Cleanlab.Segmentation in
/-- The batches of images, and what is selected from them. -/
theorem ranked_batches {N h w : ℕ} (A : ArgSort ℚ) (jobs : ℕ → Jobs) (batchSize : ℕ) (hne : 0 < N * (h * w)) :
    ∃ imgs : List (List (Fin N)), ∀ (labels : Stack N h w (Fin K)) (P : Stack N h w (Fin K → ℚ)),
      rankedIssues A jobs batchSize labels P = .ok ((findTopIssues A ((allPixels labels P).map (selfConfidenceScore
        ((imgs.map (fun b => (b.map (imagePixels labels P)).flatten)).foldl updateThresholds {}).thr)).get
        (some ((allPixels labels P).countP (fun e => decide (IsOffDiagonal
          ((imgs.map (fun b => (b.map (imagePixels labels P)).flatten)).foldl updateThresholds {}).thr e))))).map Fin.val) := by
  have hip : 0 < imagesPerBatch K h w batchSize := lt_max_of_lt_right Nat.one_pos
  obtain ⟨imgs, himgs⟩ := loopBatches_isSome (imagesPerBatch K h w batchSize) (List.finRange N).length hip
    (List.finRange N) le_rfl
  have hf := loopBatches_flatten _ _ _ _ himgs
  refine ⟨imgs, fun labels P => ?_⟩
  have hflat : (imgs.map (fun b => (b.map (imagePixels labels P)).flatten)).flatten = allPixels labels P := by
    unfold allPixels
    rw [← hf]
    clear hf himgs
    induction imgs with
    | nil => rfl
    | cons b imgs ih => simp [ih]
  have hd : allPixels labels P ≠ [] := by
    rw [← List.length_pos_iff_ne_nil, length_allPixels]; exact hne
  unfold rankedIssues batches
  rw [himgs]
  exact inspect_issues A selfConfidenceScore jobs _ _ hflat hd

omit [NeZero K] in
theorem forall₂_flatten {α : Type} (R : α → α → Prop) {l l' : List (List α)} (h : List.Forall₂ (List.Forall₂ R) l l') :
    List.Forall₂ R l.flatten l'.flatten := by
  induction h with
  | nil => exact List.Forall₂.nil
  | @cons x y _ _ hxy _ ih => exact List.rel_append hxy ih

open Cleanlab.Segmentation in
/-- **C230 (partial)**, semantic segmentation: a pixel that is not reported is not reported if its prediction gets better and the order of
the other classes in it remains, provided no other pixel had the same score. -/
theorem C230_pixels_partial {N h w : ℕ} (A : ArgSort ℚ) (jobs : ℕ → Jobs) (batchSize : ℕ) (hb : 1 ≤ batchSize)
    (labels : Stack N h w (Fin K)) (P P' : Stack N h w (Fin K → ℚ)) (n : Fin N) (i : Fin h) (j : Fin w)
    (hbetter : BetterRow (labels n i j, P n i j) (labels n i j, P' n i j)) (hs : SameRivals (labels n i j, P n i j) (labels n i j, P' n i j))
    (hsame : ∀ n' i' j', (n', i', j') ≠ (n, i, j) → P' n' i' j' = P n' i' j')
    (hne : ∀ n' i' j', (n', i', j') ≠ (n, i, j) → P n' i' j' (labels n' i' j') ≠ P n i j (labels n i j))
    (mask mask' : Stack N h w Bool) (hm : findIssues A jobs batchSize labels P = .ok mask)
    (hm' : findIssues A jobs batchSize labels P' = .ok mask') (hno : mask n i j = false) : mask' n i j = false := by
  have hpos : 0 < N * (h * w) := lt_of_le_of_lt (Nat.zero_le _) (flatIdx_lt n i j)
  obtain ⟨imgs, himgs⟩ := ranked_batches (K := K) (h := h) (w := w) (N := N) A jobs batchSize hpos
  have e := findIssues_eq A jobs batchSize hb labels P _ (himgs labels P)
  have e' := findIssues_eq A jobs batchSize hb labels P' _ (himgs labels P')
  rw [hm] at e
  rw [hm'] at e'
  have e := Except.ok.inj e
  have e' := Except.ok.inj e'
  have hall : ∀ n' i' j', BetterRow (labels n' i' j', P n' i' j') (labels n' i' j', P' n' i' j') := fun n' i' j' => by
    by_cases he : (n', i', j') = (n, i, j)
    · obtain ⟨rfl, rfl, rfl⟩ : n' = n ∧ i' = i ∧ j' = j := by simpa using he
      exact hbetter
    · rw [hsame _ _ _ he]
      exact BetterRow.refl _
  have hthr := streaming_better (bs := imgs.map (fun b => (b.map (imagePixels labels P)).flatten))
    (bs' := imgs.map (fun b => (b.map (imagePixels labels P')).flatten)) (by
      rw [List.forall₂_map_left_iff, List.forall₂_map_right_iff, List.forall₂_same]
      intro b _
      refine forall₂_flatten _ ?_
      rw [List.forall₂_map_left_iff, List.forall₂_map_right_iff, List.forall₂_same]
      intro m _
      unfold imagePixels
      refine forall₂_flatten _ ?_
      rw [List.ofFn_eq_map, List.ofFn_eq_map, List.forall₂_map_left_iff, List.forall₂_map_right_iff, List.forall₂_same]
      intro a _
      rw [List.ofFn_eq_map, List.ofFn_eq_map, List.forall₂_map_left_iff, List.forall₂_map_right_iff, List.forall₂_same]
      intro c _
      exact hall m a c) {} {} rfl (fun _ => le_rfl)
  have hlen : (allPixels labels P').length = (allPixels labels P).length := by rw [length_allPixels, length_allPixels]
  have hr : flatIdx n i j < (allPixels labels P).length := by rw [length_allPixels]; exact flatIdx_lt n i j
  have hr' : flatIdx n i j < (allPixels labels P').length := by rw [hlen]; exact hr
  have hidx : ∀ r, r < (allPixels labels P).length → r ≠ flatIdx n i j →
      ∃ n' i' j', r = flatIdx n' i' j' ∧ (n', i', j') ≠ (n, i, j) := by
    intro r hr hrne
    rw [length_allPixels] at hr
    refine ⟨(⟨r, hr⟩ : Fin (N * (h * w))).divNat, (⟨r, hr⟩ : Fin (N * (h * w))).modNat.divNat,
      (⟨r, hr⟩ : Fin (N * (h * w))).modNat.modNat, ?_, ?_⟩
    · exact (coords_eq_iff _ _ _ r).mp rfl
    · intro he
      apply hrne
      simp only [Prod.mk.injEq] at he
      rw [← he.1, ← he.2.1, ← he.2.2]
      exact (coords_eq_iff _ _ _ r).mp rfl
  rw [e] at hno
  rw [e']
  by_contra hc
  rw [Bool.not_eq_false, Bool.and_eq_true, decide_eq_true_eq, Bool.not_eq_true'] at hc
  have hagree : agrees labels P n i j = false := by
    by_contra hr
    rw [Bool.not_eq_false, agrees_iff] at hr
    have : agrees labels P' n i j = true := by
      rw [agrees_iff]
      refine ⟨fun k => ?_, fun k hk => ?_⟩
      · by_cases hkl : k = labels n i j
        · rw [hkl]
        · exact (hbetter.2.2 k hkl).trans ((hr.1 k).trans hbetter.2.1)
      · exact lt_of_le_of_lt (hbetter.2.2 k hk.ne) (lt_of_lt_of_le (hr.2 k hk) hbetter.2.1)
    rw [this] at hc
    exact absurd hc.2 (by decide)
  dsimp only at hno
  rw [hagree] at hno
  simp only [Bool.not_false, Bool.and_true, decide_eq_false_iff_not] at hno
  refine still_unselected A _ _ hthr (allPixels labels P) (allPixels labels P') hlen _ hr ?_ ?_ ?_ ?_ hno hc.1
  · rw [allPixels_get labels P n i j hr, allPixels_get labels P' n i j hr']
    exact hbetter
  · rw [allPixels_get labels P n i j hr, allPixels_get labels P' n i j hr']
    exact hs
  · intro r h1 h2
    obtain ⟨n', i', j', rfl, hx⟩ := hidx r h1 h2
    rw [allPixels_get, allPixels_get, hsame _ _ _ hx]
  · intro r h1 h2
    obtain ⟨n', i', j', rfl, hx⟩ := hidx r h1 h2
    rw [allPixels_get, allPixels_get]
    exact hne _ _ _ hx

omit [NeZero K] in
/-- A share of the probability of each class goes to the given label: such a prediction is better and keeps the order of the others. -/
theorem toward_better (y : Fin K) (p : Fin K → ℚ) (hp : ∀ k, 0 ≤ p k) (h1 : p y ≤ 1) (v : ℚ) (h0 : 0 ≤ v) (hv : v < 1) :
    BetterRow (y, p) (y, fun k => (1 - v) * p k + if k = y then v else 0) ∧
      SameRivals (y, p) (y, fun k => (1 - v) * p k + if k = y then v else 0) := by
  refine ⟨⟨rfl, ?_, fun k hk => ?_⟩, fun k l hk hl => ?_⟩
  · simp only [if_true]
    nlinarith
  · simp only [if_neg hk]
    nlinarith [hp k]
  · simp only [if_neg hk, if_neg hl, add_zero]
    exact mul_le_mul_iff_right₀ (by linarith)

/-! ### The property fails for other orders of the other classes -/

/-- Three examples; the last is predicted to be of class 1, but not confidently. -/
def rivalData (row : Fin 3 → ℚ) : List (Ex 3) :=
  [(1, ![5 / 100, 90 / 100, 5 / 100]), (2, ![30 / 100, 30 / 100, 40 / 100]), (0, row)]

/-- **C230** refuted: a prediction gives more probability to the given label and less to another class, and the example is reported,
which it was not before. -/
theorem C230_not_other_rival :
    BetterRow ((0, ![18 / 100, 42 / 100, 40 / 100]) : Ex 3) (0, ![30 / 100, 30 / 100, 40 / 100]) ∧
    (findLabelIssuesBatched (stableSort ℚ) selfConfidenceScore false (fun _ => .one) 10
        (rivalData ![18 / 100, 42 / 100, 40 / 100])).map (fun r => r.toOption.map (fun m => (List.finRange 3).map m)) =
      some (some [false, false, false]) ∧
    (findLabelIssuesBatched (stableSort ℚ) selfConfidenceScore false (fun _ => .one) 10
        (rivalData ![30 / 100, 30 / 100, 40 / 100])).map (fun r => r.toOption.map (fun m => (List.finRange 3).map m)) =
      some (some [false, false, true]) := by
  unfold BetterRow
  decide +kernel

/-! ### Example: 15 per cent of the last prediction go to the given label. -/

example : (∀ j (hj : j < (rivalData ![18 / 100, 42 / 100, 40 / 100]).length), j ≠ 2 →
      ((rivalData ![18 / 100, 42 / 100, 40 / 100])[j]).2 ((rivalData ![18 / 100, 42 / 100, 40 / 100])[j]).1 ≠ 18 / 100) ∧
    BetterRow ((0, ![18 / 100, 42 / 100, 40 / 100]) : Ex 3) (0, fun k => (1 - 15 / 100) * ![18 / 100, 42 / 100, 40 / 100] k +
      if k = 0 then 15 / 100 else 0) ∧
    SameRivals ((0, ![18 / 100, 42 / 100, 40 / 100]) : Ex 3) (0, fun k => (1 - 15 / 100) * ![18 / 100, 42 / 100, 40 / 100] k +
      if k = 0 then 15 / 100 else 0) :=
  ⟨by decide +kernel, toward_better 0 ![18 / 100, 42 / 100, 40 / 100] (by decide +kernel) (by decide +kernel) (15 / 100) (by norm_num)
    (by norm_num)⟩

end Cleanlab.Props
