import Verif.Model.DetectionScore
import Verif.Props.DetectionAp
import Verif.Props.MultilabelScore
import Mathlib.Data.List.ReduceOption
import Mathlib.Analysis.SpecialFunctions.Pow.Real

/-!
# C73, C74: object detection label quality scores and flagged images
-/

namespace Cleanlab.Props

open Np Cleanlab.Detection

variable {K : ℕ}

/-- A number between 0 and 1. -/
def InUnit (x : ℝ) : Prop := 0 ≤ x ∧ x ≤ 1

/-- All predicted probabilities of the image lie in `[0, 1]`. -/
def ProbsValid (im : Image ℝ K) : Prop := ∀ k, ∀ p ∈ im.preds k, InUnit p.prob

theorem closeness_range (a b : Box ℝ) : 0 < closeness a b ∧ closeness a b ≤ 1 := by
  unfold closeness
  simp only
  refine ⟨Real.exp_pos _, Real.exp_le_one_iff.mpr ?_⟩
  have := Real.sqrt_nonneg (((a.x1 + a.x2) / 2 - (b.x1 + b.x2) / 2) ^ 2 + ((a.y1 + a.y2) / 2 - (b.y1 + b.y2) / 2) ^ 2)
  linarith

theorem similarity_range (a b : Box ℝ) : 0 < similarity a b ∧ similarity a b ≤ 1 := by
  unfold similarity
  have h1 := C39_range a b
  have h2 := closeness_range a b
  constructor <;> linarith [h1.1, h1.2, h2.1, h2.2]

theorem foldl_min_mem (xs : List ℝ) : ∀ x, xs.foldl min x = x ∨ xs.foldl min x ∈ xs := by
  induction xs with
  | nil => intro x; simp
  | cons y ys ih =>
    intro x
    rw [List.foldl_cons]
    rcases ih (min x y) with h | h
    · rcases min_choice x y with h2 | h2
      · left; rw [h, h2]
      · right; rw [h, h2]; simp
    · right; simp [h]

theorem foldl_max_mem (xs : List ℝ) : ∀ x, xs.foldl max x = x ∨ xs.foldl max x ∈ xs := by
  induction xs with
  | nil => intro x; simp
  | cons y ys ih =>
    intro x
    rw [List.foldl_cons]
    rcases ih (max x y) with h | h
    · rcases max_choice x y with h2 | h2
      · left; rw [h, h2]
      · right; rw [h, h2]; simp
    · right; simp [h]

theorem minOr_mem (d : ℝ) (l : List ℝ) : minOr d l = d ∨ minOr d l ∈ l := by
  cases l with
  | nil => left; rfl
  | cons x xs =>
    right
    rcases foldl_min_mem xs x with h | h
    · exact List.mem_cons.mpr (Or.inl h)
    · exact List.mem_cons_of_mem _ h

theorem maxOr_mem (d : ℝ) (l : List ℝ) : (l = [] ∧ maxOr d l = d) ∨ maxOr d l ∈ l := by
  cases l with
  | nil => left; exact ⟨rfl, rfl⟩
  | cons x xs =>
    right
    rcases foldl_max_mem xs x with h | h
    · exact List.mem_cons.mpr (Or.inl h)
    · exact List.mem_cons_of_mem _ h

theorem maxOr_inUnit {d : ℝ} {l : List ℝ} (hd : InUnit d) (hl : ∀ x ∈ l, InUnit x) : InUnit (maxOr d l) := by
  rcases maxOr_mem d l with ⟨_, h⟩ | h
  · rw [h]; exact hd
  · exact hl _ h

theorem minSimilarity_range (images : List (Image ℝ K)) : 0 < minSimilarity images ∧ minSimilarity images ≤ 1 := by
  classical
  unfold minSimilarity
  suffices H : ∀ (m : ℝ), 0 < m → m ≤ 1 →
      0 < images.foldl (fun m im => min m (minOr 1 ((similarities im).filter (fun s => s ≠ 0)))) m ∧
        images.foldl (fun m im => min m (minOr 1 ((similarities im).filter (fun s => s ≠ 0)))) m ≤ 1 from
    H 1 one_pos le_rfl
  induction images with
  | nil => intro m h0 h1; exact ⟨h0, h1⟩
  | cons im ims ih =>
    intro m h0 h1
    rw [List.foldl_cons]
    refine ih _ (lt_min h0 ?_) ((min_le_left _ _).trans h1)
    rcases minOr_mem 1 ((similarities im).filter (fun s => s ≠ 0)) with h | h
    · rw [h]; exact one_pos
    · have h2 := (List.mem_filter.mp h).1
      generalize minOr 1 ((similarities im).filter (fun s => s ≠ 0)) = v at h2 ⊢
      unfold similarities at h2
      obtain ⟨l, _, hl⟩ := List.mem_flatMap.mp h2
      obtain ⟨p, _, hp⟩ := List.mem_map.mp hl
      rw [← hp]
      exact (similarity_range _ _).1

theorem mem_allPreds (im : Image ℝ K) (p : Pred ℝ × Fin K) : p ∈ allPreds im ↔ p.1 ∈ im.preds p.2 := by
  unfold allPreds
  rw [List.mem_flatMap]
  constructor
  · rintro ⟨k, _, h⟩
    obtain ⟨q, hq, rfl⟩ := List.mem_map.mp h
    exact hq
  · intro h
    exact ⟨p.2, List.mem_finRange _, List.mem_map.mpr ⟨p.1, h, rfl⟩⟩

theorem similarity_inUnit (a b : Box ℝ) : InUnit (similarity a b) :=
  ⟨(similarity_range a b).1.le, (similarity_range a b).2⟩

theorem one_inUnit : InUnit 1 := ⟨zero_le_one, le_rfl⟩

/-- **C73, boxes.** Every per-box score lies in `[0, 1]`: overlooked, badly located and swapped. -/
theorem C73_box_scores (minSim : ℝ) (hm : InUnit minSim) (check : Bool) (im : Image ℝ K) (hp : ProbsValid im) :
    (∀ x ∈ (overlookedScores minSim im).reduceOption, InUnit x) ∧ (∀ x ∈ badlocScores im, InUnit x) ∧
      ∀ x ∈ swapScores check minSim im, InUnit x := by
  classical
  refine ⟨?_, ?_, ?_⟩
  · intro x hx
    rw [List.reduceOption_mem_iff] at hx
    unfold overlookedScores at hx
    obtain ⟨p, hpm, he⟩ := List.mem_map.mp hx
    split_ifs at he
    rw [← Option.some.inj he]
    have hpr := hp p.2 p.1 ((mem_allPreds im p).mp hpm)
    refine maxOr_inUnit ⟨mul_nonneg hm.1 (sub_nonneg.mpr hpr.2), ?_⟩ ?_
    · exact mul_le_one₀ hm.2 (sub_nonneg.mpr hpr.2) (by linarith [hpr.1])
    · intro y hy
      obtain ⟨l, _, rfl⟩ := List.mem_map.mp hy
      exact similarity_inUnit _ _
  · intro x hx
    unfold badlocScores at hx
    obtain ⟨l, _, he⟩ := List.mem_map.mp hx
    rw [← he]
    simp only
    split_ifs
    · exact one_inUnit
    · refine maxOr_inUnit one_inUnit ?_
      intro y hy
      obtain ⟨p, _, rfl⟩ := List.mem_map.mp hy
      exact similarity_inUnit _ _
  · intro x hx
    unfold swapScores at hx
    obtain ⟨i, he⟩ := (List.mem_ofFn' _ _).mp hx
    rw [← he]
    simp only
    split_ifs
    · exact hm
    · exact one_inUnit
    · have h := maxOr_inUnit (d := 0) ⟨le_rfl, zero_le_one⟩ (l := (((allPreds im).filter (fun p => p.2 ≠ (im.labels.get i).2)).filter
        (fun p => p.1.prob > 95 / 100)).map (fun p => similarity (im.labels.get i).1 p.1.box)) (by
          intro y hy
          obtain ⟨p, _, rfl⟩ := List.mem_map.mp hy
          exact similarity_inUnit _ _)
      exact ⟨le_max_of_le_left hm.1, max_le hm.2 (by linarith [h.1])⟩

theorem softmin1d_between (T : ℝ) (l : List ℝ) (h : l ≠ []) (lo hi : ℝ) (hb : ∀ x ∈ l, lo ≤ x ∧ x ≤ hi) :
    lo ≤ softmin1d T l h ∧ softmin1d T l h ≤ hi := by
  unfold softmin1d
  have : NeZero l.length := ⟨by simpa using h⟩
  obtain ⟨hw, hsum⟩ := softmax_isWeight (fun k => -1 * l.get k) T
  constructor
  · calc lo = ∑ k, Multilabel.softmax (fun k => -1 * l.get k) T k * lo := by rw [← Finset.sum_mul, hsum, one_mul]
      _ ≤ _ := Finset.sum_le_sum (fun k _ => mul_le_mul_of_nonneg_left (hb _ (List.get_mem l k)).1 (hw k).le)
  · calc _ ≤ ∑ k, Multilabel.softmax (fun k => -1 * l.get k) T k * hi :=
          Finset.sum_le_sum (fun k _ => mul_le_mul_of_nonneg_left (hb _ (List.get_mem l k)).2 (hw k).le)
      _ = hi := by rw [← Finset.sum_mul, hsum, one_mul]

/-- **C73, pooling.** The score of an image for one kind of error lies between the lowest and the highest score of
its boxes, ignoring `nan`; without boxes it is 1. -/
theorem C73_pooling (T : ℝ) (l : List (Option ℝ)) :
    (l.reduceOption = [] → validScore T l = 1) ∧
      ∀ lo hi, (∀ x ∈ l.reduceOption, lo ≤ x ∧ x ≤ hi) → l.reduceOption ≠ [] → lo ≤ validScore T l ∧ validScore T l ≤ hi := by
  constructor
  · intro h
    unfold validScore
    rw [dif_neg (by simpa using h)]
  · intro lo hi hb hne
    unfold validScore
    rw [dif_pos hne]
    exact softmin1d_between T _ hne lo hi hb

theorem validScore_inUnit (T : ℝ) (l : List (Option ℝ)) (h : ∀ x ∈ l.reduceOption, InUnit x) : InUnit (validScore T l) := by
  by_cases hne : l.reduceOption = []
  · rw [(C73_pooling T l).1 hne]; exact one_inUnit
  · exact (C73_pooling T l).2 0 1 h hne

theorem reduceOption_map_some (l : List ℝ) : (l.map some).reduceOption = l := by
  induction l with
  | nil => rfl
  | cons x xs ih =>
    have : ((x :: xs).map some).reduceOption = x :: (xs.map some).reduceOption := rfl
    rw [this, ih]

theorem log_addTiny_nonpos {x : ℝ} (h : InUnit x) : Real.log (addTiny x) ≤ 0 := by
  unfold addTiny
  split_ifs
  · exact Real.log_nonpos (by positivity) (by
      rw [div_le_one (by positivity)]
      exact one_le_pow₀ (by norm_num))
  · exact Real.log_nonpos h.1 h.2

theorem aggregationWeights_nonneg (w : Option Weights) (w' : Weights) (h : aggregationWeights w = .ok w') :
    0 ≤ w'.overlooked ∧ 0 ≤ w'.badloc ∧ 0 ≤ w'.swap := by
  cases w with
  | none => cases h; norm_num
  | some w =>
    unfold aggregationWeights at h
    simp only at h
    split_ifs at h with hc
    cases h
    push Not at hc
    have := hc.2
    exact ⟨this.trans (min_le_left _ _), this.trans ((min_le_right _ _).trans (min_le_left _ _)),
      this.trans ((min_le_right _ _).trans (min_le_right _ _))⟩

theorem imageScore_range (w : Weights) (hw : 0 ≤ w.overlooked ∧ 0 ≤ w.badloc ∧ 0 ≤ w.swap) (check : Bool) (minSim : ℝ)
    (hm : InUnit minSim) (im : Image ℝ K) (hp : ProbsValid im) :
    0 < imageScore w check minSim im ∧ imageScore w check minSim im ≤ 1 := by
  obtain ⟨h1, h2, h3⟩ := C73_box_scores minSim hm check im hp
  have o := log_addTiny_nonpos (validScore_inUnit temperature _ h1)
  have b := log_addTiny_nonpos (validScore_inUnit temperature ((badlocScores im).map some)
    (by rw [reduceOption_map_some]; exact h2))
  have s := log_addTiny_nonpos (validScore_inUnit temperature ((swapScores check minSim im).map some)
    (by rw [reduceOption_map_some]; exact h3))
  unfold imageScore
  refine ⟨Real.exp_pos _, Real.exp_le_one_iff.mpr ?_⟩
  have := mul_nonpos_of_nonneg_of_nonpos hw.1 o
  have := mul_nonpos_of_nonneg_of_nonpos hw.2.1 b
  have := mul_nonpos_of_nonneg_of_nonpos hw.2.2 s
  linarith

/-- The images after pruning predictions of negative probability. -/
noncomputable def prunedImages (images : List (Image ℝ K)) : List (Image ℝ K) :=
  open Classical in
  images.map (fun im => { im with preds := fun k => (im.preds k).filter (fun p => p.prob ≥ 0) })

theorem checkInputs_ok (images : List (Image ℝ K)) (hne : images ≠ []) (hK : 0 < K) : checkInputs images = .ok () := by
  unfold checkInputs
  rw [if_neg (by simpa using hne), if_neg (by omega)]

/-- **C73.** With valid weights and at least one image there is one score per image, and all scores lie in `(0, 1]`. -/
theorem C73_range (weights : Option Weights) (check : Bool) (images : List (Image ℝ K)) (hp : ∀ im ∈ images, ProbsValid im)
    (hne : images ≠ []) (hK : 0 < K) (hw : ∃ w, aggregationWeights weights = .ok w) :
    ∃ s, labelQualityScores weights check images = .ok s ∧ s.length = images.length ∧ ∀ x ∈ s, 0 < x ∧ x ≤ 1 := by
  classical
  obtain ⟨w, hw⟩ := hw
  refine ⟨(prunedImages images).map (imageScore w check (minSimilarity (prunedImages images))), ?_, ?_, ?_⟩
  · unfold labelQualityScores
    rw [checkInputs_ok images hne hK, hw]
    rfl
  · simp [prunedImages]
  · intro x hx
    obtain ⟨im, him, rfl⟩ := List.mem_map.mp hx
    obtain ⟨im', him', rfl⟩ := List.mem_map.mp him
    have hm := minSimilarity_range (prunedImages images)
    refine imageScore_range w (aggregationWeights_nonneg weights w hw) check _ ⟨hm.1.le, hm.2⟩ _ ?_
    intro k p hpk
    exact hp im' him' k p (List.mem_filter.mp hpk).1

/-- **C73, empty images.** An image without annotated and without predicted boxes has the best score, 1. -/
theorem C73_empty_image (w : Weights) (check : Bool) (minSim : ℝ) (im : Image ℝ K) (hl : im.labels = [])
    (hp : ∀ k, im.preds k = []) : imageScore w check minSim im = 1 := by
  have ha : allPreds im = [] := by
    rw [List.eq_nil_iff_forall_not_mem]
    intro p h
    rw [mem_allPreds, hp] at h
    simp at h
  have h1 : overlookedScores minSim im = [] := by unfold overlookedScores; rw [ha]; rfl
  have h2 : badlocScores im = [] := by unfold badlocScores; rw [hl]; rfl
  have h3 : swapScores check minSim im = [] := by
    rw [List.eq_nil_iff_length_eq_zero]
    simp [swapScores, hl]
  unfold imageScore
  rw [h1, h2, h3]
  have hv : validScore temperature [] = 1 := (C73_pooling temperature []).1 rfl
  simp [hv, addTiny]

/-- **C73, weights.** Weights that are negative or do not sum to 1 (up to `2e-5`) are refused. -/
theorem C73_weights_refused (w : Weights) (check : Bool) (images : List (Image ℝ K))
    (h : w.overlooked < 0 ∨ w.badloc < 0 ∨ w.swap < 0 ∨ |w.overlooked + w.badloc + w.swap - 1| > 2 / 10 ^ 5) :
    ∃ e, labelQualityScores (some w) check images = .error e := by
  have : aggregationWeights (some w) = .error "Aggregation weights should be non-negative and must sum to 1.0" := by
    unfold aggregationWeights
    simp only
    rw [if_pos]
    rcases h with h | h | h | h
    · right; exact lt_of_le_of_lt (min_le_left _ _) h
    · right; exact lt_of_le_of_lt ((min_le_right _ _).trans (min_le_left _ _)) h
    · right; exact lt_of_le_of_lt ((min_le_right _ _).trans (min_le_right _ _)) h
    · left; exact lt_of_le_of_lt (by norm_num) h
  unfold labelQualityScores
  cases checkInputs images with
  | error e => exact ⟨e, rfl⟩
  | ok _ => exact ⟨_, by rw [this]; rfl⟩

/-- **C73, aggregation.** The score of an image is the weighted geometric mean of its three scores: predicted boxes that
look overlooked, badly located boxes and swapped labels. -/
theorem C73_geometric_mean (w : Weights) (check : Bool) (minSim : ℝ) (im : Image ℝ K)
    (ho : 0 < validScore temperature (overlookedScores minSim im))
    (hb : 0 < validScore temperature ((badlocScores im).map some))
    (hs : 0 < validScore temperature ((swapScores check minSim im).map some)) :
    imageScore w check minSim im =
      validScore temperature (overlookedScores minSim im) ^ w.overlooked *
        validScore temperature ((badlocScores im).map some) ^ w.badloc *
          validScore temperature ((swapScores check minSim im).map some) ^ w.swap := by
  unfold imageScore addTiny
  simp only
  rw [if_neg ho.ne', if_neg hb.ne', if_neg hs.ne', Real.exp_add, Real.exp_add, Real.rpow_def_of_pos ho,
    Real.rpow_def_of_pos hb, Real.rpow_def_of_pos hs, mul_comm w.overlooked, mul_comm w.badloc, mul_comm w.swap]

/-- **C73, aggregation.** If all boxes of an image have scores between `lo > 0` and `hi`, for all three kinds of errors, then
so does the image. -/
theorem C73_between (w : Weights) (hw : 0 ≤ w.overlooked ∧ 0 ≤ w.badloc ∧ 0 ≤ w.swap)
    (hsum : w.overlooked + w.badloc + w.swap = 1) (check : Bool) (minSim lo hi : ℝ) (hlo : 0 < lo) (im : Image ℝ K)
    (hb : ∀ x, x ∈ (overlookedScores minSim im).reduceOption ∨ x ∈ badlocScores im ∨ x ∈ swapScores check minSim im →
      lo ≤ x ∧ x ≤ hi)
    (ho : (overlookedScores minSim im).reduceOption ≠ []) (hl : im.labels ≠ []) :
    lo ≤ imageScore w check minSim im ∧ imageScore w check minSim im ≤ hi := by
  have h1 := (C73_pooling temperature (overlookedScores minSim im)).2 lo hi (fun x hx => hb x (Or.inl hx)) ho
  have h2 := (C73_pooling temperature ((badlocScores im).map some)).2 lo hi
    (fun x hx => hb x (Or.inr (Or.inl (by rwa [reduceOption_map_some] at hx))))
    (by rw [reduceOption_map_some]; unfold badlocScores; simpa using hl)
  have h3 := (C73_pooling temperature ((swapScores check minSim im).map some)).2 lo hi
    (fun x hx => hb x (Or.inr (Or.inr (by rwa [reduceOption_map_some] at hx))))
    (by
      rw [reduceOption_map_some, ← List.length_pos_iff]
      have : (swapScores check minSim im).length = im.labels.length := by simp [swapScores]
      rw [this]
      exact List.length_pos_iff.mpr hl)
  have hhi : 0 < hi := hlo.trans_le (h1.1.trans h1.2)
  rw [C73_geometric_mean w check minSim im (hlo.trans_le h1.1) (hlo.trans_le h2.1) (hlo.trans_le h3.1)]
  have hpow : ∀ c : ℝ, 0 < c → c = c ^ w.overlooked * c ^ w.badloc * c ^ w.swap := by
    intro c hc
    rw [← Real.rpow_add hc, ← Real.rpow_add hc, hsum, Real.rpow_one]
  obtain ⟨w1, w2, w3⟩ := hw
  obtain ⟨a1, b1⟩ := h1
  obtain ⟨a2, b2⟩ := h2
  obtain ⟨a3, b3⟩ := h3
  have p1 := hlo.le.trans a1
  have p2 := hlo.le.trans a2
  have p3 := hlo.le.trans a3
  constructor
  · rw [hpow lo hlo]
    gcongr
  · rw [hpow hi hhi]
    gcongr

/-! ## C74 -/

theorem prunedImages_eq (images : List (Image ℝ K)) (hp : ∀ im ∈ images, ProbsValid im) : prunedImages images = images := by
  classical
  unfold prunedImages
  conv_rhs => rw [← List.map_id images]
  refine List.map_congr_left (fun im him => ?_)
  have : (fun k => (im.preds k).filter (fun p => p.prob ≥ 0)) = im.preds := by
    funext k
    rw [List.filter_eq_self]
    intro p hpk
    simpa using (hp im him k p hpk).1
  rw [id, this]

/-- **C74.** With `return_indices_ranked_by_score=True` exactly the images of the mask are returned, each once, with
the lowest label quality scores first. -/
theorem C74_indices (A : ArgSort ℝ) (check : Bool) (images : List (Image ℝ K)) (hp : ∀ im ∈ images, ProbsValid im)
    (hne : images ≠ []) (hK : 0 < K) :
    ∃ idx s, issueIndices A check images = .ok idx ∧ labelQualityScores none true images = .ok s ∧ idx.Nodup ∧
      (∀ i, i ∈ idx ↔ (issueMask A check images)[i]? = some true) ∧
      idx.Pairwise (fun i j => ∀ (hi : i < s.length) (hj : j < s.length), s[i] ≤ s[j]) := by
  classical
  obtain ⟨s, hs, hlen, hr⟩ := C73_range none true images hp hne hK ⟨_, rfl⟩
  have hall : ((List.range s.length).zip s).filter (fun x => x.2 ≤ (1 : ℝ)) = (List.range s.length).zip s := by
    rw [List.filter_eq_self]
    intro x hx
    simpa using (hr x.2 (List.of_mem_zip hx).2).2
  set order := (sortOn A (fun x : ℕ × ℝ => x.2) ((List.range s.length).zip s)).map (fun x => x.1) with horder
  have hord : issuesFromScores A s 1 = .ok order := by
    unfold issuesFromScores
    rw [if_neg (by norm_num), hall]
  have hperm : order.Perm (List.range s.length) := by
    refine ((sortOn_perm A _ _).map _).trans ?_
    rw [List.map_fst_zip (by simp)]
  refine ⟨order.filter (fun i => (issueMask A check images)[i]? = some true), s, ?_, hs, ?_, ?_, ?_⟩
  · unfold issueIndices
    rw [checkInputs_ok images hne hK, hs]
    show (issuesFromScores A s 1 >>= _) = _
    rw [hord]
    rfl
  · exact (hperm.nodup_iff.mpr List.nodup_range).filter _
  · intro i
    rw [List.mem_filter, hperm.mem_iff]
    simp only [List.mem_range, decide_eq_true_eq, and_iff_right_iff_imp]
    intro h
    have := (List.getElem?_eq_some_iff.mp h).1
    simp [issueMask] at this
    omega
  · refine List.Pairwise.filter _ ?_
    rw [horder, List.pairwise_map]
    refine (sortOn_sorted A (fun x : ℕ × ℝ => x.2) _).imp_of_mem ?_
    intro x y hx hy hxy hi hj
    have key : ∀ z ∈ (List.range s.length).zip s, ∀ hz : z.1 < s.length, s[z.1] = z.2 := by
      intro z hz hlt
      obtain ⟨n, hn, he⟩ := List.getElem_of_mem hz
      subst he
      simp
    rw [key x ((mem_sortOn A _ _ x).mp hx) hi, key y ((mem_sortOn A _ _ y).mp hy) hj]
    exact hxy

theorem anyIssue_le (scores : List (Option ℝ)) (ts : List ℝ) (ht : ∀ t ∈ ts, t ≤ 1 / 4) (h : AnyIssue scores ts) :
    ∃ x ∈ scores.reduceOption, x ≤ 2 / 10 := by
  obtain ⟨⟨o, t⟩, hm, hle⟩ := h
  obtain ⟨hm1, hm2⟩ := List.of_mem_zip hm
  have := ht t hm2
  simp only at hle
  cases o with
  | none => simp at hle; linarith
  | some x => exact ⟨x, by rw [List.reduceOption_mem_iff]; exact hm1, by simp at hle; linarith⟩

/-- **C74, reason.** A flagged image has a box with a score of at most `0.2`: a predicted box that looks overlooked, or
an annotated box that looks badly located or swapped. -/
theorem C74_flagged_has_bad_box (A : ArgSort ℝ) (check : Bool) (images : List (Image ℝ K)) (i : ℕ) (im : Image ℝ K)
    (him : images[i]? = some im) (h : (issueMask A check images)[i]? = some true) :
    (∃ x ∈ (overlookedScores (minSimilarity images) im).reduceOption, x ≤ 2 / 10) ∨
      (∃ x ∈ badlocScores im, x ≤ 2 / 10) ∨ ∃ x ∈ swapScores check (minSimilarity images) im, x ≤ 2 / 10 := by
  classical
  unfold issueMask at h
  rw [List.getElem?_map, him] at h
  have hi : IsIssue (perClassAp A images) check (minSimilarity images) im := by simpa using h
  have hap : ∀ k, perClassAp A images k ≤ 1 / 4 := fun k => (C41_per_class_ap_range A images k).2
  rcases hi with h | h | h
  · left
    refine anyIssue_le _ _ ?_ h
    intro t ht
    obtain ⟨p, _, rfl⟩ := List.mem_map.mp ht
    exact hap _
  · right; left
    have := anyIssue_le _ _ (by
      intro t ht
      obtain ⟨p, _, rfl⟩ := List.mem_map.mp ht
      exact hap _) h
    rwa [reduceOption_map_some] at this
  · right; right
    have := anyIssue_le _ _ (by
      intro t ht
      obtain ⟨p, _, rfl⟩ := List.mem_map.mp ht
      exact hap _) h
    rwa [reduceOption_map_some] at this

/-- An image with a certain prediction and no annotation is flagged, whatever the class scores. -/
example (A : ArgSort ℝ) : (issueMask A true [(⟨fun _ => [⟨⟨0, 0, 2, 2⟩, 1⟩], []⟩ : Image ℝ 1)])[0]? = some true := by
  classical
  have h0 := (C41_per_class_ap_range A [(⟨fun _ => [⟨⟨0, 0, 2, 2⟩, 1⟩], []⟩ : Image ℝ 1)] 0).1
  unfold issueMask
  simp only [List.map_cons, List.map_nil, List.getElem?_cons_zero, Option.some.injEq, decide_eq_true_eq]
  left
  refine ⟨(some 0, perClassAp A [(⟨fun _ => [⟨⟨0, 0, 2, 2⟩, 1⟩], []⟩ : Image ℝ 1)] 0), ?_, ?_⟩
  · have hf : List.finRange 1 = [0] := rfl
    simp [overlookedScores, allPreds, maxOr, hf]
    norm_num
  · show (0 : ℝ) ≤ _
    linarith

/-- The hypothesis on probabilities holds for an annotated box predicted as both classes with certainty. -/
example : ProbsValid (⟨fun _ => [⟨⟨0, 0, 2, 2⟩, 1⟩], [(⟨0, 0, 2, 2⟩, 1)]⟩ : Image ℝ 2) := by
  intro k p hp
  simp only [List.mem_singleton] at hp
  subst hp
  exact one_inUnit

end Cleanlab.Props
