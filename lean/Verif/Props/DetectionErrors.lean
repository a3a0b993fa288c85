import Verif.Props.CleanData
import Verif.Props.BoxOrder

/-!
# C176, C177: which annotation errors are found in object detection
-/

namespace Cleanlab.Props

open Np Cleanlab.Detection

variable {K : ℕ}

/-- An object that the model predicts with at least 95 % probability where nothing is annotated. -/
structure Overlooked (im : Image ℝ K) (p : Pred ℝ) (k : Fin K) : Prop where
  predicted : p ∈ im.preds k
  sure : 95 / 100 ≤ p.prob ∧ p.prob ≤ 1
  apart : ∀ l ∈ im.labels, ¬ ∃ x y, Inside l.1 x y ∧ Inside p.box x y

theorem Overlooked.iou_eq {im : Image ℝ K} {p : Pred ℝ} {k : Fin K} (h : Overlooked im p k) (l : Box ℝ × Fin K)
    (hl : l ∈ im.labels) : iou l.1 p.box = 0 := by
  have h1 := h.apart l hl
  rw [← C39_positive_iff, not_lt] at h1
  exact le_antisymm h1 (C39_range _ _).1

theorem anyIssue_map {α : Type} (l : List α) (f : α → Option ℝ) (g : α → ℝ) (x : α) (hx : x ∈ l)
    (h : (f x).getD 1 ≤ g x * (8 / 10)) : AnyIssue (l.map f) (l.map g) := by
  refine ⟨(f x, g x), ?_, h⟩
  rw [List.zip_map', List.mem_map]
  exact ⟨x, hx, rfl⟩

/-- The score of an overlooked object. -/
theorem overlooked_score (minSim : ℝ) {im : Image ℝ K} {p : Pred ℝ} {k : Fin K} (h : Overlooked im p k) (ap : Fin K → ℝ)
    (hle : open Classical in maxOr (minSim * (1 - p.prob)) ((im.labels.filter (fun l => l.2 = k)).map
      (fun l => similarity l.1 p.box)) ≤ ap k * (8 / 10)) :
    AnyIssue (overlookedScores minSim im) ((allPreds im).map (fun q => ap q.2)) := by
  classical
  unfold overlookedScores
  refine anyIssue_map (allPreds im) _ _ (p, k) ((mem_allPreds im (p, k)).mpr h.predicted) ?_
  rw [if_neg]
  · exact hle
  · rintro (h1 | ⟨l, hl, h1⟩)
    · exact absurd h.sure.1 (not_le.mpr h1)
    · rw [h.iou_eq l hl] at h1
      exact lt_irrefl _ h1

theorem mem_issueMask (A : ArgSort ℝ) (check : Bool) (images : List (Image ℝ K)) (i : ℕ) (im : Image ℝ K)
    (hi : images[i]? = some im) (h : IsIssue (perClassAp A images) check (minSimilarity images) im) :
    (issueMask A check images)[i]? = some true := by
  classical
  unfold issueMask
  rw [List.getElem?_map, hi, Option.map_some]
  exact congrArg some (@decide_eq_true _ _ h)

/-- **C176**: an image with an overlooked object of which the model is certain, of a class that is not annotated in the image,
is reported. -/
theorem C176_certain (A : ArgSort ℝ) (check : Bool) (images : List (Image ℝ K)) (i : ℕ) (im : Image ℝ K)
    (hi : images[i]? = some im) (p : Pred ℝ) (k : Fin K) (h : Overlooked im p k) (hp : p.prob = 1)
    (hk : ∀ l ∈ im.labels, l.2 ≠ k) : (issueMask A check images)[i]? = some true := by
  classical
  refine mem_issueMask A check images i im hi (Or.inl (overlooked_score _ h _ ?_))
  have hnil : im.labels.filter (fun l => l.2 = k) = [] := by
    rw [List.filter_eq_nil_iff]
    intro l hl
    simpa using hk l hl
  rw [hnil, List.map_nil, maxOr, hp, sub_self, mul_zero]
  exact mul_nonneg (C41_per_class_ap_range A images k).1 (by norm_num)

/-- **C176**: an image with an overlooked object is reported if the model is good at its class: mean average precision at
least one half, of which the code uses a quarter. -/
theorem C176_good_model (A : ArgSort ℝ) (check : Bool) (images : List (Image ℝ K)) (i : ℕ) (im : Image ℝ K)
    (hi : images[i]? = some im) (p : Pred ℝ) (k : Fin K) (h : Overlooked im p k)
    (hap : 1 / 2 ≤ ((iouThresholds (F := ℝ)).map (fun thr => apOfClass A thr images k)).sum / 10) :
    (issueMask A check images)[i]? = some true := by
  classical
  refine mem_issueMask A check images i im hi (Or.inl (overlooked_score _ h _ ?_))
  have h1 : 1 / 10 ≤ perClassAp A images k * (8 / 10) := by
    unfold perClassAp
    linarith
  refine le_trans ?_ h1
  rcases maxOr_mem (minSimilarity images * (1 - p.prob)) ((im.labels.filter (fun l => l.2 = k)).map
      (fun l => similarity l.1 p.box)) with ⟨-, he⟩ | hm
  · rw [he]
    have h2 := minSimilarity_range images
    have h3 := h.sure
    nlinarith
  · obtain ⟨l, hl, he⟩ := List.mem_map.mp hm
    rw [← he]
    unfold similarity
    rw [h.iou_eq l (List.mem_of_mem_filter hl)]
    have := (closeness_range l.1 p.box).2
    linarith

theorem overlooked_zero {minSim : ℝ} {im : Image ℝ K} {p : Pred ℝ} {k : Fin K} (h : Overlooked im p k)
    (hall : ∀ q c, Overlooked im q c → q.prob = 1 ∧ ∀ l ∈ im.labels, l.2 ≠ c) (hprob : ProbsValid im) :
    validScore temperature (overlookedScores minSim im) = 0 := by
  classical
  have hnil : ∀ c, (∀ l ∈ im.labels, l.2 ≠ c) → im.labels.filter (fun l => l.2 = c) = [] := by
    intro c h2
    rw [List.filter_eq_nil_iff]
    intro l hl
    simpa using h2 l hl
  have hz : ∀ x ∈ (overlookedScores minSim im).reduceOption, x = 0 := by
    intro x hx
    rw [List.reduceOption_mem_iff] at hx
    unfold overlookedScores at hx
    obtain ⟨q, hq, he⟩ := List.mem_map.mp hx
    split_ifs at he with hc
    push Not at hc
    have hq' := (mem_allPreds im q).mp hq
    obtain ⟨h1, h2⟩ := hall q.1 q.2 ⟨hq', ⟨hc.1, (hprob _ _ hq').2⟩, fun l hl => by
      rw [← C39_positive_iff, not_lt]; exact hc.2 l hl⟩
    rw [hnil _ h2, List.map_nil, maxOr, h1, sub_self, mul_zero] at he
    exact (Option.some.inj he).symm
  have hne : (overlookedScores minSim im).reduceOption ≠ [] := by
    refine List.ne_nil_of_mem (a := maxOr (minSim * (1 - p.prob))
      ((im.labels.filter (fun l => l.2 = k)).map (fun l => similarity l.1 p.box))) ?_
    rw [List.reduceOption_mem_iff]
    unfold overlookedScores
    refine List.mem_map.mpr ⟨(p, k), (mem_allPreds im (p, k)).mpr h.predicted, ?_⟩
    rw [if_neg]
    rintro (h1 | ⟨l, hl, h1⟩)
    · exact absurd h.sure.1 (not_le.mpr h1)
    · rw [h.iou_eq l hl] at h1
      exact lt_irrefl _ h1
  have := (C73_pooling temperature (overlookedScores minSim im)).2 0 0 (fun x hx => by rw [hz x hx]; exact ⟨le_rfl, le_rfl⟩) hne
  exact le_antisymm this.2 this.1

theorem scores_eq (weights : Option Weights) (w : Weights) (hw : aggregationWeights weights = .ok w) (check : Bool)
    (images : List (Image ℝ K)) (hp : ∀ im ∈ images, ProbsValid im) (hne : images ≠ []) (hK : 0 < K) :
    labelQualityScores weights check images = .ok (images.map (imageScore w check (minSimilarity images))) := by
  have h : labelQualityScores weights check images =
      .ok ((prunedImages images).map (imageScore w check (minSimilarity (prunedImages images)))) := by
    unfold labelQualityScores
    rw [checkInputs_ok images hne hK, hw]
    rfl
  rw [h, prunedImages_eq images hp]

/-- **C176**: if besides all objects predicted where nothing is annotated are certain and of classes that are not annotated
in the image, its label quality score is at most `1e-33`. -/
theorem C176_score (check : Bool) (images : List (Image ℝ K)) (hp : ∀ im ∈ images, ProbsValid im) (i : ℕ) (im : Image ℝ K)
    (hi : images[i]? = some im) (p : Pred ℝ) (k : Fin K) (h : Overlooked im p k)
    (hall : ∀ q c, Overlooked im q c → q.prob = 1 ∧ ∀ l ∈ im.labels, l.2 ≠ c) :
    ∃ scores s, labelQualityScores none check images = .ok scores ∧ scores[i]? = some s ∧ s ≤ 1 / 10 ^ 33 := by
  classical
  have him : im ∈ images := List.mem_of_getElem? hi
  refine ⟨_, imageScore ⟨1 / 3, 1 / 3, 1 / 3⟩ check (minSimilarity images) im,
    scores_eq none _ rfl check images hp (List.ne_nil_of_mem him) (Nat.pos_of_ne_zero (fun hk => by subst hk; exact k.elim0)), ?_, ?_⟩
  · rw [List.getElem?_map, hi]; rfl
  · obtain ⟨hm1, hm2⟩ := minSimilarity_range images
    obtain ⟨-, hb, hs⟩ := C73_box_scores (minSimilarity images) ⟨hm1.le, hm2⟩ check im (hp im him)
    have hv : ∀ l : List ℝ, (∀ x ∈ l, InUnit x) → Real.log (addTiny (validScore temperature (l.map some))) ≤ 0 := by
      intro l hl
      have h1 : InUnit (validScore temperature (l.map some)) := by
        by_cases hne : (l.map some).reduceOption = []
        · rw [(C73_pooling _ _).1 hne]; exact one_inUnit
        · exact (C73_pooling temperature (l.map some)).2 0 1 (fun x hx => hl x (by rwa [reduceOption_map_some] at hx)) hne
      unfold addTiny
      split_ifs
      · exact Real.log_nonpos (by norm_num) (by norm_num)
      · exact Real.log_nonpos h1.1 h1.2
    unfold imageScore
    dsimp only
    rw [overlooked_zero h hall (hp im him)]
    have h0 : addTiny 0 = 1 / 10 ^ 100 := if_pos rfl
    rw [h0]
    have e33 : (1 / 10 ^ 33 : ℝ) = Real.exp (-(33 * Real.log 10)) := by
      rw [Real.exp_neg, show (33 : ℝ) * Real.log 10 = Real.log (10 ^ 33) by rw [Real.log_pow]; norm_num,
        Real.exp_log (by positivity), one_div]
    have e100 : Real.log (1 / 10 ^ 100) = -(100 * Real.log 10) := by
      rw [one_div, Real.log_inv, Real.log_pow]
      norm_num
    rw [e33, e100, Real.exp_le_exp]
    have h10 : 0 < Real.log 10 := Real.log_pos (by norm_num)
    have := hv _ hb
    have := hv _ hs
    linarith

/-- A street with one annotated car; the model is certain to see a cyclist beside it. -/
noncomputable def street : Image ℝ 2 :=
  { preds := fun k => if k = 0 then [⟨⟨0, 0, 4, 2⟩, 97 / 100⟩] else [⟨⟨5, 0, 6, 2⟩, 1⟩]
    labels := [(⟨0, 0, 4, 2⟩, 0)] }

theorem street_overlooked : Overlooked street ⟨⟨5, 0, 6, 2⟩, 1⟩ 1 := by
  refine ⟨by simp [street], by norm_num, fun l hl => ?_⟩
  rw [show street.labels = [(⟨0, 0, 4, 2⟩, 0)] from rfl, List.mem_singleton] at hl
  subst hl
  rintro ⟨x, y, ⟨-, h1, -, -⟩, ⟨h2, -, -, -⟩⟩
  dsimp only at h1 h2
  linarith

example (A : ArgSort ℝ) (others : List (Image ℝ 2)) : (issueMask A true (street :: others))[0]? = some true :=
  C176_certain A true _ 0 street rfl _ 1 street_overlooked rfl (by simp [street])

/-- A car that nobody annotated. -/
noncomputable def unannotated : Image ℝ 1 := ⟨fun _ => [⟨⟨6, 6, 8, 8⟩, 96 / 100⟩], []⟩

theorem flagged_unannotated (A : ArgSort ℝ) (thr : ℝ) : flagged A thr unannotated 0 = [(96 / 100, false)] := by
  unfold flagged matchImage
  have hl : (labelsOf unannotated 0).length = 0 := by simp [labelsOf, unannotated]
  simp only [matchBoxes_zero A thr hl]
  rfl

example : (issueMask (stableSort ℝ) true [unannotated, matchedImage])[0]? = some true := by
  refine C176_good_model _ true _ 0 unannotated rfl ⟨⟨6, 6, 8, 8⟩, 96 / 100⟩ 0 ⟨by simp [unannotated], by norm_num, by
    simp [unannotated]⟩ ?_
  have h : perClassAp (stableSort ℝ) [unannotated, matchedImage] 0 = 1 / 2 / 4 := by
    refine perClassAp_const _ _ _ _ (fun thr h1 h2 => ?_)
    unfold apOfClass recallsPrecisions
    simp only [List.map_cons, List.map_nil, List.flatMap_cons, List.flatMap_nil, flagged_matched _ h2, flagged_unannotated,
      labelsOf_matched, show labelsOf unannotated 0 = [] by simp [labelsOf, unannotated]]
    rw [sortOn_stableSort_self _ _ (by simp; norm_num)]
    simp [cumTrue, averagePrecision, suffixMax, eps32]
    norm_num
  unfold perClassAp at h
  linarith

/-! ## C177 -/

/-- The annotated box `l` shows an object that the model predicts in exactly this box, with more than 95 % probability, but
of another class. -/
structure Mislabelled (im : Image ℝ K) (l : Box ℝ × Fin K) : Prop where
  annotated : l ∈ im.labels
  proper : ValidBox l.1 ∧ eps ≤ l.1.area
  predicted : ∃ k ≠ l.2, ∃ p ∈ im.preds k, p.box = l.1 ∧ 95 / 100 < p.prob

/-- **C177**, partial: an image with a mislabelled object is reported if some annotated and predicted box in the data set are
so far from each other that their similarity is at most 4/5 of the scaled average precision of the class. -/
theorem C177_found_partial (A : ArgSort ℝ) (check : Bool) (images : List (Image ℝ K)) (i : ℕ) (im : Image ℝ K)
    (hi : images[i]? = some im) (l : Box ℝ × Fin K) (h : Mislabelled im l)
    (hs : minSimilarity images ≤ perClassAp A images l.2 * (8 / 10)) : (issueMask A check images)[i]? = some true := by
  classical
  refine mem_issueMask A check images i im hi (Or.inr (Or.inr ?_))
  obtain ⟨j, hj⟩ := List.mem_iff_get.mp h.annotated
  obtain ⟨k, hk, p, hp, hb, hprob⟩ := h.predicted
  have hz : (swapScores check (minSimilarity images) im).length = im.labels.length := by simp [swapScores]
  refine ⟨(some (swapScores check (minSimilarity images) im)[j.val], perClassAp A images l.2), ?_, ?_⟩
  · rw [List.mem_iff_getElem]
    refine ⟨j.val, by simp [hz], ?_⟩
    rw [List.getElem_zip, List.getElem_map, List.getElem_map]
    rw [show im.labels[j.val] = l from hj]
  · rw [Option.getD_some]
    refine le_trans (le_of_eq ?_) hs
    unfold swapScores
    rw [List.getElem_ofFn]
    dsimp only
    have hm : (p, k) ∈ (allPreds im).filter (fun q => q.2 ≠ l.2) := by
      rw [List.mem_filter]
      exact ⟨(mem_allPreds im (p, k)).mpr hp, by simpa using hk⟩
    rw [show im.labels.get ⟨j.val, j.isLt⟩ = l from hj]
    split_ifs with h1 h2
    · rfl
    · rcases h2 with h2 | h2
      · rw [h2] at hm; exact absurd hm List.not_mem_nil
      · exact absurd (h2 _ hm) (not_le.mpr hprob)
    · have h3 : (1 : ℝ) ≤ maxOr 0 ((((allPreds im).filter (fun q => q.2 ≠ l.2)).filter (fun q => q.1.prob > 95 / 100)).map
          (fun q => similarity l.1 q.1.box)) := by
        refine le_maxOr _ _ _ (List.mem_map.mpr ⟨(p, k), List.mem_filter.mpr ⟨hm, by simpa using hprob⟩, ?_⟩)
        dsimp only
        rw [hb, similarity_self h.proper]
      exact max_eq_left (by linarith [(minSimilarity_range images).1])

theorem minOr_le (d : ℝ) (l : List ℝ) (x : ℝ) (hx : x ∈ l) : minOr d l ≤ x := by
  have key : ∀ (xs : List ℝ) (a : ℝ), xs.foldl min a ≤ a ∧ ∀ x ∈ xs, xs.foldl min a ≤ x := by
    intro xs
    induction xs with
    | nil => intro a; exact ⟨le_rfl, fun x hx => absurd hx List.not_mem_nil⟩
    | cons b xs ih =>
      intro a
      rw [List.foldl_cons]
      refine ⟨(ih _).1.trans (min_le_left a b), fun x hx => ?_⟩
      rcases List.mem_cons.mp hx with rfl | hx
      · exact (ih _).1.trans (min_le_right a x)
      · exact (ih _).2 x hx
  cases l with
  | nil => exact absurd hx List.not_mem_nil
  | cons a xs =>
    rcases List.mem_cons.mp hx with rfl | hx
    · exact (key xs x).1
    · exact (key xs a).2 x hx

/-- The smallest similarity is at most the similarity of any annotated and predicted box of an image. -/
theorem minSimilarity_le (images : List (Image ℝ K)) (im : Image ℝ K) (him : im ∈ images) (l : Box ℝ × Fin K)
    (hl : l ∈ im.labels) (k : Fin K) (p : Pred ℝ) (hp : p ∈ im.preds k) : minSimilarity images ≤ similarity l.1 p.box := by
  classical
  unfold minSimilarity
  have key : ∀ (xs : List (Image ℝ K)) (m : ℝ),
      xs.foldl (fun m im => min m (minOr 1 ((similarities im).filter (fun s => s ≠ 0)))) m ≤ m ∧ (im ∈ xs →
        xs.foldl (fun m im => min m (minOr 1 ((similarities im).filter (fun s => s ≠ 0)))) m ≤ similarity l.1 p.box) := by
    intro xs
    induction xs with
    | nil => intro m; exact ⟨le_rfl, fun h => absurd h List.not_mem_nil⟩
    | cons im' xs ih =>
      intro m
      rw [List.foldl_cons]
      refine ⟨(ih _).1.trans (min_le_left _ _), fun h => ?_⟩
      rcases List.mem_cons.mp h with rfl | h
      · refine ((ih _).1.trans (min_le_right _ _)).trans (minOr_le _ _ _ (List.mem_filter.mpr ⟨?_, ?_⟩))
        · exact List.mem_flatMap.mpr ⟨l, hl, List.mem_map.mpr ⟨(p, k), (mem_allPreds im (p, k)).mpr hp, rfl⟩⟩
        · simpa using (similarity_range l.1 p.box).1.ne'
      · exact (ih _).2 h
  exact (key images 1).2 him

/-- All annotated and predicted boxes of the image are the same box. -/
def OneObject (im : Image ℝ K) : Prop :=
  im.labels ≠ [] ∧ ∃ b : Box ℝ, (ValidBox b ∧ eps ≤ b.area) ∧ (∀ l ∈ im.labels, l.1 = b) ∧ ∀ k, ∀ p ∈ im.preds k, p.box = b

theorem oneObject_similarity {im : Image ℝ K} (h : OneObject im) (l : Box ℝ × Fin K) (hl : l ∈ im.labels) (k : Fin K)
    (p : Pred ℝ) (hp : p ∈ im.preds k) : similarity l.1 p.box = 1 ∧ iou l.1 p.box = 1 := by
  obtain ⟨-, b, hb, h1, h2⟩ := h
  rw [h1 l hl, h2 k p hp]
  exact ⟨similarity_self hb, iou_self hb⟩

theorem oneObject_minSimilarity (images : List (Image ℝ K)) (h : ∀ im ∈ images, OneObject im) : minSimilarity images = 1 := by
  classical
  unfold minSimilarity
  suffices H : ∀ l : List (Image ℝ K), (∀ im ∈ l, OneObject im) →
      l.foldl (fun m im => min m (minOr 1 ((similarities im).filter (fun s => s ≠ 0)))) 1 = 1 from H images h
  intro l hl
  induction l with
  | nil => rfl
  | cons im l ih =>
    rw [List.foldl_cons]
    have h1 : minOr 1 ((similarities im).filter (fun s => s ≠ 0)) = 1 := by
      have h2 : ∀ x ∈ (similarities im).filter (fun s => s ≠ 0), x = 1 := by
        intro x hx
        obtain ⟨a, ha, hx⟩ := List.mem_flatMap.mp (List.mem_of_mem_filter hx)
        obtain ⟨q, hq, rfl⟩ := List.mem_map.mp hx
        exact (oneObject_similarity (hl im (by simp)) a ha q.2 q.1 ((mem_allPreds im q).mp hq)).1
      rw [List.eq_replicate_of_mem h2]
      generalize ((similarities im).filter (fun s => s ≠ 0)).length = m
      cases m with
      | zero => rfl
      | succ m =>
        show (List.replicate m (1 : ℝ)).foldl min 1 = 1
        induction m with
        | zero => rfl
        | succ m ih => rw [List.replicate_succ, List.foldl_cons, min_self]; exact ih
    rw [h1, min_self]
    exact ih (fun im him => hl im (by simp [him]))

theorem oneObject_scores (check : Bool) {im : Image ℝ K} (h : OneObject im) :
    (∀ x ∈ overlookedScores 1 im, x = none) ∧ (∀ x ∈ badlocScores im, x = 1) ∧ ∀ x ∈ swapScores check 1 im, x = 1 := by
  classical
  refine ⟨fun x hx => ?_, fun x hx => ?_, fun x hx => ?_⟩
  · unfold overlookedScores at hx
    obtain ⟨p, hp, rfl⟩ := List.mem_map.mp hx
    obtain ⟨l, hl⟩ := List.exists_mem_of_ne_nil _ h.1
    rw [if_pos (Or.inr ⟨l, hl, by
      rw [(oneObject_similarity h l hl p.2 p.1 ((mem_allPreds im p).mp hp)).2]; exact zero_lt_one⟩)]
  · unfold badlocScores at hx
    obtain ⟨l, hl, rfl⟩ := List.mem_map.mp hx
    dsimp only
    split_ifs with hc
    · rfl
    · rcases maxOr_mem 1 ((((allPreds im).filter (fun p => p.2 = l.2)).filter
          (fun p => p.1.prob > 1 / 2 ∧ iou l.1 p.1.box > 0)).map (fun p => similarity l.1 p.1.box)) with ⟨-, he⟩ | hm
      · exact he
      · obtain ⟨q, hq, he⟩ := List.mem_map.mp hm
        rw [← he]
        exact (oneObject_similarity h l hl q.2 q.1 ((mem_allPreds im q).mp
          (List.mem_of_mem_filter (List.mem_of_mem_filter hq)))).1
  · unfold swapScores at hx
    obtain ⟨i, rfl⟩ := List.mem_ofFn.mp hx
    dsimp only
    split_ifs with h1 h2
    · rfl
    · rfl
    · refine max_eq_left ?_
      have := maxOr_inUnit (d := 0) ⟨le_rfl, zero_le_one⟩ (l := (((allPreds im).filter
        (fun p => p.2 ≠ (im.labels.get i).2)).filter (fun p => p.1.prob > 95 / 100)).map
        (fun p => similarity (im.labels.get i).1 p.1.box)) (by
          intro y hy
          obtain ⟨p, _, rfl⟩ := List.mem_map.mp hy
          exact similarity_inUnit _ _)
      linarith [this.1]

/-- **C177** does not hold: if every image shows one object, exactly where it is predicted, no image is reported and all have
label quality 1, whatever the classes. -/
theorem C177_not_one_object (A : ArgSort ℝ) (check : Bool) (images : List (Image ℝ K)) (h : ∀ im ∈ images, OneObject im)
    (hp : ∀ im ∈ images, ProbsValid im) (hne : images ≠ []) (hK : 0 < K) :
    issueMask A check images = List.replicate images.length false ∧
      labelQualityScores none check images = .ok (List.replicate images.length 1) := by
  classical
  have hmin := oneObject_minSimilarity images h
  constructor
  · rw [List.eq_replicate_iff]
    refine ⟨by simp [issueMask], fun b hb => ?_⟩
    unfold issueMask at hb
    obtain ⟨im, him, rfl⟩ := List.mem_map.mp hb
    rw [decide_eq_false_iff_not, hmin]
    obtain ⟨h1, h2, h3⟩ := oneObject_scores check (h im him)
    have hap : ∀ (l : List (Fin K)), ∀ t ∈ l.map (perClassAp A images), t ≤ 1 / 4 := by
      intro l t ht
      obtain ⟨k, -, rfl⟩ := List.mem_map.mp ht
      exact (C41_per_class_ap_range A images k).2
    rintro (hi | hi | hi)
    · refine anyIssue_false _ _ (fun x hx y hy => ?_) ?_ hi
      · rw [h1 x hx] at hy; exact absurd hy (by simp)
      · have := hap ((allPreds im).map (fun p => p.2))
        rwa [List.map_map] at this
    · refine anyIssue_false _ _ (fun x hx y hy => ?_) ?_ hi
      · obtain ⟨z, hz, rfl⟩ := List.mem_map.mp hx
        rw [← Option.some.inj hy, h2 z hz]; norm_num
      · have := hap (im.labels.map (fun l => l.2))
        rwa [List.map_map] at this
    · refine anyIssue_false _ _ (fun x hx y hy => ?_) ?_ hi
      · obtain ⟨z, hz, rfl⟩ := List.mem_map.mp hx
        rw [← Option.some.inj hy, h3 z hz]; norm_num
      · have := hap (im.labels.map (fun l => l.2))
        rwa [List.map_map] at this
  · rw [scores_eq none _ rfl check images hp hne hK, hmin]
    congr 1
    rw [List.eq_replicate_iff]
    refine ⟨by simp, fun s hs => ?_⟩
    obtain ⟨im, him, rfl⟩ := List.mem_map.mp hs
    obtain ⟨h1, h2, h3⟩ := oneObject_scores check (h im him)
    have hv : ∀ l : List (Option ℝ), (∀ x ∈ l.reduceOption, x = 1) → validScore temperature l = 1 := by
      intro l hl
      by_cases hne : l.reduceOption = []
      · exact (C73_pooling _ _).1 hne
      · obtain ⟨h1, h2⟩ := (C73_pooling temperature l).2 1 1 (fun x hx => by rw [hl x hx]; exact ⟨le_rfl, le_rfl⟩) hne
        exact le_antisymm h2 h1
    unfold imageScore
    dsimp only
    rw [hv (overlookedScores 1 im) (fun x hx => by
        rw [List.reduceOption_mem_iff] at hx
        exact absurd (h1 _ hx) (by simp)),
      hv ((badlocScores im).map some) (fun x hx => by rw [reduceOption_map_some] at hx; exact h2 x hx),
      hv ((swapScores check 1 im).map some) (fun x hx => by rw [reduceOption_map_some] at hx; exact h3 x hx)]
    simp [addTiny]

/-- A cat, and a dog annotated as a cat; the model is certain of both. -/
noncomputable def catImage : Image ℝ 2 :=
  { preds := fun k => if k = 0 then [⟨⟨0, 0, 2, 2⟩, 1⟩] else [], labels := [(⟨0, 0, 2, 2⟩, 0)] }

@[inherit_doc catImage] noncomputable def dogImage : Image ℝ 2 :=
  { preds := fun k => if k = 0 then [] else [⟨⟨1, 1, 4, 5⟩, 1⟩], labels := [(⟨1, 1, 4, 5⟩, 0)] }

/-- **C177** does not hold: the dog annotated as a cat is not found. -/
theorem C177_not_found (A : ArgSort ℝ) (check : Bool) : Mislabelled dogImage (⟨1, 1, 4, 5⟩, 0) ∧
    issueMask A check [catImage, dogImage] = [false, false] ∧
      labelQualityScores none check [catImage, dogImage] = .ok [1, 1] := by
  have hc : OneObject catImage := by
    refine ⟨by simp [catImage], ⟨0, 0, 2, 2⟩, by norm_num [ValidBox, Box.area, eps], by simp [catImage], fun k p hp => ?_⟩
    fin_cases k <;> simp_all [catImage]
  have hd : OneObject dogImage := by
    refine ⟨by simp [dogImage], ⟨1, 1, 4, 5⟩, by norm_num [ValidBox, Box.area, eps], by simp [dogImage], fun k p hp => ?_⟩
    fin_cases k <;> simp_all [dogImage]
  refine ⟨⟨by simp [dogImage], by norm_num [ValidBox, Box.area, eps], 1, by simp, ⟨⟨1, 1, 4, 5⟩, 1⟩, by simp [dogImage], rfl,
    by norm_num⟩, ?_⟩
  refine C177_not_one_object A check [catImage, dogImage] ?_ ?_ (by simp) (by norm_num)
  · intro im him
    rcases List.mem_cons.mp him with rfl | him
    · exact hc
    · rw [List.mem_singleton.mp him]; exact hd
  · intro im him k p hp
    rcases List.mem_cons.mp him with rfl | him
    · fin_cases k <;> simp_all [catImage, one_inUnit]
    · rw [List.mem_singleton.mp him] at hp
      fin_cases k <;> simp_all [dogImage, one_inUnit]

/-- A cat and a dog far from each other, both found and correctly annotated. -/
noncomputable def bothImage : Image ℝ 2 :=
  { preds := fun k => if k = 0 then [⟨⟨0, 0, 4, 4⟩, 1⟩] else [⟨⟨10, 0, 14, 4⟩, 1⟩]
    labels := [(⟨0, 0, 4, 4⟩, 0), (⟨10, 0, 14, 4⟩, 1)] }

theorem flagged_both (A : ArgSort ℝ) {thr : ℝ} (h : thr ≤ 1) : flagged A thr bothImage 0 = [(1, true)] := by
  unfold flagged matchImage
  have hlab : labelsOf bothImage 0 = [⟨0, 0, 4, 4⟩] := by simp [labelsOf, bothImage]
  have hl : (labelsOf bothImage 0).length = 1 := by rw [hlab]; rfl
  have e : ∀ i : Fin (bothImage.preds 0).length,
      (matchBoxes A thr (overlaps (bothImage.preds 0) (labelsOf bothImage 0))
        (fun i => ((bothImage.preds 0).get i).prob)).tp i = true := by
    intro i
    rw [matchBoxes_one A thr (p := (bothImage.preds 0).length) rfl hl _ _ i ⟨0, by omega⟩, decide_eq_true_iff]
    refine h.trans ?_
    have hb : ((labelsOf bothImage 0).get ⟨0, by omega⟩) = ⟨0, 0, 4, 4⟩ := by
      simp [hlab]
    have hi : i = ⟨0, by decide⟩ := Subsingleton.elim (α := Fin 1) _ _
    unfold overlaps
    rw [hb, hi]
    simp [bothImage, iou, Box.area, eps]
    norm_num
  simp only [e]
  rfl

/-- Beside the image with two objects the dog annotated as a cat is found. -/
example : (issueMask (stableSort ℝ) true [bothImage, dogImage])[1]? = some true := by
  classical
  refine C177_found_partial _ true _ 1 dogImage rfl (⟨1, 1, 4, 5⟩, 0) ⟨by simp [dogImage], by norm_num [ValidBox, Box.area, eps],
    1, by simp, ⟨⟨1, 1, 4, 5⟩, 1⟩, by simp [dogImage], rfl, by norm_num⟩ ?_
  have h : perClassAp (stableSort ℝ) [bothImage, dogImage] 0 = 1 / 2 / 4 := by
    refine perClassAp_const _ _ _ _ (fun thr h1 h2 => ?_)
    have hf : flagged (stableSort ℝ) thr dogImage 0 = [] := by
      unfold flagged
      simp [dogImage]
    unfold apOfClass recallsPrecisions
    simp only [List.map_cons, List.map_nil, List.flatMap_cons, List.flatMap_nil, flagged_both _ h2, hf,
      show labelsOf bothImage 0 = [⟨0, 0, 4, 4⟩] by simp [labelsOf, bothImage],
      show labelsOf dogImage 0 = [⟨1, 1, 4, 5⟩] by simp [labelsOf, dogImage]]
    rw [sortOn_stableSort_self _ _ (by simp)]
    simp [cumTrue, averagePrecision, suffixMax, eps32]
    norm_num
  rw [show ((⟨1, 1, 4, 5⟩, 0) : Box ℝ × Fin 2).2 = 0 from rfl, h]
  have h1 : similarity (⟨0, 0, 4, 4⟩ : Box ℝ) ⟨10, 0, 14, 4⟩ ≤ 1 / 10 := by
    have hi : iou (⟨0, 0, 4, 4⟩ : Box ℝ) ⟨10, 0, 14, 4⟩ = 0 := by norm_num [iou]
    have := (closeness_range (⟨0, 0, 4, 4⟩ : Box ℝ) ⟨10, 0, 14, 4⟩).2
    unfold similarity
    rw [hi]
    linarith
  refine le_trans (minSimilarity_le [bothImage, dogImage] bothImage (by simp) (⟨0, 0, 4, 4⟩, 0) (by simp [bothImage]) 1
    ⟨⟨10, 0, 14, 4⟩, 1⟩ (by simp [bothImage])) (h1.trans (by norm_num))

end Cleanlab.Props
