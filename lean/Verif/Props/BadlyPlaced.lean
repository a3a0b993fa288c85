import Verif.Props.DetectionErrors

/-!
# C190: badly placed boxes in object detection
-/

namespace Cleanlab.Props

open Np Cleanlab.Detection

variable {K : ℕ}

/-- Two boxes have a point in common. -/
def Meet (a b : Box ℝ) : Prop := ∃ x y, Inside a x y ∧ Inside b x y

theorem meet_iff (a b : Box ℝ) : Meet a b ↔ iou a b > 0 := (C39_positive_iff a b).symm

/-- Nothing of the image is found: no annotated box lies where an object of its class is predicted, and no prediction has
95 % probability or more. -/
structure AllMisplaced (im : Image ℝ K) : Prop where
  apart : ∀ l ∈ im.labels, ∀ p ∈ im.preds l.2, ¬ Meet l.1 p.box
  unsure : ∀ k, ∀ p ∈ im.preds k, p.prob < 95 / 100
  single : ∀ i, ¬ HasOverlap im.labels i

theorem misplaced_scores (check : Bool) (minSim : ℝ) {im : Image ℝ K} (h : AllMisplaced im) :
    (∀ x ∈ overlookedScores minSim im, x = none) ∧ (∀ x ∈ badlocScores im, x = 1) ∧ ∀ x ∈ swapScores check minSim im, x = 1 := by
  classical
  refine ⟨fun x hx => ?_, fun x hx => ?_, fun x hx => ?_⟩
  · unfold overlookedScores at hx
    obtain ⟨p, hp, rfl⟩ := List.mem_map.mp hx
    rw [if_pos (Or.inl (h.unsure p.2 p.1 ((mem_allPreds im p).mp hp)))]
  · unfold badlocScores at hx
    obtain ⟨l, hl, rfl⟩ := List.mem_map.mp hx
    dsimp only
    split_ifs with hc
    · rfl
    · have : ((allPreds im).filter (fun p => p.2 = l.2)).filter (fun p => p.1.prob > 1 / 2 ∧ iou l.1 p.1.box > 0) = [] := by
        rw [List.filter_eq_nil_iff]
        intro q hq
        obtain ⟨hq1, hq2⟩ := List.mem_filter.mp hq
        have hk : q.2 = l.2 := by simpa using hq2
        have hm := h.apart l hl q.1 (hk ▸ (mem_allPreds im q).mp hq1)
        rw [meet_iff] at hm
        simp only [decide_eq_true_eq]
        exact fun hh => hm hh.2
      rw [this]
      rfl
  · unfold swapScores at hx
    obtain ⟨i, rfl⟩ := List.mem_ofFn.mp hx
    dsimp only
    rw [if_neg (fun hh => h.single i hh.2), if_pos]
    right
    intro q hq
    exact (h.unsure q.2 q.1 ((mem_allPreds im q).mp (List.mem_of_mem_filter hq))).le

theorem not_issue (A : ArgSort ℝ) (check : Bool) (images : List (Image ℝ K)) (im : Image ℝ K)
    (ho : ∀ x ∈ overlookedScores (minSimilarity images) im, ∀ y, x = some y → 2 / 10 < y)
    (hb : ∀ x ∈ badlocScores im, 2 / 10 < x) (hs : ∀ x ∈ swapScores check (minSimilarity images) im, 2 / 10 < x) :
    ¬ IsIssue (perClassAp A images) check (minSimilarity images) im := by
  have hap : ∀ (l : List (Fin K)), ∀ t ∈ l.map (perClassAp A images), t ≤ 1 / 4 := by
    intro l t ht
    obtain ⟨k, -, rfl⟩ := List.mem_map.mp ht
    exact (C41_per_class_ap_range A images k).2
  rintro (hi | hi | hi)
  · refine anyIssue_false _ _ ho ?_ hi
    have := hap ((allPreds im).map (fun p => p.2))
    rwa [List.map_map] at this
  · refine anyIssue_false _ _ (fun x hx y hy => ?_) ?_ hi
    · obtain ⟨z, hz, rfl⟩ := List.mem_map.mp hx
      rw [← Option.some.inj hy]; exact hb z hz
    · have := hap (im.labels.map (fun l => l.2))
      rwa [List.map_map] at this
  · refine anyIssue_false _ _ (fun x hx y hy => ?_) ?_ hi
    · obtain ⟨z, hz, rfl⟩ := List.mem_map.mp hx
      rw [← Option.some.inj hy]; exact hs z hz
    · have := hap (im.labels.map (fun l => l.2))
      rwa [List.map_map] at this

theorem mask_false (A : ArgSort ℝ) (check : Bool) (images : List (Image ℝ K)) (i : ℕ) (im : Image ℝ K)
    (hi : images[i]? = some im) (h : ¬ IsIssue (perClassAp A images) check (minSimilarity images) im) :
    (issueMask A check images)[i]? = some false := by
  classical
  unfold issueMask
  rw [List.getElem?_map, hi, Option.map_some]
  exact congrArg some (@decide_eq_false _ _ h)

theorem score_one (w : Weights) (check : Bool) (minSim : ℝ) (im : Image ℝ K) (h1 : ∀ x ∈ overlookedScores minSim im, x = none)
    (h2 : ∀ x ∈ badlocScores im, x = 1) (h3 : ∀ x ∈ swapScores check minSim im, x = 1) : imageScore w check minSim im = 1 := by
  have hv : ∀ l : List (Option ℝ), (∀ x ∈ l.reduceOption, x = 1) → validScore temperature l = 1 := by
    intro l hl
    by_cases hne : l.reduceOption = []
    · exact (C73_pooling _ _).1 hne
    · obtain ⟨h1, h2⟩ := (C73_pooling temperature l).2 1 1 (fun x hx => by rw [hl x hx]; exact ⟨le_rfl, le_rfl⟩) hne
      exact le_antisymm h2 h1
  unfold imageScore
  dsimp only
  rw [hv (overlookedScores minSim im) (fun x hx => by
      rw [List.reduceOption_mem_iff] at hx
      exact absurd (h1 _ hx) (by simp)),
    hv ((badlocScores im).map some) (fun x hx => by rw [reduceOption_map_some] at hx; exact h2 x hx),
    hv ((swapScores check minSim im).map some) (fun x hx => by rw [reduceOption_map_some] at hx; exact h3 x hx)]
  simp [addTiny]

/-- **C190** does not hold: an image all of whose boxes lie elsewhere than predicted is not reported and has label quality 1,
whatever the other images and the average precision of the model, unless a prediction reaches 95 % probability. -/
theorem C190_not_elsewhere (A : ArgSort ℝ) (check : Bool) (images : List (Image ℝ K)) (hp : ∀ im ∈ images, ProbsValid im)
    (hK : 0 < K) (i : ℕ) (im : Image ℝ K) (hi : images[i]? = some im) (h : AllMisplaced im) :
    (issueMask A check images)[i]? = some false ∧
      ∃ scores, labelQualityScores none check images = .ok scores ∧ scores[i]? = some 1 := by
  obtain ⟨h1, h2, h3⟩ := misplaced_scores check (minSimilarity images) h
  refine ⟨mask_false A check images i im hi (not_issue A check images im (fun x hx y hy => ?_) (fun x hx => ?_) (fun x hx => ?_)), ?_⟩
  · rw [h1 x hx] at hy; cases hy
  · rw [h2 x hx]; norm_num
  · rw [h3 x hx]; norm_num
  · refine ⟨_, scores_eq none _ rfl check images hp (List.ne_nil_of_mem (List.mem_of_getElem? hi)) hK, ?_⟩
    rw [List.getElem?_map, hi, Option.map_some, score_one _ check _ im h1 h2 h3]

/-- Every annotated box of the image covers at least 2/9 of what it and some prediction of its class cover together; nothing
else is predicted where the model is sure. -/
structure PartlyRight (im : Image ℝ K) : Prop where
  close : ∀ l ∈ im.labels, ∃ p ∈ im.preds l.2, 1 / 2 < p.prob ∧ 2 / 9 ≤ iou l.1 p.box
  met : ∀ k, ∀ p ∈ im.preds k, ∃ l ∈ im.labels, Meet l.1 p.box
  own : ∀ l ∈ im.labels, ∀ k, k ≠ l.2 → im.preds k = []

/-- **C190** does not hold: boxes of which 2/9 are right are never reported, however good the model is. -/
theorem C190_not_partly_right (A : ArgSort ℝ) (check : Bool) (images : List (Image ℝ K)) (i : ℕ) (im : Image ℝ K)
    (hi : images[i]? = some im) (h : PartlyRight im) : (issueMask A check images)[i]? = some false := by
  classical
  refine mask_false A check images i im hi (not_issue A check images im (fun x hx y hy => ?_) (fun x hx => ?_) (fun x hx => ?_))
  · unfold overlookedScores at hx
    obtain ⟨p, hp, rfl⟩ := List.mem_map.mp hx
    obtain ⟨l, hl, hm⟩ := h.met p.2 p.1 ((mem_allPreds im p).mp hp)
    rw [if_pos (Or.inr ⟨l, hl, (meet_iff _ _).mp hm⟩)] at hy
    cases hy
  · unfold badlocScores at hx
    obtain ⟨l, hl, rfl⟩ := List.mem_map.mp hx
    obtain ⟨p, hp, hp1, hp2⟩ := h.close l hl
    dsimp only
    split_ifs with hc
    · norm_num
    · have hin : (p, l.2) ∈ ((allPreds im).filter (fun p => p.2 = l.2)).filter
          (fun p => p.1.prob > 1 / 2 ∧ iou l.1 p.1.box > 0) := by
        rw [List.mem_filter, List.mem_filter]
        refine ⟨⟨(mem_allPreds im (p, l.2)).mpr hp, by simp⟩, ?_⟩
        rw [decide_eq_true_eq]
        exact ⟨hp1, by linarith⟩
      have hle := le_maxOr 1 _ _ (List.mem_map_of_mem (f := fun p : Pred ℝ × Fin K => similarity l.1 p.1.box) hin)
      refine lt_of_lt_of_le ?_ hle
      unfold similarity
      have := (closeness_range l.1 p.box).1
      dsimp only
      linarith
  · unfold swapScores at hx
    obtain ⟨j, rfl⟩ := List.mem_ofFn.mp hx
    dsimp only
    have hothers : (allPreds im).filter (fun p => p.2 ≠ (im.labels.get j).2) = [] := by
      rw [List.filter_eq_nil_iff]
      intro q hq
      have hq' := (mem_allPreds im q).mp hq
      simp only [ne_eq, decide_not, Bool.not_eq_true', decide_eq_false_iff_not, not_not]
      by_contra hne
      rw [h.own _ (List.get_mem im.labels j) q.2 hne] at hq'
      exact absurd hq' List.not_mem_nil
    rw [if_neg, if_pos (Or.inl hothers)]
    · norm_num
    · rintro ⟨-, j', -, -, hne⟩
      obtain ⟨p, hp, -⟩ := h.close _ (List.get_mem im.labels j')
      rw [h.own _ (List.get_mem im.labels j) _ (fun e => hne e.symm)] at hp
      exact absurd hp List.not_mem_nil

/-- An annotated box that overlaps a prediction of its class of more than even probability, but has at most similarity `s`
with each such prediction. -/
structure Displaced (im : Image ℝ K) (l : Box ℝ × Fin K) (s : ℝ) : Prop where
  annotated : l ∈ im.labels
  found : ∃ p ∈ im.preds l.2, 1 / 2 < p.prob ∧ Meet l.1 p.box
  off : ∀ p ∈ im.preds l.2, 1 / 2 < p.prob → Meet l.1 p.box → similarity l.1 p.box ≤ s

theorem displaced_score {im : Image ℝ K} {l : Box ℝ × Fin K} {s : ℝ} (h : Displaced im l s) (minS : ℝ) (ap : Fin K → ℝ) (check : Bool)
    (hs : s ≤ ap l.2 * (8 / 10)) : IsIssue ap check minS im := by
  classical
  right; left
  unfold badlocScores
  rw [List.map_map]
  refine anyIssue_map im.labels _ _ l h.annotated ?_
  refine le_trans ?_ hs
  obtain ⟨p, hp, hp1, hp2⟩ := h.found
  have hin : (p, l.2) ∈ ((allPreds im).filter (fun p => p.2 = l.2)).filter
      (fun p => p.1.prob > 1 / 2 ∧ iou l.1 p.1.box > 0) := by
    rw [List.mem_filter, List.mem_filter]
    refine ⟨⟨(mem_allPreds im (p, l.2)).mpr hp, by simp⟩, ?_⟩
    rw [decide_eq_true_eq]
    exact ⟨hp1, (meet_iff _ _).mp hp2⟩
  rw [Function.comp_apply, Option.getD_some]
  dsimp only
  rw [if_neg]
  · rcases maxOr_mem 1 ((((allPreds im).filter (fun p => p.2 = l.2)).filter
      (fun p => p.1.prob > 1 / 2 ∧ iou l.1 p.1.box > 0)).map (fun p => similarity l.1 p.1.box)) with ⟨he, -⟩ | hm
    · rw [List.map_eq_nil_iff] at he
      rw [he] at hin
      exact absurd hin List.not_mem_nil
    · obtain ⟨q, hq, he⟩ := List.mem_map.mp hm
      rw [← he]
      obtain ⟨hq1, hq2⟩ := List.mem_filter.mp hq
      obtain ⟨hq3, hq4⟩ := List.mem_filter.mp hq1
      rw [decide_eq_true_eq] at hq2 hq4
      exact h.off q.1 (hq4 ▸ (mem_allPreds im q).mp hq3) hq2.1 ((meet_iff _ _).mpr hq2.2)
  · rintro (hh | hh)
    · rw [hh] at hin
      exact absurd hin List.not_mem_nil
    · exact absurd (hh _ (List.mem_of_mem_filter hin)) (not_le.mpr hp1)

/-- **C190, the part that holds.** A displaced box is found if its similarity to the predicted boxes is at most 1/5 of the
mean average precision of its class. (What is missing: boxes more similar than that, and boxes without overlap.) -/
theorem C190_found_partial (A : ArgSort ℝ) (check : Bool) (images : List (Image ℝ K)) (i : ℕ) (im : Image ℝ K)
    (hi : images[i]? = some im) (l : Box ℝ × Fin K) (h : Displaced im l
      (1 / 5 * (((iouThresholds (F := ℝ)).map (fun thr => apOfClass A thr images l.2)).sum / 10))) :
    (issueMask A check images)[i]? = some true := by
  refine mem_issueMask A check images i im hi (displaced_score h _ _ check ?_)
  unfold perClassAp
  linarith

/-- **C190, the part that holds.** A box without overlap is found if the model predicts the object with at least 95 %
probability where nothing is annotated, and is good at the class. -/
theorem C190_elsewhere_partial (A : ArgSort ℝ) (check : Bool) (images : List (Image ℝ K)) (i : ℕ) (im : Image ℝ K)
    (hi : images[i]? = some im) (p : Pred ℝ) (k : Fin K) (hp : p ∈ im.preds k) (hs : 95 / 100 ≤ p.prob) (h1 : p.prob ≤ 1)
    (h : ∀ l ∈ im.labels, ¬ Meet l.1 p.box)
    (hap : 1 / 2 ≤ ((iouThresholds (F := ℝ)).map (fun thr => apOfClass A thr images k)).sum / 10) :
    (issueMask A check images)[i]? = some true :=
  C176_good_model A check images i im hi p k ⟨hp, ⟨hs, h1⟩, h⟩ hap

/-- A box sixteen times as wide as the object is found in a data set of three images. -/
example : (issueMask (stableSort ℝ) true [matchedImage, spuriousImage, partlyImage])[2]? = some true := by
  refine C190_found_partial (stableSort ℝ) true _ 2 partlyImage rfl (⟨0, 0, 32, 4⟩, 0) ⟨by simp [partlyImage], ?_, ?_⟩
  · exact ⟨⟨⟨0, 0, 2, 4⟩, 6 / 10⟩, by simp [partlyImage], by norm_num, 1, 1, by norm_num [Inside], by norm_num [Inside]⟩
  · intro p hp _ _
    have hap := ap_matched_first
    unfold perClassAp at hap
    simp only [partlyImage, List.mem_singleton] at hp
    subst hp
    have hs : iou (⟨0, 0, 32, 4⟩ : Box ℝ) ⟨0, 0, 2, 4⟩ = 1 / 16 := (C39_symmetric _ _).trans iou_partly
    have hc : closeness (⟨0, 0, 32, 4⟩ : Box ℝ) ⟨0, 0, 2, 4⟩ ≤ 2 / 5 := by
      have h1 : Real.exp (-1) ≤ 2 / 5 := Real.exp_neg_one_lt_d9.le.trans (by norm_num)
      refine le_trans (Real.exp_le_exp.mpr ?_) h1
      have : (10 : ℝ) ≤ Real.sqrt ((((0 : ℝ) + 32) / 2 - (0 + 2) / 2) ^ 2 + ((0 + 4) / 2 - (0 + 4) / 2) ^ 2) :=
        Real.le_sqrt_of_sq_le (by norm_num)
      linarith
    unfold similarity
    dsimp only
    rw [hs]
    linarith

/-- A box far from the only prediction, of 94 % probability. -/
noncomputable def farBox : Image ℝ 1 := { preds := fun _ => [⟨⟨0, 0, 2, 2⟩, 94 / 100⟩], labels := [(⟨50, 50, 52, 52⟩, 0)] }

/-- A box that covers half of the object and as much beside it. -/
noncomputable def halfBox : Image ℝ 1 := { preds := fun _ => [⟨⟨0, 0, 2, 2⟩, 1⟩], labels := [(⟨1, 0, 3, 2⟩, 0)] }

example (A : ArgSort ℝ) : issueMask A true [farBox, halfBox] = [false, false] := by
  have hf : AllMisplaced farBox := by
    refine ⟨?_, ?_, ?_⟩
    · intro l hl p hp
      simp only [farBox, List.mem_singleton] at hl hp
      subst hl hp
      rintro ⟨x, y, h1, h2⟩
      simp only [Inside] at h1 h2
      linarith [h1.1, h2.2.1]
    · intro k p hp
      simp only [farBox, List.mem_singleton] at hp
      subst hp
      norm_num
    · rintro i ⟨j, hne, -⟩
      have hi := i.isLt
      have hj := j.isLt
      simp only [farBox, List.length_singleton] at hi hj
      exact hne (Fin.ext (by omega))
  have hh : PartlyRight halfBox := by
    refine ⟨?_, ?_, ?_⟩
    · intro l hl
      simp only [halfBox, List.mem_singleton] at hl
      subst hl
      refine ⟨⟨⟨0, 0, 2, 2⟩, 1⟩, by simp [halfBox], by norm_num, ?_⟩
      norm_num [iou, Box.area, eps]
    · intro k p hp
      simp only [halfBox, List.mem_singleton] at hp
      subst hp
      exact ⟨(⟨1, 0, 3, 2⟩, 0), by simp [halfBox], 3 / 2, 1, by norm_num [Inside], by norm_num [Inside]⟩
    · intro l hl k hk
      exact absurd (Subsingleton.elim k l.2) hk
  have h0 : (issueMask A true [farBox, halfBox])[0]? = some false := by
    classical
    obtain ⟨h1, h2, h3⟩ := misplaced_scores true (minSimilarity [farBox, halfBox]) hf
    refine mask_false A true _ 0 farBox rfl (not_issue A true _ _ (fun x hx y hy => ?_) (fun x hx => ?_) (fun x hx => ?_))
    · rw [h1 x hx] at hy; cases hy
    · rw [h2 x hx]; norm_num
    · rw [h3 x hx]; norm_num
  have h1 := C190_not_partly_right A true [farBox, halfBox] 1 halfBox rfl hh
  unfold issueMask at h0 h1 ⊢
  simp only [List.map_cons, List.map_nil, List.getElem?_cons_zero, List.getElem?_cons_succ, Option.some.injEq] at h0 h1 ⊢
  rw [h0, h1]

end Cleanlab.Props
