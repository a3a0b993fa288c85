import Verif.Props.DetectionBoxes
import Verif.Props.DetectionSummary
import Verif.Props.Detection
import Mathlib.Analysis.Complex.ExponentialBounds

/-!
# C123: in object detection the order of the images and of the boxes does not matter
-/

namespace Cleanlab.Props

open Np Cleanlab.Detection

variable {K : ℕ}

/-- Two images with the same boxes, in any order. -/
structure SameBoxes {F : Type} (a b : Image F K) : Prop where
  preds : ∀ k, (a.preds k).Perm (b.preds k)
  labels : a.labels.Perm b.labels

theorem foldl_max_spec (l : List ℝ) (x : ℝ) : l.foldl max x ∈ x :: l ∧ ∀ y ∈ x :: l, y ≤ l.foldl max x := by
  induction l generalizing x with
  | nil => simp
  | cons z t ih =>
    rw [List.foldl_cons]
    obtain ⟨h1, h2⟩ := ih (max x z)
    constructor
    · rcases List.mem_cons.mp h1 with h | h
      · rw [h]
        rcases max_choice x z with e | e <;> rw [e] <;> simp
      · simp [h]
    · intro y hy
      have hm := h2 _ List.mem_cons_self
      rcases List.mem_cons.mp hy with rfl | hy
      · exact (le_max_left _ _).trans hm
      · rcases List.mem_cons.mp hy with rfl | hy
        · exact (le_max_right _ _).trans hm
        · exact h2 y (List.mem_cons_of_mem _ hy)

theorem foldl_min_spec (l : List ℝ) (x : ℝ) : l.foldl min x ∈ x :: l ∧ ∀ y ∈ x :: l, l.foldl min x ≤ y := by
  induction l generalizing x with
  | nil => simp
  | cons z t ih =>
    rw [List.foldl_cons]
    obtain ⟨h1, h2⟩ := ih (min x z)
    constructor
    · rcases List.mem_cons.mp h1 with h | h
      · rw [h]
        rcases min_choice x z with e | e <;> rw [e] <;> simp
      · simp [h]
    · intro y hy
      have hm := h2 _ List.mem_cons_self
      rcases List.mem_cons.mp hy with rfl | hy
      · exact hm.trans (min_le_left _ _)
      · rcases List.mem_cons.mp hy with rfl | hy
        · exact hm.trans (min_le_right _ _)
        · exact h2 y (List.mem_cons_of_mem _ hy)

theorem maxOr_perm (d : ℝ) {l l' : List ℝ} (h : l.Perm l') : maxOr d l = maxOr d l' := by
  cases l with
  | nil => rw [List.nil_perm.mp h]
  | cons x t =>
    cases l' with
    | nil => exact absurd h.symm (List.nil_perm.not.mpr (by simp))
    | cons x' t' =>
      have h1 := foldl_max_spec t x
      have h2 := foldl_max_spec t' x'
      exact le_antisymm (h2.2 _ (h.mem_iff.mp h1.1)) (h1.2 _ (h.mem_iff.mpr h2.1))

theorem minOr_perm (d : ℝ) {l l' : List ℝ} (h : l.Perm l') : minOr d l = minOr d l' := by
  cases l with
  | nil => rw [List.nil_perm.mp h]
  | cons x t =>
    cases l' with
    | nil => exact absurd h.symm (List.nil_perm.not.mpr (by simp))
    | cons x' t' =>
      have h1 := foldl_min_spec t x
      have h2 := foldl_min_spec t' x'
      exact le_antisymm (h1.2 _ (h.mem_iff.mpr h2.1)) (h2.2 _ (h.mem_iff.mp h1.1))

theorem reduceOption_perm {l l' : List (Option ℝ)} (h : l.Perm l') : l.reduceOption.Perm l'.reduceOption := by
  unfold List.reduceOption
  exact h.filterMap _

theorem validScore_perm (T : ℝ) {l l' : List (Option ℝ)} (h : l.Perm l') : validScore T l = validScore T l' := by
  have hp := reduceOption_perm h
  by_cases hn : l.reduceOption = []
  · have hn' : l'.reduceOption = [] := by rw [hn] at hp; exact List.nil_perm.mp hp
    rw [(C73_pooling T l).1 hn, (C73_pooling T l').1 hn']
  · have hn' : l'.reduceOption ≠ [] := fun e => hn (by rw [e] at hp; exact List.perm_nil.mp hp)
    unfold validScore
    rw [dif_pos hn, dif_pos hn', softmin1d_eq, softmin1d_eq, (hp.map _).sum_eq, (hp.map _).sum_eq]

theorem allPreds_perm {a b : Image ℝ K} (h : SameBoxes a b) : (allPreds a).Perm (allPreds b) :=
  List.Perm.flatMap_left _ (fun k _ => (h.preds k).map _)

theorem similarities_perm {a b : Image ℝ K} (h : SameBoxes a b) : (similarities a).Perm (similarities b) := by
  unfold similarities
  exact (h.labels.flatMap_right _).trans (List.Perm.flatMap_left _ (fun l _ => (allPreds_perm h).map _))

theorem overlookedScores_perm (m : ℝ) {a b : Image ℝ K} (h : SameBoxes a b) :
    (overlookedScores m a).Perm (overlookedScores m b) := by
  classical
  unfold overlookedScores
  have e : ∀ p : Pred ℝ × Fin K, (if p.1.prob < 95 / 100 ∨ ∃ l ∈ a.labels, iou l.1 p.1.box > 0 then none
      else some (maxOr (m * (1 - p.1.prob)) ((a.labels.filter (fun l => l.2 = p.2)).map (fun l => similarity l.1 p.1.box)))) =
      (if p.1.prob < 95 / 100 ∨ ∃ l ∈ b.labels, iou l.1 p.1.box > 0 then none
      else some (maxOr (m * (1 - p.1.prob)) ((b.labels.filter (fun l => l.2 = p.2)).map (fun l => similarity l.1 p.1.box)))) := by
    intro p
    simp only [h.labels.mem_iff]
    rw [maxOr_perm _ ((h.labels.filter _).map _)]
  have := (allPreds_perm h).map (fun p : Pred ℝ × Fin K => if p.1.prob < 95 / 100 ∨ ∃ l ∈ a.labels, iou l.1 p.1.box > 0
    then none else some (maxOr (m * (1 - p.1.prob)) ((a.labels.filter (fun l => l.2 = p.2)).map
      (fun l => similarity l.1 p.1.box))))
  convert this using 1
  exact List.map_congr_left (fun p _ => by convert (e p).symm)

theorem badlocScores_perm {a b : Image ℝ K} (h : SameBoxes a b) : (badlocScores a).Perm (badlocScores b) := by
  classical
  unfold badlocScores
  refine (h.labels.map _).trans (List.Perm.of_eq (List.map_congr_left (fun l _ => ?_)))
  dsimp only
  have hp := (allPreds_perm h).filter (fun p => decide (p.2 = l.2))
  have e1 : ((allPreds a).filter (fun p => decide (p.2 = l.2)) = []) =
      ((allPreds b).filter (fun p => decide (p.2 = l.2)) = []) :=
    propext ⟨fun e => by rw [e] at hp; exact List.nil_perm.mp hp, fun e => by rw [e] at hp; exact List.perm_nil.mp hp⟩
  simp only [e1, hp.mem_iff]
  rw [maxOr_perm _ ((hp.filter _).map _)]

theorem swapScores_eq (check : Bool) (m : ℝ) (a : Image ℝ K) :
    swapScores check m a = open Classical in a.labels.map (fun l =>
      if check = true ∧ ∃ l' ∈ a.labels, iou l.1 l'.1 ≥ 95 / 100 ∧ l.2 ≠ l'.2 then m
      else if (allPreds a).filter (fun p => p.2 ≠ l.2) = [] ∨
        ∀ p ∈ (allPreds a).filter (fun p => p.2 ≠ l.2), p.1.prob ≤ 95 / 100 then 1
      else max m (1 - maxOr 0 ((((allPreds a).filter (fun p => p.2 ≠ l.2)).filter (fun p => p.1.prob > 95 / 100)).map
        (fun p => similarity l.1 p.1.box)))) := by
  classical
  unfold swapScores
  have ho : ∀ i : Fin a.labels.length, HasOverlap a.labels i ↔
      ∃ l' ∈ a.labels, iou (a.labels.get i).1 l'.1 ≥ 95 / 100 ∧ (a.labels.get i).2 ≠ l'.2 := by
    intro i
    constructor
    · rintro ⟨j, -, h1, h2⟩
      exact ⟨_, List.get_mem _ _, h1, h2⟩
    · rintro ⟨l', hl, h1, h2⟩
      obtain ⟨j, rfl⟩ := List.mem_iff_get.mp hl
      exact ⟨j, fun e => h2 (by rw [e]), h1, h2⟩
  rw [← List.ofFn_getElem_eq_map]
  congr 1
  funext i
  dsimp only
  have := ho i
  simp only [this, List.get_eq_getElem]
  congr

theorem swapScores_perm (check : Bool) (m : ℝ) {a b : Image ℝ K} (h : SameBoxes a b) :
    (swapScores check m a).Perm (swapScores check m b) := by
  classical
  rw [swapScores_eq, swapScores_eq]
  refine (h.labels.map _).trans (List.Perm.of_eq (List.map_congr_left (fun l _ => ?_)))
  have hp := (allPreds_perm h).filter (fun p => decide (p.2 ≠ l.2))
  have e1 : ((allPreds a).filter (fun p => decide (p.2 ≠ l.2)) = []) =
      ((allPreds b).filter (fun p => decide (p.2 ≠ l.2)) = []) :=
    propext ⟨fun e => by rw [e] at hp; exact List.nil_perm.mp hp, fun e => by rw [e] at hp; exact List.perm_nil.mp hp⟩
  simp only [e1, hp.mem_iff, h.labels.mem_iff]
  rw [maxOr_perm _ ((hp.filter _).map _)]
  congr

theorem imageScore_boxes (w : Weights) (check : Bool) (m : ℝ) {a b : Image ℝ K} (h : SameBoxes a b) :
    imageScore w check m a = imageScore w check m b := by
  unfold imageScore
  rw [validScore_perm _ (overlookedScores_perm m h), validScore_perm _ ((badlocScores_perm h).map _),
    validScore_perm _ ((swapScores_perm check m h).map _)]

theorem minSimilarity_perm {l l' : List (Image ℝ K)} (h : l.Perm l') : minSimilarity l = minSimilarity l' := by
  classical
  unfold minSimilarity
  exact h.foldl_eq' (fun x _ y _ z => by rw [min_right_comm]) _

theorem minSimilarity_boxes {l l' : List (Image ℝ K)} (h : List.Forall₂ SameBoxes l l') :
    minSimilarity l = minSimilarity l' := by
  classical
  unfold minSimilarity
  suffices H : ∀ m : ℝ, l.foldl (fun m im => min m (minOr 1 ((similarities im).filter (fun s => s ≠ 0)))) m =
      l'.foldl (fun m im => min m (minOr 1 ((similarities im).filter (fun s => s ≠ 0)))) m from H 1
  intro m
  induction h generalizing m with
  | nil => rfl
  | cons h1 _ ih =>
    rw [List.foldl_cons, List.foldl_cons, minOr_perm _ ((similarities_perm h1).filter _)]
    exact ih _

/-- The image without the predictions of negative probability. -/
noncomputable def pruned (im : Image ℝ K) : Image ℝ K :=
  open Classical in { im with preds := fun k => (im.preds k).filter (fun p => p.prob ≥ 0) }

theorem pruned_boxes {a b : Image ℝ K} (h : SameBoxes a b) : SameBoxes (pruned a) (pruned b) :=
  ⟨fun k => (h.preds k).filter _, h.labels⟩

theorem checkInputs_length {l l' : List (Image ℝ K)} (h : l.length = l'.length) : checkInputs l = checkInputs l' := by
  unfold checkInputs
  cases l <;> cases l' <;> first | rfl | simp at h

/-- **C123.** The quality scores of the images do not depend on the order of the images: there is one score per image. -/
theorem C123_images (weights : Option Weights) (check : Bool) {images images' : List (Image ℝ K)}
    (h : images.Perm images') :
    ∃ r : Except String (Image ℝ K → ℝ), labelQualityScores weights check images = r.map (fun f => images.map f) ∧
      labelQualityScores weights check images' = r.map (fun f => images'.map f) := by
  refine ⟨do
    checkInputs images
    let w ← aggregationWeights weights
    return fun im => imageScore w check (minSimilarity (images.map pruned)) (pruned im), ?_, ?_⟩
  · unfold labelQualityScores
    cases checkInputs images with
    | error e => rfl
    | ok _ =>
      cases aggregationWeights weights with
      | error e => rfl
      | ok w =>
        show Except.ok ((images.map pruned).map _) = Except.ok (images.map _)
        rw [List.map_map]
        rfl
  · unfold labelQualityScores
    rw [checkInputs_length h.length_eq]
    cases checkInputs images' with
    | error e => rfl
    | ok _ =>
      cases aggregationWeights weights with
      | error e => rfl
      | ok w =>
        show Except.ok ((images'.map pruned).map _) = Except.ok (images'.map _)
        rw [List.map_map, minSimilarity_perm (h.map pruned)]
        rfl

/-- **C123.** The quality scores of the images do not depend on the order of the annotated and of the predicted boxes. -/
theorem C123_boxes (weights : Option Weights) (check : Bool) {images images' : List (Image ℝ K)}
    (h : List.Forall₂ SameBoxes images images') :
    labelQualityScores weights check images = labelQualityScores weights check images' := by
  unfold labelQualityScores
  rw [checkInputs_length h.length_eq]
  cases checkInputs images' with
  | error e => rfl
  | ok _ =>
    cases aggregationWeights weights with
    | error e => rfl
    | ok w =>
      show Except.ok ((images.map pruned).map (imageScore w check (minSimilarity (images.map pruned)))) =
        Except.ok ((images'.map pruned).map (imageScore w check (minSimilarity (images'.map pruned))))
      have hp : List.Forall₂ SameBoxes (images.map pruned) (images'.map pruned) :=
        List.forall₂_map_left_iff.mpr (List.forall₂_map_right_iff.mpr (h.imp (fun _ _ => pruned_boxes)))
      rw [minSimilarity_boxes hp]
      congr 1
      generalize images.map pruned = l at hp
      generalize minSimilarity (images'.map pruned) = m
      generalize images'.map pruned = l' at hp
      induction hp with
      | nil => rfl
      | cons h1 _ ih => rw [List.map_cons, List.map_cons, imageScore_boxes w check m h1, ih]

/-- **C123.** The counts of correct, spurious and missing predictions of a class and its precision, recall and F1 do not
depend on the order of the images. -/
theorem C123_metrics {F : Type} [Field F] [LinearOrder F] [IsStrictOrderedRing F] (A : ArgSort F)
    {images images' : List (Image F K)} (h : images.Perm images') (k : Fin K) :
    averageConfusion A images k = averageConfusion A images' k ∧ classMetrics A images k = classMetrics A images' k := by
  have hc : ∀ thr, confusionOf A thr images k = confusionOf A thr images' k := by
    intro thr
    unfold confusionOf
    dsimp only
    rw [((h.map _).map _).sum_eq, ((h.map _).map _).sum_eq, ((h.map _).map _).sum_eq]
  have ha : averageConfusion A images k = averageConfusion A images' k := by
    unfold averageConfusion
    simp only [hc]
  refine ⟨ha, ?_⟩
  unfold classMetrics
  rw [ha]

/-- The lists of images have the same content: the images in another order and their boxes in another order. -/
def SameData {F : Type} (images images' : List (Image F K)) : Prop :=
  ∃ mid, images.Perm mid ∧ List.Forall₂ SameBoxes mid images'

theorem flatMap_sameData {F α : Type} {images images' : List (Image F K)} (h : SameData images images')
    (f : Image F K → List α) (hf : ∀ a b, SameBoxes a b → (f a).Perm (f b)) : (images.flatMap f).Perm (images'.flatMap f) := by
  obtain ⟨mid, h1, h2⟩ := h
  refine (h1.flatMap_right f).trans ?_
  clear h1
  induction h2 with
  | nil => exact List.Perm.refl _
  | cons h _ ih =>
    rw [List.flatMap_cons, List.flatMap_cons]
    exact (hf _ _ h).append ih

theorem labBoxes_perm {a b : Image ℚ K} (h : SameBoxes a b) : (labBoxes a).Perm (labBoxes b) := h.labels.map _

theorem predBoxes_perm {a b : Image ℚ K} (h : SameBoxes a b) : (predBoxes a).Perm (predBoxes b) :=
  List.Perm.flatMap_left _ (fun k _ => (h.preds k).map _)

/-- Dictionaries with the same keys and the same lists up to their order. -/
def SameLists {N : Type} (d d' : List (N × List ℚ)) : Prop :=
  (∀ c v, (c, v) ∈ d → ∃ v', v.Perm v' ∧ (c, v') ∈ d') ∧ ∀ c v, (c, v) ∈ d' → ∃ v', v.Perm v' ∧ (c, v') ∈ d

theorem sameLists_of {N : Type} [DecidableEq N] (names : Fin K → Option N) {d d' : List (N × List ℚ)}
    {b b' : List (Fin K × Box ℚ)} (hb : b.Perm b') (h : ∀ c v, (c, v) ∈ d ↔ v = sizesOf names b c ∧ v ≠ [])
    (h' : ∀ c v, (c, v) ∈ d' ↔ v = sizesOf names b' c ∧ v ≠ []) : SameLists d d' := by
  have hp : ∀ c, (sizesOf names b c).Perm (sizesOf names b' c) := fun c => (hb.filter _).map _
  constructor
  · intro c v hv
    obtain ⟨rfl, hn⟩ := (h c v).mp hv
    exact ⟨_, hp c, (h' c _).mpr ⟨rfl, fun e => hn (by have := hp c; rw [e] at this; exact List.perm_nil.mp this)⟩⟩
  · intro c v hv
    obtain ⟨rfl, hn⟩ := (h' c v).mp hv
    exact ⟨_, (hp c).symm, (h c _).mpr ⟨rfl, fun e => hn (by have := hp c; rw [e] at this; exact List.nil_perm.mp this)⟩⟩

/-- **C123.** The sizes of the boxes per class are the same for the same data in another order, up to the order in the
lists. -/
theorem C123_sizes {N : Type} [DecidableEq N] (names : Fin K → Option N) (sort : Bool) {images images' : List (Image ℚ K)}
    (h : SameData images images') :
    SameLists (sizeDistribution names sort images).1 (sizeDistribution names sort images').1 ∧
      SameLists (sizeDistribution names sort images).2 (sizeDistribution names sort images').2 := by
  obtain ⟨-, a1, a2, -⟩ := C92_sizes names sort images
  obtain ⟨-, b1, b2, -⟩ := C92_sizes names sort images'
  exact ⟨sameLists_of names (flatMap_sameData h _ (fun _ _ => labBoxes_perm)) a1 b1,
    sameLists_of names (flatMap_sameData h _ (fun _ _ => predBoxes_perm)) a2 b2⟩

/-- **C123.** The frequencies of the classes are the same for the same data in another order. -/
theorem C123_distribution {N : Type} [DecidableEq N] (names : Fin K → Option N) {images images' : List (Image ℚ K)}
    (h : SameData images images') :
    ((∃ e, classDistribution names images = .error e) ↔ ∃ e, classDistribution names images' = .error e) ∧
      ∀ out, classDistribution names images = .ok out →
        ∃ out', classDistribution names images' = .ok out' ∧ out.1.Perm out'.1 ∧ out.2.Perm out'.2 := by
  have hl : (labClasses images).Perm (labClasses images') :=
    flatMap_sameData h _ (fun _ _ hs => hs.labels.map _)
  have hp : (predClasses images).Perm (predClasses images') :=
    flatMap_sameData h _ (fun _ _ hs => List.Perm.flatMap_left _ (fun k _ => by rw [(hs.preds k).length_eq]))
  have hm : ∀ k, k ∈ labClasses images ++ predClasses images ↔ k ∈ labClasses images' ++ predClasses images' :=
    fun k => (hl.append hp).mem_iff
  have he : (∃ e, classDistribution names images = .error e) ↔ ∃ e, classDistribution names images' = .error e := by
    rw [C92_unnamed, C92_unnamed]
    simp only [hm]
  refine ⟨he, fun out ho => ?_⟩
  have hn : ∀ k ∈ labClasses images ++ predClasses images, names k ≠ none := by
    intro k hk hk'
    obtain ⟨e, h1⟩ := (C92_unnamed names images).mpr ⟨k, hk, hk'⟩
    rw [ho] at h1
    cases h1
  obtain ⟨o, h1, h2, h3, h4, h5⟩ := classDistribution_spec names images hn
  obtain ⟨o', g1, g2, g3, g4, g5⟩ := classDistribution_spec names images' (fun k hk => hn k ((hm k).mpr hk))
  rw [ho] at h1
  cases h1
  refine ⟨o', g1, ?_, ?_⟩
  · rw [List.perm_ext_iff_of_nodup (List.Nodup.of_map _ h2) (List.Nodup.of_map _ g2)]
    rintro ⟨c, v⟩
    rw [h4, g4]
    unfold numNamed
    rw [hl.countP_eq, hl.length_eq]
  · rw [List.perm_ext_iff_of_nodup (List.Nodup.of_map _ h3) (List.Nodup.of_map _ g3)]
    rintro ⟨c, v⟩
    rw [h5, g5]
    unfold numNamed
    rw [hp.countP_eq, hp.length_eq]

/-- **C123 (refuted as stated).** The precision of a class depends on the order of the annotated boxes: a prediction takes
the first of the boxes that it overlaps most. -/
theorem C123_not_box_metrics :
    ¬ ∀ (A : ArgSort ℚ) (a b : Image ℚ 1), SameBoxes a b → classMetrics A [a] 0 = classMetrics A [b] 0 := by
  intro h
  have := h (stableSort ℚ)
    ⟨fun _ => [⟨⟨0, 0, 4, 4⟩, 9 / 10⟩, ⟨⟨0, 0, 4, 3⟩, 8 / 10⟩], [(⟨0, 0, 4, 3⟩, 0), (⟨0, 1, 4, 4⟩, 0)]⟩
    ⟨fun _ => [⟨⟨0, 0, 4, 4⟩, 9 / 10⟩, ⟨⟨0, 0, 4, 3⟩, 8 / 10⟩], [(⟨0, 1, 4, 4⟩, 0), (⟨0, 0, 4, 3⟩, 0)]⟩
    ⟨fun _ => List.Perm.refl _, List.Perm.swap _ _ _⟩
  revert this
  decide +kernel

theorem map_fst_flagged {F : Type} [Field F] [LinearOrder F] [IsStrictOrderedRing F] (A : ArgSort F) (thr : F)
    (im : Image F K) (k : Fin K) : (flagged A thr im k).map Prod.fst = (im.preds k).map (fun p => p.prob) := by
  unfold flagged
  rw [List.map_ofFn]
  exact List.ofFn_getElem_eq_map (im.preds k) (fun p => p.prob)

theorem sortOn_perm_eq {α β : Type} [LinearOrder α] (A : ArgSort α) (key : β → α) {l l' : List β} (h : l.Perm l')
    (hd : (l.map key).Nodup) : sortOn A key l = sortOn A key l' := by
  refine List.Perm.eq_of_pairwise (le := fun x y => key x ≤ key y) ?_ (sortOn_sorted A key l) (sortOn_sorted A key l')
    ((sortOn_perm A key l).trans (h.trans (sortOn_perm A key l').symm))
  intro a b ha hb h1 h2
  exact List.inj_on_of_nodup_map hd ((sortOn_perm A key l).mem_iff.mp ha)
    (h.mem_iff.mpr ((sortOn_perm A key l').mem_iff.mp hb)) (le_antisymm h1 h2)

/-- The probabilities predicted for class `k` are distinct. -/
def DistinctProbs {F : Type} (images : List (Image F K)) (k : Fin K) : Prop :=
  ((images.flatMap (fun im => im.preds k)).map (fun p => p.prob)).Nodup

theorem perClassAp_perm {F : Type} [Field F] [LinearOrder F] [IsStrictOrderedRing F] (A : ArgSort F)
    {images images' : List (Image F K)} (h : images.Perm images') (k : Fin K) (hd : DistinctProbs images k) :
    perClassAp A images k = perClassAp A images' k := by
  have hr : ∀ thr, recallsPrecisions A thr images k = recallsPrecisions A thr images' k := by
    intro thr
    unfold recallsPrecisions
    have hn : ((images.flatMap (fun im => flagged A thr im k)).map (fun x : F × Bool => -x.1)).Nodup := by
      have e : (images.flatMap (fun im => flagged A thr im k)).map (fun x : F × Bool => -x.1) =
          ((images.flatMap (fun im => im.preds k)).map (fun p => p.prob)).map (fun x => -x) := by
        rw [List.map_flatMap, List.map_flatMap, List.map_flatMap]
        congr 1
        funext im
        rw [← map_fst_flagged A thr im k, List.map_map]
        rfl
      rw [e]
      exact hd.map neg_injective
    rw [sortOn_perm_eq A _ (h.flatMap_right _) hn, (h.map _).sum_eq]
  unfold perClassAp apOfClass
  simp only [hr]

/-- **C123 (partial).** If the probabilities predicted for each class are distinct, the images found to have label issues do
not depend on the order of the images. -/
theorem C123_issues_partial (A : ArgSort ℝ) (check : Bool) {images images' : List (Image ℝ K)} (h : images.Perm images')
    (hd : ∀ k, DistinctProbs images k) :
    ∃ f : Image ℝ K → Bool, issueMask A check images = images.map f ∧ issueMask A check images' = images'.map f := by
  refine ⟨_, rfl, ?_⟩
  unfold issueMask
  rw [minSimilarity_perm h, funext (fun k => perClassAp_perm A h k (hd k))]

/-- The annotated box and a prediction equal to it. -/
noncomputable def matchedImage : Image ℝ 1 := ⟨fun _ => [⟨⟨0, 0, 4, 4⟩, 9 / 10⟩], [(⟨0, 0, 4, 4⟩, 0)]⟩

/-- A prediction without an annotated box. -/
noncomputable def spuriousImage : Image ℝ 1 := ⟨fun _ => [⟨⟨0, 0, 4, 4⟩, 9 / 10⟩], []⟩

/-- An annotated box of size 32 by 4 of which only the left end is predicted. -/
noncomputable def partlyImage : Image ℝ 1 := ⟨fun _ => [⟨⟨0, 0, 2, 4⟩, 6 / 10⟩], [(⟨0, 0, 32, 4⟩, 0)]⟩

example : ∀ k, DistinctProbs [matchedImage, partlyImage] k := by
  intro k
  simp only [DistinctProbs, matchedImage, partlyImage, List.flatMap_cons, List.flatMap_nil, List.append_nil,
    List.singleton_append, List.map_cons, List.map_nil, List.nodup_cons, List.mem_singleton, List.not_mem_nil,
    not_false_eq_true, List.nodup_nil, and_true]
  norm_num

theorem indices_one (A : ArgSort ℝ) (v : Fin 1 → ℝ) : A.indices v = [0] := by
  have h := A.perm_indices v
  rw [show List.finRange 1 = [0] from rfl] at h
  exact List.perm_singleton.mp h

theorem labelsOf_matched : labelsOf matchedImage 0 = [⟨0, 0, 4, 4⟩] := by simp [labelsOf, matchedImage]

theorem labelsOf_spurious : labelsOf spuriousImage 0 = [] := by simp [labelsOf, spuriousImage]

theorem labelsOf_partly : labelsOf partlyImage 0 = [⟨0, 0, 32, 4⟩] := by simp [labelsOf, partlyImage]

theorem matchBoxes_zero (A : ArgSort ℝ) (thr : ℝ) {p l : ℕ} (hl : l = 0) (o : Fin p → Fin l → ℝ) (q : Fin p → ℝ) (i : Fin p) :
    (matchBoxes A thr o q).tp i = false := by
  subst hl
  rfl

/-- With one prediction and one annotated box the prediction is correct if they overlap enough. -/
theorem matchBoxes_one (A : ArgSort ℝ) (thr : ℝ) {p l : ℕ} (hp : p = 1) (hl : l = 1) (o : Fin p → Fin l → ℝ) (q : Fin p → ℝ)
    (i : Fin p) (j : Fin l) : (matchBoxes A thr o q).tp i = decide (thr ≤ o i j) := by
  subst hp hl
  have hi : i = 0 := Subsingleton.elim _ _
  have hj : j = 0 := Subsingleton.elim _ _
  subst hi hj
  unfold matchBoxes
  dsimp only
  rw [indices_one]
  have ha : argmax (o 0) = 0 := Subsingleton.elim _ _
  simp only [List.foldl_cons, List.foldl_nil, matchStep, ha]
  by_cases h : thr ≤ o 0 0
  · simp [h]
  · simp [h]

theorem flagged_matched (A : ArgSort ℝ) {thr : ℝ} (h : thr ≤ 1) : flagged A thr matchedImage 0 = [(9 / 10, true)] := by
  unfold flagged matchImage
  have hl : (labelsOf matchedImage 0).length = 1 := by rw [labelsOf_matched]; rfl
  have e : ∀ i : Fin (matchedImage.preds 0).length,
      (matchBoxes A thr (overlaps (matchedImage.preds 0) (labelsOf matchedImage 0))
        (fun i => ((matchedImage.preds 0).get i).prob)).tp i = true := by
    intro i
    rw [matchBoxes_one A thr (p := (matchedImage.preds 0).length) rfl hl _ _ i ⟨0, by omega⟩, decide_eq_true_iff]
    refine h.trans ?_
    have hb : ((labelsOf matchedImage 0).get ⟨0, by omega⟩) = ⟨0, 0, 4, 4⟩ := by
      simp [labelsOf_matched]
    have hi : i = ⟨0, by decide⟩ := Subsingleton.elim (α := Fin 1) _ _
    unfold overlaps
    rw [hb, hi]
    simp [matchedImage, iou, Box.area, eps]
    norm_num
  simp only [e]
  rfl

theorem flagged_spurious (A : ArgSort ℝ) (thr : ℝ) : flagged A thr spuriousImage 0 = [(9 / 10, false)] := by
  unfold flagged matchImage
  have hl : (labelsOf spuriousImage 0).length = 0 := by rw [labelsOf_spurious]; rfl
  simp only [matchBoxes_zero A thr hl]
  rfl

theorem iou_partly : iou (⟨0, 0, 2, 4⟩ : Box ℝ) ⟨0, 0, 32, 4⟩ = 1 / 16 := by
  simp [iou, Box.area, eps]
  norm_num

theorem flagged_partly (A : ArgSort ℝ) {thr : ℝ} (h : 1 / 16 < thr) : flagged A thr partlyImage 0 = [(6 / 10, false)] := by
  unfold flagged matchImage
  have hl : (labelsOf partlyImage 0).length = 1 := by rw [labelsOf_partly]; rfl
  have e : ∀ i : Fin (partlyImage.preds 0).length,
      (matchBoxes A thr (overlaps (partlyImage.preds 0) (labelsOf partlyImage 0))
        (fun i => ((partlyImage.preds 0).get i).prob)).tp i = false := by
    intro i
    rw [matchBoxes_one A thr (p := (partlyImage.preds 0).length) rfl hl _ _ i ⟨0, by omega⟩, decide_eq_false_iff_not,
      not_le]
    have hb : ((labelsOf partlyImage 0).get ⟨0, by omega⟩) = ⟨0, 0, 32, 4⟩ := by
      simp [labelsOf_partly]
    have hi : i = ⟨0, by decide⟩ := Subsingleton.elim (α := Fin 1) _ _
    unfold overlaps
    rw [hb, hi]
    exact iou_partly.trans_lt h
  simp only [e]
  rfl

theorem sortOn_stableSort_self {α β : Type} [LinearOrder α] (key : β → α) (l : List β)
    (h : l.Pairwise (fun a b => key a ≤ key b)) : sortOn (stableSort α) key l = l := by
  unfold sortOn
  rw [stableSort_indices]
  unfold stableOrder
  rw [List.Pairwise.insertionSort_eq]
  · exact List.map_get_finRange l
  · rw [List.pairwise_iff_get] at h ⊢
    intro i j hij
    simpa using h (i.cast (by simp)) (j.cast (by simp)) hij

theorem perClassAp_const (A : ArgSort ℝ) (images : List (Image ℝ K)) (k : Fin K) (v : ℝ)
    (h : ∀ thr : ℝ, 1 / 2 ≤ thr → thr ≤ 1 → apOfClass A thr images k = v) : perClassAp A images k = v / 4 := by
  have e : ((iouThresholds (F := ℝ)).map (fun thr => apOfClass A thr images k)) = List.replicate 10 v := by
    refine List.eq_replicate_iff.mpr ⟨by simp [iouThresholds], fun x hx => ?_⟩
    obtain ⟨thr, ht, rfl⟩ := List.mem_map.mp hx
    obtain ⟨i, hi, rfl⟩ := List.mem_map.mp ht
    have hi' : (i : ℝ) ≤ 9 := by exact_mod_cast Nat.le_of_lt_succ (List.mem_range.mp hi)
    have h0 : (0 : ℝ) ≤ i := Nat.cast_nonneg i
    exact h _ (by linarith) (by linarith)
  unfold perClassAp
  rw [e, List.sum_replicate, nsmul_eq_mul]
  push_cast
  ring

theorem ap_matched_first : perClassAp (stableSort ℝ) [matchedImage, spuriousImage, partlyImage] 0 = 1 / 2 / 4 := by
  refine perClassAp_const _ _ _ _ (fun thr h1 h2 => ?_)
  unfold apOfClass recallsPrecisions
  simp only [List.map_cons, List.map_nil, List.flatMap_cons, List.flatMap_nil, flagged_matched _ h2, flagged_spurious,
    flagged_partly _ (show 1 / 16 < thr by linarith), labelsOf_matched, labelsOf_spurious, labelsOf_partly]
  rw [sortOn_stableSort_self _ _ (by simp; norm_num)]
  simp [cumTrue, averagePrecision, suffixMax, eps32]
  norm_num

theorem ap_spurious_first : perClassAp (stableSort ℝ) [spuriousImage, matchedImage, partlyImage] 0 = 1 / 4 / 4 := by
  refine perClassAp_const _ _ _ _ (fun thr h1 h2 => ?_)
  unfold apOfClass recallsPrecisions
  simp only [List.map_cons, List.map_nil, List.flatMap_cons, List.flatMap_nil, flagged_matched _ h2, flagged_spurious,
    flagged_partly _ (show 1 / 16 < thr by linarith), labelsOf_matched, labelsOf_spurious, labelsOf_partly]
  rw [sortOn_stableSort_self _ _ (by simp; norm_num)]
  simp [cumTrue, averagePrecision, suffixMax, eps32]
  norm_num

theorem allPreds_partly : allPreds partlyImage = [(⟨⟨0, 0, 2, 4⟩, 6 / 10⟩, 0)] := rfl

/-- The score of the partly predicted box is between 0.05 and 0.1. -/
theorem badloc_partly : ∃ s : ℝ, badlocScores partlyImage = [s] ∧ 1 / 20 < s ∧ s ≤ 1 / 10 := by
  classical
  have hs : iou (⟨0, 0, 32, 4⟩ : Box ℝ) ⟨0, 0, 2, 4⟩ = 1 / 16 := (C39_symmetric _ _).trans iou_partly
  refine ⟨similarity ⟨0, 0, 32, 4⟩ ⟨0, 0, 2, 4⟩, ?_, ?_, ?_⟩
  · unfold badlocScores
    show [_] = [_]
    congr 1
    have hk : (allPreds partlyImage).filter (fun p => decide (p.2 = (0 : Fin 1))) = [(⟨⟨0, 0, 2, 4⟩, 6 / 10⟩, 0)] := by
      rw [allPreds_partly]; simp
    simp only [hk]
    rw [if_neg (by simp; norm_num), List.filter_cons_of_pos (by simp [hs]; norm_num)]
    rfl
  · have := (closeness_range ⟨0, 0, 32, 4⟩ ⟨0, 0, 2, 4⟩).1
    unfold similarity
    rw [hs]
    linarith
  · have hc : closeness (⟨0, 0, 32, 4⟩ : Box ℝ) ⟨0, 0, 2, 4⟩ ≤ 2 / 5 := by
      have h1 : Real.exp (-1) ≤ 2 / 5 := Real.exp_neg_one_lt_d9.le.trans (by norm_num)
      refine le_trans (Real.exp_le_exp.mpr ?_) h1
      have : (10 : ℝ) ≤ Real.sqrt ((((0 : ℝ) + 32) / 2 - (0 + 2) / 2) ^ 2 + ((0 + 4) / 2 - (0 + 4) / 2) ^ 2) :=
        Real.le_sqrt_of_sq_le (by norm_num)
      linarith
    unfold similarity
    rw [hs]
    linarith

theorem isIssue_partly (ap : Fin 1 → ℝ) (m : ℝ) (h : ap 0 ≤ 1) (s : ℝ) (hs : badlocScores partlyImage = [s]) :
    IsIssue ap true m partlyImage ↔ s ≤ ap 0 * (8 / 10) := by
  classical
  have h1 : overlookedScores m partlyImage = [none] := by
    unfold overlookedScores
    rw [allPreds_partly]
    show [_] = [_]
    dsimp only
    rw [if_pos (Or.inl (by norm_num))]
  have h2 : swapScores true m partlyImage = [1] := by
    rw [swapScores_eq]
    show [_] = [_]
    dsimp only
    rw [if_neg (by simp [partlyImage]), if_pos (Or.inl (by rw [allPreds_partly]; simp))]
  have h3 : ¬ (1 : ℝ) ≤ ap 0 * (8 / 10) := by linarith
  unfold IsIssue AnyIssue
  rw [h1, h2, hs, allPreds_partly]
  simp [partlyImage, h3]

/-- **C123 (refuted as stated).** Whether an image has label issues depends on the order of the other images if some
predictions have the same probability: here the third image is found only if the image with the correct prediction comes
first. -/
theorem C123_not_issue_ties :
    ¬ ∀ (A : ArgSort ℝ) (images images' : List (Image ℝ 1)), images.Perm images' →
      ∃ f : Image ℝ 1 → Bool, issueMask A true images = images.map f ∧ issueMask A true images' = images'.map f := by
  classical
  intro h
  obtain ⟨f, h1, h2⟩ := h (stableSort ℝ) [matchedImage, spuriousImage, partlyImage]
    [spuriousImage, matchedImage, partlyImage] (List.Perm.swap _ _ _)
  unfold issueMask at h1 h2
  simp only [List.map_cons, List.map_nil, List.cons.injEq, and_true] at h1 h2
  obtain ⟨s, hs, s1, s2⟩ := badloc_partly
  have e := h1.2.2.trans h2.2.2.symm
  rw [decide_eq_decide, isIssue_partly _ _ (by rw [ap_matched_first]; norm_num) s hs,
    isIssue_partly _ _ (by rw [ap_spurious_first]; norm_num) s hs, ap_matched_first, ap_spurious_first] at e
  have := e.mp (by linarith)
  linarith

end Cleanlab.Props
