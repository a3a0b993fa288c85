import Verif.Props.BoxOrder

/-!
# C163 and C164: position, orientation and resolution of the images in object detection
-/

namespace Cleanlab.Props

open Np Cleanlab.Detection

variable {K : ℕ}

/-- Shift, mirror and turn an image by a multiple of a right angle: every such motion exchanges the axes or not, reverses
each of them or not, and shifts. -/
structure Placement (F : Type) where
  exchange : Bool
  reverseX : Bool
  reverseY : Bool
  dx : F
  dy : F

section

variable {F : Type} [Field F]

/-- The same box with the axes exchanged. -/
def transposed (b : Box F) : Box F := ⟨b.y1, b.x1, b.y2, b.x2⟩

/-- The same box with the first axis reversed. -/
def reversedX (b : Box F) : Box F := ⟨-b.x2, b.y1, -b.x1, b.y2⟩

/-- The same box with the second axis reversed. -/
def reversedY (b : Box F) : Box F := ⟨b.x1, -b.y2, b.x2, -b.y1⟩

/-- The box shifted. -/
def shifted (dx dy : F) (b : Box F) : Box F := ⟨b.x1 + dx, b.y1 + dy, b.x2 + dx, b.y2 + dy⟩

/-- The box in the image that has been moved. -/
def Placement.move (m : Placement F) (b : Box F) : Box F :=
  let b := if m.exchange then transposed b else b
  let b := if m.reverseX then reversedX b else b
  let b := if m.reverseY then reversedY b else b
  shifted m.dx m.dy b

/-- All boxes of an image, annotated and predicted, replaced. -/
def mapBoxes (g : Box F → Box F) (im : Image F K) : Image F K where
  preds k := (im.preds k).map (fun p => ⟨g p.box, p.prob⟩)
  labels := im.labels.map (fun l => (g l.1, l.2))

/-- The same images, each one moved in its own way. -/
def Placed (images images' : List (Image F K)) : Prop :=
  List.Forall₂ (fun a b => ∃ m : Placement F, b = mapBoxes m.move a) images images'

variable [LinearOrder F] [IsStrictOrderedRing F]

omit [IsStrictOrderedRing F] in
theorem iou_transposed (a b : Box F) : iou (transposed a) (transposed b) = iou a b := by
  unfold iou transposed Box.area
  dsimp only
  rw [mul_comm (a.y2 - a.y1), mul_comm (b.y2 - b.y1), mul_comm (min a.y2 b.y2 - max a.y1 b.y1)]
  exact if_congr or_comm rfl rfl

theorem iou_reversedX (a b : Box F) : iou (reversedX a) (reversedX b) = iou a b := by
  unfold iou reversedX Box.area
  dsimp only
  rw [max_neg_neg, min_neg_neg]
  simp only [neg_lt_neg_iff, neg_sub_neg]

theorem iou_reversedY (a b : Box F) : iou (reversedY a) (reversedY b) = iou a b := by
  unfold iou reversedY Box.area
  dsimp only
  rw [max_neg_neg, min_neg_neg]
  simp only [neg_lt_neg_iff, neg_sub_neg]

theorem iou_shifted (dx dy : F) (a b : Box F) : iou (shifted dx dy a) (shifted dx dy b) = iou a b := by
  unfold iou shifted Box.area
  dsimp only
  simp only [max_add_add_right, min_add_add_right, add_lt_add_iff_right, add_sub_add_right_eq_sub]

theorem iou_move (m : Placement F) (a b : Box F) : iou (m.move a) (m.move b) = iou a b := by
  unfold Placement.move
  dsimp only
  rw [iou_shifted]
  split_ifs <;> simp only [iou_transposed, iou_reversedX, iou_reversedY]

omit [LinearOrder F] [IsStrictOrderedRing F] in
theorem area_move (m : Placement F) (b : Box F) : (m.move b).area = b.area := by
  unfold Placement.move Box.area
  dsimp only
  split_ifs <;> simp only [shifted, reversedX, reversedY, transposed] <;> ring

/-- The overlaps of the predictions with the annotations stay the same. -/
def KeepsOverlap (g : Box F → Box F) (im : Image F K) : Prop :=
  ∀ k, ∀ p ∈ im.preds k, ∀ l ∈ im.labels, iou (g p.box) (g l.1) = iou p.box l.1

omit [Field F] [LinearOrder F] [IsStrictOrderedRing F] in
theorem labelsOf_mapBoxes (g : Box F → Box F) (im : Image F K) (k : Fin K) :
    labelsOf (mapBoxes g im) k = (labelsOf im k).map g := by
  unfold labelsOf mapBoxes
  rw [List.filter_map, List.map_map, List.map_map]
  rfl

omit [IsStrictOrderedRing F] in
/-- Matchings depend only on overlaps and probabilities. -/
theorem matchBoxes_cast (A : ArgSort F) (thr : F) {p l p' l' : ℕ} (hp : p = p') (hl : l = l') (o : Fin p → Fin l → F)
    (o' : Fin p' → Fin l' → F) (q : Fin p → F) (q' : Fin p' → F)
    (ho : ∀ i j, o' (i.cast hp) (j.cast hl) = o i j) (hq : ∀ i, q' (i.cast hp) = q i) :
    (∀ i, (matchBoxes A thr o' q').tp (i.cast hp) = (matchBoxes A thr o q).tp i) ∧
    (⟨p', l', matchBoxes A thr o' q'⟩ : Σ p l, Matching p l) = ⟨p, l, matchBoxes A thr o q⟩ := by
  subst hp hl
  have e1 : o' = o := funext fun i => funext fun j => ho i j
  have e2 : q' = q := funext hq
  rw [e1, e2]
  exact ⟨fun _ => rfl, rfl⟩

omit [IsStrictOrderedRing F] in
theorem matchImage_mapBoxes (A : ArgSort F) (thr : F) (g : Box F → Box F) (im : Image F K) (h : KeepsOverlap g im)
    (k : Fin K) :
    flagged A thr (mapBoxes g im) k = flagged A thr im k ∧
    (⟨_, _, matchImage A thr (mapBoxes g im) k⟩ : Σ p l, Matching p l) = ⟨_, _, matchImage A thr im k⟩ := by
  have hp : (im.preds k).length = ((mapBoxes g im).preds k).length := by simp [mapBoxes]
  have hl : (labelsOf im k).length = (labelsOf (mapBoxes g im) k).length := by rw [labelsOf_mapBoxes, List.length_map]
  have hg : ∀ i, ((mapBoxes g im).preds k).get (i.cast hp) = ⟨g ((im.preds k).get i).box, ((im.preds k).get i).prob⟩ := by
    intro i
    simp only [mapBoxes, List.get_eq_getElem, List.getElem_map]
    rfl
  have hb : ∀ j, (labelsOf (mapBoxes g im) k).get (j.cast hl) = g ((labelsOf im k).get j) := by
    intro j
    simp [labelsOf_mapBoxes]
  have hc := matchBoxes_cast A thr hp hl (overlaps (im.preds k) (labelsOf im k))
    (overlaps ((mapBoxes g im).preds k) (labelsOf (mapBoxes g im) k)) (fun i => ((im.preds k).get i).prob)
    (fun i => (((mapBoxes g im).preds k).get i).prob)
    (fun i j => by
      unfold overlaps
      rw [hg, hb]
      have hj := List.get_mem (labelsOf im k) j
      unfold labelsOf at hj
      obtain ⟨l, hl, e⟩ := List.mem_map.mp hj
      have := h k _ (List.get_mem (im.preds k) i) l (List.mem_of_mem_filter hl)
      rw [e] at this
      exact this)
    (fun i => by rw [hg])
  refine ⟨?_, hc.2⟩
  unfold flagged
  rw [List.ofFn_congr hp.symm]
  congr 1
  funext i
  show ((((mapBoxes g im).preds k).get (i.cast hp)).prob, (matchImage A thr (mapBoxes g im) k).tp (i.cast hp)) = _
  rw [hg]
  exact congrArg _ (hc.1 i)

/-- The same images with the overlaps of predictions with annotations kept. -/
def KeptOverlaps (images images' : List (Image F K)) : Prop :=
  List.Forall₂ (fun a b => ∃ g : Box F → Box F, KeepsOverlap g a ∧ b = mapBoxes g a) images images'

omit [IsStrictOrderedRing F] in
theorem KeptOverlaps.map_eq {β : Type} {images images' : List (Image F K)} (h : KeptOverlaps images images')
    (f : Image F K → β) (hf : ∀ g a, KeepsOverlap g a → f (mapBoxes g a) = f a) : images'.map f = images.map f := by
  induction h with
  | nil => rfl
  | cons h1 _ ih =>
    obtain ⟨g, hg, rfl⟩ := h1
    rw [List.map_cons, List.map_cons, ih, hf g _ hg]

omit [IsStrictOrderedRing F] in
theorem perClassAp_kept (A : ArgSort F) {images images' : List (Image F K)} (h : KeptOverlaps images images') (k : Fin K) :
    perClassAp A images' k = perClassAp A images k := by
  have e : ∀ thr, apOfClass A thr images' k = apOfClass A thr images k := by
    intro thr
    unfold apOfClass recallsPrecisions
    rw [List.flatMap_def, List.flatMap_def,
      h.map_eq (fun im => (labelsOf im k).length) (fun g a _ => by rw [labelsOf_mapBoxes, List.length_map]),
      h.map_eq (fun im => flagged A thr im k) (fun g a hg => (matchImage_mapBoxes A thr g a hg k).1)]
  unfold perClassAp
  simp only [e]

omit [IsStrictOrderedRing F] in
theorem metrics_kept (A : ArgSort F) {images images' : List (Image F K)} (h : KeptOverlaps images images') (k : Fin K) :
    averageConfusion A images' k = averageConfusion A images k ∧ classMetrics A images' k = classMetrics A images k := by
  have hc : ∀ thr, confusionOf A thr images' k = confusionOf A thr images k := by
    intro thr
    unfold confusionOf
    rw [h.map_eq _ (fun g a hg => (matchImage_mapBoxes A thr g a hg k).2)]
  have ha : averageConfusion A images' k = averageConfusion A images k := by
    unfold averageConfusion
    simp only [hc]
  refine ⟨ha, ?_⟩
  unfold classMetrics
  rw [ha]

theorem Placed.kept {images images' : List (Image F K)} (h : Placed images images') : KeptOverlaps images images' :=
  h.imp (fun _ _ ⟨m, e⟩ => ⟨m.move, fun _ _ _ _ _ => iou_move m _ _, e⟩)

/-- **C163.** Neither where the images are placed nor how they are mirrored or turned, each in its own way, changes the
counts of correct, spurious and missing predictions of a class, nor its precision, recall and F1. -/
theorem C163_metrics (A : ArgSort F) {images images' : List (Image F K)} (h : Placed images images') (k : Fin K) :
    averageConfusion A images' k = averageConfusion A images k ∧ classMetrics A images' k = classMetrics A images k :=
  metrics_kept A h.kept k

end

theorem closeness_move (m : Placement ℝ) (a b : Box ℝ) : closeness (m.move a) (m.move b) = closeness a b := by
  unfold closeness
  dsimp only
  congr 3
  unfold Placement.move
  dsimp only
  split_ifs <;> simp only [shifted, reversedX, reversedY, transposed] <;> congr 1 <;> ring

theorem similarity_move (m : Placement ℝ) (a b : Box ℝ) : similarity (m.move a) (m.move b) = similarity a b := by
  unfold similarity
  rw [closeness_move, iou_move]

theorem allPreds_mapBoxes (g : Box ℝ → Box ℝ) (im : Image ℝ K) :
    allPreds (mapBoxes g im) = (allPreds im).map (fun p => (⟨g p.1.box, p.1.prob⟩, p.2)) := by
  unfold allPreds mapBoxes
  rw [List.map_flatMap]
  congr 1
  funext k
  rw [List.map_map, List.map_map]
  rfl

theorem overlookedScores_move (m : Placement ℝ) (s : ℝ) (im : Image ℝ K) :
    overlookedScores s (mapBoxes m.move im) = overlookedScores s im := by
  unfold overlookedScores
  rw [allPreds_mapBoxes, List.map_map]
  refine List.map_congr_left (fun p _ => ?_)
  simp only [Function.comp_apply, mapBoxes, List.mem_map, exists_exists_and_eq_and, iou_move, List.filter_map, List.map_map,
    Function.comp_def, similarity_move]

theorem badlocScores_move (m : Placement ℝ) (im : Image ℝ K) : badlocScores (mapBoxes m.move im) = badlocScores im := by
  unfold badlocScores
  rw [allPreds_mapBoxes]
  show (im.labels.map _).map _ = _
  rw [List.map_map]
  refine List.map_congr_left (fun l _ => ?_)
  simp only [Function.comp_apply, List.filter_map, List.map_map, Function.comp_def, similarity_move, iou_move,
    List.map_eq_nil_iff, List.forall_mem_map]

theorem swapScores_move (check : Bool) (m : Placement ℝ) (s : ℝ) (im : Image ℝ K) :
    swapScores check s (mapBoxes m.move im) = swapScores check s im := by
  rw [swapScores_eq, swapScores_eq, allPreds_mapBoxes]
  show (im.labels.map _).map _ = _
  rw [List.map_map]
  refine List.map_congr_left (fun l _ => ?_)
  dsimp only [Function.comp_apply]
  have h1 : (check = true ∧ ∃ l' ∈ (mapBoxes m.move im).labels, iou (m.move l.1) l'.1 ≥ 95 / 100 ∧ l.2 ≠ l'.2) ↔
      (check = true ∧ ∃ l' ∈ im.labels, iou l.1 l'.1 ≥ 95 / 100 ∧ l.2 ≠ l'.2) := by
    simp only [mapBoxes, List.mem_map, exists_exists_and_eq_and, iou_move]
  have h2 : ((((allPreds im).map (fun p => ((⟨m.move p.1.box, p.1.prob⟩ : Pred ℝ), p.2))).filter (fun p => p.2 ≠ l.2) = []) ∨
      ∀ p ∈ ((allPreds im).map (fun p => ((⟨m.move p.1.box, p.1.prob⟩ : Pred ℝ), p.2))).filter (fun p => p.2 ≠ l.2),
        p.1.prob ≤ 95 / 100) ↔ ((allPreds im).filter (fun p => p.2 ≠ l.2) = [] ∨
        ∀ p ∈ (allPreds im).filter (fun p => p.2 ≠ l.2), p.1.prob ≤ 95 / 100) := by
    simp only [List.filter_map, List.map_eq_nil_iff, List.forall_mem_map, Function.comp_def]
  by_cases c1 : check = true ∧ ∃ l' ∈ im.labels, iou l.1 l'.1 ≥ 95 / 100 ∧ l.2 ≠ l'.2
  · rw [if_pos (h1.mpr c1), if_pos c1]
  · rw [if_neg (mt h1.mp c1), if_neg c1]
    by_cases c2 : (allPreds im).filter (fun p => p.2 ≠ l.2) = [] ∨
        ∀ p ∈ (allPreds im).filter (fun p => p.2 ≠ l.2), p.1.prob ≤ 95 / 100
    · rw [if_pos (h2.mpr c2), if_pos c2]
    · rw [if_neg (mt h2.mp c2), if_neg c2]
      simp only [List.filter_map, List.map_map, Function.comp_def, similarity_move]

theorem similarities_move (m : Placement ℝ) (im : Image ℝ K) : similarities (mapBoxes m.move im) = similarities im := by
  unfold similarities
  rw [allPreds_mapBoxes]
  show (im.labels.map _).flatMap _ = _
  rw [List.flatMap_map]
  simp only [List.map_map, Function.comp_def, similarity_move]

theorem Placed.map_eq {F β : Type} [Field F] {images images' : List (Image F K)} (h : Placed images images')
    (f : Image F K → β) (hf : ∀ (m : Placement F) a, f (mapBoxes m.move a) = f a) : images'.map f = images.map f := by
  induction h with
  | nil => rfl
  | cons h1 _ ih =>
    obtain ⟨m, rfl⟩ := h1
    rw [List.map_cons, List.map_cons, ih, hf m]

theorem minSimilarity_placed {images images' : List (Image ℝ K)} (h : Placed images images') :
    minSimilarity images' = minSimilarity images := by
  have e : ∀ l : List (Image ℝ K), minSimilarity l = open Classical in (l.map similarities).foldl
      (fun m s => min m (minOr 1 (s.filter (fun s => s ≠ 0)))) 1 := by
    intro l
    unfold minSimilarity
    rw [List.foldl_map]
  rw [e, e, h.map_eq similarities similarities_move]

theorem pruned_move (m : Placement ℝ) (im : Image ℝ K) : pruned (mapBoxes m.move im) = mapBoxes m.move (pruned im) := by
  unfold pruned mapBoxes
  simp only [Image.mk.injEq, and_true]
  funext k
  rw [List.filter_map]
  rfl

theorem Placed.pruned {images images' : List (Image ℝ K)} (h : Placed images images') :
    Placed (images.map pruned) (images'.map pruned) :=
  List.forall₂_map_left_iff.mpr (List.forall₂_map_right_iff.mpr (h.imp (fun _ _ ⟨m, e⟩ => ⟨m, by rw [e, pruned_move]⟩)))

/-- **C163.** The quality scores of the images do not depend on where the images are placed nor on how they are mirrored
or turned. -/
theorem C163_scores (weights : Option Weights) (check : Bool) {images images' : List (Image ℝ K)}
    (h : Placed images images') : labelQualityScores weights check images' = labelQualityScores weights check images := by
  unfold labelQualityScores
  rw [checkInputs_length h.length_eq]
  cases checkInputs images' with
  | error e => rfl
  | ok _ =>
    cases aggregationWeights weights with
    | error e => rfl
    | ok w =>
      show Except.ok ((images'.map Props.pruned).map (imageScore w check (minSimilarity (images'.map Props.pruned)))) =
        Except.ok ((images.map Props.pruned).map (imageScore w check (minSimilarity (images.map Props.pruned))))
      rw [minSimilarity_placed h.pruned, h.pruned.map_eq]
      intro m a
      unfold imageScore
      rw [overlookedScores_move, badlocScores_move, swapScores_move]

theorem issueMask_placed (A : ArgSort ℝ) (check : Bool) {images images' : List (Image ℝ K)} (h : Placed images images') :
    issueMask A check images' = issueMask A check images := by
  unfold issueMask
  have e : perClassAp A images' = perClassAp A images := funext fun k => perClassAp_kept A h.kept k
  rw [e, minSimilarity_placed h]
  refine h.map_eq _ (fun m a => ?_)
  rw [decide_eq_decide]
  unfold IsIssue
  rw [overlookedScores_move, badlocScores_move, swapScores_move, allPreds_mapBoxes, List.map_map]
  have e2 : (mapBoxes m.move a).labels.map (fun l => perClassAp A images l.2) =
      a.labels.map (fun l => perClassAp A images l.2) := by
    simp [mapBoxes, Function.comp_def]
  rw [e2]
  rfl

/-- **C163.** The same images are found to have label issues, in the same order, wherever they are placed and however they
are mirrored or turned. -/
theorem C163_issues (A : ArgSort ℝ) (check : Bool) {images images' : List (Image ℝ K)} (h : Placed images images') :
    issueMask A check images' = issueMask A check images ∧ issueIndices A check images' = issueIndices A check images := by
  refine ⟨issueMask_placed A check h, ?_⟩
  unfold issueIndices
  rw [C163_scores none true h, issueMask_placed A check h, checkInputs_length h.length_eq]

theorem facts_default (images : List (Image ℝ K)) : facts (9 / 10) (images.map (·.labels)) (images.map (·.preds)) =
    images.map (fun im => fullOf (9 / 10) (minSimilarity images) im.labels (allPreds im)) := by
  unfold facts
  rw [minPossible_default, List.zip_map', List.map_map]
  rfl

/-- **C163.** Every box keeps its scores. -/
theorem C163_boxes (check : Bool) {images images' : List (Image ℝ K)} (h : Placed images images') :
    computeOverlooked (some (images'.map (·.labels))) (some (images'.map (·.preds))) =
        computeOverlooked (some (images.map (·.labels))) (some (images.map (·.preds))) ∧
      computeBadloc (some (images'.map (·.labels))) (some (images'.map (·.preds))) =
        computeBadloc (some (images.map (·.labels))) (some (images.map (·.preds))) ∧
      computeSwap (some (images'.map (·.labels))) (some (images'.map (·.preds))) none none check =
        computeSwap (some (images.map (·.labels))) (some (images.map (·.preds))) none none check := by
  obtain ⟨c1, c2, c3⟩ := compute_eq (images.map (·.labels)) (images.map (·.preds)) none none check
  obtain ⟨d1, d2, d3⟩ := compute_eq (images'.map (·.labels)) (images'.map (·.preds)) none none check
  rw [c1, c2, c3, d1, d2, d3]
  simp only [Option.getD_none, facts_default, List.map_map, Function.comp_def, overlooked_default, badloc_default,
    swap_default, minSimilarity_placed h]
  exact ⟨congrArg _ (h.map_eq _ (fun m a => overlookedScores_move m _ a)), congrArg _ (h.map_eq _ badlocScores_move),
    congrArg _ (h.map_eq _ (fun m a => swapScores_move check m _ a))⟩

/-- **C163.** Nor does the distribution of box sizes change. -/
theorem C163_sizes {N : Type} [DecidableEq N] (names : Fin K → Option N) (sort : Bool) {images images' : List (Image ℚ K)}
    (h : Placed images images') : sizeDistribution names sort images' = sizeDistribution names sort images := by
  have e : ∀ (d : List (N × List ℚ)) (boxes : List (Fin K × Box ℚ)) (m : Placement ℚ),
      addAreas names d (boxes.map (fun e => (e.1, m.move e.2))) = addAreas names d boxes := by
    intro d boxes m
    unfold addAreas
    rw [List.foldl_map]
    simp only [area_move]
  have hl : ∀ d, images'.foldl (fun d im => addAreas names d (labBoxes im)) d =
      images.foldl (fun d im => addAreas names d (labBoxes im)) d := by
    induction h with
    | nil => exact fun _ => rfl
    | cons h1 _ ih =>
      obtain ⟨m, rfl⟩ := h1
      intro d
      have hb : ∀ a : Image ℚ K, labBoxes (mapBoxes m.move a) = (labBoxes a).map (fun e => (e.1, m.move e.2)) := by
        intro a
        simp [labBoxes, mapBoxes]
      rw [List.foldl_cons, List.foldl_cons, ih, hb, e]
  have hp : ∀ d, images'.foldl (fun d im => addAreas names d (predBoxes im)) d =
      images.foldl (fun d im => addAreas names d (predBoxes im)) d := by
    clear hl
    induction h with
    | nil => exact fun _ => rfl
    | cons h1 _ ih =>
      obtain ⟨m, rfl⟩ := h1
      intro d
      have hb : ∀ a : Image ℚ K, predBoxes (mapBoxes m.move a) = (predBoxes a).map (fun e => (e.1, m.move e.2)) := by
        intro a
        simp only [predBoxes, mapBoxes, List.map_map, List.map_flatMap, Function.comp_def]
      rw [List.foldl_cons, List.foldl_cons, ih, hb, e]
  unfold sizeDistribution
  rw [hl, hp]

/-- An image and its mirror image (100 pixels wide), turned upright: the first box moves from the left to the right. -/
example : Placed [(⟨fun _ => [⟨⟨0, 0, 10, 20⟩, 9 / 10⟩], [(⟨0, 0, 12, 20⟩, 0)]⟩ : Image ℚ 1)]
    [⟨fun _ => [⟨⟨90, 0, 100, 20⟩, 9 / 10⟩], [(⟨88, 0, 100, 20⟩, 0)]⟩] := by
  refine List.Forall₂.cons ⟨⟨false, true, false, 100, 0⟩, ?_⟩ .nil
  simp [mapBoxes, Placement.move, shifted, reversedX]
  norm_num

/-- A quarter turn of an image 50 pixels high. -/
example : Placed [(⟨fun _ => [⟨⟨0, 0, 10, 20⟩, 9 / 10⟩], [(⟨0, 0, 12, 20⟩, 0)]⟩ : Image ℚ 1)]
    [⟨fun _ => [⟨⟨30, 0, 50, 10⟩, 9 / 10⟩], [(⟨30, 0, 50, 12⟩, 0)]⟩] := by
  refine List.Forall₂.cons ⟨⟨true, true, false, 50, 0⟩, ?_⟩ .nil
  simp [mapBoxes, Placement.move, shifted, reversedX, transposed]
  norm_num

/-! ### C164: resolution -/

section

variable {F : Type} [Field F]

/-- The box at another resolution. -/
def resized (c : F) (b : Box F) : Box F := ⟨c * b.x1, c * b.y1, c * b.x2, c * b.y2⟩

variable [LinearOrder F]

/-- The area covered by two boxes. -/
def unionArea (a b : Box F) : F :=
  a.area + b.area - (min a.x2 b.x2 - max a.x1 b.x1) * (min a.y2 b.y2 - max a.y1 b.y1)

/-- No two boxes are so small that together they cover less than the constant `1e-6`. -/
def NotTiny (im : Image F K) : Prop := ∀ k, ∀ p ∈ im.preds k, ∀ l ∈ im.labels, eps ≤ unionArea p.box l.1

variable [IsStrictOrderedRing F]

theorem iou_resized {c : F} (hc : 0 < c) (a b : Box F) (h : eps ≤ unionArea a b) (h' : eps ≤ c ^ 2 * unionArea a b) :
    iou (resized c a) (resized c b) = iou a b := by
  unfold iou resized
  dsimp only
  rw [← mul_max_of_nonneg _ _ hc.le, ← mul_max_of_nonneg _ _ hc.le, ← mul_min_of_nonneg _ _ hc.le,
    ← mul_min_of_nonneg _ _ hc.le]
  simp only [mul_lt_mul_iff_right₀ hc]
  by_cases hd : min a.x2 b.x2 < max a.x1 b.x1 ∨ min a.y2 b.y2 < max a.y1 b.y1
  · rw [if_pos hd, if_pos hd]
  · rw [if_neg hd, if_neg hd]
    have e : Box.area ⟨c * a.x1, c * a.y1, c * a.x2, c * a.y2⟩ + Box.area ⟨c * b.x1, c * b.y1, c * b.x2, c * b.y2⟩ -
        (c * min a.x2 b.x2 - c * max a.x1 b.x1) * (c * min a.y2 b.y2 - c * max a.y1 b.y1) = c ^ 2 * unionArea a b := by
      unfold unionArea Box.area
      ring
    have e2 : (c * min a.x2 b.x2 - c * max a.x1 b.x1) * (c * min a.y2 b.y2 - c * max a.y1 b.y1) =
        c ^ 2 * ((min a.x2 b.x2 - max a.x1 b.x1) * (min a.y2 b.y2 - max a.y1 b.y1)) := by ring
    rw [e, max_eq_left h', e2, mul_div_mul_left _ _ (pow_ne_zero 2 hc.ne')]
    congr 1
    exact (max_eq_left h).symm

theorem unionArea_resized {c : F} (hc : 0 < c) (a b : Box F) :
    unionArea (resized c a) (resized c b) = c ^ 2 * unionArea a b := by
  unfold unionArea resized Box.area
  dsimp only
  rw [← mul_max_of_nonneg _ _ hc.le, ← mul_max_of_nonneg _ _ hc.le, ← mul_min_of_nonneg _ _ hc.le,
    ← mul_min_of_nonneg _ _ hc.le]
  ring

theorem keepsOverlap_resized {c : F} (hc : 0 < c) (im : Image F K) (h : NotTiny im)
    (h' : NotTiny (mapBoxes (resized c) im)) : KeepsOverlap (resized c) im := by
  intro k p hp l hl
  refine iou_resized hc _ _ (h k p hp l hl) ?_
  rw [← unionArea_resized hc]
  exact h' k ⟨resized c p.box, p.prob⟩ (List.mem_map.mpr ⟨p, hp, rfl⟩) (resized c l.1, l.2) (List.mem_map.mpr ⟨l, hl, rfl⟩)

/-- The same images, each one at another resolution, with no boxes smaller than `1e-6` before or after. -/
def Resized (images images' : List (Image F K)) : Prop :=
  List.Forall₂ (fun a b => ∃ c : F, 0 < c ∧ NotTiny a ∧ NotTiny b ∧ b = mapBoxes (resized c) a) images images'

theorem Resized.kept {images images' : List (Image F K)} (h : Resized images images') : KeptOverlaps images images' :=
  h.imp (fun _ _ ⟨c, hc, h1, h2, e⟩ => ⟨resized c, keepsOverlap_resized hc _ h1 (e ▸ h2), e⟩)

/-- **C164 (partial).** The counts of correct, spurious and missing predictions of a class, its precision, recall and F1
do not depend on the resolution of the images. The scores do: see `C164_not_resolution`. -/
theorem C164_metrics_partial (A : ArgSort F) {images images' : List (Image F K)} (h : Resized images images') (k : Fin K) :
    averageConfusion A images' k = averageConfusion A images k ∧ classMetrics A images' k = classMetrics A images k ∧
      perClassAp A images' k = perClassAp A images k :=
  ⟨(metrics_kept A h.kept k).1, (metrics_kept A h.kept k).2, perClassAp_kept A h.kept k⟩

end

theorem closeness_resized {c : ℝ} (hc : 1 ≤ c) (a b : Box ℝ) : closeness (resized c a) (resized c b) ≤ closeness a b := by
  unfold closeness resized
  dsimp only
  refine Real.exp_le_exp.mpr ?_
  have h := Real.sqrt_nonneg (((a.x1 + a.x2) / 2 - (b.x1 + b.x2) / 2) ^ 2 + ((a.y1 + a.y2) / 2 - (b.y1 + b.y2) / 2) ^ 2)
  have e : ((c * a.x1 + c * a.x2) / 2 - (c * b.x1 + c * b.x2) / 2) ^ 2 +
      ((c * a.y1 + c * a.y2) / 2 - (c * b.y1 + c * b.y2) / 2) ^ 2 =
      c ^ 2 * (((a.x1 + a.x2) / 2 - (b.x1 + b.x2) / 2) ^ 2 + ((a.y1 + a.y2) / 2 - (b.y1 + b.y2) / 2) ^ 2) := by ring
  rw [e, Real.sqrt_mul (sq_nonneg c), Real.sqrt_sq (by linarith)]
  nlinarith

/-- **C164 (partial).** At a finer resolution boxes are less similar, the closer to their overlap the finer. -/
theorem C164_similarity_partial {c : ℝ} (hc : 1 ≤ c) (a b : Box ℝ) (h : eps ≤ unionArea a b) :
    similarity (resized c a) (resized c b) ≤ similarity a b ∧ 9 / 10 * iou a b ≤ similarity (resized c a) (resized c b) := by
  have he : (0 : ℝ) < eps := by unfold eps; norm_num
  have hi := iou_resized (by linarith : 0 < c) a b h (by nlinarith [sq_nonneg (c - 1)])
  have h1 := closeness_resized hc a b
  have h2 := (closeness_range (resized c a) (resized c b)).1
  unfold similarity
  rw [hi]
  constructor <;> linarith

theorem resized_matched (c : ℝ) : mapBoxes (resized c) matchedImage =
    ⟨fun _ => [⟨⟨0, 0, c * 4, c * 4⟩, 9 / 10⟩], [(⟨0, 0, c * 4, c * 4⟩, 0)]⟩ := by
  simp [mapBoxes, resized, matchedImage]

theorem resized_partly (c : ℝ) : mapBoxes (resized c) partlyImage =
    ⟨fun _ => [⟨⟨0, 0, c * 2, c * 4⟩, 6 / 10⟩], [(⟨0, 0, c * 32, c * 4⟩, 0)]⟩ := by
  simp [mapBoxes, resized, partlyImage]

theorem resized_spurious (c : ℝ) : mapBoxes (resized c) spuriousImage =
    ⟨fun _ => [⟨⟨0, 0, c * 4, c * 4⟩, 9 / 10⟩], []⟩ := by
  simp [mapBoxes, resized, spuriousImage]

/-- Three images and the same ones at a tenth of the resolution. -/
theorem resized_three : Resized [matchedImage, spuriousImage, partlyImage]
    [mapBoxes (resized (1 / 10)) matchedImage, mapBoxes (resized (1 / 10)) spuriousImage,
      mapBoxes (resized (1 / 10)) partlyImage] := by
  refine .cons ⟨1 / 10, by norm_num, ?_, ?_, rfl⟩ (.cons ⟨1 / 10, by norm_num, ?_, ?_, rfl⟩
    (.cons ⟨1 / 10, by norm_num, ?_, ?_, rfl⟩ .nil))
  · simp [NotTiny, matchedImage, unionArea, Box.area, eps]; norm_num
  · rw [resized_matched]; simp [NotTiny, unionArea, Box.area, eps]; norm_num
  · simp [NotTiny, spuriousImage]
  · rw [resized_spurious]; simp [NotTiny]
  · simp [NotTiny, partlyImage, unionArea, Box.area, eps]; norm_num
  · rw [resized_partly]; simp [NotTiny, unionArea, Box.area, eps]; norm_num

/-- At a tenth of the resolution the partly predicted box has a score above 0.1. -/
theorem badloc_partly_coarse : ∃ s : ℝ, badlocScores (mapBoxes (resized (1 / 10)) partlyImage) = [s] ∧ 1 / 10 < s := by
  classical
  have hs : iou (⟨0, 0, 1 / 10 * 32, 1 / 10 * 4⟩ : Box ℝ) ⟨0, 0, 1 / 10 * 2, 1 / 10 * 4⟩ = 1 / 16 := by
    simp [iou, Box.area, eps]
    norm_num
  have ha : allPreds (mapBoxes (resized (1 / 10)) partlyImage) = [(⟨⟨0, 0, 1 / 10 * 2, 1 / 10 * 4⟩, 6 / 10⟩, 0)] := by
    rw [resized_partly]; rfl
  refine ⟨similarity ⟨0, 0, 1 / 10 * 32, 1 / 10 * 4⟩ ⟨0, 0, 1 / 10 * 2, 1 / 10 * 4⟩, ?_, ?_⟩
  · unfold badlocScores
    rw [ha, resized_partly]
    show [_] = [_]
    congr 1
    have hk : ([(⟨⟨0, 0, 1 / 10 * 2, 1 / 10 * 4⟩, 6 / 10⟩, 0)] : List (Pred ℝ × Fin 1)).filter
        (fun p => decide (p.2 = (0 : Fin 1))) = [(⟨⟨0, 0, 1 / 10 * 2, 1 / 10 * 4⟩, 6 / 10⟩, 0)] := by
      simp
    simp only [hk]
    rw [if_neg (by simp; norm_num), List.filter_cons_of_pos (by rw [hs]; norm_num)]
    rfl
  · have hc : 1 / 2 ≤ closeness (⟨0, 0, 1 / 10 * 32, 1 / 10 * 4⟩ : Box ℝ) ⟨0, 0, 1 / 10 * 2, 1 / 10 * 4⟩ := by
      unfold closeness
      dsimp only
      have e : Real.sqrt ((((0 : ℝ) + 1 / 10 * 32) / 2 - (0 + 1 / 10 * 2) / 2) ^ 2 +
          ((0 + 1 / 10 * 4) / 2 - (0 + 1 / 10 * 4) / 2) ^ 2) = 3 / 2 := by
        rw [show (((0 : ℝ) + 1 / 10 * 32) / 2 - (0 + 1 / 10 * 2) / 2) ^ 2 +
          ((0 + 1 / 10 * 4) / 2 - (0 + 1 / 10 * 4) / 2) ^ 2 = (3 / 2) ^ 2 by norm_num]
        exact Real.sqrt_sq (by norm_num)
      rw [e]
      have := Real.add_one_le_exp (-(3 / 2) * (1 / 10) : ℝ)
      linarith
    unfold similarity
    rw [hs]
    linarith

theorem not_issue_partly_coarse (ap : Fin 1 → ℝ) (m : ℝ) (h : ap 0 ≤ 1 / 8) :
    ¬ IsIssue ap true m (mapBoxes (resized (1 / 10)) partlyImage) := by
  classical
  obtain ⟨s, hs, s1⟩ := badloc_partly_coarse
  have ha : allPreds (mapBoxes (resized (1 / 10)) partlyImage) = [(⟨⟨0, 0, 1 / 10 * 2, 1 / 10 * 4⟩, 6 / 10⟩, 0)] := by
    rw [resized_partly]; rfl
  have h1 : overlookedScores m (mapBoxes (resized (1 / 10)) partlyImage) = [none] := by
    unfold overlookedScores
    rw [ha]
    show [_] = [_]
    dsimp only
    rw [if_pos (Or.inl (by norm_num))]
  have h2 : swapScores true m (mapBoxes (resized (1 / 10)) partlyImage) = [1] := by
    rw [swapScores_eq, ha, resized_partly]
    show [_] = [_]
    dsimp only
    rw [if_neg (by simp), if_pos (Or.inl (by simp))]
  have h3 : ¬ (1 : ℝ) ≤ ap 0 * (8 / 10) := by linarith
  have h4 : ¬ s ≤ ap 0 * (8 / 10) := by linarith
  unfold IsIssue AnyIssue
  rw [h1, h2, hs, ha, resized_partly]
  simp [h3, h4]

/-- **C164 (refuted as stated).** The distance of two boxes enters the scores in pixels: an image found to have a badly
located box is not found if all images are given at a tenth of the resolution. -/
theorem C164_not_resolution :
    ¬ ∀ (A : ArgSort ℝ) (images images' : List (Image ℝ 1)), Resized images images' →
      issueMask A true images' = issueMask A true images := by
  classical
  intro h
  have e := h (stableSort ℝ) _ _ resized_three
  unfold issueMask at e
  simp only [List.map_cons, List.map_nil, List.cons.injEq, and_true] at e
  have e3 := e.2.2
  obtain ⟨s, hs, s1, s2⟩ := badloc_partly
  have ap := perClassAp_kept (stableSort ℝ) resized_three.kept 0
  rw [decide_eq_decide, isIssue_partly _ _ (by rw [ap_matched_first]; norm_num) s hs, ap_matched_first] at e3
  exact not_issue_partly_coarse _ _ (by rw [ap, ap_matched_first]; norm_num) (e3.mpr (by linarith))

end Cleanlab.Props
