import Verif.Model.DetectionBoxes
import Verif.Props.DetectionScore
import Verif.Props.Token

/-!
# C118: the published box scores of object detection
-/

namespace Cleanlab.Props

open Np Cleanlab.Detection

variable {K : ℕ}

/-- What is known about an image with annotated boxes `l` and predicted boxes `p`. -/
noncomputable def fullOf (alpha m : ℝ) (l : Labs K) (p : List (Pred ℝ × Fin K)) : Full K where
  labs := l
  preds := p
  sim := fun i j => similarityWith alpha (l.get i).1 (p.get j).1.box
  iou := fun i j => iou (l.get i).1 (p.get j).1.box
  minSim := m

theorem fill_label (alpha m : ℝ) (l : Labs K) (p : Prediction K) :
    fill alpha { label := some l, prediction := some p, minSim := some m } = .ok (fullOf alpha m l (separate p)) := rfl

theorem full_congr {m : ℝ} {l : Labs K} {p : List (Pred ℝ × Fin K)} {s s' v v' : Fin l.length → Fin p.length → ℝ}
    (h1 : s = s') (h2 : v = v') : (.ok ⟨l, p, s, v, m⟩ : Except String (Full K)) = .ok ⟨l, p, s', v', m⟩ := by
  rw [h1, h2]

/-- The dictionaries made from labels and predictions are read back unchanged, whatever `alpha` is. -/
theorem fill_aux (alpha beta m : ℝ) (l : Labs K) (p : List (Pred ℝ × Fin K)) :
    fill beta (fullOf alpha m l p).aux = .ok (fullOf alpha m l p) := by
  have h1 : (fun (i : Fin l.length) (j : Fin p.length) => if h : i.val < l.length ∧ j.val < p.length then
      similarityWith alpha (l.get ⟨i.val, h.1⟩).1 (p.get ⟨j.val, h.2⟩).1.box else 0) =
      fun i j => similarityWith alpha (l.get i).1 (p.get j).1.box := by
    funext i j; rw [dif_pos ⟨i.2, j.2⟩]
  have h2 : (fun (i : Fin l.length) (j : Fin p.length) => if h : i.val < l.length ∧ j.val < p.length then
      iou (l.get ⟨i.val, h.1⟩).1 (p.get ⟨j.val, h.2⟩).1.box else 0) =
      fun i j => iou (l.get i).1 (p.get j).1.box := by
    funext i j; rw [dif_pos ⟨i.2, j.2⟩]
  exact full_congr h1 h2

theorem fill_aux_none (alpha beta m : ℝ) (l : Labs K) (p : List (Pred ℝ × Fin K)) :
    fill beta { (fullOf alpha m l p).aux with iou := none } = .ok (fullOf alpha m l p) := by
  have h1 : (fun (i : Fin l.length) (j : Fin p.length) => if h : i.val < l.length ∧ j.val < p.length then
      similarityWith alpha (l.get ⟨i.val, h.1⟩).1 (p.get ⟨j.val, h.2⟩).1.box else 0) =
      fun i j => similarityWith alpha (l.get i).1 (p.get j).1.box := by
    funext i j; rw [dif_pos ⟨i.2, j.2⟩]
  exact full_congr h1 rfl

/-- The known facts about every image of a data set. -/
noncomputable def facts (alpha : ℝ) (ls : List (Labs K)) (ps : List (Prediction K)) : List (Full K) :=
  (ps.zip ls).map (fun x => fullOf alpha (minPossible alpha ps ls) x.2 (separate x.1))

theorem validInputs_eq (alpha : ℝ) (ls : List (Labs K)) (ps : List (Prediction K)) :
    validInputs alpha (some ls) (some ps) = .ok ((facts alpha ls ps).map Full.aux) := by
  unfold validInputs facts
  dsimp only
  rw [List.map_map]
  exact mapM_eq_map _ _ _ (fun x _ => rfl)

/-- The scores computed from such dictionaries, for any value of `alpha`. -/
theorem scores_of_facts (alpha beta : ℝ) (ls : List (Labs K)) (ps : List (Prediction K)) (t : ℝ) (check : Bool) :
    ((facts alpha ls ps).map Full.aux).mapM (overlookedOf beta t) = .ok ((facts alpha ls ps).map (fun f => f.overlooked t)) ∧
      ((facts alpha ls ps).map Full.aux).mapM (badlocOf beta t) = .ok ((facts alpha ls ps).map (fun f => f.badloc t)) ∧
      ((facts alpha ls ps).map Full.aux).mapM (swapOf beta t check) = .ok ((facts alpha ls ps).map (fun f => f.swap t check)) := by
  have hf : ∀ f ∈ facts alpha ls ps, ∃ m l p, f = fullOf alpha m l p := by
    intro f hf
    obtain ⟨x, -, rfl⟩ := List.mem_map.mp hf
    exact ⟨_, _, _, rfl⟩
  refine ⟨?_, ?_, ?_⟩
  · rw [List.mapM_map]
    refine mapM_eq_map _ _ _ (fun f h => ?_)
    obtain ⟨m, l, p, rfl⟩ := hf f h
    show overlookedOf beta t (fullOf alpha m l p).aux = _
    unfold overlookedOf
    rw [fill_aux_none]
    rfl
  · rw [List.mapM_map]
    refine mapM_eq_map _ _ _ (fun f h => ?_)
    obtain ⟨m, l, p, rfl⟩ := hf f h
    show badlocOf beta t (fullOf alpha m l p).aux = _
    unfold badlocOf
    rw [fill_aux]
    rfl
  · rw [List.mapM_map]
    refine mapM_eq_map _ _ _ (fun f h => ?_)
    obtain ⟨m, l, p, rfl⟩ := hf f h
    show swapOf beta t check (fullOf alpha m l p).aux = _
    unfold swapOf
    rw [fill_aux_none]
    simp [Full.aux, bind, Except.bind, pure, Except.pure]

theorem compute_eq (ls : List (Labs K)) (ps : List (Prediction K)) (alpha t : Option ℝ) (check : Bool) :
    computeOverlooked (some ls) (some ps) alpha t =
        .ok ((facts (alpha.getD (9 / 10)) ls ps).map (fun f => f.overlooked (t.getD (95 / 100)))) ∧
      computeBadloc (some ls) (some ps) alpha t =
        .ok ((facts (alpha.getD (9 / 10)) ls ps).map (fun f => f.badloc (t.getD (1 / 2)))) ∧
      computeSwap (some ls) (some ps) alpha t check =
        .ok ((facts (alpha.getD (9 / 10)) ls ps).map (fun f => f.swap (t.getD (95 / 100)) check)) := by
  refine ⟨?_, ?_, ?_⟩
  · unfold computeOverlooked auxiliary
    dsimp only
    rw [validInputs_eq]
    exact (scores_of_facts _ _ ls ps _ check).1
  · unfold computeBadloc auxiliary
    dsimp only
    rw [validInputs_eq]
    exact (scores_of_facts _ _ ls ps _ check).2.1
  · unfold computeSwap auxiliary
    dsimp only
    rw [validInputs_eq]
    exact (scores_of_facts _ _ ls ps _ check).2.2

/-- **C118.** Passing the auxiliary inputs made from the labels and predictions gives the same scores as passing the labels
and predictions, and then `alpha` has no effect any more. -/
theorem C118_auxiliary (ls : List (Labs K)) (ps : List (Prediction K)) (alpha beta t : Option ℝ) (check : Bool) :
    ∃ aux, validInputs (alpha.getD (9 / 10)) (some ls) (some ps) = .ok aux ∧
      computeOverlooked none none beta t (some aux) = computeOverlooked (some ls) (some ps) alpha t ∧
      computeBadloc none none beta t (some aux) = computeBadloc (some ls) (some ps) alpha t ∧
      computeSwap none none beta t check (some aux) = computeSwap (some ls) (some ps) alpha t check := by
  refine ⟨_, validInputs_eq _ ls ps, ?_, ?_, ?_⟩
  · rw [(compute_eq ls ps alpha t check).1]
    exact (scores_of_facts _ _ ls ps _ check).1
  · rw [(compute_eq ls ps alpha t check).2.1]
    exact (scores_of_facts _ _ ls ps _ check).2.1
  · rw [(compute_eq ls ps alpha t check).2.2]
    exact (scores_of_facts _ _ ls ps _ check).2.2

theorem similarityWith_inUnit {alpha : ℝ} (ha : InUnit alpha) (a b : Box ℝ) : InUnit (similarityWith alpha a b) := by
  unfold similarityWith
  have h1 := C39_range a b
  have h2 := closeness_range a b
  constructor
  · have := mul_nonneg h1.1 ha.1
    have := mul_nonneg (sub_nonneg.mpr ha.2) h2.1.le
    linarith
  · have := mul_le_mul_of_nonneg_right h1.2 ha.1
    have := mul_le_mul_of_nonneg_left h2.2 (sub_nonneg.mpr ha.2)
    linarith

theorem nonZero_mem {l p : ℕ} {m : Fin l → Fin p → ℝ} {x : ℝ} (h : x ∈ nonZero m) : ∃ i j, x = m i j := by
  classical
  unfold nonZero at h
  obtain ⟨i, -, hi⟩ := List.mem_flatMap.mp (List.mem_filter.mp h).1
  obtain ⟨j, -, hj⟩ := List.mem_map.mp hi
  exact ⟨i, j, hj.symm⟩

theorem minPossible_inUnit {alpha : ℝ} (ha : InUnit alpha) (ps : List (Prediction K)) (ls : List (Labs K)) :
    InUnit (minPossible alpha ps ls) := by
  unfold minPossible
  suffices H : ∀ (l : List (Prediction K × Labs K)) (m : ℝ), InUnit m → InUnit (l.foldl (fun m x => min m (minOr 1
      (nonZero (fun i j => similarityWith alpha (x.2.get i).1 ((separate x.1).get j).1.box)))) m) from H _ 1 one_inUnit
  intro l
  induction l with
  | nil => intro m hm; exact hm
  | cons x xs ih =>
    intro m hm
    rw [List.foldl_cons]
    refine ih _ ⟨le_min hm.1 ?_, (min_le_left _ _).trans hm.2⟩
    rcases minOr_mem 1 (nonZero (fun i j => similarityWith alpha (x.2.get i).1 ((separate x.1).get j).1.box)) with h | h
    · rw [h]; exact zero_le_one
    · obtain ⟨i, j, e⟩ := nonZero_mem h
      rw [e]
      exact (similarityWith_inUnit ha _ _).1

theorem full_scores_inUnit (f : Full K) (hs : ∀ i j, InUnit (f.sim i j)) (hm : InUnit f.minSim)
    (hp : ∀ p ∈ f.preds, InUnit p.1.prob) (t : ℝ) (check : Bool) :
    (∀ x ∈ (f.overlooked t).reduceOption, InUnit x) ∧ (∀ x ∈ f.badloc t, InUnit x) ∧ ∀ x ∈ f.swap t check, InUnit x := by
  classical
  refine ⟨?_, ?_, ?_⟩
  · intro x hx
    rw [List.reduceOption_mem_iff] at hx
    unfold Full.overlooked at hx
    obtain ⟨j, he⟩ := (List.mem_ofFn' _ _).mp hx
    dsimp only at he
    split_ifs at he
    rw [← Option.some.inj he]
    have hpr := hp (f.preds.get j) (List.get_mem _ _)
    refine maxOr_inUnit ⟨mul_nonneg hm.1 (sub_nonneg.mpr hpr.2), ?_⟩ ?_
    · exact mul_le_one₀ hm.2 (sub_nonneg.mpr hpr.2) (by linarith [hpr.1])
    · intro y hy
      obtain ⟨l, _, rfl⟩ := List.mem_map.mp hy
      exact hs _ _
  · intro x hx
    unfold Full.badloc at hx
    obtain ⟨i, he⟩ := (List.mem_ofFn' _ _).mp hx
    rw [← he]
    dsimp only
    split_ifs
    · exact one_inUnit
    · refine maxOr_inUnit one_inUnit ?_
      intro y hy
      obtain ⟨p, _, rfl⟩ := List.mem_map.mp hy
      exact hs _ _
  · intro x hx
    unfold Full.swap at hx
    obtain ⟨i, he⟩ := (List.mem_ofFn' _ _).mp hx
    rw [← he]
    dsimp only
    split_ifs
    · exact hm
    · exact one_inUnit
    · have h := maxOr_inUnit (d := 0) ⟨le_rfl, zero_le_one⟩ (l := (((List.finRange f.preds.length).filter
        (fun j => (f.preds.get j).2 ≠ (f.labs.get i).2)).filter (fun j => (f.preds.get j).1.prob > t)).map
          (fun j => f.sim i j)) (by
            intro y hy
            obtain ⟨p, _, rfl⟩ := List.mem_map.mp hy
            exact hs _ _)
      exact ⟨le_max_of_le_left hm.1, max_le hm.2 (by linarith [h.1])⟩

/-- **C118.** For every weight `alpha` in `[0, 1]`, all thresholds and all valid probabilities, the functions succeed, give
one array per image (for as many predictions as labels), with one score per predicted box (overlooked) respectively per
annotated box (the others), and all scores other than `nan` lie in `[0, 1]`. -/
theorem C118_range (images : List (Image ℝ K)) (hp : ∀ im ∈ images, ProbsValid im) (alpha t : Option ℝ)
    (ha : ∀ a, alpha = some a → InUnit a) (check : Bool) :
    ∃ o b s, computeOverlooked (some (images.map (·.labels))) (some (images.map (·.preds))) alpha t = .ok o ∧
      computeBadloc (some (images.map (·.labels))) (some (images.map (·.preds))) alpha t = .ok b ∧
      computeSwap (some (images.map (·.labels))) (some (images.map (·.preds))) alpha t check = .ok s ∧
      o.map List.length = images.map (fun im => (allPreds im).length) ∧
      b.map List.length = images.map (fun im => im.labels.length) ∧
      s.map List.length = images.map (fun im => im.labels.length) ∧
      (∀ l ∈ o, ∀ x ∈ l.reduceOption, InUnit x) ∧ (∀ l ∈ b, ∀ x ∈ l, InUnit x) ∧ ∀ l ∈ s, ∀ x ∈ l, InUnit x := by
  have ha' : InUnit (alpha.getD (9 / 10)) := by
    cases alpha with
    | none => exact ⟨by norm_num, by norm_num⟩
    | some a => exact ha a rfl
  generalize hal : alpha.getD (9 / 10) = al at ha'
  obtain ⟨c1, c2, c3⟩ := compute_eq (images.map (·.labels)) (images.map (·.preds)) alpha t check
  rw [hal] at c1 c2 c3
  have hz : (images.map (·.preds)).zip (images.map (·.labels)) = images.map (fun im => (im.preds, im.labels)) :=
    List.zip_map'
  have hF : ∀ f ∈ facts al (images.map (·.labels)) (images.map (·.preds)), (∀ i j, InUnit (f.sim i j)) ∧ InUnit f.minSim ∧
      ∀ p ∈ f.preds, InUnit p.1.prob := by
    intro f hf
    unfold facts at hf
    rw [hz] at hf
    obtain ⟨x, hx, rfl⟩ := List.mem_map.mp hf
    obtain ⟨im, him, rfl⟩ := List.mem_map.mp hx
    refine ⟨fun i j => similarityWith_inUnit ha' _ _, minPossible_inUnit ha' _ _, fun p hpm => ?_⟩
    exact hp im him p.2 p.1 ((mem_allPreds im p).mp hpm)
  refine ⟨_, _, _, c1, c2, c3, ?_, ?_, ?_, ?_, ?_, ?_⟩
  · simp only [facts, hz, List.map_map]
    refine List.map_congr_left (fun im _ => ?_)
    simp only [Function.comp, Full.overlooked, List.length_ofFn]
    rfl
  · simp only [facts, hz, List.map_map]
    refine List.map_congr_left (fun im _ => ?_)
    simp only [Function.comp, Full.badloc, List.length_ofFn]
    rfl
  · simp only [facts, hz, List.map_map]
    refine List.map_congr_left (fun im _ => ?_)
    simp only [Function.comp, Full.swap, List.length_ofFn]
    rfl
  · intro l hl
    obtain ⟨f, hf, rfl⟩ := List.mem_map.mp hl
    exact (full_scores_inUnit f (hF f hf).1 (hF f hf).2.1 (hF f hf).2.2 _ check).1
  · intro l hl
    obtain ⟨f, hf, rfl⟩ := List.mem_map.mp hl
    exact (full_scores_inUnit f (hF f hf).1 (hF f hf).2.1 (hF f hf).2.2 _ check).2.1
  · intro l hl
    obtain ⟨f, hf, rfl⟩ := List.mem_map.mp hl
    exact (full_scores_inUnit f (hF f hf).1 (hF f hf).2.1 (hF f hf).2.2 _ check).2.2

theorem similarityWith_default (a b : Box ℝ) : similarityWith (9 / 10) a b = similarity a b := rfl

theorem filter_get {α : Type} (l : List α) (q : α → Prop) [DecidablePred q] {β : Type} (g : α → β) :
    ((List.finRange l.length).filter (fun i => decide (q (l.get i)))).map (fun i => g (l.get i)) =
      (l.filter (fun x => decide (q x))).map g := by
  conv_rhs => rw [← List.map_get_finRange l]
  rw [List.filter_map, List.map_map]
  rfl

theorem ofFn_get_map {α β : Type} (l : List α) (g : α → β) : List.ofFn (fun i : Fin l.length => g (l.get i)) = l.map g := by
  rw [List.ofFn_eq_map, ← Function.comp_def, ← List.map_map, List.map_get_finRange]

theorem overlooked_default (m : ℝ) (im : Image ℝ K) :
    (fullOf (9 / 10) m im.labels (allPreds im)).overlooked (95 / 100) = overlookedScores m im := by
  classical
  unfold Full.overlooked overlookedScores
  rw [← ofFn_get_map]
  congr 1
  funext j
  dsimp only [fullOf]
  have h1 : (∃ i : Fin im.labels.length, iou (im.labels.get i).1 ((allPreds im).get j).1.box > 0) ↔
      ∃ l ∈ im.labels, iou l.1 ((allPreds im).get j).1.box > 0 := by
    constructor
    · rintro ⟨i, h⟩; exact ⟨_, List.get_mem _ _, h⟩
    · rintro ⟨l, hl, h⟩
      obtain ⟨i, rfl⟩ := List.mem_iff_get.mp hl
      exact ⟨i, h⟩
  have h2 := filter_get im.labels (fun l => l.2 = ((allPreds im).get j).2)
    (fun l => similarity l.1 ((allPreds im).get j).1.box)
  simp only [similarityWith_default, h1]
  congr 3

theorem badloc_default (m : ℝ) (im : Image ℝ K) :
    (fullOf (9 / 10) m im.labels (allPreds im)).badloc (1 / 2) = badlocScores im := by
  classical
  unfold Full.badloc badlocScores
  rw [← ofFn_get_map]
  congr 1
  funext i
  dsimp only [fullOf]
  have h0 : ((List.finRange (allPreds im).length).filter (fun j => decide (((allPreds im).get j).2 = (im.labels.get i).2))).map
      (fun j => (allPreds im).get j) = (allPreds im).filter (fun p => decide (p.2 = (im.labels.get i).2)) := by
    have := filter_get (allPreds im) (fun p => p.2 = (im.labels.get i).2) id
    rw [List.map_id] at this
    exact this
  have h3 : ∀ (js : List (Fin (allPreds im).length)), (js.filter (fun j => decide (((allPreds im).get j).1.prob > 1 / 2 ∧
      iou (im.labels.get i).1 ((allPreds im).get j).1.box > 0))).map
        (fun j => similarity (im.labels.get i).1 ((allPreds im).get j).1.box) =
      ((js.map (fun j => (allPreds im).get j)).filter (fun p => decide (p.1.prob > 1 / 2 ∧
        iou (im.labels.get i).1 p.1.box > 0))).map (fun p => similarity (im.labels.get i).1 p.1.box) := by
    intro js
    rw [List.filter_map, List.map_map]
    rfl
  simp only [similarityWith_default]
  rw [← h0]
  simp only [List.map_eq_nil_iff, List.forall_mem_map]
  congr 2
  exact h3 _

theorem swap_default (m : ℝ) (check : Bool) (im : Image ℝ K) :
    (fullOf (9 / 10) m im.labels (allPreds im)).swap (95 / 100) check = swapScores check m im := by
  classical
  unfold Full.swap swapScores
  congr 1
  funext i
  dsimp only [fullOf]
  have h0 : ((List.finRange (allPreds im).length).filter (fun j => decide (((allPreds im).get j).2 ≠ (im.labels.get i).2))).map
      (fun j => (allPreds im).get j) = (allPreds im).filter (fun p => decide (p.2 ≠ (im.labels.get i).2)) := by
    have := filter_get (allPreds im) (fun p => p.2 ≠ (im.labels.get i).2) id
    rw [List.map_id] at this
    exact this
  have h3 : ∀ (js : List (Fin (allPreds im).length)), (js.filter (fun j => decide (((allPreds im).get j).1.prob > 95 / 100))).map
        (fun j => similarity (im.labels.get i).1 ((allPreds im).get j).1.box) =
      ((js.map (fun j => (allPreds im).get j)).filter (fun p => decide (p.1.prob > 95 / 100))).map
        (fun p => similarity (im.labels.get i).1 p.1.box) := by
    intro js
    rw [List.filter_map, List.map_map]
    rfl
  simp only [similarityWith_default]
  rw [← h0]
  simp only [List.map_eq_nil_iff, List.forall_mem_map]
  congr 2
  exact congrArg (fun x => max m (1 - maxOr 0 x)) (h3 _)

theorem minPossible_default (images : List (Image ℝ K)) :
    minPossible (9 / 10) (images.map (·.preds)) (images.map (·.labels)) = minSimilarity images := by
  classical
  unfold minPossible minSimilarity
  rw [List.zip_map', List.foldl_map]
  congr 1
  funext m im
  congr 2
  unfold nonZero
  congr 1
  unfold similarities
  conv_rhs => rw [← List.map_get_finRange im.labels]
  rw [List.flatMap_map]
  congr 1
  funext i
  conv_rhs => rw [← List.map_get_finRange (allPreds im), List.map_map]
  rfl

/-- **C118.** With default parameters the published box scores, pooled and combined with the weights, are the label quality
scores of the images. -/
theorem C118_image_scores (weights : Option Weights) (w : Weights) (hw : aggregationWeights weights = .ok w) (check : Bool)
    (images : List (Image ℝ K)) (hp : ∀ im ∈ images, ProbsValid im) (hne : images ≠ []) (hK : 0 < K) :
    ∃ o b s, computeOverlooked (some (images.map (·.labels))) (some (images.map (·.preds))) = .ok o ∧
      computeBadloc (some (images.map (·.labels))) (some (images.map (·.preds))) = .ok b ∧
      computeSwap (some (images.map (·.labels))) (some (images.map (·.preds))) none none check = .ok s ∧
      labelQualityScores weights check images =
        .ok (((poolScores o).zip ((poolScores (b.map (List.map some))).zip (poolScores (s.map (List.map some))))).map
          (fun x => Real.exp (w.overlooked * Real.log (addTiny x.1) + w.badloc * Real.log (addTiny x.2.1) +
            w.swap * Real.log (addTiny x.2.2)))) := by
  obtain ⟨c1, c2, c3⟩ := compute_eq (images.map (·.labels)) (images.map (·.preds)) none none check
  refine ⟨_, _, _, c1, c2, c3, ?_⟩
  unfold labelQualityScores
  rw [checkInputs_ok images hne hK, hw]
  show Except.ok ((prunedImages images).map (imageScore w check (minSimilarity (prunedImages images)))) = _
  rw [prunedImages_eq images hp]
  refine congrArg Except.ok ?_
  have hf : facts (9 / 10) (images.map (·.labels)) (images.map (·.preds)) =
      images.map (fun im => fullOf (9 / 10) (minSimilarity images) im.labels (allPreds im)) := by
    unfold facts
    rw [minPossible_default, List.zip_map', List.map_map]
    rfl
  simp only [Option.getD_none, hf, poolScores, List.map_map, List.zip_map', Function.comp_def, overlooked_default,
    badloc_default, swap_default]
  rfl

/-- **C118 (refuted as stated).** Labels of two images with predictions for one are accepted: the result has one array
only. -/
theorem C118_not_lengths :
    ¬ ∀ (ls : List (Labs 1)) (ps : List (Prediction 1)) (o : List (List (Option ℝ))),
      computeOverlooked (some ls) (some ps) = .ok o → o.length = ls.length := by
  intro h
  have := h [[], []] [fun _ => []] _ (compute_eq [[], []] [fun _ => []] none none true).1
  simp [facts] at this

/-- **C118 (refuted as stated).** From dictionaries with the keys `label` and `prediction` the overlooked and badly located
scores can be computed, but the swap scores cannot. -/
theorem C118_not_swap_from_label (l : Labs K) (p : Prediction K) (m : ℝ) (alpha t : Option ℝ) :
    (∃ o, computeOverlooked none none alpha t (some [{ label := some l, prediction := some p, minSim := some m }]) = .ok o) ∧
      (∃ b, computeBadloc none none alpha t (some [{ label := some l, prediction := some p, minSim := some m }]) = .ok b) ∧
      ∃ e, computeSwap none none alpha t true (some [{ label := some l, prediction := some p, minSim := some m }]) =
        .error e :=
  ⟨⟨_, rfl⟩, ⟨_, rfl⟩, ⟨_, rfl⟩⟩

theorem softmax_eq [NeZero K] (x : Fin K → ℝ) (T : ℝ) (k : Fin K) :
    Multilabel.softmax x T k = Real.exp (x k / max T (1 / 1000000)) / ∑ j, Real.exp (x j / max T (1 / 1000000)) := by
  unfold Multilabel.softmax
  dsimp only
  simp only [Real.exp_sub]
  rw [← Finset.sum_div, div_div_div_cancel_right₀ (Real.exp_pos _).ne']

/-- The weighted mean of scores with the weights `exp (-x / T)`. -/
theorem softmin1d_eq (T : ℝ) (l : List ℝ) (h : l ≠ []) :
    softmin1d T l h = (l.map (fun x => x * Real.exp (-x / max T (1 / 1000000)))).sum /
      (l.map (fun x => Real.exp (-x / max T (1 / 1000000)))).sum := by
  unfold softmin1d
  have hl : ∀ f : ℝ → ℝ, (l.map f).sum = ∑ k : Fin l.length, f (l.get k) := by
    intro f
    rw [← List.sum_ofFn]
    congr 1
    exact (List.ofFn_getElem_eq_map l f).symm
  have : NeZero l.length := ⟨by simpa using h⟩
  rw [hl, hl, Finset.sum_div]
  refine Finset.sum_congr rfl (fun k _ => ?_)
  rw [softmax_eq]
  simp only [neg_one_mul]
  ring

/-- **C118.** Pooling averages the scores of the boxes of an image that are not `nan`, each with the weight `exp (-x / T)`
for the temperature `T`, `1/10` by default and at least `1e-6`; the result does not depend on the order of the boxes, and an
image without scores gets 1. -/
theorem C118_pooling (scores : List (List (Option ℝ))) (T : Option ℝ) :
    (poolScores scores T).length = scores.length ∧ poolScores scores none = poolScores scores (some (1 / 10)) ∧
      ∀ (i : ℕ) (l : List (Option ℝ)) (t : ℝ), scores[i]? = some l →
        (l.reduceOption = [] → (poolScores scores (some t))[i]? = some 1) ∧
        (∀ l', l.reduceOption.Perm l' → l' ≠ [] → (poolScores scores (some t))[i]? =
          some ((l'.map (fun x => x * Real.exp (-x / max t (1 / 1000000)))).sum /
            (l'.map (fun x => Real.exp (-x / max t (1 / 1000000)))).sum)) := by
  refine ⟨by simp [poolScores], rfl, fun i l t hi => ?_⟩
  have hv : (poolScores scores (some t))[i]? = some (validScore t l) := by
    simp [poolScores, hi]
  rw [hv]
  refine ⟨fun h => by rw [(C73_pooling t l).1 h], fun l' hp hne => ?_⟩
  have hne' : l.reduceOption ≠ [] := fun h => hne (by rw [h] at hp; exact List.nil_perm.mp hp)
  unfold validScore
  rw [dif_pos hne', softmin1d_eq, (hp.map _).sum_eq, (hp.map _).sum_eq]

/-- Two scores at temperature 1. -/
example : poolScores [[some 1, none, some 0], []] (some 1) = [Real.exp (-1) / (Real.exp (-1) + 1), 1] := by
  have h := (C118_pooling [[some 1, none, some 0], []] none).2.2 0 [some 1, none, some 0] 1 rfl
  have h1 := (C118_pooling [[some 1, none, some 0], []] none).2.2 1 [] 1 rfl
  have e : poolScores [[some 1, none, some 0], []] (some 1) =
    [validScore 1 [some 1, none, some 0], validScore 1 []] := rfl
  rw [e] at h h1 ⊢
  have h0 := h.2 [1, 0] (by simp [List.reduceOption]) (by simp)
  have h2 := h1.1 rfl
  simp only [List.getElem?_cons_zero, List.getElem?_cons_succ, Option.some.injEq] at h0 h2
  rw [h0, h2]
  norm_num

/-- Two images of two classes with predicted probabilities 1. -/
example : ∀ im ∈ [(⟨fun _ => [⟨⟨0, 0, 2, 2⟩, 1⟩], [(⟨0, 0, 2, 2⟩, 1)]⟩ : Image ℝ 2), ⟨fun _ => [], [(⟨0, 0, 2, 2⟩, 0)]⟩],
    ProbsValid im := by
  intro im him k p hp
  rcases List.mem_cons.mp him with rfl | him
  · simp only [List.mem_singleton] at hp
    subst hp
    exact one_inUnit
  · rw [List.mem_singleton] at him
    subst him
    simp at hp

theorem nonZero_eq_nil {l p : ℕ} {m : Fin l → Fin p → ℝ} (hm : ∀ i j, m i j ≠ 0) (h : nonZero m = []) : l = 0 ∨ p = 0 := by
  classical
  by_contra hc
  push Not at hc
  have hmem : m ⟨0, Nat.pos_of_ne_zero hc.1⟩ ⟨0, Nat.pos_of_ne_zero hc.2⟩ ∈ nonZero m := by
    unfold nonZero
    refine List.mem_filter.mpr ⟨List.mem_flatMap.mpr ⟨_, List.mem_finRange _, List.mem_map.mpr ⟨_, List.mem_finRange _, rfl⟩⟩, ?_⟩
    exact decide_eq_true (hm _ _)
  rw [h] at hmem
  exact List.not_mem_nil hmem

theorem nonZero_empty {l p : ℕ} {m : Fin l → Fin p → ℝ} (h : l = 0 ∨ p = 0) : nonZero m = [] := by
  classical
  refine List.eq_nil_iff_forall_not_mem.mpr (fun x hx => ?_)
  obtain ⟨i, j, -⟩ := nonZero_mem hx
  rcases h with rfl | rfl
  · exact i.elim0
  · exact j.elim0

theorem similarityWith_pos {alpha : ℝ} (h0 : 0 ≤ alpha) (h1 : alpha < 1) (a b : Box ℝ) : 0 < similarityWith alpha a b := by
  unfold similarityWith
  have := mul_nonneg (C39_range a b).1 h0
  have := mul_pos (sub_pos.mpr h1) (closeness_range a b).1
  linarith

/-- The least similarity of one image is that of the data set that consists of it. -/
theorem imageMin_eq {alpha : ℝ} (h0 : 0 ≤ alpha) (h1 : alpha < 1) (l : Labs K) (p : Prediction K) :
    imageMin (fun (i : Fin l.length) (j : Fin (separate p).length) =>
      similarityWith alpha (l.get i).1 ((separate p).get j).1.box) = .ok (minPossible alpha [p] [l]) := by
  unfold imageMin minPossible
  simp only [List.zip_cons_cons, List.zip_nil_right, List.foldl_cons, List.foldl_nil]
  by_cases he : l.length = 0 ∨ (separate p).length = 0
  · rw [if_pos he, nonZero_empty he]
    simp [minOr]
  · rw [if_neg he]
    cases hn : nonZero (fun (i : Fin l.length) (j : Fin (separate p).length) =>
        similarityWith alpha (l.get i).1 ((separate p).get j).1.box) with
    | nil => exact absurd (nonZero_eq_nil (fun i j => (similarityWith_pos h0 h1 _ _).ne') hn) he
    | cons x xs =>
      dsimp only [minOr]
      have hall : ∀ y ∈ x :: xs, y ≤ 1 := by
        rw [← hn]
        intro y hy
        obtain ⟨i, j, e⟩ := nonZero_mem hy
        exact e.trans_le (similarityWith_inUnit ⟨h0, h1.le⟩ _ _).2
      rw [min_eq_right]
      rcases minOr_mem 1 (x :: xs) with h | h
      · exact h.le
      · exact hall _ h

theorem fill_own {alpha : ℝ} (h0 : 0 ≤ alpha) (h1 : alpha < 1) (l : Labs K) (p : Prediction K) :
    fill alpha { label := some l, prediction := some p } =
      .ok (fullOf alpha (minPossible alpha [p] [l]) l (separate p)) := by
  unfold fill
  dsimp only [bind, Except.bind, pure, Except.pure]
  rw [imageMin_eq h0 h1]
  rfl

theorem overlookedOf_own {alpha : ℝ} (h0 : 0 ≤ alpha) (h1 : alpha < 1) (l : Labs K) (p : Prediction K) (t : ℝ) :
    overlookedOf alpha t { label := some l, prediction := some p } =
      .ok ((fullOf alpha (minPossible alpha [p] [l]) l (separate p)).overlooked t) := by
  unfold overlookedOf
  rw [fill_own h0 h1]
  rfl

/-- **C118.** A dictionary with only the annotation and the prediction of an image gives the scores that the image has as
the only image of a data set: the least similarity is taken over this image alone. -/
theorem C118_one_image (l : Labs K) (p : Prediction K) (alpha t : Option ℝ) (h0 : 0 ≤ alpha.getD (9 / 10))
    (h1 : alpha.getD (9 / 10) < 1) :
    computeOverlooked none none alpha t (some [{ label := some l, prediction := some p }]) =
        computeOverlooked (some [l]) (some [p]) alpha t ∧
      computeBadloc none none alpha t (some [{ label := some l, prediction := some p }]) =
        computeBadloc (some [l]) (some [p]) alpha t ∧
      computeSwap none none alpha t false (some [{ label := some l, prediction := some p }]) =
        computeSwap (some [l]) (some [p]) alpha t false := by
  obtain ⟨c1, c2, c3⟩ := compute_eq [l] [p] alpha t false
  rw [c1, c2, c3]
  have hf := fill_own h0 h1 l p
  refine ⟨?_, ?_, ?_⟩
  · unfold computeOverlooked auxiliary
    dsimp only [bind, Except.bind]
    rw [List.mapM_cons, overlookedOf_own h0 h1]
    rfl
  · unfold computeBadloc auxiliary
    dsimp only [bind, Except.bind]
    rw [List.mapM_cons]
    unfold badlocOf
    rw [hf]
    rfl
  · unfold computeSwap auxiliary
    dsimp only [bind, Except.bind]
    rw [List.mapM_cons]
    unfold swapOf
    rw [hf]
    rfl

/-- **C118.** Labels and predictions given beside auxiliary inputs are not read. -/
theorem C118_auxiliary_first (labels : Option (List (Labs K))) (predictions : Option (List (Prediction K)))
    (aux : List (Aux K)) (alpha t : Option ℝ) (check : Bool) :
    computeOverlooked labels predictions alpha t (some aux) = computeOverlooked none none alpha t (some aux) ∧
      computeBadloc labels predictions alpha t (some aux) = computeBadloc none none alpha t (some aux) ∧
      computeSwap labels predictions alpha t check (some aux) = computeSwap none none alpha t check (some aux) :=
  ⟨rfl, rfl, rfl⟩

/-- **C118.** Separated boxes in a dictionary take precedence: the annotation and the prediction beside them are not read. -/
theorem C118_separated_first (a : Aux K) (l l' : Labs K) (q : List (Pred ℝ × Fin K)) (p p' : Option (Prediction K))
    (alpha t : Option ℝ) (check : Bool) :
    computeOverlooked none none alpha t (some [{ a with labs := some l, preds := some q, label := some l', prediction := p }]) =
        computeOverlooked none none alpha t (some [{ a with labs := some l, preds := some q, label := none, prediction := p' }]) ∧
      computeBadloc none none alpha t (some [{ a with labs := some l, preds := some q, label := some l', prediction := p }]) =
        computeBadloc none none alpha t (some [{ a with labs := some l, preds := some q, label := none, prediction := p' }]) ∧
      computeSwap none none alpha t check (some [{ a with labs := some l, preds := some q, label := some l', prediction := p }]) =
        computeSwap none none alpha t check (some [{ a with labs := some l, preds := some q, label := none, prediction := p' }]) :=
  ⟨rfl, rfl, rfl⟩

/-- **C118 (refuted as stated).** Scores from dictionaries with only the annotations and the predictions differ from those
of the data set, whose least similarity is taken over all images. -/
theorem C118_not_same_minimum :
    ¬ ∀ (ls : List (Labs 1)) (ps : List (Prediction 1)), ls.length = ps.length →
      computeOverlooked none none none none
        (some ((ps.zip ls).map (fun x => { label := some x.2, prediction := some x.1 }))) =
      computeOverlooked (some ls) (some ps) := by
  intro h
  let b : Box ℝ := ⟨0, 0, 1, 1⟩
  let c : Box ℝ := ⟨2, 2, 3, 3⟩
  let p : Prediction 1 := fun _ => [⟨b, 19 / 20⟩]
  have h := h [[], [(c, 0)]] [p, p] rfl
  rw [(compute_eq [[], [(c, 0)]] [p, p] none none true).1] at h
  have hm : minPossible (9 / 10) [p, p] [[], [(c, 0)]] ≤ similarityWith (9 / 10) c b := by
    unfold minPossible
    simp only [List.zip_cons_cons, List.zip_nil_right, List.foldl_cons, List.foldl_nil]
    refine (min_le_right _ _).trans ?_
    have hn : nonZero (fun (i : Fin [(c, (0 : Fin 1))].length) (j : Fin (separate p).length) =>
        similarityWith (9 / 10) ([(c, (0 : Fin 1))].get i).1 ((separate p).get j).1.box) = [similarityWith (9 / 10) c b] := by
      unfold nonZero
      have : (similarityWith (9 / 10) c b) ≠ 0 := (similarityWith_pos (by norm_num) (by norm_num) _ _).ne'
      simp [separate, p, List.finRange_succ, this]
    show minOr 1 (nonZero (fun (i : Fin [(c, (0 : Fin 1))].length) (j : Fin (separate p).length) =>
        similarityWith (9 / 10) ([(c, (0 : Fin 1))].get i).1 ((separate p).get j).1.box)) ≤ _
    rw [hn]
    rfl
  have hs : similarityWith (9 / 10) c b ≤ 1 / 10 := by
    have hi : iou c b = 0 := by
      simp [iou, b, c]
    have := (closeness_range c b).2
    unfold similarityWith
    rw [hi]
    linarith
  have e : computeOverlooked none none none none (some (([p, p].zip [[], [(c, (0 : Fin 1))]]).map
      (fun x => { label := some x.2, prediction := some x.1 }))) =
      .ok [(fullOf (9 / 10) (minPossible (9 / 10) [p] [[]]) [] (separate p)).overlooked (95 / 100),
        (fullOf (9 / 10) (minPossible (9 / 10) [p] [[(c, 0)]]) [(c, 0)] (separate p)).overlooked (95 / 100)] := by
    unfold computeOverlooked auxiliary
    simp only [List.zip_cons_cons, List.zip_nil_right, List.map_cons, List.map_nil, Option.getD_none, bind, Except.bind,
      List.mapM_cons, List.mapM_nil, overlookedOf_own (K := 1) (alpha := 9 / 10) (by norm_num) (by norm_num)]
    rfl
  rw [e] at h
  have h : (fullOf (9 / 10) (minPossible (9 / 10) [p] [[]]) [] (separate p)).overlooked (95 / 100) =
      (fullOf (9 / 10) (minPossible (9 / 10) [p, p] [[], [(c, 0)]]) [] (separate p)).overlooked (95 / 100) :=
    (List.cons.inj (Except.ok.inj h)).1
  have hv : ∀ m : ℝ, (fullOf (9 / 10) m ([] : Labs 1) (separate p)).overlooked (95 / 100) = [some (m * (1 / 20))] := by
    intro m
    have : ¬ ((19 : ℝ) / 20 < 95 / 100) := by norm_num
    simp [Full.overlooked, fullOf, separate, p, List.finRange_succ, maxOr, this]
    norm_num
  have h2 : minPossible (9 / 10) [p] [([] : Labs 1)] = 1 := by
    unfold minPossible
    simp [nonZero, minOr]
  rw [hv, hv, h2] at h
  simp at h
  linarith

end Cleanlab.Props
