import Verif.Model.DetectionPlot
import Verif.Props.DetectionSummary
import Verif.Props.Token
import Verif.Props.Baselines

/-!
# C141: plots of object detection data show the boxes they should
-/

namespace Cleanlab.Props

open Np Cleanlab.Detection

variable {K : ℕ} {N : Type} [DecidableEq N]

/-- A rectangle shows a box of a class in a colour. -/
def DrawnAs (axis : ℕ) (color : Color) (b : Box ℚ) (k : ℕ) (d : Drawn) : Prop :=
  d.axis = axis ∧ d.color = color ∧ d.cls = k ∧ d.rect.1 = b.x1 ∧ d.rect.2.1 = b.y1 ∧
    d.rect.1 + d.rect.2.2.1 = b.x2 ∧ d.rect.2.1 + d.rect.2.2.2 = b.y2

theorem drawnAs_iff (axis : ℕ) (color : Color) (b : Box ℚ) (k : ℕ) (d : Drawn) :
    DrawnAs axis color b k d ↔ d = ⟨axis, color, xywh b, k⟩ := by
  obtain ⟨a, c, ⟨x, y, w, h⟩, k'⟩ := d
  simp only [DrawnAs, xywh, Drawn.mk.injEq, Prod.mk.injEq]
  constructor
  · rintro ⟨rfl, rfl, rfl, rfl, rfl, h1, h2⟩
    exact ⟨rfl, rfl, ⟨rfl, rfl, by linarith, by linarith⟩, rfl⟩
  · rintro ⟨rfl, rfl, ⟨rfl, rfl, rfl, rfl⟩, rfl⟩
    exact ⟨rfl, rfl, rfl, rfl, rfl, by ring, by ring⟩

theorem mem_keptBoxes (threshold : Option ℚ) (p : List (List (Pred ℚ))) (b : Box ℚ) (k : ℕ) :
    (b, k) ∈ keptBoxes threshold p ↔ ∃ l, p[k]? = some l ∧ ∃ q ∈ l, q.box = b ∧ ∀ t ∈ threshold, t < q.prob := by
  have hall : ∀ q : Pred ℚ × ℕ, q ∈ p.zipIdx.flatMap (fun e => e.1.map (fun q => (q, e.2))) ↔
      ∃ l, p[q.2]? = some l ∧ q.1 ∈ l := by
    rintro ⟨q, k⟩
    rw [List.mem_flatMap]
    constructor
    · rintro ⟨⟨l, i⟩, hl, hq⟩
      obtain ⟨q', hq', he⟩ := List.mem_map.mp hq
      obtain ⟨rfl, rfl⟩ := Prod.mk.inj he
      exact ⟨l, List.mem_zipIdx_iff_getElem?.mp hl, hq'⟩
    · rintro ⟨l, hl, hq⟩
      exact ⟨(l, k), List.mem_zipIdx_iff_getElem?.mpr hl, List.mem_map.mpr ⟨q, hq, rfl⟩⟩
  unfold keptBoxes
  cases threshold with
  | none =>
    simp only [List.mem_map]
    constructor
    · rintro ⟨q, hq, he⟩
      obtain ⟨rfl, rfl⟩ := Prod.mk.inj he
      obtain ⟨l, hl, hm⟩ := (hall q).mp hq
      exact ⟨l, hl, q.1, hm, rfl, by simp⟩
    · rintro ⟨l, hl, q, hq, rfl, -⟩
      exact ⟨(q, k), (hall (q, k)).mpr ⟨l, hl, hq⟩, rfl⟩
  | some t =>
    simp only [List.mem_map, List.mem_filter, decide_eq_true_eq]
    constructor
    · rintro ⟨q, ⟨hq, ht⟩, he⟩
      obtain ⟨rfl, rfl⟩ := Prod.mk.inj he
      obtain ⟨l, hl, hm⟩ := (hall q).mp hq
      refine ⟨l, hl, q.1, hm, rfl, fun t' h' => ?_⟩
      rw [← Option.some.inj h']
      exact ht
    · rintro ⟨l, hl, q, hq, rfl, ht⟩
      exact ⟨(q, k), ⟨(hall (q, k)).mpr ⟨l, hl, hq⟩, ht t rfl⟩, rfl⟩

theorem length_flatMap_zipIdx (p : List (List (Pred ℚ))) (s : ℕ) :
    ((p.zipIdx s).flatMap (fun e => e.1.map (fun q => (q, e.2)))).length = (p.map List.length).sum := by
  induction p generalizing s with
  | nil => rfl
  | cons l t ih => simp [List.zipIdx_cons, ih]

/-- **C141 (partial), boxes.** Unless there are exactly three classes, all annotated boxes are drawn in red and all predicted boxes
with a probability above the threshold in blue, each with its own class, and nothing else; without a threshold each once. -/
theorem C141_boxes_partial (label : Option (List (Box ℚ × ℕ))) (p : List (List (Pred ℚ))) (hp : p.length ≠ 3)
    (threshold : Option ℚ) (overlay : Bool) :
    ∃ drawn, visualize label (some p) threshold overlay = .ok drawn ∧
      (∀ d, d ∈ drawn ↔ (∃ l ∈ label, ∃ e ∈ l, DrawnAs 0 .red e.1 e.2 d) ∨
        ∃ k l, p[k]? = some l ∧ ∃ q ∈ l, (∀ t ∈ threshold, t < q.prob) ∧
          DrawnAs (if overlay then 0 else 1) .blue q.box k d) ∧
      (threshold = none → drawn.length = (label.elim 0 List.length) + (p.map List.length).sum) := by
  have h0 : looksLikeAllPred p = false := by
    unfold looksLikeAllPred
    split
    · exact absurd rfl hp
    · rfl
  have h1 : predictedBoxes threshold p = .ok (keptBoxes threshold p) := by
    unfold predictedBoxes
    rw [h0]
    rfl
  refine ⟨(match label with
    | none => []
    | some l => l.map (fun e => Drawn.mk 0 .red (xywh e.1) e.2)) ++
    (keptBoxes threshold p).map (fun e => Drawn.mk (if overlay then 0 else 1) .blue (xywh e.1) e.2), ?_, ?_, ?_⟩
  · unfold visualize
    dsimp only
    rw [h1]
    rfl
  · intro d
    rw [List.mem_append]
    refine or_congr ?_ ?_
    · cases label with
      | none => simp
      | some l =>
        simp only [List.mem_map, Option.mem_def, Option.some.injEq, exists_eq_left']
        exact ⟨fun ⟨e, he, hd⟩ => ⟨e, he, (drawnAs_iff _ _ _ _ _).mpr hd.symm⟩,
          fun ⟨e, he, hd⟩ => ⟨e, he, ((drawnAs_iff _ _ _ _ _).mp hd).symm⟩⟩
    · rw [List.mem_map]
      constructor
      · rintro ⟨⟨b, k⟩, hb, rfl⟩
        obtain ⟨l, hl, q, hq, rfl, ht⟩ := (mem_keptBoxes threshold p b k).mp hb
        exact ⟨k, l, hl, q, hq, ht, (drawnAs_iff _ _ _ _ _).mpr rfl⟩
      · rintro ⟨k, l, hl, q, hq, ht, hd⟩
        exact ⟨(q.box, k), (mem_keptBoxes threshold p _ k).mpr ⟨l, hl, q, hq, rfl, ht⟩, ((drawnAs_iff _ _ _ _ _).mp hd).symm⟩
  · rintro rfl
    rw [List.length_append, List.length_map]
    have : (keptBoxes none p).length = (p.map List.length).sum := by
      unfold keptBoxes
      rw [List.length_map]
      exact length_flatMap_zipIdx p 0
    rw [this]
    cases label <;> simp

/-- Without predictions exactly the annotated boxes are drawn. -/
theorem C141_labels (l : List (Box ℚ × ℕ)) (threshold : Option ℚ) (overlay : Bool) :
    ∃ drawn, visualize (some l) none threshold overlay = .ok drawn ∧
      List.Forall₂ (fun e d => DrawnAs 0 .red e.1 e.2 d) l drawn := by
  refine ⟨_, rfl, ?_⟩
  rw [List.forall₂_map_right_iff, List.forall₂_same]
  exact fun e _ => (drawnAs_iff _ _ _ _ _).mpr rfl

/-- **C141 fails: with `overlay=False` the sides are swapped.** The annotated boxes are on the left and the predicted ones on the
right; the documentation says the opposite. -/
theorem C141_not_sides (l : List (Box ℚ × ℕ)) (p : List (List (Pred ℚ))) (hp : p.length ≠ 3) (drawn : List Drawn)
    (h : visualize (some l) (some p) none false = .ok drawn) (d : Drawn) (hd : d ∈ drawn) :
    (d.color = .red → d.axis = 0) ∧ (d.color = .blue → d.axis = 1) := by
  obtain ⟨drawn', h', hm, -⟩ := C141_boxes_partial (some l) p hp none false
  rw [h'] at h
  cases h
  rcases (hm d).mp hd with ⟨-, -, e, -, h1, h2, -⟩ | ⟨k, -, -, q, -, -, h1, h2, -⟩
  · exact ⟨fun _ => h1, fun h => by rw [h2] at h; cases h⟩
  · exact ⟨fun h => by (rw [h2] at h; cases h), fun _ => h1⟩

/-- **C141 fails at the threshold.** Boxes *below* the threshold are to be left out; one exactly at the threshold is left out as well. -/
theorem C141_not_threshold (b : Box ℚ) (t : ℚ) : visualize none (some [[⟨b, t⟩]]) (some t) true = .ok [] := by
  simp [visualize, predictedBoxes, looksLikeAllPred, keptBoxes, bind, Except.bind, pure, Except.pure]

/-- **C141 fails for three classes**: if the first class has five predicted boxes and the others none, nothing is drawn. -/
theorem C141_not_three_classes (a : List (Pred ℚ)) (ha : a.length = 5) (threshold : Option ℚ) (overlay : Bool) :
    visualize none (some [a, [], []]) threshold overlay = .ok [] := by
  simp [visualize, predictedBoxes, looksLikeAllPred, ha, bind, Except.bind, pure, Except.pure]

/-- If the first class has five predicted boxes and the others equally many, `visualize` raises. -/
theorem C141_not_three_classes_raises (a b c : List (Pred ℚ)) (ha : a.length = 5) (hb : b.length = c.length) (hc : c ≠ [])
    (label : Option (List (Box ℚ × ℕ))) (overlay : Bool) : ∃ e, visualize label (some [a, b, c]) none overlay = .error e := by
  have : predictedBoxes none [a, b, c] = .error "cannot unpack non-iterable NoneType object" := by
    unfold predictedBoxes
    have h : looksLikeAllPred [a, b, c] = true := by simp [looksLikeAllPred, ha, hb]
    rw [h]
    cases c with
    | nil => exact absurd rfl hc
    | cons q t => rfl
  refine ⟨"cannot unpack non-iterable NoneType object", ?_⟩
  unfold visualize
  dsimp only
  rw [this]
  rfl

/-- With a threshold, `visualize` draws no predicted box in this case, or raises: it raises exactly if some number in the array of the third
class, be it a coordinate or a probability, is above the threshold. -/
theorem C141_not_three_classes_threshold (a b c : List (Pred ℚ)) (ha : a.length = 5) (hb : b.length = c.length) (hc : c ≠ [])
    (t : ℚ) (overlay : Bool) :
    (visualize none (some [a, b, c]) (some t) overlay = .ok [] ∨ ∃ e, visualize none (some [a, b, c]) (some t) overlay = .error e) ∧
    ((∃ e, visualize none (some [a, b, c]) (some t) overlay = .error e) ↔
      ∃ q ∈ c, ∃ x ∈ [q.box.x1, q.box.y1, q.box.x2, q.box.y2, q.prob], t < x) := by
  have h : looksLikeAllPred [a, b, c] = true := by simp [looksLikeAllPred, ha, hb]
  have hp : predictedBoxes (some t) [a, b, c] =
      if ∃ q ∈ c, ∃ x ∈ [q.box.x1, q.box.y1, q.box.x2, q.box.y2, q.prob], t < x then
        .error "object of type 'numpy.float64' has no len()" else .ok [] := by
    unfold predictedBoxes
    rw [if_pos h]
    cases c with
    | nil => exact absurd rfl hc
    | cons q l =>
      show (if _ then _ else _) = _
      refine if_congr (exists_congr fun q => and_congr_right fun _ => ?_) rfl rfl
      simp
  unfold visualize
  dsimp only
  rw [hp]
  by_cases hx : ∃ q ∈ c, ∃ x ∈ [q.box.x1, q.box.y1, q.box.x2, q.box.y2, q.prob], t < x
  · rw [if_pos hx]
    exact ⟨Or.inr ⟨_, rfl⟩, ⟨fun _ => hx, fun _ => ⟨_, rfl⟩⟩⟩
  · rw [if_neg hx]
    exact ⟨Or.inl rfl, ⟨fun he => (by obtain ⟨e, he⟩ := he; cases he), fun h => absurd h hx⟩⟩

/-- **C141, legend.** The legend names what is drawn and the first ten classes. -/
theorem C141_legend (names : List (String × String)) (hn : names ≠ []) (hasLabel hasPrediction : Bool) :
    legendTexts names hasLabel hasPrediction =
      ["Legend"] ++ (if hasLabel then ["given label"] else []) ++ (if hasPrediction then ["predicted label"] else []) ++
        ["classes"] ++ (names.map Prod.snd).take 10 := by
  unfold legendTexts
  dsimp only
  rw [if_neg hn]
  have key : ∀ (a : List String), (a ++ ["classes"] ++ names.map Prod.snd).take (a.length + 1 + min names.length 10) =
      a ++ ["classes"] ++ (names.map Prod.snd).take 10 := by
    intro a
    have hl : a.length + 1 = (a ++ ["classes"]).length := by simp
    rw [hl, List.take_length_add_append]
    congr 1
    rcases le_total names.length 10 with h | h
    · rw [min_eq_left h, List.take_of_length_le (by simp), List.take_of_length_le (by simpa using h)]
    · rw [min_eq_right h]
  exact key _

/-- **C141 (partial), sizes.** The size plots show the most frequent annotated classes, at most as many as asked for, each with the
sizes of all its annotated and all its predicted boxes, provided that each of them is predicted somewhere. -/
theorem C141_sizes_partial (names : Fin K → Option N) (m : ℕ) (images : List (Image ℚ K))
    (hp : ∀ c, sizesOf names (images.flatMap labBoxes) c ≠ [] → sizesOf names (images.flatMap predBoxes) c ≠ []) :
    ∃ plots, plotSizes names (some m) images = .ok plots ∧
      plots.length = min m (sizeDistribution names false images).1.length ∧ (plots.map Prod.fst).Nodup ∧
      (∀ e ∈ plots, e.2.1 ≠ [] ∧ e.2.1 = sizesOf names (images.flatMap labBoxes) e.1 ∧
        e.2.2 = sizesOf names (images.flatMap predBoxes) e.1) ∧
      plots.Pairwise (fun a b => b.2.1.length ≤ a.2.1.length) ∧
      ∀ c, c ∉ plots.map Prod.fst → ∀ e ∈ plots, (sizesOf names (images.flatMap labBoxes) c).length ≤ e.2.1.length := by
  obtain ⟨⟨n1, n2⟩, l, p, hs⟩ := C92_sizes names true images
  obtain ⟨s1, -⟩ := hs rfl
  set d := sizeDistribution names true images with hd
  have hget : ∀ e ∈ d.1.take m, (match d.2.lookup e.1 with
      | none => .error "KeyError"
      | some v => .ok (e.1, e.2, v) : Except String (N × List ℚ × List ℚ)) =
      .ok (e.1, e.2, sizesOf names (images.flatMap predBoxes) e.1) := by
    intro e he
    obtain ⟨h1, h2⟩ := (l e.1 e.2).mp (List.mem_of_mem_take he)
    have h3 := (p e.1 _).mpr ⟨rfl, hp e.1 (h1 ▸ h2)⟩
    rw [(lookup_of_mem _ n2 _ _).mpr h3]
  refine ⟨(d.1.take m).map (fun e => (e.1, e.2, sizesOf names (images.flatMap predBoxes) e.1)), ?_, ?_, ?_, ?_, ?_, ?_⟩
  · exact mapM_eq_map _ _ _ hget
  · rw [List.length_map, List.length_take]
    congr 1
    exact (sortByNumber_perm _).length_eq
  · rw [List.map_map]
    exact n1.sublist ((List.take_sublist m d.1).map Prod.fst)
  · intro e he
    obtain ⟨x, hx, rfl⟩ := List.mem_map.mp he
    obtain ⟨h1, h2⟩ := (l x.1 x.2).mp (List.mem_of_mem_take hx)
    exact ⟨h2, h1, rfl⟩
  · rw [List.pairwise_map]
    exact s1.sublist (List.take_sublist m d.1)
  · intro c hc e he
    obtain ⟨x, hx, rfl⟩ := List.mem_map.mp he
    by_cases h0 : sizesOf names (images.flatMap labBoxes) c = []
    · rw [h0]
      exact Nat.zero_le _
    · have hm := (l c _).mpr ⟨rfl, h0⟩
      have hdrop : (c, sizesOf names (images.flatMap labBoxes) c) ∈ d.1.drop m := by
        rw [← List.take_append_drop m d.1, List.mem_append] at hm
        refine hm.resolve_left (fun ht => hc ?_)
        rw [List.map_map]
        exact List.mem_map.mpr ⟨_, ht, rfl⟩
      have hpw := s1
      rw [← List.take_append_drop m d.1, List.pairwise_append] at hpw
      exact hpw.2.2 x hx _ hdrop

/-- **C141 fails for a class that is never predicted**: `plot_class_size_distributions` raises if such a class is to be shown, for
example if no more classes are annotated than shown. -/
theorem C141_not_unpredicted (names : Fin K → Option N) (m : ℕ) (images : List (Image ℚ K)) (c : N)
    (hl : sizesOf names (images.flatMap labBoxes) c ≠ []) (hp : sizesOf names (images.flatMap predBoxes) c = [])
    (hm : (sizeDistribution names false images).1.length ≤ m) : ∃ e, plotSizes names (some m) images = .error e := by
  obtain ⟨⟨n1, n2⟩, l, p, -⟩ := C92_sizes names true images
  cases h : plotSizes names (some m) images with
  | error e => exact ⟨e, rfl⟩
  | ok plots =>
    exfalso
    unfold plotSizes at h
    dsimp only [Option.isSome] at h
    have hlen : (sizeDistribution names true images).1.length ≤ m := by
      refine le_trans (le_of_eq ?_) hm
      exact (sortByNumber_perm _).length_eq
    rw [List.take_of_length_le hlen] at h
    obtain ⟨y, hy⟩ := mapM_ok_of_mem _ _ _ h _ ((l c _).mpr ⟨rfl, hl⟩)
    have : (sizeDistribution names true images).2.lookup c = none := by
      cases hk : (sizeDistribution names true images).2.lookup c with
      | none => rfl
      | some v =>
        have hv := (p c v).mp ((lookup_of_mem _ n2 _ _).mp hk)
        exact absurd (hv.1.trans hp) hv.2
    rw [this] at hy
    cases hy

/-- **C141 fails for `class_to_show=None`**, which the code means to support: it raises if any box is annotated. -/
theorem C141_not_none (names : Fin K → Option N) (images : List (Image ℚ K)) (c : N)
    (hl : sizesOf names (images.flatMap labBoxes) c ≠ []) : ∃ e, plotSizes names none images = .error e := by
  obtain ⟨-, l, -⟩ := C92_sizes names false images
  unfold plotSizes
  dsimp only [Option.isSome]
  rw [if_neg]
  · exact ⟨_, rfl⟩
  · intro h
    have := (l c _).mpr ⟨rfl, hl⟩
    rw [h] at this
    cases this

/-- Class 1 of the example has annotated boxes but is never predicted. -/
example : ∃ e, plotSizes some (some 10) twoImages = .error e :=
  C141_not_unpredicted some 10 twoImages 1 (by decide +kernel) (by decide +kernel) (by decide +kernel)

example : visualize (some [(⟨1, 2, 4, 6⟩, 1)]) (some [[⟨⟨0, 0, 1, 1⟩, 1/2⟩], [⟨⟨1, 1, 2, 4⟩, 9/10⟩]]) (some (3/5)) true =
    .ok [⟨0, .red, (1, 2, 3, 4), 1⟩, ⟨0, .blue, (1, 1, 1, 3), 1⟩] := by
  refine (congrArg Except.ok ?_ : Except.ok (ε := String) ([Drawn.mk 0 .red (xywh ⟨1, 2, 4, 6⟩) 1] ++
    (keptBoxes (some (3/5)) [[⟨⟨0, 0, 1, 1⟩, 1/2⟩], [⟨⟨1, 1, 2, 4⟩, 9/10⟩]]).map
      (fun e => Drawn.mk 0 .blue (xywh e.1) e.2)) = _)
  decide +kernel

end Cleanlab.Props
