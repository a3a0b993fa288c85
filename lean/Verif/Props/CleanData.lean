import Verif.Props.RegressionFit
import Verif.Props.DetectionScore
import Verif.Props.DetectionAp
import Verif.Props.Crowdlab
import Verif.Props.MajorityVote

/-!
# C154: data that the model and the annotators agree on is reported clean
-/

namespace Cleanlab.Props

open Np

/-! ## Regression -/

section Regression

open Cleanlab.Regression Cleanlab.RegressionFit

variable {n : ℕ} {κ : Type}

/-- `sklearn.metrics.r2_score`. -/
def rSquared (y p : Fin n → ℚ) : ℚ :=
  let residual := ∑ i, (y i - p i) ^ 2
  let mean := (∑ i, y i) / (n : ℚ)
  let total := ∑ i, (y i - mean) ^ 2
  if residual = 0 then 1 else if total = 0 then 0 else 1 - residual / total

theorem rSquared_le (y p : Fin n → ℚ) : rSquared y p ≤ 1 := by
  unfold rSquared
  dsimp only
  have h1 : 0 ≤ ∑ i, (y i - p i) ^ 2 := Finset.sum_nonneg (fun i _ => sq_nonneg _)
  have h2 : 0 ≤ ∑ i, (y i - (∑ i, y i) / (n : ℚ)) ^ 2 := Finset.sum_nonneg (fun i _ => sq_nonneg _)
  split_ifs
  · exact le_rfl
  · exact zero_le_one
  · have := div_nonneg h1 h2
    linarith

theorem rSquared_self (y : Fin n → ℚ) : rSquared y y = 1 := by
  unfold rSquared
  simp

theorem cv_perfect (fit : Fit n) (assign : ℕ → ℕ) (s : List (Fin n)) (hnd : s.Nodup) (hs : ∀ i, i ∈ s) (folds : ℕ)
    (hassign : ∀ q, assign q < folds) (y : Fin n → ℚ) (hfit : ∀ j T i, fit j T i = y i) (p : Fin n → ℚ)
    (h : cvPredictions fit assign s 0 folds = .ok p) : p = y := by
  obtain ⟨-, -, -, rfl⟩ := cvPredictions_ok fit assign s 0 folds p h
  funext i
  have h0 : s.length - ⌈(s.length : ℚ) * 0⌉.toNat = s.length := by simp
  rw [h0, List.drop_length, List.take_length, if_neg List.not_mem_nil]
  obtain ⟨q, hq, rfl⟩ := List.getElem_of_mem (hs i)
  rw [cvLoop_apply fit assign s hnd q hq folds (hassign q), hfit]

/-- **C154, regression.** If the model reproduces every label in every cross-validation, `find_label_issues` of the
regression learner removes nothing, flags nothing, gives every label quality 1, and reports the given labels as
predicted, whatever search range and uncertainty are used. -/
theorem C154_regression (B : ArgSort ℚ) (A : ArgSort ℝ) (E : RegressionFit.Env n κ) (o o' : Obj) (c : FindCall n κ) (t : Table)
    (h : RegressionFit.find B A E o c = (o', .ok t)) (hr2 : E.r2 = rSquared)
    (hinit : ∀ q, E.assignInitial q < E.folds) (hfinal : ∀ q, E.assignFinal q < E.folds)
    (hfit : ∀ j T i, E.fit c.y c.kwargs j T i = c.y i) (hint : c.integer = true → ∀ i, ∃ z : ℤ, c.y i = z) :
    o'.k = some 0 ∧ t.isIssue = .bools (List.replicate n false) ∧ t.quality = some (List.replicate n 1) ∧
      t.given = some (List.ofFn c.y) ∧ t.predicted = some (List.ofFn c.y) := by
  obtain ⟨u, r, -, hr, hk, rfl⟩ := find_plain B A E o o' c t h
  obtain ⟨initial, k, v, med, hi, hb, hk', hp, hm, hs, hf⟩ := findLabelIssues_ok B A _ _ _ _ _ _ hr
  have hini : initial = c.y := cv_perfect _ _ _ (List.nodup_finRange n) List.mem_finRange _ hinit c.y hfit _ hi
  have hone : (plainEnv E c.y u).r2 initial = 1 := by
    change E.r2 c.y initial = 1
    rw [hr2, hini, rSquared_self]
  have hle : v ≤ 1 := by
    rcases (findBestK_good _ _ _ _ _ _ _ hb).1 with ⟨-, rfl⟩ | ⟨t, preds, -, rfl⟩
    · norm_num
    · change E.r2 c.y preds ≤ 1
      rw [hr2]
      exact rSquared_le _ _
  have hk0 : r.k = 0 := by rw [hk', hone, if_pos hle]
  rw [hk0] at hp
  have hpred : r.predicted = c.y :=
    cv_perfect _ _ _ ((B.perm_indices _).nodup_iff.mpr (List.nodup_finRange n))
      (fun i => (B.perm_indices _).mem_iff.mpr (List.mem_finRange i)) _ hfinal c.y hfit _ hp
  have hsc : r.scores = fun _ => 1 := by
    rw [hs]
    funext i
    simp [adjusted, hpred]
  have hfl : r.flags = fun _ => false := by
    rw [hf, hk0]
    funext i
    simp [flag]
  refine ⟨by rw [hk, hk0], ?_, ?_, rfl, ?_⟩
  · unfold tableOf
    rw [hfl]
    simp [List.ofFn_const]
  · unfold tableOf
    rw [hsc]
    simp [List.ofFn_const]
  · unfold tableOf
    dsimp only
    congr 2
    funext i
    rw [hpred]
    split_ifs with hc
    · obtain ⟨z, hz⟩ := hint hc i
      rw [hz]
      congr 1
      unfold trunc
      simp
    · rfl

/-- Four examples, a model that reproduces them, two folds, and the score of `sklearn`. -/
def perfectEnv : RegressionFit.Env 4 Unit :=
  { fit := fun y _ _ _ i => y i, noKwargs := (), folds := 2, nBoot := 0, aleatoric := false
    assignInitial := fun q => q % 2, assignFinal := fun q => q % 2, assignSearch := fun _ q => q % 2
    assignBoot := fun _ q => q % 2, assignResidual := fun q => q % 2, r2 := rSquared }

/-- A search over two fractions. -/
def perfectCall : FindCall 4 Unit := { y := ![1, 2, 3, 5], coarse := [1/4, 1/2], size := 0, kwargs := () }

example (A : ArgSort ℝ) : ∃ o t, RegressionFit.find (stableSort ℚ) A perfectEnv {} perfectCall = (o, .ok t) ∧
    t.quality = some [1, 1, 1, 1] := by
  have hc : chooseFraction (stableSort ℚ) perfectEnv perfectCall = .ok (0, [0, 1, 2, 3]) :=
    ok_of_toOption (by decide +kernel)
  have hp : cvPredictions (perfectEnv.fit perfectCall.y perfectCall.kwargs) perfectEnv.assignFinal [0, 1, 2, 3] 0
      perfectEnv.folds = .ok ![1, 2, 3, 5] := ok_of_toOption (by decide +kernel)
  have hu : resolveUncertainty perfectEnv perfectCall.y ![1, 2, 3, 5] perfectCall.uncertainty = .ok (fun _ => 0 + 0) := rfl
  obtain ⟨med, hmed⟩ := Option.isSome_iff_exists.mp (npMedian_isSome A ((List.finRange 4).map
    (adjusted (fun i : Fin 4 => (((![1, 2, 3, 5] : Fin 4 → ℚ) i - perfectCall.y i : ℚ) : ℝ)) (fun _ => 0 + 0)))
    (by simp))
  have hf : ∃ o t, RegressionFit.find (stableSort ℚ) A perfectEnv {} perfectCall = (o, .ok t) := by
    unfold RegressionFit.find
    rw [hc]
    dsimp only
    unfold RegressionFit.issueTable
    rw [hp]
    dsimp only [bind, Except.bind]
    rw [hu]
    dsimp only
    unfold qualityScores
    rw [hmed]
    exact ⟨_, _, rfl⟩
  obtain ⟨o, t, h⟩ := hf
  exact ⟨o, t, h, (C154_regression _ A _ _ _ _ _ h rfl (fun q => Nat.mod_lt q (by decide)) (fun q => Nat.mod_lt q (by decide))
    (fun _ _ _ => rfl) (fun hi => by cases hi)).2.2.1⟩

end Regression

/-! ## Object detection -/

section Detection

open Cleanlab.Detection

variable {K : ℕ}

/-- The predictions of an image match its annotations: every predicted box is an annotated one, every annotated box is
predicted in its class with more than even probability, and boxes have an area of at least `1e-6`. -/
structure Matches (im : Image ℝ K) : Prop where
  predicted : ∀ k, ∀ p ∈ im.preds k, (p.box, k) ∈ im.labels
  annotated : ∀ l ∈ im.labels, ∃ p ∈ im.preds l.2, p.box = l.1 ∧ 1 / 2 < p.prob
  proper : ∀ l ∈ im.labels, ValidBox l.1 ∧ eps ≤ l.1.area

theorem iou_self {b : Box ℝ} (h : ValidBox b ∧ eps ≤ b.area) : iou b b = 1 :=
  (C39_one_iff_equal_partial b b h.1 h.1 h.2).mpr rfl

theorem similarity_self {b : Box ℝ} (h : ValidBox b ∧ eps ≤ b.area) : similarity b b = 1 := by
  unfold similarity
  rw [iou_self h]
  simp [closeness]

theorem le_maxOr (d : ℝ) (l : List ℝ) (x : ℝ) (hx : x ∈ l) : x ≤ maxOr d l := by
  have key : ∀ (xs : List ℝ) (a : ℝ), a ≤ xs.foldl max a ∧ ∀ x ∈ xs, x ≤ xs.foldl max a := by
    intro xs
    induction xs with
    | nil => intro a; exact ⟨le_rfl, fun x hx => absurd hx List.not_mem_nil⟩
    | cons b xs ih =>
      intro a
      rw [List.foldl_cons]
      refine ⟨(le_max_left a b).trans (ih _).1, fun x hx => ?_⟩
      rcases List.mem_cons.mp hx with rfl | hx
      · exact (le_max_right a x).trans (ih _).1
      · exact (ih _).2 x hx
  cases l with
  | nil => exact absurd hx List.not_mem_nil
  | cons a xs =>
    rcases List.mem_cons.mp hx with rfl | hx
    · exact (key xs x).1
    · exact (key xs a).2 x hx

theorem matches_overlooked (minSim : ℝ) {im : Image ℝ K} (h : Matches im) : ∀ x ∈ overlookedScores minSim im, x = none := by
  classical
  intro x hx
  unfold overlookedScores at hx
  obtain ⟨p, hp, rfl⟩ := List.mem_map.mp hx
  have hl := h.predicted p.2 p.1 ((mem_allPreds im p).mp hp)
  rw [if_pos (Or.inr ⟨_, hl, by rw [iou_self (h.proper _ hl)]; exact zero_lt_one⟩)]

theorem matches_badloc {im : Image ℝ K} (h : Matches im) : ∀ x ∈ badlocScores im, x = 1 := by
  classical
  intro x hx
  unfold badlocScores at hx
  obtain ⟨l, hl, rfl⟩ := List.mem_map.mp hx
  dsimp only
  split_ifs with hc
  · rfl
  · obtain ⟨p, hp, hb, hprob⟩ := h.annotated l hl
    refine le_antisymm (maxOr_inUnit one_inUnit (fun y hy => ?_)).2 (le_maxOr _ _ _ ?_)
    · obtain ⟨q, -, rfl⟩ := List.mem_map.mp hy
      exact similarity_inUnit _ _
    · refine List.mem_map.mpr ⟨(p, l.2), ?_, ?_⟩
      · simp only [List.mem_filter, decide_eq_true_eq]
        refine ⟨⟨(mem_allPreds im (p, l.2)).mpr hp, trivial⟩, hprob, ?_⟩
        rw [hb, iou_self (h.proper l hl)]
        exact zero_lt_one
      · dsimp only
        rw [hb, similarity_self (h.proper l hl)]

/-- Annotated boxes of different classes overlap by less than `7/9`. -/
def Distinct (im : Image ℝ K) : Prop := ∀ l ∈ im.labels, ∀ l' ∈ im.labels, l.2 ≠ l'.2 → iou l.1 l'.1 < 7 / 9

theorem matches_swap (check : Bool) (minSim : ℝ) {im : Image ℝ K} (h : Matches im) (hd : Distinct im) :
    ∀ x ∈ swapScores check minSim im, 2 / 10 < x := by
  classical
  intro x hx
  unfold swapScores at hx
  obtain ⟨i, rfl⟩ := List.mem_ofFn.mp hx
  dsimp only
  have hi : im.labels.get i ∈ im.labels := List.get_mem _ i
  split_ifs with h1 h2
  · obtain ⟨-, j, -, hij, hne⟩ := h1
    have := hd _ hi _ (List.get_mem _ j) hne
    linarith
  · norm_num
  · refine lt_max_of_lt_right ?_
    rcases maxOr_mem 0 ((((allPreds im).filter (fun p => p.2 ≠ (im.labels.get i).2)).filter
        (fun p => p.1.prob > 95 / 100)).map (fun p => similarity (im.labels.get i).1 p.1.box)) with ⟨-, he⟩ | hm
    · simp only [List.get_eq_getElem] at he ⊢
      rw [he]
      norm_num
    · obtain ⟨p, hp, he⟩ := List.mem_map.mp hm
      have hp := List.mem_of_mem_filter hp
      rw [List.mem_filter, mem_allPreds] at hp
      have hlt := hd _ hi _ (h.predicted p.2 p.1 hp.1) (by simpa using fun he => hp.2 |> fun h2 => by simp [he] at h2)
      simp only [List.get_eq_getElem] at he hlt ⊢
      rw [← he]
      unfold similarity
      have hc := (closeness_range im.labels[i.val].1 p.1.box).2
      linarith

theorem anyIssue_false (scores : List (Option ℝ)) (ts : List ℝ) (hs : ∀ x ∈ scores, ∀ y, x = some y → 2 / 10 < y)
    (ht : ∀ t ∈ ts, t ≤ 1 / 4) : ¬ AnyIssue scores ts := by
  rintro ⟨x, hx, hle⟩
  have h1 := (List.of_mem_zip hx).1
  have h2 := ht _ (List.of_mem_zip hx).2
  cases hv : x.1 with
  | none => rw [hv] at hle; simp at hle; linarith
  | some y => have := hs _ h1 y hv; rw [hv] at hle; simp at hle; linarith

/-- **C154, object detection.** If in every image the predicted boxes are the annotated ones, predicted in their classes
with more than even probability, and boxes of different classes overlap by less than `7/9`, then no image is reported. -/
theorem C154_detection (A : ArgSort ℝ) (check : Bool) (images : List (Image ℝ K)) (h : ∀ im ∈ images, Matches im)
    (hd : ∀ im ∈ images, Distinct im) : issueMask A check images = List.replicate images.length false := by
  classical
  rw [List.eq_replicate_iff]
  refine ⟨by simp [issueMask], fun b hb => ?_⟩
  unfold issueMask at hb
  obtain ⟨im, him, rfl⟩ := List.mem_map.mp hb
  rw [decide_eq_false_iff_not]
  have hap : ∀ (l : List (Fin K)), ∀ t ∈ l.map (perClassAp A images), t ≤ 1 / 4 := by
    intro l t ht
    obtain ⟨k, -, rfl⟩ := List.mem_map.mp ht
    exact (C41_per_class_ap_range A images k).2
  rintro (hi | hi | hi)
  · refine anyIssue_false _ _ (fun x hx y hy => ?_) ?_ hi
    · rw [matches_overlooked _ (h im him) x hx] at hy
      cases hy
    · have := hap ((allPreds im).map (·.2))
      rwa [List.map_map] at this
  · refine anyIssue_false _ _ (fun x hx y hy => ?_) ?_ hi
    · obtain ⟨z, hz, rfl⟩ := List.mem_map.mp hx
      rw [← Option.some.inj hy, matches_badloc (h im him) z hz]
      norm_num
    · have := hap (im.labels.map (·.2))
      rwa [List.map_map] at this
  · refine anyIssue_false _ _ (fun x hx y hy => ?_) ?_ hi
    · obtain ⟨z, hz, rfl⟩ := List.mem_map.mp hx
      rw [← Option.some.inj hy]
      exact matches_swap check _ (h im him) (hd im him) z hz
    · have := hap (im.labels.map (·.2))
      rwa [List.map_map] at this

/-- **C154, object detection.** An image with objects of one class only whose predictions match its annotations has label
quality 1. -/
theorem C154_detection_score (w : Weights) (check : Bool) (minSim : ℝ) (im : Image ℝ K) (h : Matches im)
    (hk : ∀ l ∈ im.labels, ∀ l' ∈ im.labels, l.2 = l'.2) : imageScore w check minSim im = 1 := by
  classical
  have hv : ∀ l : List (Option ℝ), (∀ x ∈ l.reduceOption, x = 1) → validScore temperature l = 1 := by
    intro l hl
    by_cases hne : l.reduceOption = []
    · exact (C73_pooling _ _).1 hne
    · obtain ⟨h1, h2⟩ := (C73_pooling temperature l).2 1 1 (fun x hx => by rw [hl x hx]; exact ⟨le_rfl, le_rfl⟩) hne
      exact le_antisymm h2 h1
  have ho : validScore temperature (overlookedScores minSim im) = 1 := hv _ (fun x hx => by
    rw [List.reduceOption_mem_iff] at hx
    exact absurd (matches_overlooked _ h _ hx) (by simp))
  have hb : validScore temperature ((badlocScores im).map some) = 1 := hv _ (fun x hx => by
    rw [reduceOption_map_some] at hx
    exact matches_badloc h x hx)
  have hs : validScore temperature ((swapScores check minSim im).map some) = 1 := hv _ (fun x hx => by
    rw [reduceOption_map_some] at hx
    unfold swapScores at hx
    obtain ⟨i, rfl⟩ := List.mem_ofFn.mp hx
    dsimp only
    rw [if_neg, if_pos]
    · left
      rw [List.filter_eq_nil_iff]
      intro p hp
      have := hk _ (h.predicted p.2 p.1 ((mem_allPreds im p).mp hp)) _ (List.get_mem im.labels i)
      simpa using this
    · rintro ⟨-, j, -, -, hne⟩
      exact hne (hk _ (List.get_mem _ i) _ (List.get_mem _ j)))
  unfold imageScore
  dsimp only
  rw [ho, hb, hs]
  simp [addTiny]

/-- Two neighbouring objects of different classes, both found. -/
noncomputable def twoObjects : Image ℝ 2 :=
  { preds := fun k => if k = 0 then [⟨⟨0, 0, 2, 2⟩, 99 / 100⟩] else [⟨⟨1, 0, 3, 2⟩, 3 / 4⟩]
    labels := [(⟨0, 0, 2, 2⟩, 0), (⟨1, 0, 3, 2⟩, 1)] }

example (A : ArgSort ℝ) : issueMask A true [twoObjects, twoObjects] = [false, false] := by
  have hm : Matches twoObjects := by
    refine ⟨fun k p hp => ?_, fun l hl => ?_, fun l hl => ?_⟩
    · fin_cases k <;> simp_all [twoObjects]
    · rcases List.mem_cons.mp hl with rfl | hl
      · exact ⟨⟨⟨0, 0, 2, 2⟩, 99 / 100⟩, by simp [twoObjects], rfl, by norm_num⟩
      · rw [List.mem_singleton] at hl
        subst hl
        exact ⟨⟨⟨1, 0, 3, 2⟩, 3 / 4⟩, by simp [twoObjects], rfl, by norm_num⟩
    · rcases List.mem_cons.mp hl with rfl | hl
      · norm_num [ValidBox, Box.area, eps]
      · rw [List.mem_singleton] at hl
        subst hl
        norm_num [ValidBox, Box.area, eps]
  have h1 : iou (⟨0, 0, 2, 2⟩ : Box ℝ) ⟨1, 0, 3, 2⟩ < 7 / 9 := by norm_num [iou, Box.area, eps]
  have hd : Distinct twoObjects := by
    intro l hl l' hl' hne
    simp only [twoObjects, List.mem_cons, List.not_mem_nil, or_false] at hl hl'
    rcases hl with rfl | rfl <;> rcases hl' with rfl | rfl
    · exact absurd rfl hne
    · exact h1
    · rw [C39_symmetric]; exact h1
    · exact absurd rfl hne
  exact C154_detection A true [twoObjects, twoObjects] (by simp [hm]) (by simp [hd])

end Detection

/-! ## Several annotators -/

section Annotators

open Cleanlab.Multiannotator Cleanlab.Spec

variable {n M K : ℕ} {F : Type} [Field F] [LinearOrder F] [IsStrictOrderedRing F]

/-- Whoever labelled example `i` called it `t i`. -/
def Unanimous (L : Annotations n M K) (t : Fin n → Fin K) : Prop := ∀ i m, L i m = none ∨ L i m = some (t i)

omit [LinearOrder F] in
theorem mean_ones (l : List F) (hl : l ≠ []) (h : ∀ x ∈ l, x = 1) [CharZero F] : l.sum / l.length = 1 := by
  have : l = List.replicate l.length 1 := List.eq_replicate_iff.mpr ⟨rfl, h⟩
  have hs : l.sum = l.length := by
    conv_lhs => rw [this]
    simp
  rw [hs]
  exact div_self (by simpa using hl)

theorem unanimous_votes {L : Annotations n M K} {t : Fin n → Fin K} (h : Unanimous L t) (i : Fin n) :
    numVotes L i (t i) = numAnnotators L i ∧ ∀ k, k ≠ t i → numVotes L i k = 0 := by
  constructor
  · unfold numVotes numAnnotators
    congr 1
    ext m
    simp only [Finset.mem_filter, Finset.mem_univ, true_and]
    rcases h i m with h | h <;> simp [h]
  · intro k hk
    unfold numVotes
    rw [Finset.card_eq_zero, Finset.filter_eq_empty_iff]
    intro m _
    rcases h i m with h | h <;> simp [h, hk.symm]

theorem annotators_pos {L : Annotations n M K} (hv : ValidAnnotations L) (i : Fin n) : 0 < numAnnotators L i := by
  obtain ⟨m, hm⟩ := hv.1 i
  exact Finset.card_pos.mpr ⟨m, by simp [hm]⟩

theorem unanimous_agreement {L : Annotations n M K} {t : Fin n → Fin K} (hv : ValidAnnotations L) (h : Unanimous L t)
    (i : Fin n) : agreementWithConsensus (F := F) L t i = some 1 := by
  obtain ⟨a, ha, he, -⟩ := C21_example_agreement (F := F) L t i (hv.1 i)
  rw [ha, he, (unanimous_votes h i).1, div_self (by exact_mod_cast (annotators_pos hv i).ne')]

theorem unanimous_annotators {L : Annotations n M K} {t : Fin n → Fin K} (hv : ValidAnnotations L) (h : Unanimous L t)
    (m : Fin M) : agreementWithAnnotators (F := F) L m = some 1 := by
  have hall : ∀ m i m', L i m ≠ none → L i m' ≠ none → L i m' = L i m := by
    intro m i m' h1 h2
    rw [(h i m).resolve_left h1, (h i m').resolve_left h2]
  have hone : ∀ m a, singleAgreement (F := F) L m = some a → a = 1 := by
    intro m a ha
    have hs := ha
    rw [singleAgreement_eq] at hs
    have hp : pairs L m ≠ 0 := by
      intro h0
      rw [if_pos h0] at hs
      cases hs
    obtain ⟨b, hb, -, -, -, h1⟩ := C21_annotator_agreement (F := F) L hv m
    have := h1 hp (hall m)
    unfold agreementWithAnnotators at hb
    rw [ha] at hb
    rw [Option.some.inj hb, this]
  obtain ⟨b, hb, -⟩ := C21_annotator_agreement (F := F) L hv m
  rw [hb]
  unfold agreementWithAnnotators at hb
  cases hs : singleAgreement (F := F) L m with
  | some a =>
    rw [hs] at hb
    rw [← Option.some.inj hb, hone m a hs]
  | none =>
    rw [hs] at hb
    dsimp only at hb
    split_ifs at hb with h0
    rw [← Option.some.inj hb]
    congr 1
    refine mean_ones _ (fun he => h0 (by rw [he]; rfl)) (fun x hx => ?_)
    obtain ⟨m', -, hm'⟩ := List.mem_filterMap.mp hx
    exact hone m' x hm'

omit [IsStrictOrderedRing F] in
theorem unanimous_majority {L : Annotations n M K} {t : Fin n → Fin K} (hv : ValidAnnotations L) (h : Unanimous L t)
    (P : Option (Fin n → Fin K → F)) (rand : Fin n → ℕ) : majorityVote L P rand = .ok t := by
  have hmode : ∀ i k, IsMode L i k → k = t i := by
    intro i k hk
    by_contra hne
    have h1 := hk (t i)
    rw [(unanimous_votes h i).1, (unanimous_votes h i).2 k hne] at h1
    exact absurd (annotators_pos hv i) (by omega)
  have hK : ∀ i : Fin n, NeZero K := fun i => ⟨fun h0 => by subst h0; exact (t i).elim0⟩
  obtain ⟨i0, -⟩ := hv.2.2.2
  have : NeZero K := hK i0
  obtain ⟨r, hr⟩ := C19_returns_partial L P rand hv ⟨i0, t i0, fun j => by
    by_cases hj : j = t i0
    · rw [hj]
    · rw [(unanimous_votes h i0).2 j hj]; exact Nat.zero_le _, fun k hk => hmode i0 k hk⟩
  rw [hr]
  congr 1
  funext i
  exact hmode i _ (C19_majority_vote_is_mode L P rand r hr i)

/-- The posterior when everybody agrees: the annotators' weights go to the label. -/
theorem unanimous_posterior [NeZero K] {L : Annotations n M K} {t : Fin n → Fin K} (hv : ValidAnnotations L)
    (h : Unanimous L t) (P : Fin n → Fin K → F) (root : F) :
    ∃ mw, postCrowdlab L t P root = .ok
      { post := fun i k => (P i k * mw + if k = t i then (numAnnotators L i : F) else 0) / ((numAnnotators L i : F) + mw)
        modelWeight := mw, annWeight := fun _ => 1 } := by
  refine ⟨modelWeight L t P root, ?_⟩
  have hcl : mean? ((multiRows L).map (agreementWithConsensus (F := F) L t)) = some 1 := by
    have hs := mean?_isSome ((multiRows L).map (agreementWithConsensus (F := F) L t)) (by
      rw [List.length_map]
      intro h0
      obtain ⟨i, hi⟩ := hv.2.2.2
      have : i ∈ multiRows L := by
        unfold multiRows
        rw [List.mem_filter, numAnnotations_eq]
        exact ⟨List.mem_finRange i, by simpa using hi⟩
      rw [List.length_eq_zero_iff.mp h0] at this
      cases this) (fun x hx => by
        obtain ⟨i, -, rfl⟩ := List.mem_map.mp hx
        rw [unanimous_agreement hv h]; rfl)
    obtain ⟨a, ha⟩ := Option.isSome_iff_exists.mp hs
    rw [ha]
    have hmap : (multiRows L).map (agreementWithConsensus (F := F) L t) = (multiRows L).map (fun _ => some 1) :=
      List.map_congr_left (fun i _ => unanimous_agreement hv h i)
    rw [hmap] at ha
    unfold mean? at ha
    split_ifs at ha with h0
    have h2 : ∀ l : List (Fin n), (l.map (fun _ => (some 1 : Option F))).mapM id = some (l.map (fun _ => (1 : F))) := by
      intro l
      induction l with
      | nil => rfl
      | cons a l ih => rw [List.map_cons, List.mapM_cons, ih]; rfl
    rw [h2] at ha
    rw [← Option.some.inj ha]
    congr 1
    have := mean_ones ((multiRows L).map (fun _ => (1 : F))) (fun he => h0 (by
      rw [List.length_map]; rw [List.map_eq_nil_iff] at he; rw [he]; rfl)) (fun x hx => by
      obtain ⟨_, -, rfl⟩ := List.mem_map.mp hx; rfl)
    simpa using this
  rw [postCrowdlab_eq L t P root 1 (fun _ => 1) _ (fun _ => 1) hcl (unanimous_annotators hv h) rfl (fun m => by
    unfold adjustedAgreement
    rw [sub_self, zero_div, sub_zero]
    refine max_eq_left ?_
    unfold lowerBound
    norm_num)]
  congr 2
  funext i k
  unfold posterior
  dsimp only
  have hw : (∑ m, if (L i m).isSome = true then (1 : F) else 0) = numAnnotators L i := by
    unfold numAnnotators
    rw [Finset.card_filter]
    push_cast
    refine Finset.sum_congr rfl (fun m _ => ?_)
    cases L i m <;> simp
  rw [hw]
  congr 2
  have hsum : (∑ m, if k = t i then (if (L i m).isSome = true then (1 : F) else 0) else 0) =
      if k = t i then (numAnnotators L i : F) else 0 := by
    split_ifs with hk
    · exact hw
    · simp
  rw [← hsum]
  refine Finset.sum_congr rfl (fun m _ => ?_)
  rcases h i m with hm | hm
  · rw [hm]; simp
  · rw [hm]
    dsimp only
    by_cases hk : k = t i
    · rw [if_pos hk, if_pos hk.symm]; simp
    · rw [if_neg hk, if_neg (fun he => hk he.symm)]; simp

/-- **C154, several annotators.** If all who labelled an example agree, for every example, and the classes are chosen by
majority, or by quality with a model that predicts these labels too, then the consensus is the label given, every agreement
and the weight of every annotator is 1, no consensus is rated below the probability that the model gives to the label, and
a label that the model is certain of has quality 1, also for each annotator. -/
theorem C154_annotators [NeZero K] (L : Annotations n M K) (P : Fin n → Fin K → F) (rand : Fin n → ℕ) (root : F)
    (method : ConsensusMethod) (hv : ValidAnnotations L) (hP : ∀ i, IsDistribution (P i)) (hroot0 : 0 ≤ root)
    (hroot : root * root = (∑ i, (numAnnotators L i : F)) / n) (t : Fin n → Fin K) (h : Unanimous L t)
    (hm : method = .bestQuality → ∀ i j, P i j ≤ P i (t i)) :
    ∃ r, labelQualityMultiannotator L P rand root method = .ok r ∧ r.consensus = t ∧
      (∀ i, r.agreement i = some 1) ∧ (∀ m, r.posterior.annWeight m = 1) ∧ (∀ i, P i (t i) ≤ r.quality i) ∧
      ∀ i, P i (t i) = 1 → r.quality i = 1 ∧ ∀ m, L i m ≠ none → r.detailed i m = some 1 := by
  obtain ⟨mw, hpost⟩ := unanimous_posterior hv h P root
  obtain ⟨p, hp, -, hmw, -⟩ := C20_posterior_is_distribution L t P root hv hP hroot0 hroot
  rw [hpost] at hp
  have hmw : 0 < mw := by rw [← Except.ok.inj hp] at hmw; exact hmw
  have hpos : ∀ i, 0 < (numAnnotators L i : F) := fun i => by exact_mod_cast annotators_pos hv i
  have hbest : method = .bestQuality → bestQuality (fun i k => (P i k * mw + if k = t i then (numAnnotators L i : F) else 0) /
      ((numAnnotators L i : F) + mw)) t = t := by
    intro he
    funext i
    rcases bestQuality_spec (fun i k => (P i k * mw + if k = t i then (numAnnotators L i : F) else 0) /
      ((numAnnotators L i : F) + mw)) t i with hb | ⟨hb, -⟩
    · by_contra hne
      have h1 := hb (t i)
      rw [div_le_div_iff_of_pos_right (by linarith [hpos i]), if_pos rfl, if_neg hne] at h1
      have := mul_le_mul_of_nonneg_right (hm he i (bestQuality (fun i k => (P i k * mw +
        if k = t i then (numAnnotators L i : F) else 0) / ((numAnnotators L i : F) + mw)) t i)) hmw.le
      linarith [hpos i]
    · exact hb
  obtain ⟨r, hstats, hrc, hra, hrw, hrq, hrd⟩ : ∃ r, consensusStats L P t root = .ok r ∧ r.consensus = t ∧
      (∀ i, r.agreement i = some 1) ∧ (∀ m, r.posterior.annWeight m = 1) ∧
      (∀ i, r.quality i = (P i (t i) * mw + if t i = t i then (numAnnotators L i : F) else 0) /
        ((numAnnotators L i : F) + mw)) ∧
      (∀ i m, L i m ≠ none → r.detailed i m = some (r.quality i)) := by
    unfold consensusStats
    rw [hpost]
    refine ⟨_, rfl, rfl, fun i => unanimous_agreement hv h i, fun _ => rfl, fun _ => rfl, fun i m hm => ?_⟩
    dsimp only
    rw [(h i m).resolve_left hm]
    rfl
  have hq : ∀ i, P i (t i) ≤ (P i (t i) * mw + if t i = t i then (numAnnotators L i : F) else 0) /
      ((numAnnotators L i : F) + mw) := by
    intro i
    rw [if_pos rfl, le_div_iff₀ (by linarith [hpos i])]
    have := mul_le_of_le_one_left (hpos i).le (dist_le_one _ (hP i) (t i))
    linarith
  have hq1 : ∀ i, P i (t i) = 1 → (P i (t i) * mw + if t i = t i then (numAnnotators L i : F) else 0) /
      ((numAnnotators L i : F) + mw) = 1 := by
    intro i hi
    rw [hi, if_pos rfl, div_eq_one_iff_eq (by linarith [hpos i])]
    ring
  have hpr : r.posterior.post = fun i k => (P i k * mw + if k = t i then (numAnnotators L i : F) else 0) /
      ((numAnnotators L i : F) + mw) := by
    unfold consensusStats at hstats
    rw [hpost] at hstats
    rw [← Except.ok.inj hstats]
  refine ⟨r, ?_, hrc, hra, hrw, fun i => by rw [hrq]; exact hq i, fun i hi => ?_⟩
  · unfold labelQualityMultiannotator
    rw [(assertValidInputs_iff L).mpr hv, unanimous_majority hv h]
    dsimp only [bind, Except.bind]
    rw [hstats]
    cases method with
    | majorityVote => rfl
    | bestQuality =>
      dsimp only
      rw [hpr, hbest rfl, hstats]
  · have h1 : r.quality i = 1 := by rw [hrq]; exact hq1 i hi
    exact ⟨h1, fun m hm => by rw [hrd i m hm, h1]⟩

/-- Four annotators who agree about both examples. -/
def allFour : Annotations 2 4 2 := ![![some 1, some 1, some 1, some 1], ![some 0, some 0, some 0, some 0]]

example : ∃ r, labelQualityMultiannotator (F := ℚ) allFour ![![1/4, 3/4], ![1, 0]] (fun _ => 0) 2 .bestQuality = .ok r ∧
    r.consensus = ![1, 0] ∧ 3/4 ≤ r.quality 0 ∧ r.quality 1 = 1 := by
  obtain ⟨r, hr, hc, -, -, hq, h1⟩ := C154_annotators (F := ℚ) allFour ![![1/4, 3/4], ![1, 0]] (fun _ => 0) 2 .bestQuality
    ((assertValidInputs_iff _).mp (by decide +kernel)) (fun i => by
      fin_cases i <;> exact ⟨by decide +kernel, by decide +kernel⟩) (by norm_num) (by decide +kernel) ![1, 0]
    (by unfold Unanimous; decide +kernel) (fun _ => by decide +kernel)
  exact ⟨r, hr, hc, hq 0, (h1 1 rfl).1⟩

end Annotators

end Cleanlab.Props
