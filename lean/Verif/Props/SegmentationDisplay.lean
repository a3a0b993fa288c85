import Verif.Model.SegmentationDisplay
import Verif.Props.Segmentation
import Verif.Lemmas.Filter
import Verif.Props.Token

/-!
# C140: which images are displayed for segmentation data
-/

namespace Cleanlab.Props

open Np Cleanlab.Count Cleanlab.Segmentation Cleanlab.Spec

variable {N K h w : ℕ}

/-- Labels and predictions fit: every label is the number of a class of the predictions. -/
def LabelsFit (labels : Option (Stack N h w ℕ)) (P : Option (Stack N h w (Fin K → ℚ))) : Prop :=
  ∀ l ∈ labels, P.isSome → ∀ n i j, l n i j < K

/-- The number of flagged pixels of an image. -/
def flaggedPixels (issues : Stack N h w Bool) (n : Fin N) : ℕ :=
  (Finset.univ.filter (fun p : Fin h × Fin w => issues n p.1 p.2 = true)).card

theorem pixelIssues_eq (issues : Stack N h w Bool) (n : Fin N) : pixelIssues issues n = flaggedPixels issues n := by
  unfold pixelIssues flaggedPixels
  rw [Finset.card_filter, Fintype.sum_prod_type]

/-- The predicted classes of an image. -/
def IsPredictionMap (P : Option (Stack N h w (Fin K → ℚ))) (n : Fin N) (q : Option (Fin h → Fin w → ℕ)) : Prop :=
  match P, q with
  | none, none => True
  | some P, some q => ∀ i j, ∃ k : Fin K, q i j = k.val ∧ IsPrediction (P n i j) k
  | _, _ => False

/-- The figure of an image shows its labels, its predictions and its flagged pixels that are not excluded. -/
def ShowsImage (issues : Stack N h w Bool) (labels : Option (Stack N h w ℕ))
    (P : Option (Stack N h w (Fin K → ℚ))) (exclude : List ℕ) (f : Figure N h w) : Prop :=
  f.given = labels.map (fun l => l f.image) ∧
  IsPredictionMap P f.image f.predicted ∧
  ∀ i j, f.red i j = true ↔ issues f.image i j = true ∧ ∀ l ∈ labels, l f.image i j ∉ exclude

theorem figure_ok [NeZero K] (issues : Stack N h w Bool) (labels : Option (Stack N h w ℕ))
    (P : Option (Stack N h w (Fin K → ℚ))) (colors : Option ℕ) (exclude : List ℕ) (n : Fin N)
    (hc : ∀ l ∈ labels, ∀ c ∈ colors, ∀ i j, l n i j < c) :
    ∃ f, figure issues labels P colors exclude n = .ok f ∧ f.image = n ∧ ShowsImage issues labels P exclude f := by
  have hp : IsPredictionMap P n (P.map (fun P i j => (argmax (P n i j)).val)) := by
    cases P with
    | none => trivial
    | some P => exact fun i j => ⟨argmax (P n i j), rfl, (argmax_eq_iff_isPrediction _ _).mp rfl⟩
  cases labels with
  | none => exact ⟨_, rfl, rfl, rfl, hp, fun i j => by simp⟩
  | some l =>
    have : ¬ ∃ c ∈ colors, ∃ i j, c ≤ l n i j := by
      rintro ⟨c, hcc, i, j, hle⟩
      exact absurd (hc l rfl c hcc i j) (by omega)
    refine ⟨⟨n, some (l n), P.map (fun P i j => (argmax (P n i j)).val),
      fun i j => issues n i j && (if exclude = [] then true else decide (l n i j ∉ exclude))⟩, ?_, rfl, rfl, hp, ?_⟩
    · show (if _ then _ else _) = _
      rw [if_neg this]
    · intro i j
      by_cases he : exclude = []
      · simp [he]
      · simp [he]

theorem colors_fit (labels : Option (Stack N h w ℕ)) (P : Option (Stack N h w (Fin K → ℚ))) (hf : LabelsFit labels P)
    (colors : Option ℕ) (h : numColors labels P = .ok colors) : ∀ l ∈ labels, ∀ c ∈ colors, ∀ n i j, l n i j < c := by
  intro l hl c hc n i j
  obtain rfl : labels = some l := hl
  cases P with
  | some P =>
    have : colors = some K := (Except.ok.inj h).symm
    rw [this] at hc
    rw [← Option.some.inj hc]
    exact hf l rfl rfl n i j
  | none =>
    unfold numColors classesOfLabels at h
    dsimp only at h
    rw [if_neg (by have := n.isLt; have := i.isLt; have := j.isLt; omega)] at h
    have : colors = some _ := (Except.ok.inj h).symm
    rw [this] at hc
    rw [← Option.some.inj hc]
    refine Nat.lt_succ_of_le (le_trans ?_ (Finset.le_sup (Finset.mem_univ n)))
    refine le_trans ?_ (Finset.le_sup (Finset.mem_univ i))
    exact Finset.le_sup (f := fun j => l n i j) (Finset.mem_univ j)

/-- **C140 (partial).** With no class excluded, or with labels, and with at most as many names as there are colours, the
`top` images with the most flagged pixels are shown, most first, each with its own labels, predictions and flagged pixels
whose class is not excluded. Missing: excluded classes count for the choice (`C140_not_excluded`), images without issues are
shown (`C140_not_only_issues`), names of classes that do not occur (`C140_not_names`). -/
theorem C140_shown_partial (A : ArgSort ℤ) [NeZero K] (issues : Stack N h w Bool) (labels : Option (Stack N h w ℕ))
    (P : Option (Stack N h w (Fin K → ℚ))) (hf : LabelsFit labels P) (hN : 0 < N ∧ 0 < h ∧ 0 < w)
    (names : Option (List String)) (exclude : List ℕ) (he : labels.isNone → exclude = [])
    (hn : ∀ l ∈ names, ∀ c, numColors labels P = .ok (some c) → l.length ≤ c) (top : ℕ) :
    ∃ leg figures, displayIssues A issues labels P names (some exclude) (some top) = .ok (leg, figures) ∧
      figures.length = min top N ∧ (figures.map (·.image)).Nodup ∧
      figures.Pairwise (fun f g => flaggedPixels issues g.image ≤ flaggedPixels issues f.image) ∧
      (∀ f ∈ figures, ∀ n, n ∉ figures.map (·.image) → flaggedPixels issues n ≤ flaggedPixels issues f.image) ∧
      ∀ f ∈ figures, ShowsImage issues labels P exclude f := by
  obtain ⟨colors, hcol⟩ : ∃ colors, numColors labels P = .ok colors := by
    unfold numColors classesOfLabels
    cases P with
    | some P => exact ⟨_, rfl⟩
    | none =>
      cases labels with
      | none => exact ⟨_, rfl⟩
      | some l =>
        dsimp only
        rw [if_neg (by omega)]
        exact ⟨_, rfl⟩
  obtain ⟨leg, hleg⟩ : ∃ leg, legend colors names = .ok leg := by
    unfold legend
    cases colors with
    | none => exact ⟨_, rfl⟩
    | some c =>
      cases names with
      | none => exact ⟨_, rfl⟩
      | some l =>
        dsimp only
        rw [if_pos (hn l rfl c hcol)]
        exact ⟨_, rfl⟩
  set order := (A.indices (fun n => -(pixelIssues issues n : ℤ))).take (min top N) with horder
  have hfig : ∀ n, ∃ f, figure issues labels P colors exclude n = .ok f ∧ f.image = n ∧
      ShowsImage issues labels P exclude f := fun n =>
    figure_ok issues labels P colors exclude n (fun l hl c hc => colors_fit labels P hf colors hcol l hl c hc n)
  choose F hF using hfig
  have hm : order.mapM (figure issues labels P colors exclude) = .ok (order.map F) :=
    mapM_eq_map _ _ _ (fun n _ => (hF n).1)
  have himg : (order.map F).map (·.image) = order := by
    rw [List.map_map]
    conv_rhs => rw [← List.map_id order]
    exact List.map_congr_left (fun n _ => (hF n).2.1)
  refine ⟨leg, order.map F, ?_, ?_, ?_, ?_, ?_, ?_⟩
  · unfold displayIssues
    dsimp only
    rw [if_neg (by rintro ⟨h1, h2⟩; exact h2 (he h1))]
    simp only [bind, Except.bind, pure, Except.pure, hcol, hleg]
    rw [← horder, hm]
  · rw [List.length_map, horder, List.length_take, A.length_indices]
    omega
  · rw [himg]
    exact (A.nodup_indices _).sublist (List.take_sublist _ _)
  · rw [List.pairwise_map]
    refine ((A.pairwise_indices _).sublist (List.take_sublist _ _)).imp ?_
    intro n m hnm
    rw [(hF n).2.1, (hF m).2.1, ← pixelIssues_eq, ← pixelIssues_eq]
    omega
  · intro f hfm n hn
    rw [himg] at hn
    have hm : f.image ∈ order := by
      rw [← himg]
      exact List.mem_map_of_mem hfm
    have := take_indices_le A (fun n => -(pixelIssues issues n : ℤ)) (min top N) f.image n hm hn
    rw [← pixelIssues_eq, ← pixelIssues_eq]
    omega
  · intro f hfm
    obtain ⟨n, -, rfl⟩ := List.mem_map.mp hfm
    exact (hF n).2.2

/-- **C140, legend.** The legend gives the `i`-th name to the colour of class `i`. -/
theorem C140_legend (A : ArgSort ℤ) [NeZero K] (issues : Stack N h w Bool) (labels : Option (Stack N h w ℕ))
    (P : Option (Stack N h w (Fin K → ℚ))) (names : List String) (exclude : Option (List ℕ)) (top : Option ℕ)
    (leg : List (ℕ × String)) (figures : List (Figure N h w))
    (hd : displayIssues A issues labels P (some names) exclude top = .ok (some leg, figures)) (i : ℕ) (s : String) :
    (i, s) ∈ leg ↔ names[i]? = some s := by
  unfold displayIssues at hd
  dsimp only [bind, Except.bind, pure, Except.pure] at hd
  split_ifs at hd
  cases hc : numColors labels P with
  | error e => rw [hc] at hd; cases hd
  | ok colors =>
    rw [hc] at hd
    dsimp only at hd
    cases hl : legend colors (some names) with
    | error e => rw [hl] at hd; cases hd
    | ok l =>
      rw [hl] at hd
      dsimp only at hd
      split at hd
      · cases hd
      · obtain rfl : l = some leg := (Prod.mk.inj (Except.ok.inj hd)).1
        cases colors with
        | none => cases hl
        | some c =>
          unfold legend at hl
          dsimp only at hl
          split_ifs at hl with hle
          have := Option.some.inj (Except.ok.inj hl)
          rw [← this]
          constructor
          · intro hm
            obtain ⟨k, hk, hks⟩ := List.mem_iff_getElem.mp hm
            rw [List.getElem_zip] at hks
            obtain ⟨h1, h2⟩ := Prod.mk.inj hks
            rw [List.getElem_range] at h1
            subst h1
            rw [List.getElem?_eq_some_iff]
            exact ⟨_, h2⟩
          · intro hs
            obtain ⟨hi, hs⟩ := List.getElem?_eq_some_iff.mp hs
            rw [List.mem_iff_getElem]
            refine ⟨i, by simpa using hi, ?_⟩
            rw [List.getElem_zip, List.getElem_range, hs]

/-- **C140 fails for excluded classes.** Two images of three pixels, of which one is to be shown with class 0 excluded. All
issues of the first have class 0, the second has an issue of class 1: the first image is shown, without any red pixel. -/
theorem C140_not_excluded :
    let issues : Stack 2 1 3 Bool := ![![![true, true, false]], ![![true, false, false]]]
    let labels : Stack 2 1 3 ℕ := ![![![0, 0, 1]], ![![1, 0, 0]]]
    ∀ A : ArgSort ℤ, ∃ f, displayIssues (K := 2) A issues (some labels) none none (some [0]) (some 1) = .ok (none, [f]) ∧
      f.image = 0 ∧ (∀ i j, f.red i j = false) ∧ issues 1 0 0 = true ∧ labels 1 0 0 ∉ [0] := by
  intro issues labels A
  obtain ⟨leg, figures, h1, h2, -, -, h5, h6⟩ := C140_shown_partial (K := 2) A issues (some labels) none
    (fun _ _ h => by cases h) (by decide) none [0] (fun h => by cases h) (fun l hl => by cases hl) 1
  obtain ⟨f, rfl⟩ := List.length_eq_one_iff.mp (show figures.length = 1 from h2)
  have hleg : leg = none := by
    unfold displayIssues at h1
    dsimp only [bind, Except.bind, pure, Except.pure] at h1
    rw [if_neg (by simp)] at h1
    unfold numColors at h1
    dsimp only at h1
    have : classesOfLabels labels = .ok 2 := by decide +kernel
    rw [this] at h1
    dsimp only [Except.map, legend] at h1
    split at h1
    · cases h1
    · exact (Prod.mk.inj (Except.ok.inj h1)).1.symm
  have himg : f.image = 0 := by
    by_contra hne
    have h0 : f.image = 1 := by
      have : ∀ x : Fin 2, x ≠ 0 → x = 1 := by decide
      exact this _ hne
    have := h5 f (List.mem_singleton.mpr rfl) 0 (by rw [List.map_singleton, List.mem_singleton, h0]; decide)
    rw [h0] at this
    exact absurd this (by decide +kernel)
  refine ⟨f, by rw [h1, hleg], himg, ?_, by decide, by decide⟩
  intro i j
  have := (h6 f (List.mem_singleton.mpr rfl)).2.2 i j
  rw [himg] at this
  rw [Bool.eq_false_iff, ne_eq, this]
  rintro ⟨ha, hb⟩
  exact (by decide +kernel : ∀ (i : Fin 1) (j : Fin 3),
    (![![![true, true, false]], ![![true, false, false]]] : Stack 2 1 3 Bool) 0 i j = true →
      (![![![0, 0, 1]], ![![1, 0, 0]]] : Stack 2 1 3 ℕ) 0 i j ∉ [0] → False) i j ha (hb labels rfl)

/-- **C140 fails: images without issues are shown**: all images are, if there are at most `top` (20 unless given). -/
theorem C140_not_only_issues (A : ArgSort ℤ) (hN : 0 < N) (hN' : N ≤ 20) (issues : Stack N 1 1 Bool) :
    ∃ leg figures, displayIssues (K := 1) A issues none none none none none = .ok (leg, figures) ∧
      ∀ n, n ∈ figures.map (·.image) := by
  obtain ⟨leg, figures, h1, h2, h3, -⟩ := C140_shown_partial (K := 1) A issues none none
    (fun _ h => by cases h) ⟨hN, by decide, by decide⟩ none [] (fun _ => rfl) (fun l hl => by cases hl) 20
  refine ⟨leg, figures, h1, fun n => ?_⟩
  have hlen : (figures.map (·.image)).length = Fintype.card (Fin N) := by
    rw [List.length_map, h2, Fintype.card_fin]
    omega
  have : (figures.map (·.image)).toFinset = Finset.univ := by
    rw [← Finset.card_eq_iff_eq_univ, List.toFinset_card_of_nodup h3, hlen]
  have hm : n ∈ (figures.map (·.image)).toFinset := by rw [this]; exact Finset.mem_univ n
  exact List.mem_toFinset.mp hm

/-- **C140 fails for the names of the classes** without predictions: colours exist for the classes up to the largest label
only, so the names of all classes are refused if the last class does not occur. -/
theorem C140_not_names (A : ArgSort ℤ) [NeZero K] (issues : Stack N h w Bool) (labels : Stack N h w ℕ) (names : List String)
    (hN : 0 < N ∧ 0 < h ∧ 0 < w) (hl : ∀ n i j, labels n i j + 1 < names.length) (top : Option ℕ) :
    ∃ e, displayIssues (K := K) A issues (some labels) none (some names) none top = .error e := by
  unfold displayIssues
  dsimp only [bind, Except.bind, pure, Except.pure]
  rw [if_neg (by simp)]
  unfold numColors classesOfLabels
  dsimp only
  rw [if_neg (by omega)]
  dsimp only [Except.map, legend]
  rw [if_neg]
  · exact ⟨_, rfl⟩
  · rw [not_le]
    have hn : 1 < names.length := lt_of_le_of_lt (by omega) (hl ⟨0, hN.1⟩ ⟨0, hN.2.1⟩ ⟨0, hN.2.2⟩)
    have : (Finset.univ.sup fun n => Finset.univ.sup fun i => Finset.univ.sup fun j => labels n i j) < names.length - 1 := by
      have hb : (⊥ : ℕ) < names.length - 1 := by show 0 < _; omega
      rw [Finset.sup_lt_iff hb]
      intro n _
      rw [Finset.sup_lt_iff hb]
      intro i _
      rw [Finset.sup_lt_iff hb]
      intro j _
      have := hl n i j
      omega
    omega

/-- Labels of three classes with names, without predictions. -/
example : ∃ leg figures, displayIssues (K := 3) (stableSort ℤ) (N := 2) (h := 1) (w := 2) ![![![false, true]], ![![true, true]]]
    (some ![![![0, 1]], ![![2, 1]]]) none (some ["sky", "road", "car"]) none (some 1) = .ok (some leg, figures) ∧
      figures.map (·.image) = [1] ∧ leg = [(0, "sky"), (1, "road"), (2, "car")] := by
  refine ⟨_, _, rfl, ?_, ?_⟩ <;> decide +kernel

end Cleanlab.Props
