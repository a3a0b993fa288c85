import Verif.Model.DatalabChecks
import Verif.Model.LabelCheck
import Verif.Model.OutlierCheck
import Verif.Props.AnnotatorOrder
import Verif.Props.ClassNumbering
import Verif.Props.DataValuation
import Verif.Props.Duplicate
import Verif.Props.Outre

/-!
# C124: the order of the rows does not matter to the checks of `Datalab`
-/

namespace Cleanlab.Props

open Np Cleanlab.Knn Cleanlab.Duplicate Cleanlab.DataValuation Cleanlab.Checks Cleanlab.OutlierCheck

variable {N : ℕ}

/-- The graph of the reordered data: row `i` is the row of point `σ i`, and point `j` is now called `σ⁻¹ j`. -/
def reorderGraph (σ : Equiv.Perm (Fin N)) (g : Graph N) : Graph N :=
  fun i => (g (σ i)).map (fun e => (σ.symm e.1, e.2))

/-- The neighbour lists of the reordered data. -/
def reorderLists (σ : Equiv.Perm (Fin N)) (nbr : Fin N → List (Fin N)) : Fin N → List (Fin N) :=
  fun i => (nbr (σ i)).map σ.symm

theorem sortOn_id_perm {F : Type} [LinearOrder F] (A : ArgSort F) (l l' : List F) (h : l.Perm l') :
    sortOn A id l = sortOn A id l' :=
  (((sortOn_perm A id l).trans h).trans (sortOn_perm A id l').symm).eq_of_pairwise
    (fun _ _ _ _ h1 h2 => le_antisymm h1 h2) (sortOn_sorted A id l) (sortOn_sorted A id l')

theorem npMedian_perm {F : Type} [Field F] [LinearOrder F] (A : ArgSort F) (l l' : List F) (h : l.Perm l') :
    npMedian A l = npMedian A l' := by
  unfold npMedian
  rw [sortOn_id_perm A l l' h, h.length_eq]

theorem percentile_perm {F : Type} [Field F] [LinearOrder F] (A : ArgSort F) (q : ℚ) (l l' : List F) (h : l.Perm l') :
    percentile A q l = percentile A q l' := by
  unfold percentile
  rw [sortOn_id_perm A l l' h, h.length_eq]

/-! ## Near duplicates -/

theorem near_reorder (σ : Equiv.Perm (Fin N)) (g : Graph N) (r : ℚ) (i j : Fin N) :
    Near (reorderGraph σ g) r i j ↔ Near g r (σ i) (σ j) := by
  unfold Near reorderGraph
  refine exists_congr (fun d => and_congr_left (fun _ => ?_))
  simp only [List.mem_map, Prod.exists, Prod.mk.injEq]
  constructor
  · rintro ⟨a, b, h, rfl, rfl⟩; simpa using h
  · intro h; exact ⟨σ j, d, h, by simp, rfl⟩

theorem nnDistances_reorder (σ : Equiv.Perm (Fin N)) (g : Graph N) :
    (nnDistances (reorderGraph σ g)).toOption = (nnDistances g).toOption.map (fun nn i => nn (σ i)) := by
  unfold nnDistances
  rw [← collect_comp σ]
  congr 2
  funext i
  unfold reorderGraph
  rw [List.head?_map]
  cases (g (σ i)).head? <;> rfl

/-- **C124.** The near-duplicate check finds the same near duplicates whatever the order of the rows: the flag, the score
and the members of the set of a row move with it, and the median distance stays. -/
theorem C124_duplicates (A : ArgSort ℚ) (σ : Equiv.Perm (Fin N)) (g : Graph N) (t : ℚ) (r : Duplicate.Report N)
    (h : Duplicate.findIssues A g t = .ok r) :
    ∃ r', Duplicate.findIssues A (reorderGraph σ g) t = .ok r' ∧ r'.median = r.median ∧
      ∀ i, r'.score i = r.score (σ i) ∧ r'.isIssue i = r.isIssue (σ i) ∧
        ∀ j, j ∈ r'.sets i ↔ σ j ∈ r.sets (σ i) := by
  obtain ⟨nn, med, hnn, hmed, hm, hs, hf, hsc⟩ := findIssues_run A g t r h
  have hnn' : nnDistances (reorderGraph σ g) = .ok (fun i => nn (σ i)) := by
    apply ok_of_toOption
    rw [nnDistances_reorder, hnn]
    rfl
  have hmed' : npMedian A (List.ofFn (fun i => nn (σ i))) = some med := by
    rw [npMedian_perm A _ _ (ofFn_perm nn σ), hmed]
  have hsc' : expScores (fun i => nn (σ i)) (1 / (r.median : ℝ)) = .ok (fun i => r.score (σ i)) := by
    unfold expScores at hsc ⊢
    by_cases ht : 1 / (r.median : ℝ) ≤ 0
    · rw [if_pos ht] at hsc; cases hsc
    · rw [if_neg ht] at hsc ⊢
      injection hsc with hsc
      rw [← hsc]
  have hrun : ∃ r', Duplicate.findIssues A (reorderGraph σ g) t = .ok r' ∧ r'.score = fun i => r.score (σ i) := by
    unfold Duplicate.findIssues
    rw [hnn']
    dsimp only [bind, Except.bind, pure, Except.pure]
    rw [hmed']
    dsimp only
    rw [← hm, hsc']
    exact ⟨_, rfl, rfl⟩
  obtain ⟨r', hr', hscore⟩ := hrun
  obtain ⟨nn2, med2, hnn2, hmed2, hm2, _, _, _⟩ := findIssues_run A _ t r' hr'
  have hmedian : r'.median = r.median := by
    rw [hnn'] at hnn2
    injection hnn2 with hnn2
    rw [← hnn2, hmed'] at hmed2
    injection hmed2 with hmed2
    rw [hm2, hm, hmed2]
  have hsets : ∀ i j, j ∈ r'.sets i ↔ σ j ∈ r.sets (σ i) := by
    intro i j
    rw [C37_sets A _ t r' hr', C37_sets A g t r h, hmedian, near_reorder, near_reorder]
  refine ⟨r', hr', hmedian, fun i => ⟨by rw [hscore], ?_, hsets i⟩⟩
  have h1 := (C37_symmetric A _ t r' hr').2.1 i
  have h2 := (C37_symmetric A g t r h).2.1 (σ i)
  rw [Bool.eq_iff_iff, h1, h2, not_iff_not, List.eq_nil_iff_forall_not_mem, List.eq_nil_iff_forall_not_mem]
  constructor
  · intro hh j hj
    apply hh (σ.symm j)
    rw [hsets]
    simpa using hj
  · intro hh j hj
    exact hh (σ j) ((hsets i j).mp hj)

/-! ## Data valuation -/

variable {L : Type} [DecidableEq L]

theorem contribution_reorder (σ : Equiv.Perm (Fin N)) (y : Fin N → L) (l : L) (idx : List (Fin N)) (k : ℕ) (i : Fin N) :
    contribution (fun j => y (σ j)) l (idx.map σ.symm) k i = contribution y l idx k (σ i) := by
  unfold contribution matchInd
  rw [List.getElem?_map]
  have hmem : i ∈ (idx.take k).map σ.symm ↔ σ i ∈ idx.take k := by
    simp only [List.mem_map]
    constructor
    · rintro ⟨a, ha, rfl⟩; simpa using ha
    · intro h; exact ⟨σ i, h, by simp⟩
  cases idx[k - 1]? with
  | none => rfl
  | some z => simp [← List.map_take, hmem]

/-- **C124.** The Shapley values move with the rows. -/
theorem C124_data_valuation (σ : Equiv.Perm (Fin N)) (nbr : Fin N → List (Fin N)) (y : Fin N → L) (k : ℕ) (hk : 1 ≤ k)
    (hN : 0 < N) (hlen : ∀ a, k ≤ (nbr a).length) :
    ∃ s s', dataShapley nbr y k = .ok s ∧ dataShapley (reorderLists σ nbr) (fun i => y (σ i)) k = .ok s' ∧
      ∀ i, s' i = s (σ i) := by
  obtain ⟨s, hs, hf⟩ := C35_closed_form nbr y k hk hN hlen
  obtain ⟨s', hs', hf'⟩ := C35_closed_form (reorderLists σ nbr) (fun i => y (σ i)) k hk hN
    (fun a => by simpa [reorderLists] using hlen (σ a))
  refine ⟨s, s', hs, hs', fun i => ?_⟩
  rw [hf, hf']
  congr 2
  unfold reorderLists
  simp only [contribution_reorder]
  exact Equiv.sum_comp σ (fun a => contribution y (y a) (nbr a) k (σ i))

/-! ## Outliers -/

theorem issueThreshold_reorder (A : ArgSort ℝ) (σ : Equiv.Perm (Fin N)) (avg : Fin N → ℝ) (t : ℝ) :
    issueThreshold A (fun i => avg (σ i)) t = issueThreshold A avg t := by
  unfold issueThreshold
  rw [percentile_perm A _ _ _ (ofFn_perm avg σ), percentile_perm A _ _ _ (ofFn_perm avg σ)]

theorem scalingFactor_reorder (A : ArgSort ℝ) (σ : Equiv.Perm (Fin N)) (avg : Fin N → ℝ) (s : Option ℝ) :
    scalingFactor A (fun i => avg (σ i)) s = scalingFactor A avg s := by
  unfold scalingFactor
  rw [npMedian_perm A _ _ (ofFn_perm avg σ)]

/-- The outcome of the outlier check for the reordered rows. -/
def reorderOutliers (σ : Equiv.Perm (Fin N)) (r : OutlierCheck.Result N) : OutlierCheck.Result N :=
  { threshold := r.threshold, cutoff := r.cutoff, flags := fun i => r.flags (σ i), scores := fun i => r.scores (σ i) }

/-- **C124.** The outlier check on a neighbour graph: the threshold and the cut-off do not depend on the order of the
rows, flags and scores move with them, and the check fails for one order only if it fails for every order. -/
theorem C124_outliers (A : ArgSort ℝ) (σ : Equiv.Perm (Fin N)) (t : ℝ) (scaling : Option ℝ)
    (metric : Option Outlier.Metric) (avg : Fin N → ℝ) (threshold : Option ℝ) :
    checkDistances A t scaling metric (fun i => avg (σ i)) threshold =
      (checkDistances A t scaling metric avg threshold).map (reorderOutliers σ) := by
  unfold checkDistances fromDistances
  dsimp only [bind, Except.bind, pure, Except.pure]
  cases chosen threshold with
  | error e => rfl
  | ok thr =>
    dsimp only
    rw [issueThreshold_reorder, scalingFactor_reorder]
    cases issueThreshold A avg thr with
    | error e => rfl
    | ok cut =>
      dsimp only
      cases scalingFactor A avg scaling with
      | error e => rfl
      | ok s =>
        dsimp only [Except.map, reorderOutliers]
        congr 2

/-- **C124.** The outlier check on predicted probabilities. -/
theorem C124_outliers_pred_probs (A : ArgSort ℝ) (σ : Equiv.Perm (Fin N)) (scores : Fin N → ℝ) (threshold : Option ℝ) :
    checkPredProbs A (fun i => scores (σ i)) threshold = (checkPredProbs A scores threshold).map (reorderOutliers σ) := by
  unfold checkPredProbs
  dsimp only
  rw [npMedian_perm A _ _ (ofFn_perm scores σ)]
  by_cases h : threshold.getD defaultPredProbs < 0
  · rw [if_pos h, if_pos h]; rfl
  · rw [if_neg h, if_neg h]
    cases npMedian A (List.ofFn scores) <;> rfl

/-! ## Label issues from features -/

/-- **C124.** The predictions the label check derives from the neighbours move with the rows. -/
theorem C124_knn_predictions {K k : ℕ} (σ : Equiv.Perm (Fin N)) (nbr : Fin N → Fin (k + 1) → Fin N)
    (labels : Fin N → Fin K) (i : Fin N) (c : Fin K) :
    LabelCheck.outOfSample (fun i r => σ.symm (nbr (σ i) r)) (fun i => labels (σ i)) i c =
      LabelCheck.outOfSample nbr labels (σ i) c := by
  unfold LabelCheck.outOfSample LabelCheck.knnProbs LabelCheck.oneHot
  simp only [Equiv.apply_symm_apply]

/-! ## Underperforming groups -/

theorem members_reorder (σ : Equiv.Perm (Fin N)) (cluster : Fin N → ℤ) (c : ℤ) :
    (members (fun i => cluster (σ i)) c).card = (members cluster c).card := by
  unfold members
  exact card_comp σ (fun i => cluster i = c)

theorem meanOn_reorder (σ : Equiv.Perm (Fin N)) (conf : Fin N → ℚ) (p : Fin N → Prop) [DecidablePred p] :
    meanOn (fun i => conf (σ i)) (Finset.univ.filter (fun i => p (σ i))) = meanOn conf (Finset.univ.filter p) := by
  unfold meanOn
  rw [card_comp σ p, Finset.sum_filter, Finset.sum_filter, Equiv.sum_comp σ (fun i => if p i then conf i else 0)]

/-- The outcome of the check for the reordered rows. -/
def reorderGroups (σ : Equiv.Perm (Fin N)) (r : GroupResult N) : GroupResult N :=
  { isIssue := fun i => r.isIssue (σ i), score := fun i => r.score (σ i), summary := r.summary, worst := r.worst }

/-- **C124.** The check for underperforming groups finds the same group whatever the order of the rows. -/
theorem C124_underperforming_group (σ : Equiv.Perm (Fin N)) (cluster : Fin N → ℤ) (conf : Fin N → ℚ) (threshold : ℚ)
    (minSamples : ℕ) (order : List ℤ) :
    underperformingFindIssues (fun i => cluster (σ i)) (fun i => conf (σ i)) threshold minSamples order =
      (underperformingFindIssues cluster conf threshold minSamples order).map (reorderGroups σ) := by
  have hids : filterClusterIds (fun i => cluster (σ i)) minSamples order = filterClusterIds cluster minSamples order := by
    unfold filterClusterIds
    simp only [members_reorder]
  have hperf : (fun c => meanOn (fun i => conf (σ i)) (members (fun i => cluster (σ i)) c)) =
      fun c => meanOn conf (members cluster c) := by
    funext c
    exact meanOn_reorder σ conf (fun i => cluster i = c)
  have hneg : (∃ i, cluster (σ i) < -1) ↔ ∃ i, cluster i < -1 :=
    ⟨fun ⟨i, hi⟩ => ⟨σ i, hi⟩, fun ⟨i, hi⟩ => ⟨σ.symm i, by simpa using hi⟩⟩
  unfold underperformingFindIssues
  by_cases h : ∃ i, cluster i < -1
  · rw [if_pos (hneg.mpr h), if_pos h]; rfl
  · rw [if_neg (fun h' => h (hneg.mp h')), if_neg h]
    dsimp only
    rw [hids, hperf]
    cases (filterClusterIds cluster minSamples order).min? with
    | none => rfl
    | some lo =>
      dsimp only
      rw [meanOn_reorder σ conf (fun i => cluster i ∈ filterClusterIds cluster minSamples order)]
      rfl

/-! ## Class imbalance -/

/-- **C124.** The class-imbalance check names the same rarest class with the same summary score, and the flags and scores
of the rows move with them. -/
theorem C124_class_imbalance (σ : Equiv.Perm (Fin N)) (labels : Fin N → ℕ) (K : ℕ) (threshold : ℚ) (r : ImbalanceResult)
    (h : imbalanceFindIssues (List.ofFn labels) K threshold = .ok r) :
    ∃ r' flag score, imbalanceFindIssues (List.ofFn (fun i => labels (σ i))) K threshold = .ok r' ∧
      r'.rarest = r.rarest ∧ r'.summary = r.summary ∧
      r.isIssue = List.ofFn flag ∧ r'.isIssue = List.ofFn (fun i => flag (σ i)) ∧
      r.scores = List.ofFn score ∧ r'.scores = List.ofFn (fun i => score (σ i)) := by
  have hp := ofFn_perm labels σ
  have hb : bins (List.ofFn (fun i => labels (σ i))) = bins (List.ofFn labels) := by
    unfold bins
    rw [max?_perm hp]
  unfold imbalanceFindIssues at h ⊢
  dsimp only at h ⊢
  simp only [hb, hp.count_eq, hp.length_eq]
  cases hr : (bins (List.ofFn labels)).argmin (fun c => ((List.ofFn labels).count c : ℚ) / (List.ofFn labels).length) with
  | none => rw [hr] at h; cases h
  | some c =>
    rw [hr] at h
    dsimp only at h ⊢
    injection h with h
    subst h
    refine ⟨_, _, _, rfl, rfl, rfl, List.map_ofFn .., List.map_ofFn .., List.map_ofFn .., List.map_ofFn ..⟩

/-! ## Identifier columns -/

/-- **C124.** A column is an identifier column whatever the order of its values. -/
theorem C124_identifier_column (values values' : List ℤ) (h : values'.Perm values) :
    isSequential values' = isSequential values := by
  unfold isSequential
  rw [h.length_eq, List.toFinset_eq_of_perm _ _ h]

/-! ## Null values -/

/-- **C124.** Flags and scores of the null check move with the rows, and the share of missing values of a column stays. -/
theorem C124_null {d : ℕ} (σ : Equiv.Perm (Fin N)) (null : Fin N → Fin d → Bool) :
    (∀ i, nullRow (fun i => null (σ i)) i = nullRow null (σ i)) ∧
      ∀ j, columnImpact (fun i => null (σ i)) j = columnImpact null j := by
  refine ⟨fun i => rfl, fun j => ?_⟩
  unfold columnImpact
  rw [card_comp σ (fun i => null i j = true)]

theorem argmax_perm {α β : Type} [LinearOrder β] (f f' : α → β) (hf : ∀ x, f' x = f x) (l l' : List α) (h : l'.Perm l) :
    (l'.argmax f').map f' = (l.argmax f).map f := by
  have : f' = f := funext hf
  subst this
  cases hl : l.argmax f' with
  | none =>
    rw [List.argmax_eq_none] at hl
    subst hl
    rw [h.eq_nil]
    rfl
  | some x =>
    cases hl' : l'.argmax f' with
    | none =>
      rw [List.argmax_eq_none] at hl'
      subst hl'
      rw [h.symm.eq_nil] at hl
      cases hl
    | some x' =>
      have h1 := List.le_of_mem_argmax (h.mem_iff.mp (List.argmax_mem hl')) hl
      have h2 := List.le_of_mem_argmax (h.mem_iff.mpr (List.argmax_mem hl)) hl'
      exact congrArg some (le_antisymm h1 h2)

/-- The most frequent pattern of missing values is reported with the same number of rows. Missing for the pattern itself:
with a tie the first one in the order of the rows is reported (`C124_not_null_pattern`). -/
theorem C124_null_pattern_partial {d : ℕ} (σ : Equiv.Perm (Fin N)) (null : Fin N → Fin d → Bool) :
    (mostCommonIssue (fun i => null (σ i))).count = (mostCommonIssue null).count ∧
      ((mostCommonIssue (fun i => null (σ i))).pattern = (mostCommonIssue null).pattern →
        ∀ i, i ∈ (mostCommonIssue (fun i => null (σ i))).rows ↔ σ i ∈ (mostCommonIssue null).rows) := by
  have hp := map_filter_comp σ (fun i => decide (∃ j, null i j = true)) null
  have ha := argmax_perm (fun p => (((List.finRange N).filter (fun i => ∃ j, null i j = true)).map null).count p)
    (fun p => (((List.finRange N).filter (fun i => ∃ j, null (σ i) j = true)).map (fun i => null (σ i))).count p)
    (fun p => hp.count_eq p) _ _ hp
  unfold mostCommonIssue
  dsimp only at ha ⊢
  cases h1 : (((List.finRange N).filter (fun i => ∃ j, null i j = true)).map null).argmax
      (fun p => (((List.finRange N).filter (fun i => ∃ j, null i j = true)).map null).count p) with
  | none =>
    rw [h1] at ha
    rw [Option.map_none, Option.map_eq_none_iff] at ha
    rw [ha]
    exact ⟨rfl, fun _ i => by simp⟩
  | some p =>
    rw [h1] at ha
    cases h2 : (((List.finRange N).filter (fun i => ∃ j, null (σ i) j = true)).map (fun i => null (σ i))).argmax
      (fun p => (((List.finRange N).filter (fun i => ∃ j, null (σ i) j = true)).map (fun i => null (σ i))).count p) with
    | none => rw [h2] at ha; cases ha
    | some p' =>
      rw [h2] at ha
      simp only [Option.map_some, Option.some.injEq] at ha
      refine ⟨ha, fun hpp i => ?_⟩
      simp only [Option.some.injEq] at hpp
      subst hpp
      simp

/-- Which pattern of missing values is reported depends on the order of the rows. -/
theorem C124_not_null_pattern :
    ¬ ∀ (σ : Equiv.Perm (Fin 2)) (null : Fin 2 → Fin 2 → Bool),
      (mostCommonIssue (fun i => null (σ i))).pattern = (mostCommonIssue null).pattern := by
  intro h
  have := h (Equiv.swap 0 1) ![![true, false], ![false, true]]
  revert this
  decide +kernel

/-! ## Exact duplicates -/

/-- Four identical rows. -/
def fourTwins : Fin 4 → ℕ := fun _ => 0

/-- The neighbour lists of four identical rows, two neighbours each. -/
def twinLists : Except String (Fin 4 → List (Fin 4)) :=
  (correctDuplicates (stableSort (Fin 4)) (stableSort Bool) 2 ![[(1, 0), (2, 0)], [(0, 0), (2, 0)], [(0, 0), (1, 0)], [(0, 0), (1, 0)]]
    (duplicateSets fourTwins [0])).map (fun g i => (g i).map Prod.fst)

/-- From the features the values of the rows do depend on their order: of four identical rows, the first and the third
have the same label and different values, although exchanging them changes nothing in the data. -/
theorem C124_not_twins :
    ∃ nbr s, twinLists = .ok nbr ∧ dataShapley nbr (![0, 1, 0, 0] : Fin 4 → Fin 2) 2 = .ok s ∧
      s 0 = 5 / 8 ∧ s 2 = 1 / 2 := by
  have h1 : twinLists = .ok ![[1, 2], [0, 2], [0, 1], [0, 1]] := by
    apply ok_of_toOption
    decide +kernel
  obtain ⟨s, hs, hf⟩ := C35_closed_form ![[1, 2], [0, 2], [0, 1], [0, 1]] (![0, 1, 0, 0] : Fin 4 → Fin 2) 2 (by decide)
    (by decide) (by decide)
  refine ⟨_, s, h1, hs, ?_, ?_⟩
  · rw [hf]; decide +kernel
  · rw [hf]; decide +kernel

/-! ## Examples -/

example : ∃ r, Duplicate.findIssues (stableSort ℚ) (![[(1, 1)], [(0, 1)], [(1, 100)]] : Graph 3) (1 / 2) = .ok r := by
  obtain ⟨r, _, h, _⟩ := C37_median (stableSort ℚ) (![[(1, 1)], [(0, 1)], [(1, 100)]] : Graph 3) (1 / 2) (by decide)
    ![1, 1, 100] (by decide +kernel)
  exact ⟨r, h⟩

example : reorderGraph (Equiv.swap 0 2) (![[(1, 1)], [(0, 1)], [(1, 100)]] : Graph 3) =
    ![[(1, 100)], [(2, 1)], [(1, 1)]] := by decide +kernel

example : (imbalanceFindIssues [0, 0, 0, 1] 2 (3 / 4)).toOption.map (fun r => (r.rarest, r.isIssue)) =
      some (1, [false, false, false, true]) ∧
    (imbalanceFindIssues [0, 1, 0, 0] 2 (3 / 4)).toOption.map (fun r => (r.rarest, r.isIssue)) =
      some (1, [false, true, false, false]) := by decide +kernel

end Cleanlab.Props
