import Verif.Model.MultilabelDataset
import Verif.Props.MultilabelFilter
import Mathlib.Algebra.Order.Archimedean.Basic
import Mathlib.Algebra.BigOperators.Field
import Mathlib.Data.Int.Log
import Mathlib.Algebra.Order.Round
import Mathlib.Tactic.Positivity
import Mathlib.Tactic.IntervalCases

/-!
# C91: summaries of multi-label data sets
-/

namespace Cleanlab.Props

open Np Cleanlab.Util Cleanlab.Count Cleanlab.Rank Cleanlab.Filter Cleanlab.Multilabel Cleanlab.MultilabelDataset

variable {n K : ℕ}

theorem mem_issueRows (rnd : ℚ → ℚ) (y : Fin n → Fin K → Bool) (lists : Fin K → List (Fin n)) (r : IssueRow K) :
    r ∈ issueRows rnd y lists ↔ ∃ k g, r = issueRow rnd y lists k g := by
  simp only [issueRows, List.mem_flatMap, List.mem_finRange, true_and, List.mem_cons, List.not_mem_nil, or_false]
  constructor
  · rintro ⟨k, h | h⟩
    · exact ⟨k, true, h⟩
    · exact ⟨k, false, h⟩
  · rintro ⟨k, g, h⟩
    cases g
    · exact ⟨k, Or.inr h⟩
    · exact ⟨k, Or.inl h⟩

theorem nodup_issueRows (rnd : ℚ → ℚ) (y : Fin n → Fin K → Bool) (lists : Fin K → List (Fin n)) :
    ((issueRows rnd y lists).map (fun r => (r.cls, r.given))).Nodup := by
  have : (issueRows rnd y lists).map (fun r => (r.cls, r.given)) =
      (List.finRange K).flatMap (fun k => [(k, true), (k, false)]) := by
    rw [issueRows, List.map_flatMap]
    rfl
  rw [this, List.nodup_flatMap]
  refine ⟨fun k _ => by simp, (List.nodup_finRange K).imp (fun {a b} h => ?_)⟩
  rw [Function.onFun, List.disjoint_left]
  intro x hx hx'
  simp only [List.mem_cons, List.not_mem_nil, or_false] at hx hx'
  rcases hx with rfl | rfl <;> rcases hx' with h' | h' <;> cases h' <;> exact h rfl

/-- The lists of flagged examples behind the tables. -/
theorem lists_ok (A A' : ArgSort ℚ) (y : Fin n → Fin K → Bool) (P : Fin n → Fin K → ℚ)
    (cj : Option (Fin K → Fin 2 → Fin 2 → ℚ)) (lists : Fin K → List (Fin n))
    (h : issuesPerClassRanked A A' selfConf y P { filterBy := .pruneByNoiseRate, confidentJoint := cj } = .ok lists) :
    ∃ per : Fin K → Fin n → Bool, (∀ k, findChecked A (binaryLabels y k) (stackComplement P k)
        { filterBy := .pruneByNoiseRate, confidentJoint := cj.map (fun c => c k) } = .ok (per k)) ∧
      ∀ k i, i ∈ lists k ↔ per k i = true := by
  have h' := (collect_ok_iff _ _).mp h
  have hk : ∀ k, ∃ per : Fin n → Bool, findChecked A (binaryLabels y k) (stackComplement P k)
      { filterBy := .pruneByNoiseRate, confidentJoint := cj.map (fun c => c k) } = .ok per ∧
      ∀ i, i ∈ lists k ↔ per i = true := by
    intro k
    have hk := h' k
    cases hs : selfConf (binaryLabels y k) (stackComplement P k) with
    | error e => rw [hs] at hk; cases hk
    | ok s =>
      rw [hs] at hk
      obtain ⟨m, hm, hk⟩ := findRankedChecked_mask A A' (binaryLabels y k) (stackComplement P k)
        { filterBy := .pruneByNoiseRate, confidentJoint := cj.map (fun c => c k) } s (lists k) hk
      refine ⟨m, hm, fun i => ?_⟩
      rw [hk, (orderLabelIssues_perm A' m s).mem_iff]
      simp
  choose per hper using hk
  exact ⟨per, fun k => (hper k).1, fun k => (hper k).2⟩

/-- The number of examples of one kind flagged for a class. -/
def flaggedOf (y : Fin n → Fin K → Bool) (per : Fin K → Fin n → Bool) (k : Fin K) (given : Bool) : ℕ :=
  (Finset.univ.filter (fun i => y i k = given ∧ per k i = true)).card

/-- **C91**: `common_multilabel_issues` has exactly one row for each class and kind of issue; it counts the examples with
(without) the class that `find_label_issues` flags for this class alone; rows are sorted by decreasing probability. -/
theorem C91_common_issues (rnd : ℚ → ℚ) (A A' : ArgSort ℚ) (y : Fin n → Fin K → Bool) (P : Fin n → Fin K → ℚ)
    (cj : Option (Fin K → Fin 2 → Fin 2 → ℚ)) (rows : List (IssueRow K)) (h : commonIssues rnd A A' y P cj = .ok rows) :
    ∃ per : Fin K → Fin n → Bool, (∀ k, findChecked A (binaryLabels y k) (stackComplement P k)
        { filterBy := .pruneByNoiseRate, confidentJoint := cj.map (fun c => c k) } = .ok (per k)) ∧
      (∀ r, r ∈ rows ↔ r.count = flaggedOf y per r.cls r.given ∧ r.prob = rnd ((r.count : ℚ) / n)) ∧
      (rows.map (fun r => (r.cls, r.given))).Nodup ∧ rows.length = 2 * K ∧
      rows.Pairwise (fun r r' => r'.prob ≤ r.prob) := by
  unfold commonIssues at h
  cases hl : issuesPerClassRanked A A' selfConf y P { filterBy := .pruneByNoiseRate, confidentJoint := cj } with
  | error e => rw [hl] at h; cases h
  | ok lists =>
    rw [hl] at h
    have h := Except.ok.inj h
    subst h
    obtain ⟨per, hper, hmem⟩ := lists_ok A A' y P cj lists hl
    have hcount : ∀ k g, issueCount y k (lists k) g = flaggedOf y per k g := by
      intro k g
      unfold issueCount flaggedOf
      simp only [hmem]
    refine ⟨per, hper, fun r => ?_, ?_, ?_, ?_⟩
    · rw [mem_sortOn, mem_issueRows]
      constructor
      · rintro ⟨k, g, rfl⟩
        exact ⟨hcount k g, rfl⟩
      · rintro ⟨h1, h2⟩
        refine ⟨r.cls, r.given, ?_⟩
        obtain ⟨k, g, c, p⟩ := r
        simp only at h1 h2
        subst h2 h1
        simp only [issueRow, hcount]
    · exact ((sortOn_perm A' _ _).map _).nodup_iff.mpr (nodup_issueRows rnd y lists)
    · rw [length_sortOn, issueRows, List.length_flatMap]
      simp [Nat.mul_comm]
    · exact (sortOn_sorted A' (fun r : IssueRow K => -r.prob) _).imp (fun h => neg_le_neg_iff.mp h)

/-- The table of classes, as a list of one row per class. -/
theorem classRows_perm (rnd : ℚ → ℚ) (y : Fin n → Fin K → Bool) (lists : Fin K → List (Fin n))
    (rows : List (IssueRow K)) (h : rows.Perm (issueRows rnd y lists)) :
    (classRows rnd n rows).Perm
      ((List.finRange K).map (fun k => classRow rnd n (issueRow rnd y lists k true) (issueRow rnd y lists k false))) := by
  have hfind : ∀ k, rows.find? (fun i => decide (i.cls = k) && !i.given) = some (issueRow rnd y lists k false) := by
    intro k
    have hex : ∃ r, rows.find? (fun i => decide (i.cls = k) && !i.given) = some r := by
      rw [← Option.isSome_iff_exists, List.find?_isSome]
      exact ⟨issueRow rnd y lists k false, h.mem_iff.mpr ((mem_issueRows _ _ _ _).mpr ⟨k, false, rfl⟩), by simp [issueRow]⟩
    obtain ⟨r, hr⟩ := hex
    rw [hr]
    obtain ⟨k', g, rfl⟩ := (mem_issueRows _ _ _ _).mp (h.mem_iff.mp (List.mem_of_find?_eq_some hr))
    have := List.find?_some hr
    rw [Bool.and_eq_true] at this
    have hk : k' = k := of_decide_eq_true this.1
    have hg : g = false := Bool.not_eq_true' g ▸ this.2
    rw [hk, hg]
  have h1 : classRows rnd n rows =
      (rows.filter (·.given)).map (fun g => classRow rnd n g (issueRow rnd y lists g.cls false)) := by
    unfold classRows
    rw [← List.filterMap_eq_map]
    congr 1
    funext g
    rw [hfind]
    rfl
  rw [h1]
  refine ((h.filter _).map _).trans ?_
  have h2 : (issueRows rnd y lists).filter (·.given) = (List.finRange K).map (fun k => issueRow rnd y lists k true) := by
    unfold issueRows
    rw [List.filter_flatMap]
    simp only [List.filter_cons, issueRow, List.filter_nil]
    simp
    rw [List.flatMap_def]
    induction List.finRange K with
    | nil => rfl
    | cons a l ih => simp [ih]
  rw [h2, List.map_map]
  exact List.Perm.refl _

/-- **C91**, partial: with exact arithmetic `rank_classes_by_multilabel_quality` has one row per class, with the counts of
`common_multilabel_issues` and quality 1 minus the label noise, sorted by increasing quality.  The issues are those
for the argument `joint`. -/
theorem C91_rank_partial (A A' : ArgSort ℚ) (y : Fin n → Fin K → Bool) (P : Fin n → Fin K → ℚ) (hn : 0 < n)
    (joint cj : Option (Fin K → Fin 2 → Fin 2 → ℚ)) (out : List (ClassRow K))
    (h : rankClasses id A A' y P joint cj = .ok out) :
    ∃ rows, commonIssues id A A' y P joint = .ok rows ∧ (out.map ClassRow.cls).Perm (List.finRange K) ∧
      out.Pairwise (fun r r' => r.quality ≤ r'.quality) ∧
      ∀ r ∈ out, ∃ g ∈ rows, ∃ i ∈ rows, g.cls = r.cls ∧ g.given = true ∧ i.cls = r.cls ∧ i.given = false ∧
        r.labelIssues = g.count ∧ r.inverseLabelIssues = i.count ∧ r.labelNoise = g.count / n ∧
        r.inverseLabelNoise = i.count / n ∧ r.quality = 1 - r.labelNoise := by
  unfold rankClasses at h
  cases hc : commonIssues id A A' y P joint with
  | error e => rw [hc] at h; cases h
  | ok rows =>
    rw [hc] at h
    have h := Except.ok.inj h
    subst h
    refine ⟨rows, rfl, ?_⟩
    unfold commonIssues at hc
    cases hl : issuesPerClassRanked A A' selfConf y P { filterBy := .pruneByNoiseRate, confidentJoint := joint } with
    | error e => rw [hl] at hc; cases hc
    | ok lists =>
      rw [hl] at hc
      have hc := Except.ok.inj hc
      have hperm : rows.Perm (issueRows id y lists) := hc ▸ sortOn_perm A' _ _
      have hout := (sortOn_perm A' (fun r : ClassRow K => r.quality) (classRows id n rows)).trans
        (classRows_perm id y lists rows hperm)
      refine ⟨?_, sortOn_sorted A' _ _, fun r hr => ?_⟩
      · refine (hout.map _).trans ?_
        rw [List.map_map]
        exact List.Perm.of_eq (List.map_id _)
      · obtain ⟨k, _, rfl⟩ := List.mem_map.mp (hout.mem_iff.mp hr)
        have hn0 : (n : ℚ) ≠ 0 := by exact_mod_cast hn.ne'
        refine ⟨issueRow id y lists k true, hperm.mem_iff.mpr ((mem_issueRows _ _ _ _).mpr ⟨k, true, rfl⟩),
          issueRow id y lists k false, hperm.mem_iff.mpr ((mem_issueRows _ _ _ _).mpr ⟨k, false, rfl⟩),
          rfl, rfl, rfl, rfl, ?_, ?_, rfl, rfl, rfl⟩
        all_goals
          simp only [classRow, countFromProb, issueRow, id]
          rw [div_mul_cancel₀ _ hn0]
          exact Int.floor_natCast _

/-- **C91**: the overall score (exact arithmetic) is at most the fraction of the examples without an issue for any single
class, and at least 1 minus all issue probabilities of `common_multilabel_issues` together. -/
theorem C91_health (A A' : ArgSort ℚ) (y : Fin n → Fin K → Bool) (P : Fin n → Fin K → ℚ) (hn : 0 < n)
    (cj : Option (Fin K → Fin 2 → Fin 2 → ℚ)) (score : ℚ) (rows : List (IssueRow K))
    (h : overallHealth id A A' y P cj = .ok score) (hr : commonIssues id A A' y P cj = .ok rows) :
    0 ≤ score ∧ score ≤ 1 ∧ 1 - (rows.map IssueRow.prob).sum ≤ score ∧
      ∀ g ∈ rows, ∀ i ∈ rows, g.cls = i.cls → g.given ≠ i.given → score ≤ 1 - g.prob - i.prob := by
  classical
  unfold overallHealth at h
  cases hm : multilabelIssues A A' y P { filterBy := .pruneByNoiseRate, confidentJoint := cj } with
  | error e => rw [hm] at h; cases h
  | ok mask =>
    rw [hm] at h
    have h := Except.ok.inj h
    simp only [id] at h
    obtain ⟨per, hper, hmask⟩ := (C24_union A A' y P _ ⟨by simp, by simp⟩ mask).mp hm
    obtain ⟨per', hper', hmem, hnd, -, -⟩ := C91_common_issues id A A' y P cj rows hr
    have hpp : per' = per := by
      funext k
      exact Except.ok.inj ((hper' k).symm.trans (hper k))
    subst hpp
    have hn0 : (0 : ℚ) < n := by exact_mod_cast hn
    have hcard : (Finset.univ.filter (fun i => mask i = true)).card ≤ n := by
      refine (Finset.card_le_univ _).trans (by simp)
    have hcard' : ((Finset.univ.filter (fun i => mask i = true)).card : ℚ) ≤ n := by exact_mod_cast hcard
    subst h
    refine ⟨?_, ?_, ?_, ?_⟩
    · rw [sub_nonneg, div_le_one hn0]; exact hcard'
    · rw [sub_le_self_iff]; positivity
    · -- every flagged example is counted in some row
      have hsum : (rows.map IssueRow.prob).sum = (((rows.map IssueRow.count).sum : ℕ) : ℚ) / n := by
        have : rows.map IssueRow.prob = rows.map (fun r => (r.count : ℚ) / n) :=
          List.map_congr_left (fun r hr' => ((hmem r).mp hr').2)
        rw [this]
        clear this hnd hmem hr
        induction rows with
        | nil => simp
        | cons a l ih =>
          rw [List.map_cons, List.sum_cons, ih, List.map_cons, List.sum_cons]
          push_cast
          ring
      rw [hsum]
      have hrows : (rows.map IssueRow.count).sum = ∑ k, ∑ g, flaggedOf y per' k g := by
        have h1 : rows.map IssueRow.count = (rows.map (fun r => (r.cls, r.given))).map (fun q => flaggedOf y per' q.1 q.2) := by
          rw [List.map_map]
          exact List.map_congr_left (fun r hr' => ((hmem r).mp hr').1)
        rw [h1, ← List.sum_toFinset _ hnd]
        have h2 : (rows.map (fun r => (r.cls, r.given))).toFinset = Finset.univ := by
          ext q
          simp only [List.mem_toFinset, List.mem_map, Finset.mem_univ, iff_true]
          exact ⟨⟨q.1, q.2, flaggedOf y per' q.1 q.2, (flaggedOf y per' q.1 q.2 : ℚ) / n⟩, (hmem _).mpr ⟨rfl, rfl⟩, rfl⟩
        rw [h2, ← Finset.univ_product_univ, Finset.sum_product]
      have hle : (Finset.univ.filter (fun i => mask i = true)).card ≤ ∑ k, ∑ g, flaggedOf y per' k g := by
        have hsub : (Finset.univ.filter (fun i => mask i = true)) ⊆
            Finset.univ.biUnion (fun k : Fin K => Finset.univ.biUnion (fun g : Bool =>
              Finset.univ.filter (fun i => y i k = g ∧ per' k i = true))) := by
          intro i hi
          rw [Finset.mem_filter] at hi
          obtain ⟨k, hk⟩ := (hmask i).mp hi.2
          simp only [Finset.mem_biUnion, Finset.mem_univ, true_and, Finset.mem_filter]
          exact ⟨k, y i k, rfl, hk⟩
        refine (Finset.card_le_card hsub).trans (Finset.card_biUnion_le.trans (Finset.sum_le_sum (fun k _ => ?_)))
        exact Finset.card_biUnion_le
      have hle' : ((Finset.univ.filter (fun i => mask i = true)).card : ℚ) ≤ ((rows.map IssueRow.count).sum : ℕ) := by
        rw [hrows]; exact_mod_cast hle
      have := div_le_div_of_nonneg_right hle' hn0.le
      linarith
    · intro g hg i hi hcls hne
      obtain ⟨h1, h2⟩ := (hmem g).mp hg
      obtain ⟨h3, h4⟩ := (hmem i).mp hi
      rw [h2, h4]
      simp only [id]
      have hle : g.count + i.count ≤ (Finset.univ.filter (fun i => mask i = true)).card := by
        rw [h1, h3, flaggedOf, flaggedOf, hcls, ← Finset.card_union_of_disjoint]
        · apply Finset.card_le_card
          intro x hx
          simp only [Finset.mem_union, Finset.mem_filter, Finset.mem_univ, true_and] at hx ⊢
          rw [hmask x]
          rcases hx with ⟨_, h⟩ | ⟨_, h⟩ <;> exact ⟨_, h⟩
        · rw [Finset.disjoint_left]
          intro x hx hx'
          simp only [Finset.mem_filter, Finset.mem_univ, true_and] at hx hx'
          exact hne (hx.1.symm.trans hx'.1)
      have hle' : (g.count : ℚ) + i.count ≤ ((Finset.univ.filter (fun i => mask i = true)).card : ℚ) := by
        exact_mod_cast hle
      have := div_le_div_of_nonneg_right hle' hn0.le
      rw [add_div] at this
      linarith

/-! ## The argument `confident_joint` -/

/-- Five examples, one class, the first without the class although it is given. -/
def cjY : Fin 5 → Fin 1 → Bool := ![![true], ![true], ![true], ![false], ![false]]

def cjP : Fin 5 → Fin 1 → ℚ := ![![1/10], ![9/10], ![9/10], ![1/10], ![1/10]]

/-- A confident joint without issues. -/
def cjClean : Fin 1 → Fin 2 → Fin 2 → ℚ := ![![![2, 0], ![0, 3]]]

/-- A confident joint with one issue. -/
def cjNoisy : Fin 1 → Fin 2 → Fin 2 → ℚ := ![![![2, 0], ![1, 2]]]

theorem cj_pcm (A : ArgSort ℚ) (m : Fin 2 → Fin 2 → ℚ) (r : Fin 2 → Fin 2 → ℤ)
    (h : ∀ j k, reducePruneCounts (keepDiagonal (fun j k => m k j) 1) 1 j k = r j k) :
    keepAtLeastN A (fun j k => m k j) 1 1 = r := by
  funext j k
  rw [keepAtLeastN_eq, h]

theorem cj_mask (c : Fin 1 → Fin 2 → Fin 2 → ℚ) (r : Fin 2 → Fin 2 → ℤ) (mask : Fin 5 → Bool)
    (h : ∀ j k, reducePruneCounts (keepDiagonal (fun j k => c 0 k j) 1) 1 j k = r j k)
    (hm : ∀ i, (maskByCount (stableSort ℚ) (binaryLabels cjY 0) (stackComplement cjP 0) 1 r i &&
      !(reduceIssues (binaryLabels cjY 0) (stackComplement cjP 0) i)) = mask i) :
    findLabelIssues (stableSort ℚ) (binaryLabels cjY 0) (stackComplement cjP 0)
      { filterBy := .pruneByNoiseRate, confidentJoint := some (c 0) } = .ok mask := by
  have hk := cj_pcm (stableSort ℚ) (c 0) r h
  have : findLabelIssues (stableSort ℚ) (binaryLabels cjY 0) (stackComplement cjP 0)
      { filterBy := .pruneByNoiseRate, confidentJoint := some (c 0) } =
      .ok (fun i => maskByCount (stableSort ℚ) (binaryLabels cjY 0) (stackComplement cjP 0) 1
        (keepAtLeastN (stableSort ℚ) (fun j k => c 0 k j) 1 1) i &&
      !(reduceIssues (binaryLabels cjY 0) (stackComplement cjP 0) i)) := rfl
  rw [this, hk]
  congr 1
  funext i
  exact hm i

theorem cj_rows (c : Fin 1 → Fin 2 → Fin 2 → ℚ) (mask : Fin 5 → Bool)
    (h : findLabelIssues (stableSort ℚ) (binaryLabels cjY 0) (stackComplement cjP 0)
      { filterBy := .pruneByNoiseRate, confidentJoint := some (c 0) } = .ok mask) :
    ∃ rows, commonIssues id (stableSort ℚ) (stableSort ℚ) cjY cjP (some c) = .ok rows ∧
      ∀ r ∈ rows, r.given = true → r.count = (Finset.univ.filter (fun i => cjY i 0 = true ∧ mask i = true)).card := by
  rw [← (C115_accepts_partial (stableSort ℚ) (binaryLabels cjY 0) (stackComplement cjP 0)
    ((binaryLabels_ne cjY 0).mpr (by decide)) (by unfold InRange; decide +kernel)).1] at h
  have hs : selfConf (binaryLabels cjY 0) (stackComplement cjP 0) =
      .ok (fun i => stackComplement cjP 0 i (binaryLabels cjY 0 i)) := rfl
  have hl : ∃ lists, issuesPerClassRanked (stableSort ℚ) (stableSort ℚ) selfConf cjY cjP
      { filterBy := .pruneByNoiseRate, confidentJoint := some c } = .ok lists := by
    refine ⟨fun _ => orderLabelIssues (stableSort ℚ) mask (fun i => stackComplement cjP 0 i (binaryLabels cjY 0 i)), ?_⟩
    unfold issuesPerClassRanked
    rw [collect_ok_iff]
    intro k
    have hk : k = (0 : Fin 1) := Subsingleton.elim _ _
    subst hk
    rw [hs]
    exact findRankedChecked_ok _ _ _ _ _ _ _ h
  obtain ⟨lists, hl⟩ := hl
  have hc : ∃ rows, commonIssues id (stableSort ℚ) (stableSort ℚ) cjY cjP (some c) = .ok rows := by
    unfold commonIssues
    rw [hl]
    exact ⟨_, rfl⟩
  obtain ⟨rows, hc⟩ := hc
  refine ⟨rows, hc, ?_⟩
  intro r hr hg
  obtain ⟨per, hper, hmem, -⟩ := C91_common_issues id _ _ cjY cjP (some c) _ hc
  have h0 := ((hmem r).mp hr).1
  have hp : per 0 = mask := Except.ok.inj ((hper 0).symm.trans h)
  have hcls : r.cls = (0 : Fin 1) := Subsingleton.elim _ _
  rw [h0, flaggedOf, hg, hcls, hp]

/-- **C91** fails: `rank_classes_by_multilabel_quality` ignores its argument `confident_joint`, on which
`common_multilabel_issues` depends. -/
theorem C91_not_confident_joint :
    (∀ (n K : ℕ) (rnd : ℚ → ℚ) (A A' : ArgSort ℚ) (y : Fin n → Fin K → Bool) (P : Fin n → Fin K → ℚ)
      (joint cj cj' : Option (Fin K → Fin 2 → Fin 2 → ℚ)),
      rankClasses rnd A A' y P joint cj = rankClasses rnd A A' y P joint cj') ∧
    ∃ rows rows', commonIssues id (stableSort ℚ) (stableSort ℚ) cjY cjP (some cjClean) = .ok rows ∧
      commonIssues id (stableSort ℚ) (stableSort ℚ) cjY cjP (some cjNoisy) = .ok rows' ∧
      (∀ r ∈ rows, r.given = true → r.count = 0) ∧ (∀ r ∈ rows', r.given = true → r.count = 1) := by
  refine ⟨fun _ _ _ _ _ _ _ _ _ _ => rfl, ?_⟩
  obtain ⟨rows, h, hc⟩ := cj_rows cjClean (fun _ => false)
    (cj_mask cjClean ![![2, 0], ![0, 3]] _ (by decide +kernel) (by decide +kernel))
  obtain ⟨rows', h', hc'⟩ := cj_rows cjNoisy ![true, false, false, false, false]
    (cj_mask cjNoisy ![![2, 1], ![0, 2]] _ (by decide +kernel) (by decide +kernel))
  refine ⟨rows, rows', h, h', fun r hr hg => (hc r hr hg).trans (by decide +kernel), fun r hr hg => (hc' r hr hg).trans (by decide +kernel)⟩

/-! ## Floating point -/

/-- Rounding to binary64: within half a unit in the last place (in the normal range). -/
def IsBinary64 (rnd : ℚ → ℚ) : Prop :=
  ∀ (e : ℤ) (x : ℚ), -1022 ≤ e → e ≤ 1022 → 2 ^ e ≤ x → x < 2 ^ (e + 1) →
    ∃ m : ℤ, rnd x = m * 2 ^ (e - 52) ∧ |x - rnd x| ≤ 2 ^ (e - 53)

/-- Rounding to the nearest number with 53 significant bits is such a rounding. -/
theorem binary64_exists : ∃ rnd : ℚ → ℚ, IsBinary64 rnd ∧ rnd 0 = 0 := by
  refine ⟨fun x => (round (x / 2 ^ (Int.log 2 x - 52)) : ℤ) * 2 ^ (Int.log 2 x - 52), ?_, by simp⟩
  intro e x _ _ h1 h2
  have hx : 0 < x := lt_of_lt_of_le (by positivity) h1
  have he : Int.log 2 x = e := by
    apply le_antisymm
    · have := (Int.zpow_log_le_self (b := 2) (by norm_num) hx).trans_lt h2
      have := (zpow_lt_zpow_iff_right₀ (by norm_num : (1 : ℚ) < 2)).mp this
      omega
    · have := h1.trans_lt (Int.lt_zpow_succ_log_self (b := 2) (by norm_num) x)
      have := (zpow_lt_zpow_iff_right₀ (by norm_num : (1 : ℚ) < 2)).mp this
      omega
  refine ⟨round (x / 2 ^ (e - 52)), by simp only [he], ?_⟩
  simp only [he]
  have hp : (0 : ℚ) < 2 ^ (e - 52) := by positivity
  have h3 := mul_le_mul_of_nonneg_right (abs_sub_round (x / 2 ^ (e - 52))) hp.le
  have h4 : |x / 2 ^ (e - 52) - (round (x / 2 ^ (e - 52)) : ℤ)| * 2 ^ (e - 52) =
      |x - (round (x / 2 ^ (e - 52)) : ℤ) * 2 ^ (e - 52)| := by
    rw [← abs_of_pos hp, ← abs_mul, abs_of_pos hp, sub_mul, div_mul_cancel₀ _ hp.ne']
  rw [h4] at h3
  refine h3.trans (le_of_eq ?_)
  rw [show e - 52 = (e - 53) + 1 by ring, zpow_add_one₀ (by norm_num)]
  ring

/-- **C91** fails: with floating point numbers 29 issues among 100 examples are reported as 28. -/
theorem C91_not_count (rnd : ℚ → ℚ) (h : IsBinary64 rnd) : countFromProb rnd 100 (rnd ((29 : ℕ) / (100 : ℕ))) = 28 := by
  obtain ⟨m, hm, he⟩ := h (-2) ((29 : ℕ) / (100 : ℕ)) (by norm_num) (by norm_num) (by norm_num) (by norm_num)
  rw [hm] at he ⊢
  rw [abs_le] at he
  obtain ⟨he1, he2⟩ := he
  have hm' : m = 5224175567749775 := by
    norm_num at he1 he2
    have h1 : (m : ℚ) < 5224175567749776 := by linarith
    have h2 : (5224175567749774 : ℚ) < m := by linarith
    have h1' : m < 5224175567749776 := by exact_mod_cast h1
    have h2' : 5224175567749774 < m := by exact_mod_cast h2
    omega
  subst hm'
  unfold countFromProb
  obtain ⟨m', hm', he'⟩ := h 4 ((5224175567749775 : ℤ) * 2 ^ ((-2 : ℤ) - 52) * ((100 : ℕ) : ℚ)) (by norm_num) (by norm_num)
    (by norm_num) (by norm_num)
  rw [hm'] at he' ⊢
  rw [abs_le] at he'
  obtain ⟨he1', he2'⟩ := he'
  norm_num at he1' he2' ⊢
  rw [Int.floor_eq_iff]
  have h1 : (m' : ℚ) < 8162774324609024 := by linarith
  have h2 : (8162774324609022 : ℚ) < m' := by linarith
  push_cast
  constructor <;> linarith

/-- The relative error of rounding. -/
theorem binary64_rel (rnd : ℚ → ℚ) (h : IsBinary64 rnd) (x : ℚ) (h1 : 1 / 2 ^ 200 ≤ x) (h2 : x < 2 ^ 200) :
    |x - rnd x| ≤ x / 2 ^ 53 := by
  have hx : 0 < x := lt_of_lt_of_le (by positivity) h1
  obtain ⟨e, he1, he2⟩ := exists_mem_Ico_zpow hx (by norm_num : (1 : ℚ) < 2)
  have e1 : -1022 ≤ e := by
    by_contra hlt
    have : (2 : ℚ) ^ (e + 1) ≤ 2 ^ (-200 : ℤ) := zpow_le_zpow_right₀ (by norm_num) (by omega)
    rw [zpow_neg] at this
    have h3 : (1 : ℚ) / 2 ^ 200 = (2 ^ (200 : ℤ))⁻¹ := by rw [one_div]; norm_cast
    rw [h3] at h1
    linarith
  have e2 : e ≤ 1022 := by
    by_contra hlt
    have : (2 : ℚ) ^ (200 : ℤ) ≤ 2 ^ e := zpow_le_zpow_right₀ (by norm_num) (by omega)
    have h3 : (2 : ℚ) ^ (200 : ℤ) = 2 ^ 200 := by norm_cast
    linarith
  obtain ⟨m, _, hm⟩ := h e x e1 e2 he1 he2
  refine hm.trans ?_
  rw [zpow_sub₀ (by norm_num), le_div_iff₀ (by positivity)]
  have : (2 : ℚ) ^ e / 2 ^ (53 : ℤ) * 2 ^ 53 = 2 ^ e := by
    rw [show (2 : ℚ) ^ (53 : ℤ) = 2 ^ 53 by norm_cast]
    field_simp
  rw [this]
  exact he1

/-- **C91**, partial: with floating point numbers the reported count is the number of issues or one less. -/
theorem C91_count_partial (rnd : ℚ → ℚ) (h : IsBinary64 rnd) (h0 : rnd 0 = 0) (c n : ℕ) (hc : c ≤ n) (hn : 0 < n)
    (hn' : n ≤ 2 ^ 50) :
    (c : ℤ) - 1 ≤ countFromProb rnd n (rnd ((c : ℚ) / n)) ∧ countFromProb rnd n (rnd ((c : ℚ) / n)) ≤ c := by
  unfold countFromProb
  rcases Nat.eq_zero_or_pos c with rfl | hcp
  · simp [h0]
  have hnq : (0 : ℚ) < n := by exact_mod_cast hn
  have hnq' : (n : ℚ) ≤ 2 ^ 50 := by exact_mod_cast hn'
  have hcq : (1 : ℚ) ≤ c := by exact_mod_cast hcp
  have hcn : (c : ℚ) ≤ n := by exact_mod_cast hc
  have hr1 := binary64_rel rnd h ((c : ℚ) / n) (by
    rw [div_le_div_iff₀ (by positivity) hnq]
    have : (n : ℚ) ≤ 2 ^ 200 := hnq'.trans (pow_le_pow_right₀ (by norm_num) (by norm_num))
    rw [one_mul]
    exact this.trans (le_mul_of_one_le_left (by positivity) hcq)) (by
    have : (c : ℚ) / n ≤ 1 := (div_le_one hnq).mpr hcn
    exact lt_of_le_of_lt this (one_lt_pow₀ (by norm_num) (by norm_num)))
  set p := rnd ((c : ℚ) / n) with hp
  have hpn : |(c : ℚ) - p * n| ≤ c / 2 ^ 53 := by
    have := mul_le_mul_of_nonneg_right hr1 hnq.le
    rw [← abs_of_pos hnq, ← abs_mul, abs_of_pos hnq, sub_mul, div_mul_cancel₀ _ hnq.ne', div_mul_eq_mul_div,
      div_mul_cancel₀ _ hnq.ne'] at this
    exact this
  rw [abs_le] at hpn
  have hlo : (c : ℚ) / 2 ≤ p * n := by linarith [hpn.2, (by linarith : (c : ℚ) / 2 ^ 53 ≤ c / 2)]
  have hhi : p * n ≤ 2 * c := by linarith [hpn.1, (by linarith : (c : ℚ) / 2 ^ 53 ≤ c)]
  have hr2 := binary64_rel rnd h (p * n) (le_trans (by
    have : (1 : ℚ) / 2 ^ 200 ≤ 1 / 2 := one_div_le_one_div_of_le (by norm_num) (by
      calc (2 : ℚ) = 2 ^ 1 := by norm_num
        _ ≤ 2 ^ 200 := pow_le_pow_right₀ (by norm_num) (by norm_num))
    exact this) (le_trans (by linarith) hlo)) (by
    calc p * n ≤ 2 * c := hhi
      _ ≤ 2 * 2 ^ 50 := by linarith
      _ < 2 ^ 200 := by
        rw [← pow_succ']
        exact pow_lt_pow_right₀ (by norm_num) (by norm_num))
  rw [abs_le] at hr2
  have hfin : |(c : ℚ) - rnd (p * n)| < 1 := by
    have h3 : p * n / 2 ^ 53 ≤ 2 * c / 2 ^ 53 := div_le_div_of_nonneg_right hhi (by positivity)
    have h4 : (c : ℚ) / 2 ^ 53 ≤ 1 / 8 := by
      rw [div_le_div_iff₀ (by positivity) (by norm_num)]
      have : (2 : ℚ) ^ 53 = 8 * 2 ^ 50 := by norm_num
      linarith
    rw [abs_lt]
    constructor <;> linarith [hpn.1, hpn.2, hr2.1, hr2.2]
  rw [abs_lt] at hfin
  constructor
  · rw [Int.le_floor]
    push_cast
    linarith
  · have : ⌊rnd (p * n)⌋ < (c : ℤ) + 1 := by
      rw [Int.floor_lt]
      push_cast
      linarith
    omega

end Cleanlab.Props
