import Verif.Model.DatalabChecks
import Mathlib.Tactic.FinCases
import Mathlib.Order.Interval.Finset.Nat
import Mathlib.Data.Int.Interval

/-!
# C42, C43, C44, C49, C50: the small checks of `Datalab`
-/

namespace Cleanlab.Props

open Cleanlab.Checks

/-! ## C42: identifier columns -/

theorem sort_interval (s : Finset ℤ) (c : ℤ) (m : ℕ) (h : ∀ x, x ∈ s ↔ c ≤ x ∧ x ≤ c + m) :
    s.sort (· ≤ ·) = (List.range (m + 1)).map (fun t : ℕ => c + (t : ℤ)) := by
  have hs2 : ((List.range (m + 1)).map (fun t : ℕ => c + (t : ℤ))).Pairwise (· ≤ ·) := by
    rw [List.pairwise_map]
    exact List.pairwise_lt_range.imp (fun {a b} hab => by omega)
  have hnd : ((List.range (m + 1)).map (fun t : ℕ => c + (t : ℤ))).Nodup :=
    List.nodup_range.map (fun a b hab => by simpa using hab)
  refine List.Perm.eq_of_pairwise (le := (· ≤ ·)) ?_ (s.pairwise_sort (· ≤ ·)) hs2 ?_
  · intro a b _ _ h1 h2
    exact le_antisymm h1 h2
  · rw [List.perm_ext_iff_of_nodup (s.sort_nodup (· ≤ ·)) hnd]
    intro x
    rw [Finset.mem_sort, h, List.mem_map]
    constructor
    · rintro ⟨h1, h2⟩
      refine ⟨(x - c).toNat, List.mem_range.mpr ?_, ?_⟩ <;> omega
    · rintro ⟨t, ht, rfl⟩
      rw [List.mem_range] at ht
      omega

/-- What the check does test: a column is reported iff it has an integer dtype and its set of values is an interval of
at least two integers.  The number of rows plays no role. -/
theorem C42_interval_partial (col : Column) :
    isIdentifier col = true ↔
      ∃ values, col = .ints values ∧ ∃ (c : ℤ) (m : ℕ), 1 ≤ m ∧ ∀ x, x ∈ values ↔ c ≤ x ∧ x ≤ c + m := by
  cases col with
  | other len => simp [isIdentifier]
  | ints values =>
    simp only [isIdentifier, Column.ints.injEq]
    constructor
    · intro h
      refine ⟨values, rfl, ?_⟩
      unfold isSequential at h
      split_ifs at h with h0
      generalize hu : values.toFinset.sort (· ≤ ·) = u at h
      have hmem : ∀ x, x ∈ values ↔ x ∈ u := by
        intro x
        rw [← hu, Finset.mem_sort, List.mem_toFinset]
      cases hlo : u.head? with
      | none => simp [hlo] at h
      | some lo =>
        cases hhi : u.getLast? with
        | none => simp [hlo, hhi] at h
        | some hi =>
          simp only [hlo, hhi] at h
          split_ifs at h with h1
          push Not at h1
          have heq := of_decide_eq_true h
          simp only [List.length_map, List.length_range] at h1
          have hpos : u.length ≠ 0 := by
            intro hz
            rw [List.length_eq_zero_iff.mp hz] at hlo
            simp at hlo
          refine ⟨lo, (hi + 1 - lo).toNat - 1, by omega, ?_⟩
          intro x
          rw [hmem, heq, List.mem_map]
          constructor
          · rintro ⟨t, ht, rfl⟩
            rw [List.mem_range] at ht
            omega
          · rintro ⟨h2, h3⟩
            refine ⟨(x - lo).toNat, List.mem_range.mpr ?_, ?_⟩ <;> omega
    · rintro ⟨_, rfl, c, m, hm, hx⟩
      have hs := sort_interval values.toFinset c m (by simpa using hx)
      have hne : values.length ≠ 0 := by
        intro hz
        rw [List.length_eq_zero_iff.mp hz] at hx
        have := (hx c).mpr ⟨le_refl _, by omega⟩
        simp at this
      unfold isSequential
      rw [if_neg hne]
      simp only [hs]
      have hhead : ((List.range (m + 1)).map (fun t : ℕ => c + (t : ℤ))).head? = some c := by
        simp [List.range_succ_eq_map]
      have hlast : ((List.range (m + 1)).map (fun t : ℕ => c + (t : ℤ))).getLast? = some (c + m) := by
        simp [List.range_succ]
      rw [hhead, hlast]
      have hlen : (c + (m : ℤ) + 1 - c).toNat = m + 1 := by omega
      simp only [hlen, List.length_map, List.length_range, ne_eq, not_true_eq_false, or_false, decide_true]
      rw [if_neg (by omega)]

/-- A column of `n ≥ 2` rows that holds `c, …, c+n-1` in any order is always reported. -/
theorem C42_identifier_found_partial (values : List ℤ) (c : ℤ) (h2 : 2 ≤ values.length)
    (hperm : values.Perm ((List.range values.length).map (fun t : ℕ => c + (t : ℤ)))) :
    isIdentifier (.ints values) = true := by
  rw [C42_interval_partial]
  refine ⟨values, rfl, c, values.length - 1, by omega, ?_⟩
  intro x
  rw [hperm.mem_iff, List.mem_map]
  constructor
  · rintro ⟨t, ht, rfl⟩
    rw [List.mem_range] at ht
    omega
  · rintro ⟨h3, h4⟩
    refine ⟨(x - c).toNat, List.mem_range.mpr ?_, ?_⟩ <;> omega

example : isIdentifier (.ints [7, 5, 6]) = true :=
  C42_identifier_found_partial [7, 5, 6] 5 (by decide) (by decide)

/-- The documented criterion does not hold: the column `0, 1, 0, 1` (for instance a binary feature) has four rows and
does not consist of consecutive integers, neither with `n` nor with `n + 1` values, but is reported. -/
theorem C42_not_documented :
    ∃ values : List ℤ, isIdentifier (.ints values) = true ∧ ¬ values.Nodup ∧
      ∀ (c : ℤ) (m : ℕ), values.length ≤ m + 1 → ¬ ∀ x, x ∈ values ↔ c ≤ x ∧ x ≤ c + m := by
  refine ⟨[0, 1, 0, 1], ?_, by decide, ?_⟩
  · rw [C42_interval_partial]
    refine ⟨_, rfl, 0, 1, le_refl _, ?_⟩
    intro x
    simp only [List.mem_cons, List.not_mem_nil, or_false]
    omega
  · intro c m hm h
    have h0 := (h c).mpr ⟨le_refl _, by omega⟩
    have h1 := (h (c + m)).mpr ⟨by omega, le_refl _⟩
    simp only [List.mem_cons, List.not_mem_nil, or_false, List.length_cons, List.length_nil] at h0 h1 hm
    omega

/-- The check never flags an example; its summary is `0` iff some column is reported and `1` otherwise, and the reported
indices are those of the identifier columns. -/
theorem C42_report (n : ℕ) (columns : List Column) :
    (identifierFindIssues n columns).isIssue = List.replicate n false ∧
    ((identifierFindIssues n columns).summary = 0 ↔ ∃ c ∈ columns, isIdentifier c = true) ∧
    ((identifierFindIssues n columns).summary = 1 ↔ ∀ c ∈ columns, isIdentifier c = false) ∧
    ∀ i, i ∈ (identifierFindIssues n columns).columns ↔ ∃ c, columns[i]? = some c ∧ isIdentifier c = true := by
  refine ⟨rfl, ?_, ?_, ?_⟩
  · simp only [identifierFindIssues, List.any_map, Function.id_comp]
    by_cases h : columns.any isIdentifier = true
    · rw [if_pos h]
      simpa using h
    · rw [if_neg h]
      simpa using h
  · simp only [identifierFindIssues, List.any_map, Function.id_comp]
    by_cases h : columns.any isIdentifier = true
    · rw [if_pos h]
      simpa using h
    · rw [if_neg h]
      simpa using h
  · intro i
    simp only [identifierFindIssues, List.mem_map, List.mem_filter, Prod.exists, List.mem_zipIdx_iff_getElem?,
      List.getElem?_map, Option.map_eq_some_iff]
    constructor
    · rintro ⟨b, j, ⟨⟨c, hc, hb⟩, hb'⟩, rfl⟩
      exact ⟨c, hc, hb.trans hb'⟩
    · rintro ⟨c, hc, hb⟩
      exact ⟨true, i, ⟨⟨c, hc, hb⟩, rfl⟩, rfl⟩

example : (identifierFindIssues 3 [.other 3, .ints [4, 6, 5]]).summary = 0 :=
  (C42_report 3 _).2.1.mpr ⟨_, by simp,
    C42_identifier_found_partial [4, 6, 5] 4 (by decide) (by decide)⟩

/-- The summary score is never the documented one (1 if the issue is present and 0 if not): the two values are
exchanged. -/
theorem C42_not_score (n : ℕ) (columns : List Column) :
    (identifierFindIssues n columns).summary ≠ if ∃ c ∈ columns, isIdentifier c = true then 1 else 0 := by
  unfold identifierFindIssues
  dsimp only
  by_cases h : ∃ c ∈ columns, isIdentifier c = true
  · rw [if_pos h, if_pos (by simpa using h)]
    norm_num
  · rw [if_neg h, if_neg (by simpa using h)]
    norm_num

/-! ## C43: underperforming group -/

section Underperforming

variable {n : ℕ}

theorem worst_scores (perf : ℤ → ℚ) (mean : ℚ) (ids : List ℤ) (s : WorstState) :
    (ids.foldl (worstStep perf mean) s).scores =
      s.scores ++ (ids.filter (fun c => perf c < mean)).map (fun c => (c, perf c / mean)) := by
  induction ids generalizing s with
  | nil => simp
  | cons c t ih =>
    rw [List.foldl_cons, ih]
    unfold worstStep
    by_cases h : perf c < mean
    · rw [if_pos h, List.filter_cons_of_pos (by simpa using h)]
      split_ifs <;> simp
    · rw [if_neg h, List.filter_cons_of_neg (by simpa using h)]

theorem worst_inv (perf : ℤ → ℚ) (mean : ℚ) (ids all : List ℤ) (s : WorstState) (hsub : ∀ c ∈ ids, c ∈ all)
    (h : s.ratio = 1 ∨ (s.id ∈ all ∧ perf s.id < mean ∧ s.ratio = perf s.id / mean)) :
    let r := ids.foldl (worstStep perf mean) s
    r.ratio = 1 ∨ (r.id ∈ all ∧ perf r.id < mean ∧ r.ratio = perf r.id / mean) := by
  induction ids generalizing s with
  | nil => exact h
  | cons c t ih =>
    rw [List.foldl_cons]
    refine ih _ (fun x hx => hsub x (List.mem_cons_of_mem _ hx)) ?_
    unfold worstStep
    by_cases h1 : perf c < mean
    · rw [if_pos h1]
      simp only
      split_ifs with h2
      · exact Or.inr ⟨hsub c (by simp), h1, rfl⟩
      · exact h
    · rw [if_neg h1]
      exact h

theorem lookup_map_filter (p : ℤ → Bool) (f : ℤ → ℚ) (l : List ℤ) (c : ℤ) :
    ((l.filter p).map (fun c => (c, f c))).lookup c = if c ∈ l ∧ p c = true then some (f c) else none := by
  induction l with
  | nil => simp
  | cons a t ih =>
    by_cases hp : p a = true
    · rw [List.filter_cons_of_pos hp, List.map_cons, List.lookup_cons, ih]
      by_cases hc : c = a
      · subst hc
        simp [hp]
      · have hb : (c == a) = false := by simpa using hc
        simp [hc, hb]
    · rw [List.filter_cons_of_neg hp, ih]
      by_cases hc : c = a
      · subst hc
        simp [hp]
      · simp [hc]

/-- The clusters the check looks at: not the outlier cluster and with at least `minSamples` members. -/
def Considered (cluster : Fin n → ℤ) (minSamples : ℕ) (c : ℤ) : Prop :=
  (∃ i, cluster i = c) ∧ c ≠ -1 ∧ minSamples ≤ (Finset.univ.filter (fun i => cluster i = c)).card

/-- Mean self confidence of one cluster. -/
def clusterMean (cluster : Fin n → ℤ) (conf : Fin n → ℚ) (c : ℤ) : ℚ :=
  (∑ i ∈ Finset.univ.filter (fun i => cluster i = c), conf i) /
    (Finset.univ.filter (fun i => cluster i = c)).card

open Classical in
/-- Mean self confidence over all considered clusters. -/
noncomputable def overallMean (cluster : Fin n → ℤ) (conf : Fin n → ℚ) (minSamples : ℕ) : ℚ :=
  (∑ i ∈ Finset.univ.filter (fun i => Considered cluster minSamples (cluster i)), conf i) /
    (Finset.univ.filter (fun i => Considered cluster minSamples (cluster i))).card

theorem mem_filterClusterIds (cluster : Fin n → ℤ) (m : ℕ) (order : List ℤ)
    (horder : ∀ c, c ∈ order ↔ ∃ i, cluster i = c) (c : ℤ) :
    c ∈ filterClusterIds cluster m order ↔ Considered cluster m c := by
  simp only [filterClusterIds, Considered, List.mem_filter, horder, decide_eq_true_eq, and_assoc]
  exact Iff.rfl

theorem mean_eq_overall (cluster : Fin n → ℤ) (conf : Fin n → ℚ) (m : ℕ) (order : List ℤ)
    (horder : ∀ c, c ∈ order ↔ ∃ i, cluster i = c) :
    meanOn conf (Finset.univ.filter (fun i => cluster i ∈ filterClusterIds cluster m order)) =
      overallMean cluster conf m := by
  classical
  have : (Finset.univ.filter (fun i => cluster i ∈ filterClusterIds cluster m order)) =
      Finset.univ.filter (fun i => Considered cluster m (cluster i)) := by
    ext i
    simp [mem_filterClusterIds cluster m order horder]
  unfold meanOn overallMean
  rw [this]

/-- The scores are right: an example of a considered cluster that is below the overall mean gets the ratio of the two
means, all others get `1`. -/
theorem C43_scores_partial (cluster : Fin n → ℤ) (conf : Fin n → ℚ) (threshold : ℚ) (m : ℕ) (order : List ℤ)
    (horder : ∀ c, c ∈ order ↔ ∃ i, cluster i = c) (r : GroupResult n)
    (hr : underperformingFindIssues cluster conf threshold m order = .ok r) (i : Fin n) :
    (Considered cluster m (cluster i) ∧ clusterMean cluster conf (cluster i) < overallMean cluster conf m →
      r.score i = clusterMean cluster conf (cluster i) / overallMean cluster conf m) ∧
    (¬ (Considered cluster m (cluster i) ∧ clusterMean cluster conf (cluster i) < overallMean cluster conf m) →
      r.score i = 1) := by
  unfold underperformingFindIssues at hr
  split_ifs at hr with hneg
  simp only at hr
  split at hr
  · exact absurd hr (by simp)
  · rename_i lo hlo
    have hr' := Except.ok.inj hr
    have hsc : r.score i = (((filterClusterIds cluster m order).foldl (worstStep
        (fun c => meanOn conf (members cluster c))
        (meanOn conf (Finset.univ.filter (fun i => cluster i ∈ filterClusterIds cluster m order))))
        { scores := [], ratio := 1, id := lo - 1 }).scores.lookup (cluster i)).getD 1 := by
      rw [← hr']
    rw [hsc, worst_scores, List.nil_append, lookup_map_filter, mean_eq_overall cluster conf m order horder]
    have hm := mem_filterClusterIds cluster m order horder (cluster i)
    have hp : meanOn conf (members cluster (cluster i)) = clusterMean cluster conf (cluster i) := rfl
    simp only [hp, decide_eq_true_eq]
    constructor
    · intro h
      rw [if_pos ⟨hm.mpr h.1, h.2⟩]
      rfl
    · intro h
      rw [if_neg (fun h' => h ⟨hm.mp h'.1, h'.2⟩)]
      rfl

/-- Whatever is flagged is a considered cluster whose ratio is below the threshold, and then this ratio is the reported
summary (thresholds up to `1`). -/
theorem C43_flag_sound_partial (cluster : Fin n → ℤ) (conf : Fin n → ℚ) (threshold : ℚ) (ht : threshold ≤ 1) (m : ℕ)
    (order : List ℤ) (horder : ∀ c, c ∈ order ↔ ∃ i, cluster i = c) (r : GroupResult n)
    (hr : underperformingFindIssues cluster conf threshold m order = .ok r) (i : Fin n) (hi : r.isIssue i = true) :
    Considered cluster m (cluster i) ∧
      clusterMean cluster conf (cluster i) < overallMean cluster conf m ∧
      r.summary = clusterMean cluster conf (cluster i) / overallMean cluster conf m ∧
      r.summary < max threshold 0 ∧ ∀ j, r.isIssue j = true ↔ cluster j = cluster i := by
  unfold underperformingFindIssues at hr
  split_ifs at hr with hneg
  simp only at hr
  split at hr
  · exact absurd hr (by simp)
  · rename_i lo hlo
    have hr' := Except.ok.inj hr
    rw [mean_eq_overall cluster conf m order horder] at hr'
    have hinv := worst_inv (fun c => meanOn conf (members cluster c)) (overallMean cluster conf m)
      (filterClusterIds cluster m order) (filterClusterIds cluster m order)
      { scores := [], ratio := 1, id := lo - 1 } (fun c hc => hc) (Or.inl rfl)
    generalize (filterClusterIds cluster m order).foldl (worstStep
        (fun c => meanOn conf (members cluster c)) (overallMean cluster conf m))
        { scores := [], ratio := 1, id := lo - 1 } = s at hr' hinv
    subst hr'
    simp only [decide_eq_true_eq] at hi ⊢
    by_cases hlt : s.ratio < max threshold 0
    · rw [if_pos hlt] at hi ⊢
      simp only at hinv
      rcases hinv with h1 | ⟨h1, h2, h3⟩
      · exfalso
        rw [h1] at hlt
        rcases lt_max_iff.mp hlt with h | h <;> linarith
      · rw [hi]
        exact ⟨(mem_filterClusterIds cluster m order horder _).mp h1, h2, h3, hlt, fun j => Iff.rfl⟩
    · rw [if_neg hlt] at hi
      exact absurd ⟨i, by rw [hi]; decide⟩ hneg

theorem worst_after (perf : ℤ → ℚ) (mean : ℚ) (c0 : ℤ) (ids : List ℤ) (s : WorstState)
    (hs : s.id = c0 ∧ s.ratio = perf c0 / mean)
    (hsep : ∀ c ∈ ids, c ≠ c0 → perf c < mean → perf c0 / mean < perf c) :
    (ids.foldl (worstStep perf mean) s).id = c0 ∧
      (ids.foldl (worstStep perf mean) s).ratio = perf c0 / mean := by
  induction ids generalizing s with
  | nil => exact hs
  | cons c t ih =>
    rw [List.foldl_cons]
    refine ih _ ?_ (fun c hc => hsep c (List.mem_cons_of_mem _ hc))
    unfold worstStep
    by_cases h1 : perf c < mean
    · rw [if_pos h1]
      simp only
      by_cases hc : c = c0
      · subst hc
        split_ifs
        · exact ⟨rfl, rfl⟩
        · exact hs
      · have := hsep c (by simp) hc h1
        rw [if_neg (by rw [hs.2]; exact not_lt.mpr this.le)]
        exact hs
    · rw [if_neg h1]
      exact hs

theorem worst_separated (perf : ℤ → ℚ) (mean : ℚ) (h0 : 0 < mean) (h1 : mean ≤ 1) (c0 : ℤ) (ids : List ℤ)
    (s : WorstState) (hmem : c0 ∈ ids) (hc0 : perf c0 < mean)
    (hs : s.ratio = 1 ∨ ∃ c, c ≠ c0 ∧ perf c < mean ∧ perf c0 / mean < perf c ∧ s.ratio = perf c / mean)
    (hpos : 0 ≤ perf c0)
    (hsep : ∀ c ∈ ids, c ≠ c0 → perf c < mean → perf c0 / mean < perf c) :
    (ids.foldl (worstStep perf mean) s).id = c0 ∧
      (ids.foldl (worstStep perf mean) s).ratio = perf c0 / mean := by
  induction ids generalizing s with
  | nil => simp at hmem
  | cons c t ih =>
    rw [List.foldl_cons]
    have hsep' : ∀ c ∈ t, c ≠ c0 → perf c < mean → perf c0 / mean < perf c :=
      fun c hc => hsep c (List.mem_cons_of_mem _ hc)
    by_cases hc : c = c0
    · subst hc
      refine worst_after perf mean c t _ ?_ hsep'
      unfold worstStep
      rw [if_pos hc0]
      simp only
      have hlt : perf c < s.ratio := by
        rcases hs with h | ⟨d, hd, hd1, hd2, hd3⟩
        · rw [h]
          linarith
        · rw [hd3]
          have e1 : perf c ≤ perf c / mean := by
            rw [le_div_iff₀ h0]
            nlinarith
          have e2 : perf d ≤ perf d / mean := by
            rw [le_div_iff₀ h0]
            nlinarith
          linarith
      rw [if_pos hlt]
      exact ⟨rfl, rfl⟩
    · have hmem' : c0 ∈ t := by
        rcases List.mem_cons.mp hmem with h | h
        · exact absurd h.symm hc
        · exact h
      refine ih _ hmem' ?_ hsep'
      unfold worstStep
      by_cases h2 : perf c < mean
      · rw [if_pos h2]
        simp only
        split_ifs
        · exact Or.inr ⟨c, hc, h2, hsep c (by simp) hc h2, rfl⟩
        · exact hs
      · rw [if_neg h2]
        exact hs

/-- When the worst cluster stands out, i.e. its ratio is even below the plain mean self confidence of all others, it is
the one reported, in every iteration order, and it is flagged iff its ratio is below the threshold. -/
theorem C43_separated_partial (cluster : Fin n → ℤ) (hid : ∀ i, -1 ≤ cluster i) (conf : Fin n → ℚ) (threshold : ℚ)
    (m : ℕ) (order : List ℤ) (horder : ∀ c, c ∈ order ↔ ∃ i, cluster i = c)
    (hmean : 0 < overallMean cluster conf m) (hmean1 : overallMean cluster conf m ≤ 1) (c0 : ℤ)
    (hc0 : Considered cluster m c0) (hbelow : clusterMean cluster conf c0 < overallMean cluster conf m)
    (hnonneg : 0 ≤ clusterMean cluster conf c0)
    (hsep : ∀ c, Considered cluster m c → c ≠ c0 → clusterMean cluster conf c < overallMean cluster conf m →
      clusterMean cluster conf c0 / overallMean cluster conf m < clusterMean cluster conf c) :
    ∃ r, underperformingFindIssues cluster conf threshold m order = .ok r ∧
      r.summary = clusterMean cluster conf c0 / overallMean cluster conf m ∧
      ∀ i, r.isIssue i = true ↔
        cluster i = c0 ∧ clusterMean cluster conf c0 / overallMean cluster conf m < max threshold 0 := by
  unfold underperformingFindIssues
  rw [if_neg (by push Not; exact hid)]
  simp only
  split
  · rename_i hnone
    have hm := (mem_filterClusterIds cluster m order horder c0).mpr hc0
    rw [List.min?_eq_none_iff] at hnone
    rw [hnone] at hm
    simp at hm
  · rename_i lo hlo
    rw [mean_eq_overall cluster conf m order horder]
    obtain ⟨e1, e2⟩ := worst_separated (fun c => meanOn conf (members cluster c)) (overallMean cluster conf m) hmean
      hmean1 c0 (filterClusterIds cluster m order) { scores := [], ratio := 1, id := lo - 1 }
      ((mem_filterClusterIds cluster m order horder c0).mpr hc0) hbelow (Or.inl rfl) hnonneg
      (fun c hc => hsep c ((mem_filterClusterIds cluster m order horder c).mp hc))
    refine ⟨_, rfl, e2, ?_⟩
    intro i
    have e2' : (List.foldl (worstStep (fun c => meanOn conf (members cluster c)) (overallMean cluster conf m))
      { scores := [], ratio := 1, id := lo - 1 } (filterClusterIds cluster m order)).ratio =
        clusterMean cluster conf c0 / overallMean cluster conf m := e2
    simp only [e1, e2', decide_eq_true_eq]
    split_ifs with h
    · simp [h]
    · simp only [h, and_false, iff_false]
      have := hid i
      simp only [noCluster]
      omega

/-- two clusters of one example each, self confidence 1/10 and 9/10: the first is flagged at threshold 1/4 -/
example : ∃ r, underperformingFindIssues (n := 2) (fun i => (i.val : ℤ)) (fun i => if i.val = 0 then 1 / 10 else 9 / 10)
    (1 / 4) 1 [0, 1] = .ok r ∧ r.isIssue 0 = true ∧ r.isIssue 1 = false := by
  have horder : ∀ c, c ∈ [(0 : ℤ), 1] ↔ ∃ i : Fin 2, (i.val : ℤ) = c := by
    intro c
    simp [Fin.exists_fin_two, eq_comm]
  have hcons : ∀ c, Considered (n := 2) (fun i => (i.val : ℤ)) 1 c ↔ c ∈ [(0 : ℤ), 1] := by
    intro c
    rw [← mem_filterClusterIds _ 1 [0, 1] horder]
    rw [show filterClusterIds (n := 2) (fun i => (i.val : ℤ)) 1 [0, 1] = [0, 1] by decide +kernel]
  have hmean : overallMean (n := 2) (fun i => (i.val : ℤ)) (fun i => if i.val = 0 then 1 / 10 else 9 / 10) 1 = 1 / 2 := by
    rw [← mean_eq_overall _ _ 1 [0, 1] horder]
    decide +kernel
  have h0 : clusterMean (n := 2) (fun i => (i.val : ℤ)) (fun i => if i.val = 0 then 1 / 10 else 9 / 10) 0 = 1 / 10 := by
    decide +kernel
  have h1 : clusterMean (n := 2) (fun i => (i.val : ℤ)) (fun i => if i.val = 0 then 1 / 10 else 9 / 10) 1 = 9 / 10 := by
    decide +kernel
  obtain ⟨r, hr, _, hf⟩ := C43_separated_partial (n := 2) (fun i => (i.val : ℤ)) (by intro i; omega)
    (fun i => if i.val = 0 then 1 / 10 else 9 / 10) (1 / 4) 1 [0, 1] horder (by rw [hmean]; norm_num)
    (by rw [hmean]; norm_num) 0 ((hcons 0).mpr (by simp)) (by rw [hmean, h0]; norm_num) (by rw [h0]; norm_num)
    (by
      intro c hc hne hlt
      have : c = 1 := by
        have := (hcons c).mp hc
        simp only [List.mem_cons, List.not_mem_nil, or_false] at this
        omega
      subst this
      rw [hmean, h0, h1]
      norm_num)
  refine ⟨r, hr, (hf 0).mpr ⟨rfl, by rw [hmean, h0]; norm_num⟩, ?_⟩
  have := (hf 1).not
  simpa using this

/-- 20 examples in three clusters with mean self confidence 0.04, 0.06 and 0.95; the overall mean is 0.5. -/
def groupCluster (i : Fin 20) : ℤ := if i.val < 5 then 0 else if i.val < 10 then 1 else 2

/-- see `groupCluster` -/
def groupConf (i : Fin 20) : ℚ := if i.val < 5 then 4 / 100 else if i.val < 10 then 6 / 100 else 95 / 100

/-- The reported cluster is not the worst one: cluster 0 has ratio 0.08, below the default threshold 0.1, but the
check reports cluster 1 with ratio 0.12 and so flags nothing.  In the other iteration order cluster 0 is flagged. -/
theorem C43_not_worst :
    clusterMean groupCluster groupConf 0 = 4 / 100 ∧
    (∀ r, underperformingFindIssues groupCluster groupConf (1 / 10) 5 [0, 1, 2] = .ok r →
      r.summary = 12 / 100 ∧ r.worst = -2 ∧ ∀ i, r.isIssue i = false) ∧
    (∀ r, underperformingFindIssues groupCluster groupConf (1 / 10) 5 [1, 0, 2] = .ok r →
      r.summary = 8 / 100 ∧ r.worst = 0 ∧ ∀ i, r.isIssue i = true ↔ i.val < 5) ∧
    (∃ r, underperformingFindIssues groupCluster groupConf (1 / 10) 5 [0, 1, 2] = .ok r) ∧
    (∃ r, underperformingFindIssues groupCluster groupConf (1 / 10) 5 [1, 0, 2] = .ok r) := by
  have f1 : filterClusterIds groupCluster 5 [0, 1, 2] = [0, 1, 2] := by decide +kernel
  have f2 : filterClusterIds groupCluster 5 [1, 0, 2] = [1, 0, 2] := by decide +kernel
  have p0 : meanOn groupConf (members groupCluster 0) = 4 / 100 := by decide +kernel
  have p1 : meanOn groupConf (members groupCluster 1) = 6 / 100 := by decide +kernel
  have p2 : meanOn groupConf (members groupCluster 2) = 95 / 100 := by decide +kernel
  have q1 : meanOn groupConf (Finset.univ.filter (fun i => groupCluster i ∈ [(0 : ℤ), 1, 2])) = 1 / 2 := by
    decide +kernel
  have q2 : meanOn groupConf (Finset.univ.filter (fun i => groupCluster i ∈ [(1 : ℤ), 0, 2])) = 1 / 2 := by
    decide +kernel
  have hneg : ¬ ∃ i, groupCluster i < -1 := by decide
  have r1 : ∃ r, underperformingFindIssues groupCluster groupConf (1 / 10) 5 [0, 1, 2] = .ok r ∧
      r.summary = 12 / 100 ∧ r.worst = -2 ∧ ∀ i, r.isIssue i = decide (groupCluster i = -2) := by
    unfold underperformingFindIssues
    rw [if_neg hneg]
    simp only [f1, q1]
    refine ⟨_, rfl, ?_⟩
    simp only [List.foldl_cons, List.foldl_nil, worstStep, p0, p1, p2]
    norm_num [noCluster]
  have r2 : ∃ r, underperformingFindIssues groupCluster groupConf (1 / 10) 5 [1, 0, 2] = .ok r ∧
      r.summary = 8 / 100 ∧ r.worst = 0 ∧ ∀ i, r.isIssue i = decide (groupCluster i = 0) := by
    unfold underperformingFindIssues
    rw [if_neg hneg]
    simp only [f2, q2]
    refine ⟨_, rfl, ?_⟩
    simp only [List.foldl_cons, List.foldl_nil, worstStep, p0, p1, p2]
    norm_num [noCluster]
  obtain ⟨a1, h1, s1, w1, i1⟩ := r1
  obtain ⟨a2, h2, s2, w2, i2⟩ := r2
  refine ⟨p0, ?_, ?_, ⟨a1, h1⟩, ⟨a2, h2⟩⟩
  · intro r hr
    rw [h1] at hr
    cases hr
    refine ⟨s1, w1, fun i => ?_⟩
    rw [i1]
    revert i
    decide
  · intro r hr
    rw [h2] at hr
    cases hr
    refine ⟨s2, w2, fun i => ?_⟩
    rw [i2]
    revert i
    decide

end Underperforming

/-! ## C44: spurious correlations -/

/-- The baseline is not the majority class accuracy: for labels `1, 1, 0` it is 1/3 (class index over number of
examples) instead of 2/3, and for `3, 3` it is 3/2, which makes the score of an accuracy of 1/2 equal to `-1`. -/
theorem C44_not_majority :
    getBaseline [1, 1, 0] = .ok (1 / 3) ∧ getBaseline [3, 3] = .ok (3 / 2) ∧
    propertyScore [3, 3] (1 / 2) = .ok (-1) := by
  refine ⟨by decide +kernel, by decide +kernel, by decide +kernel⟩

theorem mem_bins (labels : List ℕ) (c : ℕ) : c ∈ bins labels ↔ ∃ m, labels.max? = some m ∧ c ≤ m := by
  unfold bins
  cases labels.max? with
  | none => simp
  | some m => simp [Nat.lt_succ_iff]

theorem label_mem_bins (labels : List ℕ) (c : ℕ) (h : c ∈ labels) : c ∈ bins labels := by
  rw [mem_bins]
  cases hm : labels.max? with
  | none =>
    rw [List.max?_eq_none_iff] at hm
    simp [hm] at h
  | some m => exact ⟨m, rfl, (List.max?_eq_some_iff.mp hm).2 c h⟩

/-- What the code computes: the index of the smallest most frequent class over the number of examples.  The result is
the majority accuracy only when that index happens to equal the count. -/
theorem C44_baseline_partial (labels : List ℕ) (b : ℚ) (h : getBaseline labels = .ok b) :
    ∃ c ∈ labels, (∀ c' ∈ labels, labels.count c' ≤ labels.count c) ∧ b = (c : ℚ) / labels.length ∧
      (b = (labels.count c : ℚ) / labels.length ↔ c = labels.count c) := by
  unfold getBaseline at h
  split at h
  · simp at h
  · rename_i c hc
    have hb := Except.ok.inj h
    have hmax : ∀ c' ∈ labels, labels.count c' ≤ labels.count c :=
      fun c' hc' => List.le_of_mem_argmax (label_mem_bins labels c' hc') hc
    have hcm := (mem_bins labels c).mp (List.argmax_mem hc)
    obtain ⟨m, hm, _⟩ := hcm
    have hmm := (List.max?_eq_some_iff.mp hm).1
    have hcl : c ∈ labels := by
      have h1 := hmax m hmm
      have h2 := List.count_pos_iff.mpr hmm
      exact List.count_pos_iff.mp (by omega)
    refine ⟨c, hcl, hmax, hb.symm, ?_⟩
    have hlen : (labels.length : ℚ) ≠ 0 := by
      have := List.length_pos_of_mem hcl
      positivity
    rw [← hb]
    constructor
    · intro h
      field_simp at h
      exact_mod_cast h
    · intro h
      rw [← h]

/-- Scores never exceed `1`; they are in `[0, 1]` when the baseline is at most `1`, in particular when class indices
do not exceed the number of examples. -/
theorem C44_score_range_partial (labels : List ℕ) (accuracy : ℚ) (ha : accuracy ≤ 1) (s : ℚ)
    (h : propertyScore labels accuracy = .ok s) :
    s ≤ 1 ∧ ((∀ c ∈ labels, c ≤ labels.length) → 0 ≤ s) := by
  unfold propertyScore at h
  cases hb : getBaseline labels with
  | error e => simp [hb, Except.map] at h
  | ok b =>
    simp only [hb, Except.map, Except.ok.injEq] at h
    subst h
    refine ⟨min_le_left _ _, ?_⟩
    intro hc
    obtain ⟨c, hcl, _, hbc, _⟩ := C44_baseline_partial labels b hb
    have hb1 : b ≤ 1 := by
      rw [hbc]
      refine div_le_one_of_le₀ ?_ (by positivity)
      exact_mod_cast hc c hcl
    unfold relativeRoom
    simp only
    refine le_min (by norm_num) (div_nonneg (by linarith) ?_)
    split_ifs <;> linarith

/-- A higher accuracy never raises the score, as long as the baseline is at most one. -/
theorem C44_antitone_partial (b x y : ℚ) (hb : b ≤ 1) (h : x ≤ y) : relativeRoom b y ≤ relativeRoom b x := by
  unfold relativeRoom
  simp only
  refine min_le_min (le_refl _) ?_
  refine div_le_div_of_nonneg_right (by linarith) ?_
  split_ifs <;> linarith

example : propertyScore [0, 0, 1] (3 / 4) = .ok (1 / 4) := by decide +kernel

/-! ## C49: class imbalance -/

/-- An example is flagged iff its class is the rarest one (ties: the smallest index) and the share of this class is
below `threshold / K`; its score is the share of the rarest class and all other scores are `1`. -/
theorem C49_flags (labels : List ℕ) (K : ℕ) (threshold : ℚ) (hne : labels ≠ [])
    (hall : ∀ c, c < K ↔ c ∈ labels) :
    ∃ r rare, imbalanceFindIssues labels K threshold = .ok r ∧ rare ∈ labels ∧
      (∀ c ∈ labels, labels.count rare ≤ labels.count c) ∧
      (∀ c ∈ labels, labels.count c = labels.count rare → rare ≤ c) ∧
      r.rarest = rare ∧ r.summary = (labels.count rare : ℚ) / labels.length ∧
      r.isIssue.length = labels.length ∧ r.scores.length = labels.length ∧
      ∀ (i : ℕ) (l : ℕ), labels[i]? = some l →
        (r.isIssue[i]? = some true ↔
          l = rare ∧ (labels.count rare : ℚ) / labels.length < threshold * (1 / K)) ∧
        r.scores[i]? = some (if l = rare then (labels.count rare : ℚ) / labels.length else 1) := by
  unfold imbalanceFindIssues
  simp only
  have hmem : ∀ c, c ∈ bins labels ↔ c ∈ labels := by
    intro c
    constructor
    · intro h
      obtain ⟨m, hm, hcm⟩ := (mem_bins labels c).mp h
      have := (hall m).mpr (List.max?_eq_some_iff.mp hm).1
      exact (hall c).mp (by omega)
    · exact label_mem_bins labels c
  have hlen : (0 : ℚ) < labels.length := by
    have := List.length_pos_iff.mpr hne
    exact_mod_cast this
  split
  · rename_i h
    rw [List.argmin_eq_none] at h
    obtain ⟨a, ha⟩ := List.exists_mem_of_ne_nil labels hne
    have := (hmem a).mpr ha
    rw [h] at this
    simp at this
  · rename_i rare h
    have hle : ∀ c ∈ labels, labels.count rare ≤ labels.count c := by
      intro c hc
      have := List.le_of_mem_argmin ((hmem c).mpr hc) h
      rw [div_le_div_iff_of_pos_right hlen] at this
      exact_mod_cast this
    refine ⟨_, rare, rfl, (hmem rare).mp (List.argmin_mem h), hle, ?_, rfl, rfl, by simp, by simp, ?_⟩
    · intro c hc heq
      have hi := (List.argmin_eq_some_iff.mp h).2.2 c ((hmem c).mpr hc) (by rw [heq])
      obtain ⟨m, hm, hcm⟩ := (mem_bins labels c).mp ((hmem c).mpr hc)
      obtain ⟨m', hm', hrm⟩ := (mem_bins labels rare).mp (List.argmin_mem h)
      have hbins : bins labels = List.range (m + 1) := by simp [bins, hm]
      have : m' = m := by
        rw [hm] at hm'
        exact (Option.some.inj hm').symm
      rw [hbins] at hi
      have e : ∀ x, x ≤ m → (List.range (m + 1)).idxOf x = x := by
        intro x hx
        have h1 : x < (List.range (m + 1)).length := by simp; omega
        have h2 : (List.range (m + 1))[x] = x := List.getElem_range h1
        have h3 := (List.nodup_range (n := m + 1)).idxOf_getElem x h1
        rwa [h2] at h3
      rw [e rare (by omega), e c hcm] at hi
      exact hi
    · intro i l hl
      simp only [List.getElem?_map, hl, Option.map_some, Option.some.injEq, decide_eq_true_eq]
      refine ⟨?_, trivial⟩
      split_ifs with hth
      · rw [Nat.cast_inj]
        exact ⟨fun h => ⟨h, hth⟩, fun h => h.1⟩
      · simp only [hth, and_false]

example : (imbalanceFindIssues [0, 0, 0, 1, 0, 0] 2 (1 / 2)).toOption.map (·.isIssue) =
    some [false, false, false, true, false, false] := by decide +kernel

/-! ## C50: null values -/

section Null

variable {n d : ℕ}

/-- An example is flagged iff all its features are null, and its score is the fraction of features that are not
null. -/
theorem C50_scores (null : Fin n → Fin d → Bool) (i : Fin n) :
    ((nullRow null i).1 = true ↔ ∀ j, null i j = true) ∧
    (0 < d → (nullRow null i).2 = some (((Finset.univ.filter (fun j => null i j = false)).card : ℚ) / (d : ℚ))) := by
  have hsplit : (Finset.univ.filter (fun j => null i j = true)).card +
      (Finset.univ.filter (fun j => null i j = false)).card = d := by
    have := Finset.card_filter_add_card_filter_not (s := (Finset.univ : Finset (Fin d)))
      (fun j => null i j = true)
    simpa using this
  have hnn : nonNull null i = ((Finset.univ.filter (fun j => null i j = false)).card : ℤ) := by
    unfold nonNull
    omega
  constructor
  · simp only [nullRow, hnn, decide_eq_true_eq, Nat.cast_eq_zero, Finset.card_eq_zero, Finset.filter_eq_empty_iff]
    simp
  · intro hd
    simp only [nullRow, hnn]
    rw [if_neg (by omega)]
    simp

/-- With at least one feature the flag is the same as score zero, and a score of one means nothing is missing. -/
theorem C50_flag_iff_zero (null : Fin n → Fin d → Bool) (i : Fin n) (hd : 0 < d) :
    ((nullRow null i).1 = true ↔ (nullRow null i).2 = some 0) ∧
    ((nullRow null i).2 = some 1 ↔ ∀ j, null i j = false) := by
  have hdq : (d : ℚ) ≠ 0 := by positivity
  rw [(C50_scores null i).1, (C50_scores null i).2 hd]
  constructor
  · simp only [Option.some.injEq, div_eq_zero_iff, Nat.cast_eq_zero, Finset.card_eq_zero,
      Finset.filter_eq_empty_iff]
    constructor
    · intro h
      exact Or.inl (fun {j} _ => by simp [h j])
    · rintro (h | h)
      · intro j
        simpa using h (Finset.mem_univ j)
      · omega
  · simp only [Option.some.injEq, div_eq_one_iff_eq hdq, Nat.cast_inj]
    constructor
    · intro h j
      have : Finset.univ.filter (fun j => null i j = false) = Finset.univ :=
        Finset.eq_univ_of_card _ (by rw [h, Fintype.card_fin])
      have hj : j ∈ Finset.univ.filter (fun j => null i j = false) := by
        rw [this]
        exact Finset.mem_univ j
      simpa using hj
    · intro h
      rw [Finset.filter_true_of_mem (fun j _ => h j)]
      simp

/-- The reported most common pattern: if nothing is null there is none; otherwise it is the null pattern of some row
with a null, its rows are exactly the rows with this pattern, the count is their number and no other pattern with a
null is more frequent. -/
theorem C50_most_common (null : Fin n → Fin d → Bool) :
    ((∀ i j, null i j = false) → mostCommonIssue null = { pattern := none, rows := [], count := 0 }) ∧
    ((∃ i j, null i j = true) → ∃ p, (mostCommonIssue null).pattern = some p ∧
      (∃ j, p j = true) ∧ (∀ i, i ∈ (mostCommonIssue null).rows ↔ null i = p) ∧
      (mostCommonIssue null).rows.Nodup ∧
      (mostCommonIssue null).count = (mostCommonIssue null).rows.length ∧
      ∀ q, (∃ j, q j = true) →
        (Finset.univ.filter (fun i => null i = q)).card ≤ (mostCommonIssue null).count) := by
  classical
  set rows := (List.finRange n).filter (fun i => ∃ j, null i j = true) with hrows
  have hnd : rows.Nodup := (List.nodup_finRange n).filter _
  have hmemrows : ∀ i, i ∈ rows ↔ ∃ j, null i j = true := by
    intro i
    simp [hrows]
  have hcount : ∀ q : Fin d → Bool, (rows.map null).count q = (rows.filter (fun i => null i = q)).length := by
    intro q
    rw [List.count_eq_countP, List.countP_map, List.countP_eq_length_filter]
    congr 1
  constructor
  · intro h
    have : rows = [] := by
      rw [List.eq_nil_iff_forall_not_mem]
      intro i hi
      obtain ⟨j, hj⟩ := (hmemrows i).mp hi
      simp [h] at hj
    unfold mostCommonIssue
    simp only
    rw [← hrows, this]
    rfl
  · rintro ⟨i, j, hij⟩
    have hi : i ∈ rows := (hmemrows i).mpr ⟨j, hij⟩
    unfold mostCommonIssue
    simp only
    rw [← hrows]
    split
    · rename_i h
      rw [List.argmax_eq_none, List.map_eq_nil_iff] at h
      rw [h] at hi
      simp at hi
    · rename_i p h
      have hp := List.argmax_mem h
      obtain ⟨i0, hi0, hp0⟩ := List.mem_map.mp hp
      have hpj : ∃ j, p j = true := by
        rw [← hp0]
        exact (hmemrows i0).mp hi0
      refine ⟨p, rfl, hpj, ?_, hnd.filter _, hcount p, ?_⟩
      · intro a
        simp only [List.mem_filter, decide_eq_true_eq, hmemrows]
        constructor
        · exact fun h => h.2
        · intro h
          exact ⟨by rw [h]; exact hpj, h⟩
      · intro q hq
        have heq : (Finset.univ.filter (fun i => null i = q)).card = (rows.map null).count q := by
          rw [hcount, ← List.toFinset_card_of_nodup (hnd.filter _)]
          congr 1
          ext a
          simp only [Finset.mem_filter, Finset.mem_univ, true_and, List.mem_toFinset, List.mem_filter,
            decide_eq_true_eq, hmemrows]
          constructor
          · intro h
            exact ⟨by rw [h]; exact hq, h⟩
          · exact fun h => h.2
        rw [heq]
        by_cases hqm : q ∈ rows.map null
        · exact List.le_of_mem_argmax hqm h
        · rw [List.count_eq_zero_of_not_mem hqm]
          omega

example : (mostCommonIssue (n := 3) (d := 2) (fun i j => decide (i.val ≠ 1 ∧ j.val = 0))).rows = [0, 2] := by
  decide +kernel

end Null

/-- **C50, columns.** The impact of a column is the fraction of rows in which it is null. -/
theorem C50_column_impact (null : Fin n → Fin d → Bool) (j : Fin d) :
    (n = 0 → columnImpact null j = none) ∧
    (0 < n → columnImpact null j = some ((Fintype.card {i // null i j = true} : ℚ) / (n : ℚ))) := by
  unfold columnImpact
  refine ⟨fun h => if_pos h, fun h => ?_⟩
  rw [if_neg h.ne', Fintype.card_subtype]

example : columnImpact (fun (i : Fin 4) (j : Fin 2) => decide (i.val < 3 ∧ j.val = 0)) 0 = some (3 / 4) := by decide +kernel

end Cleanlab.Props
