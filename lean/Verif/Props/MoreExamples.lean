import Verif.Props.DatalabChecks
import Mathlib.Tactic.IntervalCases

/-!
# C221, C222, C223: class imbalance when more examples are collected, and missing values that are filled in
-/

namespace Cleanlab.Props

open Cleanlab.Checks

/-! ### C221 -/

/-- The rarest class of given data, with ties broken by the number of the class. -/
theorem rarest_unique (labels : List ℕ) (a b : ℕ) (ha : a ∈ labels) (hb : b ∈ labels)
    (h1 : ∀ c ∈ labels, labels.count a ≤ labels.count c) (h2 : ∀ c ∈ labels, labels.count c = labels.count a → a ≤ c)
    (h3 : ∀ c ∈ labels, labels.count b ≤ labels.count c) (h4 : ∀ c ∈ labels, labels.count c = labels.count b → b ≤ c) :
    a = b := by
  have e : labels.count a = labels.count b := le_antisymm (h1 b hb) (h3 a ha)
  exact le_antisymm (h2 b hb e.symm) (h4 a ha e)

/-- **C221.** After more examples of other classes were collected, the same class is the rarest, every example that was
flagged is still flagged, examples of other classes are not, and no score of an example has risen. -/
theorem C221_others (labels extra : List ℕ) (K : ℕ) (threshold : ℚ) (hne : labels ≠ []) (hall : ∀ c, c < K ↔ c ∈ labels)
    (r : ImbalanceResult) (h : imbalanceFindIssues labels K threshold = .ok r) (hextra : ∀ c ∈ extra, c < K ∧ c ≠ r.rarest) :
    ∃ r', imbalanceFindIssues (labels ++ extra) K threshold = .ok r' ∧ r'.rarest = r.rarest ∧ r'.summary ≤ r.summary ∧
      (∀ i, i < labels.length → r.isIssue[i]? = some true → r'.isIssue[i]? = some true) ∧
      (∀ (i l : ℕ), (labels ++ extra)[i]? = some l → r'.isIssue[i]? = some true → l = r.rarest) ∧
      ∀ i, i < labels.length → ∃ s s', r.scores[i]? = some s ∧ r'.scores[i]? = some s' ∧ s' ≤ s := by
  obtain ⟨r0, rare, e0, hmem, hmin, htie, hr, hsum, -, -, hrow⟩ := C49_flags labels K threshold hne hall
  have hr0 : r0 = r := Except.ok.inj (e0.symm.trans h)
  subst hr0
  have hall' : ∀ c, c < K ↔ c ∈ labels ++ extra := fun c => by
    rw [List.mem_append, ← hall]
    exact ⟨Or.inl, fun h => h.elim id (fun h => (hextra c h).1)⟩
  obtain ⟨r', rare', e1, hmem', hmin', htie', hr', hsum', -, -, hrow'⟩ :=
    C49_flags (labels ++ extra) K threshold (by simp [hne]) hall'
  have hzero : extra.count rare = 0 := List.count_eq_zero.mpr (fun hin => (hextra rare hin).2 hr.symm)
  have hcount : (labels ++ extra).count rare = labels.count rare := by rw [List.count_append, hzero, add_zero]
  have hle : ∀ c, labels.count c ≤ (labels ++ extra).count c := fun c => by rw [List.count_append]; omega
  have hin : ∀ c ∈ labels ++ extra, c ∈ labels := fun c hc => (hall c).mp ((hall' c).mpr hc)
  have hsame : rare' = rare := by
    refine rarest_unique (labels ++ extra) rare' rare hmem' (List.mem_append_left _ hmem) hmin' htie' (fun c hc => ?_)
      (fun c hc he => ?_)
    · rw [hcount]
      exact (hmin c (hin c hc)).trans (hle c)
    · rw [hcount] at he
      exact htie c (hin c hc) (le_antisymm (by rw [← he]; exact hle c) (hmin c (hin c hc)))
  rw [hsame, hcount] at hsum' hrow'
  have hn : (0 : ℚ) < labels.length := by exact_mod_cast List.length_pos_iff.mpr hne
  have hfrac : (labels.count rare : ℚ) / (labels ++ extra).length ≤ (labels.count rare : ℚ) / labels.length := by
    rw [List.length_append, Nat.cast_add]
    exact div_le_div_of_nonneg_left (by positivity) hn (by linarith [(Nat.cast_nonneg extra.length : (0 : ℚ) ≤ _)])
  have hget : ∀ i l, i < labels.length → labels[i]? = some l → (labels ++ extra)[i]? = some l := fun i l hi hl => by
    rw [List.getElem?_append_left hi]
    exact hl
  refine ⟨r', e1, by rw [hr', hr, hsame], by rw [hsum, hsum']; exact hfrac, fun i hi hf => ?_, fun i l hl hf => ?_, fun i hi => ?_⟩
  · obtain ⟨l, hl⟩ : ∃ l, labels[i]? = some l := ⟨labels[i], List.getElem?_eq_getElem hi⟩
    obtain ⟨g1, g2⟩ := (hrow i l hl).1.mp hf
    exact (hrow' i l (hget i l hi hl)).1.mpr ⟨g1, lt_of_le_of_lt hfrac g2⟩
  · rw [hr]
    exact ((hrow' i l hl).1.mp hf).1
  · obtain ⟨l, hl⟩ : ∃ l, labels[i]? = some l := ⟨labels[i], List.getElem?_eq_getElem hi⟩
    refine ⟨_, _, (hrow i l hl).2, (hrow' i l (hget i l hi hl)).2, ?_⟩
    split_ifs
    · exact hfrac
    · exact le_rfl

/-! ### C222 -/

/-- One example of class 0, one of class 1, 98 of class 2. -/
def twoRare : List ℕ := 0 :: 1 :: List.replicate 98 2

theorem twoRare_all (c : ℕ) : c < 3 ↔ c ∈ twoRare := by
  unfold twoRare
  simp only [List.mem_cons, List.mem_replicate]
  omega

theorem twoRare_all' (c : ℕ) : c < 3 ↔ c ∈ twoRare ++ [0] := by
  rw [List.mem_append, ← twoRare_all, List.mem_singleton]
  omega

/-- **C222 (refuted as stated).** Class 0 is reported as rare with the default threshold; after another example of class 0 was
collected, the example of class 1 is reported, which was not before. -/
theorem C222_not_other_class : ∃ r r', imbalanceFindIssues twoRare 3 (1 / 10) = .ok r ∧
    imbalanceFindIssues (twoRare ++ [0]) 3 (1 / 10) = .ok r' ∧ r.rarest = 0 ∧ r.isIssue[0]? = some true ∧
    r.isIssue[1]? = some false ∧ r'.rarest = 1 ∧ r'.isIssue[1]? = some true := by
  obtain ⟨r, rare, e, h1, h2, h3, h4, -, hlen, -, hrow⟩ := C49_flags twoRare 3 (1 / 10) (by decide) twoRare_all
  obtain ⟨r', rare', e', h1', h2', h3', h4', -, -, -, hrow'⟩ :=
    C49_flags (twoRare ++ [0]) 3 (1 / 10) (by decide) twoRare_all'
  have c0 : twoRare.count 0 = 1 := by decide +kernel
  have c1 : twoRare.count 1 = 1 := by decide +kernel
  have c2 : twoRare.count 2 = 98 := by decide +kernel
  have d0 : (twoRare ++ [0]).count 0 = 2 := by decide +kernel
  have d1 : (twoRare ++ [0]).count 1 = 1 := by decide +kernel
  have d2 : (twoRare ++ [0]).count 2 = 98 := by decide +kernel
  have hl : twoRare.length = 100 := by decide +kernel
  have hl' : (twoRare ++ [0]).length = 101 := by decide +kernel
  have hrare : rare = 0 := by
    refine rarest_unique _ _ 0 h1 ((twoRare_all 0).mp (by norm_num)) h2 h3 (fun c hc => ?_) (fun c _ _ => Nat.zero_le c)
    have := (twoRare_all c).mpr hc
    interval_cases c <;> omega
  have hrare' : rare' = 1 := by
    refine rarest_unique _ _ 1 h1' ((twoRare_all' 1).mp (by norm_num)) h2' h3' (fun c hc => ?_) (fun c hc he => ?_)
    · have := (twoRare_all' c).mpr hc
      interval_cases c <;> omega
    · have := (twoRare_all' c).mpr hc
      interval_cases c <;> omega
  subst hrare hrare'
  refine ⟨r, r', e, e', h4, ((hrow 0 0 rfl).1).mpr ⟨rfl, by rw [c0, hl]; norm_num⟩, ?_, h4',
    ((hrow' 1 1 rfl).1).mpr ⟨rfl, by rw [d1, hl']; norm_num⟩⟩
  have hlt : 1 < r.isIssue.length := by rw [hlen, hl]; norm_num
  have hno : ¬ r.isIssue[1]? = some true := fun hc => by
    have := ((hrow 1 1 rfl).1.mp hc).1
    omega
  rw [List.getElem?_eq_getElem hlt] at hno ⊢
  cases hv : r.isIssue[1] with
  | false => rfl
  | true => exact absurd (congrArg some hv) hno

/-- **C222**, what holds: as long as the class that was the rarest has fewer examples than every other class, no example of
another class is reported after more examples of it were collected. Missing: classes that are about as rare, see
`C222_not_other_class`. -/
theorem C222_rarest_partial (labels : List ℕ) (m K : ℕ) (threshold : ℚ) (hne : labels ≠ []) (hall : ∀ c, c < K ↔ c ∈ labels)
    (r : ImbalanceResult) (h : imbalanceFindIssues labels K threshold = .ok r)
    (hrare : ∀ c ∈ labels, c ≠ r.rarest → labels.count r.rarest + m < labels.count c) :
    ∃ r', imbalanceFindIssues (labels ++ List.replicate m r.rarest) K threshold = .ok r' ∧ r'.rarest = r.rarest ∧
      ∀ (i l : ℕ), (labels ++ List.replicate m r.rarest)[i]? = some l → r'.isIssue[i]? = some true → l = r.rarest := by
  obtain ⟨r0, rare, e0, hmem, hmin, htie, hr, -⟩ := C49_flags labels K threshold hne hall
  have hr0 : r0 = r := Except.ok.inj (e0.symm.trans h)
  subst hr0
  rw [hr] at hrare ⊢
  have hin : ∀ c ∈ labels ++ List.replicate m rare, c ∈ labels := fun c hc => by
    rcases List.mem_append.mp hc with hc | hc
    · exact hc
    · rw [(List.mem_replicate.mp hc).2]
      exact hmem
  have hall' : ∀ c, c < K ↔ c ∈ labels ++ List.replicate m rare := fun c =>
    ⟨fun hc => List.mem_append_left _ ((hall c).mp hc), fun hc => (hall c).mpr (hin c hc)⟩
  obtain ⟨r', rare', e1, hmem', hmin', -, hr', -, -, -, hrow'⟩ :=
    C49_flags (labels ++ List.replicate m rare) K threshold (by simp [hne]) hall'
  have hsame : rare' = rare := by
    by_contra hdiff
    have g1 := hrare rare' (hin rare' hmem') hdiff
    have g2 := hmin' rare (List.mem_append_left _ hmem)
    rw [List.count_append, List.count_append, List.count_replicate_self,
      List.count_eq_zero.mpr (fun hm => hdiff (List.mem_replicate.mp hm).2)] at g2
    omega
  exact ⟨r', e1, by rw [hr', hsame], fun i l hl hf => by rw [← hsame]; exact ((hrow' i l hl).1.mp hf).1⟩

/-! ### C223 -/

variable {n d : ℕ}

/-- **C223.** If some missing values are filled in, no row is flagged that was not flagged before, no score falls, and rows
without a change keep flag and score. -/
theorem C223_filled (null null' : Fin n → Fin d → Bool) (hd : 0 < d) (h : ∀ i j, null' i j = true → null i j = true) (i : Fin n) :
    ((nullRow null' i).1 = true → (nullRow null i).1 = true) ∧
      (∃ s s', (nullRow null i).2 = some s ∧ (nullRow null' i).2 = some s' ∧ s ≤ s') ∧
      ((∃ j, null i j = true ∧ null' i j = false) →
        (nullRow null' i).1 = false ∧ ∃ s s', (nullRow null i).2 = some s ∧ (nullRow null' i).2 = some s' ∧ s < s') ∧
      ((∀ j, null' i j = null i j) → nullRow null' i = nullRow null i) := by
  have hdq : (0 : ℚ) < d := by exact_mod_cast hd
  have hsub : Finset.univ.filter (fun j => null i j = false) ⊆ Finset.univ.filter (fun j => null' i j = false) := by
    intro j hj
    rw [Finset.mem_filter] at hj ⊢
    refine ⟨hj.1, ?_⟩
    cases hv : null' i j with
    | false => rfl
    | true => rw [h i j hv] at hj; exact absurd hj.2 (by decide)
  refine ⟨fun hf => ?_, ⟨_, _, (C50_scores null i).2 hd, (C50_scores null' i).2 hd, ?_⟩, ?_, ?_⟩
  · rw [(C50_scores _ _).1] at hf ⊢
    exact fun j => h i j (hf j)
  · rw [div_le_div_iff_of_pos_right hdq]
    exact_mod_cast Finset.card_le_card hsub
  · rintro ⟨j, hj, hj'⟩
    refine ⟨?_, _, _, (C50_scores null i).2 hd, (C50_scores null' i).2 hd, ?_⟩
    · rw [← Bool.not_eq_true, (C50_scores _ _).1]
      intro hall
      rw [hall j] at hj'
      exact absurd hj' (by decide)
    · rw [div_lt_div_iff_of_pos_right hdq]
      refine Nat.cast_lt.mpr (Finset.card_lt_card ((Finset.ssubset_iff_of_subset hsub).mpr
        ⟨j, Finset.mem_filter.mpr ⟨Finset.mem_univ j, hj'⟩, fun hm => ?_⟩))
      rw [(Finset.mem_filter.mp hm).2] at hj
      exact absurd hj (by decide)
  · intro he
    unfold nullRow nonNull
    simp only [he]

/-! ### Examples -/

/-- Two rare examples stay flagged when two examples of the other class are collected. -/
example : ((imbalanceFindIssues ([0, 0] ++ List.replicate 38 1) 2 (3 / 20)).toOption.map (fun r => (r.rarest, r.isIssue.take 3)),
    (imbalanceFindIssues ([0, 0] ++ List.replicate 38 1 ++ [1, 1]) 2 (3 / 20)).toOption.map (fun r => (r.rarest, r.isIssue.take 3))) =
    (some (0, [true, true, false]), some (0, [true, true, false])) := by decide +kernel

example : nullRow (![![true, true], ![true, false]] : Fin 2 → Fin 2 → Bool) 0 = (true, some 0) ∧
    nullRow (![![false, true], ![true, false]] : Fin 2 → Fin 2 → Bool) 0 = (false, some (1 / 2)) := by decide +kernel

end Cleanlab.Props
