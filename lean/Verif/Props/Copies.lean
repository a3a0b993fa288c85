import Verif.Props.KnnBuild
import Verif.Props.Duplicate

/-!
# C194 and C195: identical examples
-/

namespace Cleanlab.Props

open Np Cleanlab.Knn Cleanlab.Duplicate

variable {N : ℕ} {X : Type} [DecidableEq X]

omit [DecidableEq X] in
theorem radius_pos (A : ArgSort ℚ) (g : Graph N) (t : ℚ) (ht : 0 < t) (r : Report N) (h : Duplicate.findIssues A g t = .ok r) :
    0 < max t 0 * r.median := by
  obtain ⟨nn, med, -, -, hm, -⟩ := findIssues_run A g t r h
  rw [hm]
  exact mul_pos (lt_of_lt_of_le ht (le_max_left _ _)) (lt_of_lt_of_le (by norm_num [epsilon]) (le_max_right med epsilon))

theorem twins_two (features : Fin N → X) (p q : Fin N) (hpq : p ≠ q) (h : features q = features p) :
    1 < (twins features p).length := by
  by_contra hlt
  have hsub : [p, q] ⊆ twins features p := by
    intro x hx
    rw [mem_twins]
    rcases List.mem_pair.mp hx with rfl | rfl
    · rfl
    · exact h
  have := (List.subperm_of_subset (by simp [hpq]) hsub).length_le
  simp at this
  omega

theorem twins_congr (features : Fin N → X) (p q : Fin N) (h : features p = features q) : twins features p = twins features q := by
  unfold twins
  rw [h]

theorem length_twins (features : Fin N → X) (p : Fin N) :
    (twins features p).length = (Finset.univ.filter (fun j => features j = features p)).card := by
  rw [← List.toFinset_card_of_nodup (nodup_twins features p)]
  congr 1
  ext j
  simp [mem_twins]

/-- The graph used by the check lists a copy first, if there is one. -/
theorem first_is_copy (S : ArgSort (Fin N)) (B : ArgSort Bool) (features : Fin N → X) (values : List X) (hnd : values.Nodup)
    (hall : ∀ i, features i ∈ values) (k : ℕ) (hk : 1 ≤ k) (g : Graph N) (hg : ListsOthers k g) (a : CsrGraph N)
    (ha : correctGraph S B features values (constructGraph k g) = .ok a) (p q : Fin N) (hpq : p ≠ q)
    (h : features q = features p) : ∃ j, (a.row p).head? = some (j, 0) ∧ features j = features p := by
  obtain ⟨a', h1, h2⟩ := correctGraph_corrected S B features values hnd hall k g hg (Fin.pos p)
  rw [ha] at h1
  cases Except.ok.inj h1
  have htw := twins_two features p q hpq h
  have hc := (h2 p).2 htw
  cases hrow : a.row p with
  | nil =>
    have := hc.length
    rw [hrow] at this
    simp at this
    omega
  | cons e l =>
    have he := hc.front e (by
      rw [hrow, show min ((twins features p).length - 1) k = (min ((twins features p).length - 1) k - 1) + 1 by omega,
        List.take_succ_cons]
      exact List.mem_cons_self)
    refine ⟨e.1, ?_, (mem_twins features p e.1).mp he.1⟩
    rw [List.head?_cons, ← he.2]

/-- **C194.** Every example of which there is an identical copy is flagged, with score 0, whatever neighbours the index found and however
many copies there are. -/
theorem C194_flagged (A : ArgSort ℚ) (S : ArgSort (Fin N)) (B : ArgSort Bool) (features : Fin N → X) (values : List X)
    (hnd : values.Nodup) (hall : ∀ i, features i ∈ values) (k : ℕ) (hk : 1 ≤ k) (g : Graph N) (hg : ListsOthers k g)
    (hN : 0 < N) (hpos : ∀ p, ∀ e ∈ g p, 0 ≤ e.2) (a : CsrGraph N)
    (ha : correctGraph S B features values (constructGraph k g) = .ok a) (t : ℚ) (ht : 0 < t) :
    ∃ r, Duplicate.findIssues A (fun p => a.row p) t = .ok r ∧
      ∀ p q, p ≠ q → features q = features p → r.isIssue p = true ∧ r.score p = 0 ∧
        ∃ j, j ≠ p ∧ features j = features p ∧ j ∈ r.sets p ∧ p ∈ r.sets j := by
  obtain ⟨a', h1, hl, h2⟩ := C108_duplicates S B features values hnd hall k g hg hN
  rw [ha] at h1
  cases Except.ok.inj h1
  have hhead : ∀ i : Fin N, ∃ e, (a.row i).head? = some e := by
    intro i
    cases hrow : a.row i with
    | nil =>
      have := (hl i).1
      dsimp only at this
      rw [hrow] at this
      simp at this
      omega
    | cons e l => exact ⟨e, rfl⟩
  choose e he using hhead
  obtain ⟨r, med, hr, -, -⟩ := C37_median A (fun p => a.row p) t hN (fun i => (e i).2) (fun i => ⟨e i, he i, rfl⟩)
  have hnn : ∀ i, 0 ≤ (e i).2 := by
    intro i
    have hmem : e i ∈ a.row i := List.mem_of_head? (he i)
    by_cases hN1 : ∃ q, i ≠ q
    · obtain ⟨q, hq⟩ := hN1
      obtain ⟨-, -, h3, h4, -⟩ := h2 i q hq
      by_cases hf : features (e i).1 = features i
      · rw [h3 _ hmem hf]
      · exact hpos i _ (h4 _ hmem hf)
    · exact absurd (List.mem_map_of_mem (f := Prod.fst) hmem) (by
        have : (e i).1 = i := by
          by_contra hne
          exact hN1 ⟨_, Ne.symm hne⟩
        rw [this]
        exact (hl i).2.2)
  refine ⟨r, hr, fun p q hpq hf => ?_⟩
  obtain ⟨j, hj, hfj⟩ := first_is_copy S B features values hnd hall k hk g hg a ha p q hpq hf
  have hmem : (j, (0 : ℚ)) ∈ a.row p := List.mem_of_head? hj
  have hjp : j ≠ p := by
    rintro rfl
    exact (hl j).2.2 (List.mem_map_of_mem (f := Prod.fst) hmem)
  have hin : j ∈ r.sets p := (C37_sets A _ t r hr p j).mpr (Or.inl ⟨0, hmem, radius_pos A _ t ht r hr⟩)
  obtain ⟨hsym, hflag, -⟩ := C37_symmetric A _ t r hr
  refine ⟨(hflag p).mpr (List.ne_nil_of_mem hin), ?_, j, hjp, hfj, hin, (hsym p j).mp hin⟩
  refine ((C70_scores A _ t r hr (fun i => (e i).2) (fun i => ⟨e i, he i, rfl⟩) hnn).2.2 p).mpr ?_
  have : e p = (j, 0) := Option.some.inj ((he p).symm.trans hj)
  rw [this]
  norm_num

/-- Up to `k + 1` identical examples are all in each other's sets. -/
theorem C195_up_to_partial (A : ArgSort ℚ) (S : ArgSort (Fin N)) (B : ArgSort Bool) (features : Fin N → X) (values : List X)
    (hnd : values.Nodup) (hall : ∀ i, features i ∈ values) (k : ℕ) (g : Graph N) (hg : ListsOthers k g) (a : CsrGraph N)
    (ha : correctGraph S B features values (constructGraph k g) = .ok a) (t : ℚ) (ht : 0 < t) (r : Report N)
    (hr : Duplicate.findIssues A (fun p => a.row p) t = .ok r) (p q : Fin N) (hpq : p ≠ q) (h : features q = features p)
    (hfew : (Finset.univ.filter (fun j => features j = features p)).card ≤ k + 1) : q ∈ r.sets p := by
  obtain ⟨a', h1, -, h2⟩ := C108_duplicates S B features values hnd hall k g hg (Fin.pos p)
  rw [ha] at h1
  cases Except.ok.inj h1
  refine (C37_sets A _ t r hr p q).mpr (Or.inl ⟨0, (h2 p q hpq).1 h ?_, radius_pos A _ t ht r hr⟩)
  rw [length_twins]
  exact hfew

/-- From position `k` of the copies on, rows list the first `k` copies only. -/
theorem late_rows (S : ArgSort (Fin N)) (B : ArgSort Bool) (k : ℕ) (dups : List (Fin N)) (hnd : dups.Nodup) (i : ℕ) (hki : k ≤ i)
    (hi : i < dups.length) (hk : k + 1 ≤ dups.length) (row row' : List (Fin N × ℚ)) (h : correctRow S B k dups i row = .ok row') :
    ∀ e ∈ row', e.1 ∈ dups.take k := by
  unfold correctRow at h
  dsimp only at h
  rw [if_pos hk, show min (dups.length - 1) k = k by omega] at h
  intro e he
  by_cases hik : i < k + 1
  · rw [if_pos hik] at h
    rw [← Except.ok.inj h] at he
    obtain ⟨x, hx, rfl⟩ := List.mem_map.mp he
    have hx : x ∈ circulantRow (dups.take (k + 1)) i := (mem_sortOn S id _ x).mp hx
    obtain ⟨-, -, h3⟩ := circulantRow_props (dups.take (k + 1)) hnd.take i (by rw [List.length_take]; omega)
    obtain ⟨hm, hne⟩ := h3 x hx
    obtain ⟨j, hj, rfl⟩ := List.mem_iff_getElem.mp hm
    rw [List.length_take] at hj
    rw [List.getElem_take, List.mem_take_iff_getElem]
    refine ⟨j, ?_, rfl⟩
    have : j ≠ i := by
      rintro rfl
      exact hne rfl
    omega
  · rw [if_neg hik] at h
    rw [← Except.ok.inj h] at he
    obtain ⟨x, hx, rfl⟩ := List.mem_map.mp he
    exact hx

/-- Of `k + 2` or more identical examples, some two are not in each other's sets: with the default of 10 neighbours, of 12 copies. -/
theorem C195_not_all (A : ArgSort ℚ) (S : ArgSort (Fin N)) (B : ArgSort Bool) (features : Fin N → X) (values : List X)
    (hnd : values.Nodup) (hall : ∀ i, features i ∈ values) (k : ℕ) (g : Graph N) (hg : ListsOthers k g) (a : CsrGraph N)
    (ha : correctGraph S B features values (constructGraph k g) = .ok a) (t : ℚ) (r : Report N)
    (hr : Duplicate.findIssues A (fun p => a.row p) t = .ok r) (s : Fin N)
    (hmany : k + 2 ≤ (Finset.univ.filter (fun j => features j = features s)).card) :
    ∃ p q, p ≠ q ∧ features p = features s ∧ features q = features s ∧ q ∉ r.sets p ∧ p ∉ r.sets q := by
  obtain ⟨a', h1, -, h2⟩ := correctGraph_rows S B features values hnd hall k g hg (Fin.pos s)
  rw [ha] at h1
  cases Except.ok.inj h1
  rw [← length_twins] at hmany
  have hn := nodup_twins features s
  have key : ∀ i (hi : i < (twins features s).length), k ≤ i → ∀ e ∈ a.row ((twins features s)[i] : Fin N), e.1 ∈ (twins features s).take k := by
    intro i hi hki
    have hf : features (twins features s)[i] = features s := (mem_twins features s _).mp (List.getElem_mem hi)
    have htw : twins features (twins features s)[i] = twins features s := twins_congr features _ s hf
    obtain ⟨i', hi', hpi, hrow⟩ := (h2 (twins features s)[i]).2.2 (by rw [htw]; omega)
    simp only [htw] at hi' hpi hrow
    have : i = i' := (List.Nodup.getElem_inj_iff hn).mp hpi
    subst this
    exact late_rows S B k _ hn i hki hi (by omega) _ _ hrow
  have hout : ∀ i (hi : i < (twins features s).length), k ≤ i → (twins features s)[i] ∉ (twins features s).take k := by
    intro i hi hki hc
    obtain ⟨j, hj, he⟩ := List.mem_take_iff_getElem.mp hc
    have := (List.Nodup.getElem_inj_iff hn).mp he
    omega
  have hnot : ∀ i j (hi : i < (twins features s).length) (hj : j < (twins features s).length), k ≤ i → k ≤ j →
      (twins features s)[j] ∉ r.sets (twins features s)[i] := by
    intro i j hi hj hki hkj hc
    rcases (C37_sets A _ t r hr _ _).mp hc with ⟨d, hd, -⟩ | ⟨d, hd, -⟩
    · exact hout j hj hkj (key i hi hki _ hd)
    · exact hout i hi hki (key j hj hkj _ hd)
  refine ⟨(twins features s)[k], (twins features s)[k + 1], ?_, (mem_twins features s _).mp (List.getElem_mem _),
    (mem_twins features s _).mp (List.getElem_mem _), hnot k (k + 1) _ _ le_rfl (by omega), hnot (k + 1) k _ _ (by omega) le_rfl⟩
  intro hc
  have := (List.Nodup.getElem_inj_iff hn).mp hc
  omega

/-- Three coinciding points and two others, with one neighbour and with two: all three are flagged in both cases, and with one neighbour
the second and third are not in each other's sets. -/
example : ∀ g : Graph 5, ListsOthers 1 g → (∀ p, ∀ e ∈ g p, 0 ≤ e.2) → ∃ a r,
    correctGraph (stableSort (Fin 5)) (stableSort Bool) (![0, 0, 0, 1, 2] : Fin 5 → ℕ) [0, 1, 2] (constructGraph 1 g) = .ok a ∧
    Duplicate.findIssues (stableSort ℚ) (fun p => a.row p) (13 / 100) = .ok r ∧ r.isIssue 2 = true ∧ r.score 2 = 0 ∧
    ∃ p q, p ≠ q ∧ q ∉ r.sets p := by
  intro g hg hpos
  have hall : ∀ i, (![0, 0, 0, 1, 2] : Fin 5 → ℕ) i ∈ [0, 1, 2] := by decide
  obtain ⟨a, ha, -⟩ := correctGraph_corrected (stableSort (Fin 5)) (stableSort Bool) (![0, 0, 0, 1, 2] : Fin 5 → ℕ) [0, 1, 2]
    (by decide) hall 1 g hg (by norm_num)
  obtain ⟨r, hr, h⟩ := C194_flagged (stableSort ℚ) (stableSort (Fin 5)) (stableSort Bool) (![0, 0, 0, 1, 2] : Fin 5 → ℕ) [0, 1, 2]
    (by decide) hall 1 le_rfl g hg (by norm_num) hpos a ha (13 / 100) (by norm_num)
  obtain ⟨p, q, h1, -, -, h2, -⟩ := C195_not_all (stableSort ℚ) (stableSort (Fin 5)) (stableSort Bool) (![0, 0, 0, 1, 2] : Fin 5 → ℕ)
    [0, 1, 2] (by decide) hall 1 g hg a ha (13 / 100) r hr 0 (by decide)
  exact ⟨a, r, ha, hr, (h 2 0 (by decide) rfl).1, (h 2 0 (by decide) rfl).2.1, p, q, h1, h2⟩

end Cleanlab.Props
