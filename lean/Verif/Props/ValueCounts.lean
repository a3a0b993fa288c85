import Verif.Model.Multiannotator

/-!
# C18: class counting
-/

namespace Cleanlab.Props

open Cleanlab.Util Cleanlab.Multiannotator

theorem mem_npUnique (x : List ℕ) (a : ℕ) : a ∈ npUnique x ↔ a ∈ x := by
  unfold npUnique
  rw [List.mem_insertionSort, List.mem_dedup]

theorem nodup_npUnique (x : List ℕ) : (npUnique x).Nodup :=
  (List.perm_insertionSort _ _).nodup_iff.mpr (List.nodup_dedup x)

theorem sorted_npUnique (x : List ℕ) : (npUnique x).Pairwise (· ≤ ·) := List.pairwise_insertionSort _ _

theorem sorted_nodup_ext {l m : List ℕ} (hl : l.Pairwise (· ≤ ·)) (hm : m.Pairwise (· ≤ ·))
    (hln : l.Nodup) (hmn : m.Nodup) (h : ∀ a, a ∈ l ↔ a ∈ m) : l = m :=
  ((List.perm_ext_iff_of_nodup hln hmn).mpr h).eq_of_pairwise
    (fun _ _ _ _ h1 h2 => le_antisymm h1 h2) hl hm

theorem npUnique_eq_range {x : List ℕ} {u : ℕ} (h : ∀ a, a ∈ x ↔ a < u) : npUnique x = List.range u :=
  sorted_nodup_ext (sorted_npUnique x) List.pairwise_le_range (nodup_npUnique x) List.nodup_range
    (fun a => by rw [mem_npUnique, h, List.mem_range])

theorem mem_of_length_unique {x : List ℕ} {K : ℕ} (hx : ∀ a ∈ x, a < K) (hK : K = (npUnique x).length) (a : ℕ) :
    a ∈ x ↔ a < K := by
  refine ⟨hx a, fun ha => ?_⟩
  rw [← mem_npUnique]
  have hsub : npUnique x ⊆ List.range K := fun b hb => by
    rw [mem_npUnique] at hb; rw [List.mem_range]; exact hx b hb
  have hp : (npUnique x).Perm (List.range K) := by
    apply List.Subperm.perm_of_length_le
    · exact (nodup_npUnique x).subperm hsub
    · rw [List.length_range]; omega
  rw [hp.mem_iff, List.mem_range]; exact ha

theorem foldl_set (f : ℕ → ℕ) (us : List ℕ) (l : List ℕ) :
    (us.foldl (fun t u => t.set u (f u)) l).length = l.length ∧
    ∀ j : ℕ, (us.foldl (fun t u => t.set u (f u)) l)[j]? =
      if j ∈ us ∧ j < l.length then some (f j) else l[j]? := by
  induction us generalizing l with
  | nil => simp
  | cons u us ih =>
    obtain ⟨h1, h2⟩ := ih (l.set u (f u))
    simp only [List.foldl_cons]
    refine ⟨by rw [h1, List.length_set], fun j => ?_⟩
    rw [h2 j, List.length_set, List.getElem?_set]
    by_cases hj : j < l.length
    · by_cases hu : u = j
      · subst hu; simp [hj]
      · simp [hj, hu, Ne.symm hu]
    · by_cases hu : u = j
      · subst hu; simp [hj]
      · simp [hj, hu]

/-- **C18** for integer label arrays: for a non-empty array of class numbers below `K`, position `k` of the
result is the number of labels equal to `k`. -/
theorem C18_integer_labels (x : List ℕ) (K : ℕ) (hx : ∀ a ∈ x, a < K) (hne : x ≠ []) :
    valueCounts true x (some K) = .ok ((List.range K).map (fun k => x.count k)) := by
  unfold valueCounts
  simp only
  split_ifs with hK
  · rw [npUniqueCounts, npUnique_eq_range (mem_of_length_unique hx hK)]
  · have hne' : npUnique x ≠ [] := by
      obtain ⟨a, ha⟩ := List.exists_mem_of_ne_nil x hne
      intro h
      have := (mem_npUnique x a).mpr ha
      rw [h] at this; cases this
    cases hmax : (npUnique x).max? with
    | none => exact absurd (List.max?_eq_none_iff.mp hmax) hne'
    | some m =>
      have hmem : m ∈ x := (mem_npUnique x m).mp (List.max?_mem hmax)
      simp only [if_neg (not_le.mpr (hx m hmem))]
      congr 1
      obtain ⟨h1, h2⟩ := foldl_set (fun u => x.count u) (npUnique x) (List.replicate K 0)
      apply List.ext_getElem?
      intro j
      rw [h2 j]
      by_cases hj : j < K
      · by_cases hjx : j ∈ x
        · rw [if_pos ⟨(mem_npUnique x j).mpr hjx, by simpa using hj⟩]
          simp [hj]
        · rw [if_neg (fun h => hjx ((mem_npUnique x j).mp h.1))]
          simp [hj, List.count_eq_zero_of_not_mem hjx]
      · rw [if_neg (fun h => hj (by simpa using h.2))]
        simp [hj]

example : (∀ a ∈ [2, 2, 0], a < 4) ∧ [2, 2, 0] ≠ [] ∧ ([2, 2, 0].count 2 = 2) := by decide

/-- **C18 (refuted as stated)**: for a float array the counts are not placed at their class. -/
theorem C18_not_float_labels :
    ¬ ∀ (x : List ℕ) (K : ℕ), (∀ a ∈ x, a < K) → x ≠ [] →
      valueCounts false x (some K) = .ok ((List.range K).map (fun k => x.count k)) := by
  intro h
  have := h [2, 2] 3 (by decide) (by decide)
  revert this
  decide

/-- **C18 (partial)** for arrays of any other dtype: the counts are right when the classes present are exactly
the first `u` classes. Missing: every other float array. -/
theorem C18_float_labels_partial (x : List ℕ) (K u : ℕ) (hu : ∀ a, a ∈ x ↔ a < u) (huK : u ≤ K) :
    valueCounts false x (some K) = .ok ((List.range K).map (fun k => x.count k)) := by
  have hr := npUnique_eq_range hu
  unfold valueCounts npUniqueCounts
  simp only [hr, List.length_range]
  split_ifs with h1 h2 h3
  · rw [h1]
  · exact absurd h2 (by simp)
  · omega
  · congr 1
    apply List.ext_getElem
    · simp; omega
    · intro j hj1 hj2
      have hjK : j < K := by simpa using hj2
      by_cases hj : j < u
      · rw [List.getElem_append_left (by simpa using hj)]
        simp
      · rw [List.getElem_append_right (by simpa using hj)]
        simp only [List.getElem_replicate, List.getElem_map, List.getElem_range]
        exact (List.count_eq_zero_of_not_mem (fun h => hj ((hu j).mp h))).symm

example : ∀ a, a ∈ [1, 0, 1] ↔ a < 2 := by
  intro a
  simp only [List.mem_cons, List.not_mem_nil, or_false]
  omega

/-- Whatever the dtype, the counts add up to the number of labels whenever there is a result. -/
theorem C18_total (isInt : Bool) (x : List ℕ) (K : Option ℕ) (c : List ℕ) (hx : ∀ k ∈ K, ∀ a ∈ x, a < k)
    (h : valueCounts isInt x K = .ok c) : c.sum = x.length := by
  have hu : (npUniqueCounts x).sum = x.length := by
    unfold npUniqueCounts npUnique
    rw [((List.perm_insertionSort (· ≤ ·) x.dedup).map _).sum_eq]
    simpa using List.sum_map_count_dedup_eq_length x
  unfold valueCounts at h
  cases K with
  | none => cases h; exact hu
  | some K =>
    cases isInt with
    | true =>
      by_cases hne : x = []
      · subst hne
        simp only at h
        split_ifs at h with h1
        · cases h; exact hu
        · have : (npUnique []).max? = none := rfl
          rw [this] at h
          cases h
      · have h1 := C18_integer_labels x K (hx K rfl) hne
        unfold valueCounts at h1
        simp only at h h1
        rw [h1] at h
        cases h
        have h2 : ∀ l : List ℕ, (∀ a ∈ l, a < K) → ((List.range K).map (fun k => l.count k)).sum = l.length := by
          intro l
          induction l with
          | nil => simp
          | cons a l ih =>
            intro hl
            have ih := ih (fun b hb => hl b (List.mem_cons_of_mem _ hb))
            have ha := hl a List.mem_cons_self
            have h3 : ((List.range K).map (fun k => (a :: l).count k)).sum =
                ((List.range K).map (fun k => l.count k)).sum +
                  ((List.range K).map (fun k => if a = k then 1 else 0)).sum := by
              rw [← List.sum_map_add]
              congr 1
              apply List.map_congr_left
              intro k _
              rw [List.count_cons]
              simp
            have h4 : ((List.range K).map (fun k => if a = k then 1 else 0)).sum = 1 := by
              have : ((List.range K).map (fun k => if a = k then 1 else 0)).sum = (List.range K).count a := by
                generalize List.range K = r
                induction r with
                | nil => rfl
                | cons b r ih =>
                  rw [List.map_cons, List.sum_cons, ih, List.count_cons, add_comm]
                  by_cases hab : a = b
                  · simp [hab]
                  · simp [hab, Ne.symm hab]
              rw [this]
              exact List.count_eq_one_of_mem List.nodup_range (List.mem_range.mpr ha)
            rw [h3, ih, h4]; simp
        exact h2 x (hx K rfl)
    | false =>
      simp only at h
      by_cases h1 : K = (npUnique x).length
      · rw [if_pos h1] at h; cases h; exact hu
      · rw [if_neg h1, if_neg (by simp)] at h
        split_ifs at h with h3
        cases h
        rw [List.sum_append, hu]
        simp

/-- **C18**, the observable effect: with `quality_method="agreement"` and a float annotation matrix, an example
that all annotators label 2 gets posterior 1 for class 0. -/
theorem C18_not_agreement_posterior :
    ¬ ∀ (n M K : ℕ) (L : Annotations n M K) (i : Fin n) (k : Fin K) (p : List ℚ),
      assertValidInputs L = .ok () → (∀ m, L i m = some k) → postAgreement false L i = .ok p →
      p[k.val]? = some 1 := by
  intro h
  have := h 1 2 3 (fun _ _ => some 2) 0 2 [1, 0, 0] (by decide +kernel) (by decide) (by decide +kernel)
  revert this
  decide +kernel

end Cleanlab.Props
