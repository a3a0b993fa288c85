import Verif.Model.Duplicate

/-!
# C37, C70: near duplicates
-/

namespace Cleanlab.Props

open Np Cleanlab.Knn Cleanlab.Duplicate

variable {N : ℕ}

/-- One inner loop: `i` ends up in the set of every `j` of the snapshot; the sets only grow, and only by `i`. -/
theorem reciprocate_fold (i : Fin N) (l : List (Fin N)) (s : Fin N → List (Fin N)) :
    (∀ j ∈ l, i ∈ l.foldl (reciprocate i) s j) ∧
      (∀ a, ∀ b ∈ s a, b ∈ l.foldl (reciprocate i) s a) ∧
      (∀ a, ∀ b ∈ l.foldl (reciprocate i) s a, b ∈ s a ∨ (b = i ∧ a ∈ l)) ∧
      ((∀ a, (s a).Nodup) → ∀ a, (l.foldl (reciprocate i) s a).Nodup) := by
  induction l generalizing s with
  | nil => exact ⟨by simp, fun _ _ h => h, fun _ _ h => Or.inl h, fun h => h⟩
  | cons j l ih =>
    obtain ⟨h1, h2, h3, h4⟩ := ih (reciprocate i s j)
    have hgrow : ∀ a, ∀ b ∈ s a, b ∈ reciprocate i s j a := by
      intro a b hb
      unfold reciprocate
      split_ifs with h
      · exact hb
      · by_cases ha : a = j
        · subst ha; rw [Function.update_self]; exact List.mem_append_left _ hb
        · rw [Function.update_of_ne ha]; exact hb
    have hmem : i ∈ reciprocate i s j j := by
      unfold reciprocate
      split_ifs with h
      · exact h
      · rw [Function.update_self]; simp
    have hback : ∀ a, ∀ b ∈ reciprocate i s j a, b ∈ s a ∨ (b = i ∧ a = j) := by
      intro a b hb
      unfold reciprocate at hb
      split_ifs at hb with h
      · exact Or.inl hb
      · by_cases ha : a = j
        · subst ha
          rw [Function.update_self, List.mem_append, List.mem_singleton] at hb
          exact hb.imp id (fun h => ⟨h, rfl⟩)
        · rw [Function.update_of_ne ha] at hb; exact Or.inl hb
    refine ⟨?_, ?_, ?_, ?_⟩
    · intro a ha
      rcases List.mem_cons.mp ha with rfl | ha
      · exact h2 _ _ hmem
      · exact h1 a ha
    · exact fun a b hb => h2 a b (hgrow a b hb)
    · intro a b hb
      rcases h3 a b hb with h | ⟨rfl, h⟩
      · rcases hback a b h with h | ⟨rfl, rfl⟩
        · exact Or.inl h
        · exact Or.inr ⟨rfl, List.mem_cons_self⟩
      · exact Or.inr ⟨rfl, List.mem_cons_of_mem _ h⟩
    · intro hs
      refine h4 (fun a => ?_)
      unfold reciprocate
      split_ifs with h
      · exact hs a
      · by_cases ha : a = j
        · subst ha
          rw [Function.update_self, List.nodup_append]
          exact ⟨hs a, by simp, by rintro x hx y hy rfl; rw [List.mem_singleton] at hy; exact h (hy ▸ hx)⟩
        · rw [Function.update_of_ne ha]; exact hs a

theorem secondPass_fold (s0 : Fin N → List (Fin N)) (l : List (Fin N)) (s : Fin N → List (Fin N))
    (hsub : ∀ a, ∀ b ∈ s0 a, b ∈ s a) (hup : ∀ a, ∀ b ∈ s a, b ∈ s0 a ∨ a ∈ s0 b) :
    let r := l.foldl (fun sets i => (sets i).foldl (reciprocate i) sets) s
    (∀ a, ∀ b ∈ s a, b ∈ r a) ∧ (∀ i ∈ l, ∀ j ∈ s0 i, i ∈ r j) ∧ (∀ a, ∀ b ∈ r a, b ∈ s0 a ∨ a ∈ s0 b) ∧
      ((∀ a, (s a).Nodup) → ∀ a, (r a).Nodup) := by
  induction l generalizing s with
  | nil => exact ⟨fun _ _ h => h, by simp, hup, fun h => h⟩
  | cons i l ih =>
    obtain ⟨h1, h2, h3, h4⟩ := reciprocate_fold i (s i) s
    obtain ⟨g1, g2, g3, g4⟩ := ih ((s i).foldl (reciprocate i) s) (fun a b hb => h2 a b (hsub a b hb)) (fun a b hb => by
      rcases h3 a b hb with h | ⟨rfl, h⟩
      · exact hup a b h
      · exact (hup b a h).symm)
    refine ⟨fun a b hb => g1 a b (h2 a b hb), ?_, g3, fun hs => g4 (h4 hs)⟩
    intro a ha j hj
    rcases List.mem_cons.mp ha with rfl | ha
    · exact g1 _ _ (h1 j (hsub a j hj))
    · exact g2 a ha j hj

/-- The second pass computes the symmetric closure. -/
theorem mem_secondPass (s : Fin N → List (Fin N)) (i j : Fin N) : j ∈ secondPass s i ↔ j ∈ s i ∨ i ∈ s j := by
  obtain ⟨h1, h2, h3, _⟩ := secondPass_fold s (List.finRange N) s (fun _ _ h => h) (fun _ _ h => Or.inl h)
  constructor
  · exact h3 i j
  · rintro (h | h)
    · exact h1 i j h
    · exact h2 j (List.mem_finRange j) i h

theorem nodup_secondPass (s : Fin N → List (Fin N)) (hs : ∀ a, (s a).Nodup) (i : Fin N) : (secondPass s i).Nodup :=
  (secondPass_fold s (List.finRange N) s (fun _ _ h => h) (fun _ _ h => Or.inl h)).2.2.2 hs i

/-- `i` lists `j` among its neighbours at a distance below `r`. -/
def Near (g : Graph N) (r : ℚ) (i j : Fin N) : Prop := ∃ d, (j, d) ∈ g i ∧ d < r

theorem mem_withinRadius (g : Graph N) (r : ℚ) (i j : Fin N) : j ∈ withinRadius g r i ↔ Near g r i j := by
  unfold withinRadius Near
  simp only [List.mem_map, List.mem_filter, decide_eq_true_eq, Prod.exists]
  constructor
  · rintro ⟨a, b, h, rfl⟩; exact ⟨b, h⟩
  · rintro ⟨d, h⟩; exact ⟨j, d, h, rfl⟩

theorem nnDistances_ok (g : Graph N) (nn : Fin N → ℚ) :
    nnDistances g = .ok nn ↔ ∀ i, ∃ e, (g i).head? = some e ∧ e.2 = nn i := by
  unfold nnDistances
  rw [collect_ok_iff]
  refine forall_congr' (fun i => ?_)
  cases h : (g i).head? with
  | none => simp
  | some e => simp

theorem findIssues_run (A : ArgSort ℚ) (g : Graph N) (t : ℚ) (r : Report N) (h : findIssues A g t = .ok r) :
    ∃ nn med, nnDistances g = .ok nn ∧ npMedian A (List.ofFn nn) = some med ∧ r.median = max med epsilon ∧
      r.sets = neighborsWithinRadius g (setThreshold t) r.median ∧
      (∀ i, r.isIssue i = true ↔ ∃ j, i ∈ r.sets j) ∧ expScores nn (1 / (r.median : ℝ)) = .ok r.score := by
  unfold findIssues at h
  cases hnn : nnDistances g with
  | error e => rw [hnn] at h; cases h
  | ok nn =>
    rw [hnn] at h
    simp only [bind, Except.bind] at h
    cases hm : npMedian A (List.ofFn nn) with
    | none => rw [hm] at h; cases h
    | some med =>
      rw [hm] at h
      simp only at h
      cases hsc : expScores nn (1 / ((max med epsilon : ℚ) : ℝ)) with
      | error e => rw [hsc] at h; cases h
      | ok sc =>
        rw [hsc] at h
        have h := Except.ok.inj h
        subst h
        exact ⟨nn, med, rfl, hm, rfl, rfl, fun i => by simp, hsc⟩

/-- **C37**: the near-duplicate sets: `j` is in the set of `i` exactly if one of the two lists the other among its
neighbours at a distance below `threshold × median`. -/
theorem C37_sets (A : ArgSort ℚ) (g : Graph N) (t : ℚ) (r : Report N) (h : findIssues A g t = .ok r) (i j : Fin N) :
    j ∈ r.sets i ↔ Near g (max t 0 * r.median) i j ∨ Near g (max t 0 * r.median) j i := by
  obtain ⟨nn, med, _, _, _, hs, _, _⟩ := findIssues_run A g t r h
  have ht : setThreshold t = max t 0 := by
    unfold setThreshold
    split_ifs with h
    · rw [max_eq_right h.le]
    · rw [max_eq_left (not_lt.mp h)]
  rw [hs, neighborsWithinRadius, mem_secondPass, mem_withinRadius, mem_withinRadius, ht]

/-- **C37**: the sets are symmetric, an example is flagged exactly if its set is not empty, and no example is its own
near duplicate if the graph has no self edges. -/
theorem C37_symmetric (A : ArgSort ℚ) (g : Graph N) (t : ℚ) (r : Report N) (h : findIssues A g t = .ok r) :
    (∀ i j, j ∈ r.sets i ↔ i ∈ r.sets j) ∧ (∀ i, r.isIssue i = true ↔ r.sets i ≠ []) ∧
      ((∀ i, i ∉ (g i).map Prod.fst) → ∀ i, i ∉ r.sets i) ∧
      ((∀ i, ((g i).map Prod.fst).Nodup) → ∀ i, (r.sets i).Nodup) := by
  have hsym : ∀ i j, j ∈ r.sets i ↔ i ∈ r.sets j := fun i j => by
    rw [C37_sets A g t r h, C37_sets A g t r h, or_comm]
  obtain ⟨nn, med, _, _, _, hs, hf, _⟩ := findIssues_run A g t r h
  refine ⟨hsym, fun i => ?_, fun hself i hi => ?_, fun hnd i => ?_⟩
  · rw [hf i]
    constructor
    · rintro ⟨j, hj⟩
      exact List.ne_nil_of_mem ((hsym j i).mp hj)
    · intro hne
      obtain ⟨j, hj⟩ := List.exists_mem_of_ne_nil _ hne
      exact ⟨j, (hsym i j).mp hj⟩
  · rcases (C37_sets A g t r h i i).mp hi with ⟨d, hd, _⟩ | ⟨d, hd, _⟩
    · exact hself i (List.mem_map_of_mem (f := Prod.fst) hd)
    · exact hself i (List.mem_map_of_mem (f := Prod.fst) hd)
  · rw [hs]
    exact nodup_secondPass _ (fun a => (List.filter_sublist.map Prod.fst).nodup (hnd a)) i

/-- **C37**: the radius is the threshold times the median distance to the nearest neighbour (at least 1e-6), and the
search succeeds on every non-empty graph. -/
theorem C37_median (A : ArgSort ℚ) (g : Graph N) (t : ℚ) (hN : 0 < N) (nn : Fin N → ℚ)
    (hnn : ∀ i, ∃ e, (g i).head? = some e ∧ e.2 = nn i) :
    ∃ r med, findIssues A g t = .ok r ∧ IsMedian (List.ofFn nn) med ∧ r.median = max med (1 / 1000000) := by
  have h1 := (nnDistances_ok g nn).mpr hnn
  obtain ⟨med, hmed⟩ := Option.isSome_iff_exists.mp (npMedian_isSome A (List.ofFn nn) (by
    intro h; rw [List.ofFn_eq_nil_iff] at h; omega))
  have hpos : (0 : ℝ) < ((max med epsilon : ℚ) : ℝ) := by
    exact_mod_cast lt_of_lt_of_le (by norm_num [epsilon]) (le_max_right med epsilon)
  have hsc : ∃ sc, expScores nn (1 / ((max med epsilon : ℚ) : ℝ)) = .ok sc := by
    unfold expScores
    rw [if_neg (not_le.mpr (by positivity))]
    exact ⟨_, rfl⟩
  obtain ⟨sc, hsc⟩ := hsc
  refine ⟨{ sets := neighborsWithinRadius g (setThreshold t) (max med epsilon),
            isIssue := fun i => decide (i ∈ (List.finRange N).flatMap
              (neighborsWithinRadius g (setThreshold t) (max med epsilon))),
            score := sc, median := max med epsilon }, med, ?_, npMedian_isMedian A _ _ hmed, rfl⟩
  unfold findIssues
  rw [h1]
  simp only [bind, Except.bind, hmed, hsc]
  rfl

/-- **C70**: the score lies in `[0, 1)`, a larger distance to the nearest neighbour never gives a smaller score, and
the score is 0 for (numerically) exact duplicates only. -/
theorem C70_scores (A : ArgSort ℚ) (g : Graph N) (t : ℚ) (r : Report N) (h : findIssues A g t = .ok r)
    (nn : Fin N → ℚ) (hnn : ∀ i, ∃ e, (g i).head? = some e ∧ e.2 = nn i) (hpos : ∀ i, 0 ≤ nn i) :
    (∀ i, 0 ≤ r.score i ∧ r.score i < 1) ∧ (∀ i j, nn i ≤ nn j → r.score i ≤ r.score j) ∧
      ∀ i, r.score i = 0 ↔ nn i ≤ 1 / 100000000 := by
  obtain ⟨nn', med, h1, _, hm, _, _, hsc⟩ := findIssues_run A g t r h
  have : nn' = nn := by
    have h2 := (nnDistances_ok g nn).mpr hnn
    rw [h1] at h2
    exact Except.ok.inj h2
  subst this
  have hmed : (0 : ℝ) < (r.median : ℝ) := by
    rw [hm]
    exact_mod_cast lt_of_lt_of_le (by norm_num [epsilon]) (le_max_right med epsilon)
  have htemp : (0 : ℝ) < 1 / (r.median : ℝ) := by positivity
  unfold expScores at hsc
  rw [if_neg (not_le.mpr htemp)] at hsc
  have hsc := Except.ok.inj hsc
  have hval : ∀ i, r.score i = if nn' i ≤ 1 / 100000000 then 0 else 1 - Real.exp (-(1 / (r.median : ℝ)) * nn' i) := by
    intro i
    rw [← hsc]
    simp only [abs_of_nonneg (hpos i)]
  have hnonneg : ∀ i, (0 : ℝ) ≤ nn' i := fun i => by exact_mod_cast hpos i
  have hexp : ∀ i, Real.exp (-(1 / (r.median : ℝ)) * nn' i) ≤ 1 := fun i => by
    rw [Real.exp_le_one_iff]
    nlinarith [mul_nonneg htemp.le (hnonneg i)]
  refine ⟨fun i => ?_, fun i j hij => ?_, fun i => ?_⟩
  · rw [hval]
    split_ifs
    · norm_num
    · exact ⟨by linarith [hexp i], by linarith [Real.exp_pos (-(1 / (r.median : ℝ)) * nn' i)]⟩
  · rw [hval, hval]
    split_ifs with h1 h2 h2
    · exact le_rfl
    · linarith [hexp j]
    · exact absurd (hij.trans h2) h1
    · have : Real.exp (-(1 / (r.median : ℝ)) * nn' j) ≤ Real.exp (-(1 / (r.median : ℝ)) * nn' i) := by
        rw [Real.exp_le_exp]
        have : (nn' i : ℝ) ≤ nn' j := by exact_mod_cast hij
        nlinarith [mul_le_mul_of_nonneg_left this htemp.le]
      linarith
  · rw [hval]
    split_ifs with h
    · exact ⟨fun _ => h, fun _ => rfl⟩
    · refine ⟨fun h0 => ?_, fun h' => absurd h' h⟩
      have h1 : Real.exp (-(1 / (r.median : ℝ)) * nn' i) = 1 := by linarith
      rw [Real.exp_eq_one_iff] at h1
      have h2 : (0 : ℝ) < nn' i := by
        exact_mod_cast lt_trans (by norm_num) (not_le.mp h)
      have := mul_pos htemp h2
      linarith

/-- Non-vacuity: 1 lists 0 within the radius, 0 lists only 2; the sets of 0 and 1 contain each other. -/
example : neighborsWithinRadius (N := 3) ![[(2, 1/10)], [(0, 1/10)], [(0, 1/10)]] 1 1 0 = [2, 1] ∧
    neighborsWithinRadius (N := 3) ![[(2, 1/10)], [(0, 1/10)], [(0, 1/10)]] 1 1 1 = [0] := by decide +kernel

end Cleanlab.Props
