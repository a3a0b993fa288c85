import Verif.Props.CloserDuplicates

/-!
# C229: examples much closer together than the others
-/

namespace Cleanlab.Props

open Np Cleanlab.Knn Cleanlab.Duplicate

/-- If fewer than half of the values lie below `D`, the median does not. -/
theorem le_median {n : ℕ} (A : ArgSort ℚ) (f : Fin n → ℚ) (D m : ℚ) (hm : npMedian A (List.ofFn f) = some m)
    (hfew : 2 * (Finset.univ.filter (fun i => f i < D)).card < n) : D ≤ m := by
  obtain ⟨lo, hi, hlo, hhi, e1, e2, e3⟩ := npMedian_eq A _ m hm
  have hs : (sortOn A id (List.ofFn f)).Pairwise (fun x y => x ≤ y) := sortOn_sorted A id _
  have hlohi : (sortOn A id (List.ofFn f))[lo] ≤ (sortOn A id (List.ofFn f))[hi] := sorted_get_le _ hs _ _ _ _ (by omega)
  have hD : D ≤ (sortOn A id (List.ofFn f))[lo] := by
    by_contra hlt
    have hlt := not_le.mp hlt
    have h2 : lo + 1 ≤ (sortOn A id (List.ofFn f)).countP (fun x => decide (x < D)) := by
      have h3 : ((sortOn A id (List.ofFn f)).take (lo + 1)).countP (fun x => decide (x < D)) = lo + 1 := by
        rw [List.countP_eq_length.mpr (fun x hx => decide_eq_true (lt_of_le_of_lt ((sorted_split _ hs lo hlo).1 x hx) hlt)),
          List.length_take]
        omega
      rw [← h3]
      exact (List.take_sublist _ _).countP_le
    rw [(sortOn_perm A id _).countP_eq, List.ofFn_eq_map, List.countP_map, countP_finRange] at h2
    rw [List.length_ofFn] at e1
    have h4 : (Finset.univ.filter (fun i => ((fun x => decide (x < D)) ∘ f) i = true)).card =
        (Finset.univ.filter (fun i => f i < D)).card := by
      congr 1
      ext i
      simp
    omega
  rw [e3]
  linarith

variable {N : ℕ}

/-- **C229 (partial).** If fewer than half of the examples have another one at a distance below `D`, then every example that has another
one at a distance below `threshold × D` is reported. Missing: data sets in which this is true of half of the examples or more. -/
theorem C229_found_partial (A : ArgSort ℚ) (d : Fin N → Fin N → ℚ) (g : Graph N) (hsym : ∀ i j, d i j = d j i) (hg : ListsNearest d g)
    (t D : ℚ) (ht : 0 ≤ t) (r : Report N) (h : findIssues A g t = .ok r)
    (hfew : 2 * (Finset.univ.filter (fun i => ∃ j, j ≠ i ∧ d i j < D)).card < N) (i j : Fin N) (hij : j ≠ i) (hd : d i j < t * D) :
    r.isIssue i = true := by
  obtain ⟨nn, med, hnn, hmed, hmax, -, -, -⟩ := findIssues_run A g t r h
  have hh := (nnDistances_ok g nn).mp hnn
  rw [flag_nearest A d g hsym hg t r h nn hnn i, max_eq_left ht]
  have hD : D ≤ med := by
    refine le_median A nn D med hmed (lt_of_le_of_lt (Nat.mul_le_mul_left 2 (Finset.card_le_card fun k hk => ?_)) hfew)
    rw [Finset.mem_filter] at hk ⊢
    obtain ⟨e, he, hen⟩ := hh k
    obtain ⟨h1, h2⟩ := (hg k).1 e (List.mem_of_mem_head? he)
    exact ⟨Finset.mem_univ _, e.1, h1, by rw [← h2, hen]; exact hk.2⟩
  obtain ⟨e, he, hen⟩ := hh i
  have h1 := (hg i).2 e he j hij
  have h2 : t * D ≤ t * r.median := mul_le_mul_of_nonneg_left (hD.trans (by rw [hmax]; exact le_max_left _ _)) ht
  rw [← hen]
  exact lt_of_le_of_lt h1 (lt_of_lt_of_le hd h2)

/-- **C229 (partial).** An example is reported only if it has another one closer than the threshold times any distance (of at least 1e-6)
within which every example has a neighbour. -/
theorem C229_only_partial (A : ArgSort ℚ) (d : Fin N → Fin N → ℚ) (g : Graph N) (hsym : ∀ i j, d i j = d j i) (hg : ListsNearest d g)
    (t E : ℚ) (ht : 0 ≤ t) (r : Report N) (h : findIssues A g t = .ok r) (hE : 1 / 1000000 ≤ E) (hall : ∀ i, ∃ j, j ≠ i ∧ d i j ≤ E)
    (i : Fin N) (hi : r.isIssue i = true) : ∃ j, j ≠ i ∧ d i j < t * E := by
  obtain ⟨nn, med, hnn, hmed, hmax, -, -, -⟩ := findIssues_run A g t r h
  have hh := (nnDistances_ok g nn).mp hnn
  rw [flag_nearest A d g hsym hg t r h nn hnn i, max_eq_left ht] at hi
  obtain ⟨e, he, hen⟩ := hh i
  obtain ⟨h1, h2⟩ := (hg i).1 e (List.mem_of_mem_head? he)
  refine ⟨e.1, h1, ?_⟩
  rw [← h2, hen]
  refine lt_of_lt_of_le hi (mul_le_mul_of_nonneg_left ?_ ht)
  rw [hmax]
  refine max_le ?_ hE
  obtain ⟨lo, hi', hlo, hhi, -, -, e3⟩ := npMedian_eq A _ med hmed
  have hle : ∀ x ∈ sortOn A id (List.ofFn nn), x ≤ E := fun x hx => by
    obtain ⟨k, rfl⟩ := (List.mem_ofFn' _ _).mp ((mem_sortOn A id _ x).mp hx)
    obtain ⟨e, he, hen⟩ := hh k
    obtain ⟨j, hj, hjE⟩ := hall k
    rw [← hen]
    exact ((hg k).2 e he j hj).trans hjE
  have a := hle _ (List.getElem_mem hlo)
  have b := hle _ (List.getElem_mem hhi)
  rw [e3]
  linarith

/-- Unless the typical distance between neighbours is below 1e-6, at most half of the examples are reported, however close together
they are. -/
theorem C229_half_partial (A : ArgSort ℚ) (d : Fin N → Fin N → ℚ) (g : Graph N) (hsym : ∀ i j, d i j = d j i)
    (hg : ListsNearest d g) (t : ℚ) (ht : t ≤ 1) (r : Report N) (h : findIssues A g t = .ok r) (hr : 1 / 1000000 < r.median) :
    2 * (Finset.univ.filter (fun i => r.isIssue i = true)).card ≤ N := by
  obtain ⟨nn, med, hnn, hmed, hmax, -, -, -⟩ := findIssues_run A g t r h
  have hmed' : r.median = med := by
    rw [hmax]
    refine max_eq_left (not_lt.mp fun hlt => ?_)
    rw [hmax, max_eq_right hlt.le] at hr
    exact absurd hr (by norm_num [epsilon])
  have hb := (npMedian_isMedian A _ _ hmed).1
  rw [List.ofFn_eq_map, List.countP_map, countP_finRange, List.length_map, List.length_finRange] at hb
  refine le_trans (Nat.mul_le_mul_left 2 (Finset.card_le_card fun i hi => ?_)) hb
  rw [Finset.mem_filter] at hi ⊢
  have h1 := (flag_nearest A d g hsym hg t r h nn hnn i).mp hi.2
  rw [hmed'] at h1 hr
  have h2 : max t 0 * med ≤ 1 * med := mul_le_mul_of_nonneg_right (max_le ht zero_le_one) (by linarith)
  refine ⟨Finset.mem_univ _, ?_⟩
  simp only [Function.comp, decide_eq_true_eq]
  linarith

/-! ### The property fails where close pairs are the rule -/

/-- Two close pairs and a single example on a line, far from each other. -/
def pairsAt (R : ℚ) : Fin 5 → ℚ := ![0, 1 / 1000, R, R + 1 / 1000, 2 * R]

/-- The nearest neighbour of each. -/
def pairsGraph (R : ℚ) : Graph 5 :=
  ![[(1, 1 / 1000)], [(0, 1 / 1000)], [(3, 1 / 1000)], [(2, 1 / 1000)], [(3, R - 1 / 1000)]]

theorem pairs_nearest (R : ℚ) (h : 1 ≤ R) : ListsNearest (fun i j => |pairsAt R i - pairsAt R j|) (pairsGraph R) := by
  intro i
  constructor
  · intro e he
    fin_cases i
    · obtain rfl := List.mem_singleton.mp he
      exact ⟨(by decide : (1 : Fin 5) ≠ 0), by show (1 / 1000 : ℚ) = |0 - 1 / 1000|; norm_num⟩
    · obtain rfl := List.mem_singleton.mp he
      exact ⟨(by decide : (0 : Fin 5) ≠ 1), by show (1 / 1000 : ℚ) = |1 / 1000 - 0|; norm_num⟩
    · obtain rfl := List.mem_singleton.mp he
      exact ⟨by decide, by show (1 / 1000 : ℚ) = |R - (R + 1 / 1000)|; rw [abs_of_nonpos (by linarith)]; ring⟩
    · obtain rfl := List.mem_singleton.mp he
      exact ⟨by decide, by show (1 / 1000 : ℚ) = |R + 1 / 1000 - R|; rw [abs_of_nonneg (by linarith)]; ring⟩
    · obtain rfl := List.mem_singleton.mp he
      exact ⟨(by decide : (3 : Fin 5) ≠ 4), by show (R - 1 / 1000 : ℚ) = |2 * R - (R + 1 / 1000)|; rw [abs_of_nonneg (by linarith)]; ring⟩
  · intro e he j hj
    unfold pairsGraph at he
    unfold pairsAt
    dsimp only
    rw [le_abs]
    fin_cases i <;> rw [← Option.some.inj he] <;> fin_cases j <;> simp at hj ⊢ <;> first | (left; linarith) | (right; linarith)

/-- **C229** refuted: of two pairs at distance 0.001 and a single example, nothing is reported by default, however far the pairs and
the single example are from each other. -/
theorem C229_not_pairs (A : ArgSort ℚ) (R : ℚ) (hR : 1 ≤ R) :
    (∀ i : Fin 5, i ≠ 4 → ∃ j, j ≠ i ∧ |pairsAt R i - pairsAt R j| = 1 / 1000) ∧
      (∀ j : Fin 5, j ≠ 4 → R - 1 / 1000 ≤ |pairsAt R 4 - pairsAt R j|) ∧
      ∃ r, findIssues A (pairsGraph R) (13 / 100) = .ok r ∧ ∀ i, r.isIssue i = false := by
  have hnn : nnDistances (pairsGraph R) = .ok ![1 / 1000, 1 / 1000, 1 / 1000, 1 / 1000, R - 1 / 1000] := by
    rw [nnDistances_ok]
    intro i
    fin_cases i <;> exact ⟨_, rfl, rfl⟩
  refine ⟨fun i hi => ?_, fun j hj => ?_, ?_⟩
  · fin_cases i
    · exact ⟨1, by decide, by show |(0 : ℚ) - 1 / 1000| = _; norm_num⟩
    · exact ⟨0, by decide, by show |(1 / 1000 : ℚ) - 0| = _; norm_num⟩
    · exact ⟨3, by decide, by show |R - (R + 1 / 1000)| = _; rw [abs_of_nonpos (by linarith)]; ring⟩
    · exact ⟨2, by decide, by show |R + 1 / 1000 - R| = _; rw [abs_of_nonneg (by linarith)]; ring⟩
    · exact absurd rfl hi
  · exact (pairs_nearest R hR 4).2 (3, R - 1 / 1000) rfl j hj
  · obtain ⟨r, -, hr, -, -⟩ := C37_median A (pairsGraph R) (13 / 100) (by norm_num) _ ((nnDistances_ok _ _).mp hnn)
    refine ⟨r, hr, fun i => ?_⟩
    obtain ⟨nn, med, e1, e2, e3, -⟩ := findIssues_run A _ _ _ hr
    rw [hnn] at e1
    rw [← Except.ok.inj e1] at e2
    have hs : sortOn A id (List.ofFn (![1 / 1000, 1 / 1000, 1 / 1000, 1 / 1000, R - 1 / 1000] : Fin 5 → ℚ)) =
        [1 / 1000, 1 / 1000, 1 / 1000, 1 / 1000, R - 1 / 1000] := by
      refine List.Perm.eq_of_pairwise' (show (sortOn A id _).Pairwise (fun x y => x ≤ y) from sortOn_sorted A id _)
        (show List.Pairwise (fun x y : ℚ => x ≤ y) _ by simp; linarith) ((sortOn_perm A id _).trans ?_)
      exact List.Perm.of_eq (by simp)
    have hmed : med = 1 / 1000 := by
      unfold npMedian at e2
      rw [hs, List.length_ofFn] at e2
      dsimp only at e2
      rw [if_pos (by norm_num)] at e2
      exact (Option.some.inj e2).symm
    rw [← Bool.not_eq_true, flag_nearest A _ _ (fun i j => abs_sub_comm _ _) (pairs_nearest R hR) _ _ hr _ hnn, e3, hmed]
    have hm : max (1 / 1000 : ℚ) epsilon = 1 / 1000 := by decide +kernel
    rw [hm]
    fin_cases i <;> norm_num
    linarith

/-! ### Example: two near duplicates among five examples are reported, and nothing else. -/

/-- Positions with one close pair. -/
def onePairAt : Fin 5 → ℚ := ![0, 1 / 10, 10, 20, 30]

/-- The nearest neighbour of each. -/
def onePairGraph : Graph 5 := ![[(1, 1 / 10)], [(0, 1 / 10)], [(1, 99 / 10)], [(2, 10)], [(3, 10)]]

theorem onePair_nearest : ListsNearest (fun i j => |onePairAt i - onePairAt j|) onePairGraph := by
  unfold ListsNearest
  intro i
  constructor
  · revert i
    decide +kernel
  · intro e he
    fin_cases i <;> rw [← Option.some.inj he] <;> decide +kernel

example (A : ArgSort ℚ) (r : Report 5) (h : findIssues A onePairGraph (13 / 100) = .ok r) (i : Fin 5) :
    r.isIssue i = true ↔ i = 0 ∨ i = 1 := by
  constructor
  · intro hi
    obtain ⟨j, hj, hd⟩ := C229_only_partial A _ _ (fun i j => abs_sub_comm _ _) onePair_nearest (13 / 100) 10 (by norm_num) r h
      (by norm_num) (by decide +kernel) i hi
    clear hi
    revert hd
    revert j
    revert i
    decide +kernel
  · rintro (rfl | rfl)
    · exact C229_found_partial A _ _ (fun i j => abs_sub_comm _ _) onePair_nearest (13 / 100) 9 (by norm_num) r h (by decide +kernel)
        0 1 (by decide) (by decide +kernel)
    · exact C229_found_partial A _ _ (fun i j => abs_sub_comm _ _) onePair_nearest (13 / 100) 9 (by norm_num) r h (by decide +kernel)
        1 0 (by decide) (by decide +kernel)

example (A : ArgSort ℚ) : ∃ r, findIssues A onePairGraph (13 / 100) = .ok r := by
  obtain ⟨r, _, hr, _⟩ := C37_median A onePairGraph (13 / 100) (by norm_num) ![1 / 10, 1 / 10, 99 / 10, 10, 10] (fun i => by
    fin_cases i <;> exact ⟨_, rfl, rfl⟩)
  exact ⟨r, hr⟩

end Cleanlab.Props
