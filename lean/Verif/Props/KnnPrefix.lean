import Verif.Props.KnnBuild

/-!
# Graphs of the same features with different numbers of neighbours
-/

namespace Cleanlab.Props

open Np Cleanlab.Knn

variable {N : ℕ}

theorem circulantRow_perm (c : List (Fin N)) (hnd : c.Nodup) (i : ℕ) (hi : i < c.length) :
    (circulantRow c i).Perm (c.erase c[i]) := by
  obtain ⟨h1, h2, h3⟩ := circulantRow_props c hnd i hi
  have hsub : circulantRow c i ⊆ c.erase c[i] := fun x hx => (List.mem_erase_of_ne (h3 x hx).2).mpr (h3 x hx).1
  refine (List.subperm_of_subset h2 hsub).perm_of_length_le ?_
  rw [h1, List.length_erase_of_mem (List.getElem_mem hi)]

/-- The other duplicates are listed in increasing order. -/
theorem firstDuplicatesRow_eq (S : ArgSort (Fin N)) (dups : List (Fin N)) (hs : dups.Pairwise (· < ·)) (inc i : ℕ)
    (hinc : inc + 1 ≤ dups.length) (hi : i < inc + 1) :
    firstDuplicatesRow S dups inc i = (dups.take (inc + 1)).eraseIdx i := by
  have hl : (dups.take (inc + 1)).length = inc + 1 := by simp; omega
  have hs' : (dups.take (inc + 1)).Pairwise (· < ·) := hs.sublist (List.take_sublist _ _)
  have hnd : (dups.take (inc + 1)).Nodup := hs'.imp (fun h => ne_of_lt h)
  unfold firstDuplicatesRow
  have hp := (sortOn_perm S id _).trans (circulantRow_perm (dups.take (inc + 1)) hnd i (by omega))
  rw [List.Nodup.erase_getElem hnd] at hp
  refine hp.eq_of_pairwise (le := (· ≤ ·)) (fun a b _ _ h1 h2 => le_antisymm h1 h2) (sortOn_sorted S id _) ?_
  exact (hs'.sublist (List.eraseIdx_sublist _ _)).imp (fun h => le_of_lt h)

/-- A stable sort by a Boolean key. -/
theorem sortOn_bool_eq {β : Type} (B : ArgSort Bool) (hB : Stable B) (key : β → Bool) (l : List β) :
    sortOn B key l = l.filter (fun x => !key x) ++ l.filter key := by
  have hidx : B.indices (fun r => key (l.get r)) =
      (List.finRange l.length).filter (fun r => !key (l.get r)) ++ (List.finRange l.length).filter (fun r => key (l.get r)) := by
    have hperm : (B.indices (fun r => key (l.get r))).Perm
        ((List.finRange l.length).filter (fun r => !key (l.get r)) ++
          (List.finRange l.length).filter (fun r => key (l.get r))) := by
      refine (B.perm_indices _).trans ?_
      exact ((List.perm_append_comm).trans (List.filter_append_perm (fun r => key (l.get r)) _)).symm
    have h1 := B.pairwise_indices (fun r => key (l.get r))
    have h2 := hB (fun r => key (l.get r))
    refine hperm.eq_of_pairwise
      (le := fun i j => key (l.get i) ≤ key (l.get j) ∧ (key (l.get i) = key (l.get j) → i ≤ j))
      (fun a b _ _ h3 h4 => ?_) ?_ ?_
    · have h5 := le_antisymm h3.1 h4.1
      exact le_antisymm (h3.2 h5) (h4.2 h5.symm)
    · exact h1.imp₂ (fun i j h3 h4 => ⟨h3, fun h => le_of_lt (h4 h)⟩) h2
    · have hf := List.pairwise_lt_finRange l.length
      rw [List.pairwise_append]
      refine ⟨?_, ?_, ?_⟩
      · refine (hf.filter _).imp_of_mem ?_
        intro i j hi hj hij
        simp only [List.mem_filter, Bool.not_eq_true'] at hi hj
        rw [hi.2, hj.2]
        exact ⟨le_rfl, fun _ => le_of_lt hij⟩
      · refine (hf.filter _).imp_of_mem ?_
        intro i j hi hj hij
        simp only [List.mem_filter] at hi hj
        rw [hi.2, hj.2]
        exact ⟨le_rfl, fun _ => le_of_lt hij⟩
      · intro i hi j hj
        simp only [List.mem_filter, Bool.not_eq_true'] at hi hj
        rw [hi.2, hj.2]
        exact ⟨by decide, fun h => by cases h⟩
  unfold sortOn
  rw [hidx, List.map_append]
  have hmap : (List.finRange l.length).map l.get = l := by rw [← List.ofFn_eq_map]; exact List.ofFn_get l
  congr 1
  · conv_rhs => rw [← hmap]
    rw [List.filter_map]
    rfl
  · conv_rhs => rw [← hmap]
    rw [List.filter_map]
    rfl

/-- The new row in closed form: the other duplicates by increasing index at distance 0, then the points of the old row that
are no duplicates, cut after `k`. -/
theorem correctRow_eq (S : ArgSort (Fin N)) (B : ArgSort Bool) (hB : Stable B) (k : ℕ) (dups : List (Fin N))
    (hs : dups.Pairwise (· < ·)) (h1 : 1 < dups.length) (i : ℕ) (hi : i < dups.length) (row : List (Fin N × ℚ))
    (hl : row.length = k) (hrow : (row.map Prod.fst).Nodup) (hself : dups[i] ∉ row.map Prod.fst) :
    correctRow S B k dups i row =
      .ok (((dups.eraseIdx i).map (fun j => (j, (0 : ℚ))) ++ row.filter (fun e => decide (e.1 ∉ dups))).take k) := by
  have hel : (dups.eraseIdx i).length = dups.length - 1 := List.length_eraseIdx_of_lt hi
  unfold correctRow
  dsimp only
  by_cases hk : k + 1 ≤ dups.length
  · rw [if_pos hk, show min (dups.length - 1) k = k by omega,
      List.take_append_of_le_length (by rw [List.length_map]; omega), ← List.map_take]
    by_cases hik : i < k + 1
    · rw [if_pos hik, firstDuplicatesRow_eq S dups hs k i hk hik]
      congr 2
      rw [List.eraseIdx_eq_take_drop_succ, List.eraseIdx_eq_take_drop_succ, List.take_take, List.drop_take, List.take_append,
        List.take_take, List.length_take]
      congr 1
      · congr 1; omega
      · congr 1; omega
    · rw [if_neg hik]
      congr 2
      rw [List.eraseIdx_eq_take_drop_succ, List.take_append_of_le_length (by rw [List.length_take]; omega), List.take_take]
      congr 1; omega
  · have hinc : min (dups.length - 1) k = dups.length - 1 := by omega
    rw [if_neg hk, hinc, if_neg (by omega), firstDuplicatesRow_eq S dups hs (dups.length - 1) i (by omega) (by omega),
      List.take_of_length_le (show dups.length ≤ dups.length - 1 + 1 by omega), sortOn_bool_eq B hB]
    have hc := countP_notMem_ge dups dups[i] (List.getElem_mem hi) row hrow hself
    have hr : ((dups.eraseIdx i).map (fun j => (j, (0 : ℚ))) ++ row.filter (fun e => decide (e.1 ∉ dups))).take k =
        (dups.eraseIdx i).map (fun j => (j, (0 : ℚ))) ++
          (row.filter (fun e => decide (e.1 ∉ dups))).take (k - (dups.length - 1)) := by
      rw [List.take_append, List.length_map, hel, List.take_of_length_le]
      rw [List.length_map]
      omega
    rw [hr]
    congr 2
    rw [hl, List.take_append_of_le_length]
    · congr 1
      refine List.filter_congr (fun e _ => ?_)
      by_cases he : e.1 ∈ dups <;> simp [he]
    · rw [← List.countP_eq_length_filter]
      rw [hl] at hc
      refine le_trans hc (le_of_eq ?_)
      exact List.countP_congr (fun e _ => by by_cases he : e.1 ∈ dups <;> simp [he])

/-- **C108** (partial: only if `np.argsort` on the mask is stable): every row of the corrected graph in closed form. -/
theorem C108_closed_form_partial {X : Type} [DecidableEq X] (S : ArgSort (Fin N)) (B : ArgSort Bool) (hB : Stable B)
    (features : Fin N → X) (values : List X) (hnd : values.Nodup) (hall : ∀ i, features i ∈ values) (k : ℕ) (g : Graph N)
    (hg : ListsOthers k g) (hN : 0 < N) :
    ∃ a, correctGraph S B features values (constructGraph k g) = .ok a ∧ ∀ p : Fin N,
      a.row p = (((twins features p).erase p).map (fun j => (j, (0 : ℚ))) ++
        (g p).filter (fun e => decide (features e.1 ≠ features p))).take k := by
  obtain ⟨a, h1, _, h2⟩ := correctGraph_rows S B features values hnd hall k g hg hN
  refine ⟨a, h1, fun p => ?_⟩
  have hmp : p ∈ twins features p := (mem_twins features p p).mpr rfl
  by_cases h : (twins features p).length ≤ 1
  · rw [(h2 p).2.1 h]
    have ht : twins features p = [p] := by
      have := List.length_pos_of_mem hmp
      obtain ⟨q, hq⟩ := List.length_eq_one_iff.mp (show (twins features p).length = 1 by omega)
      rw [hq] at hmp ⊢
      rw [List.mem_singleton.mp hmp]
    rw [ht]
    simp only [List.erase_cons_head, List.map_nil, List.nil_append]
    rw [List.filter_eq_self.mpr, List.take_of_length_le (le_of_eq (hg p).1)]
    intro e he
    rw [decide_eq_true_eq]
    intro hf
    have : e.1 ∈ twins features p := (mem_twins features p e.1).mpr hf
    rw [ht, List.mem_singleton] at this
    have hm := List.mem_map_of_mem (f := Prod.fst) he
    rw [this] at hm
    exact (hg p).2.2 hm
  · obtain ⟨i, hi, hpi, hr⟩ := (h2 p).2.2 (by omega)
    have hs : (twins features p).Pairwise (· < ·) := (List.pairwise_lt_finRange N).filter _
    have he : (twins features p).erase p = (twins features p).eraseIdx i := by
      conv_lhs => rw [show (twins features p).erase p = (twins features p).erase (twins features p)[i] by rw [← hpi]]
      exact List.Nodup.erase_getElem (nodup_twins features p) i hi
    rw [correctRow_eq S B hB k (twins features p) hs (by omega) i hi (g p) (hg p).1 (hg p).2.1 (hpi ▸ (hg p).2.2)] at hr
    rw [← Except.ok.inj hr, he]
    congr 2
    refine List.filter_congr (fun e _ => ?_)
    simp only [mem_twins, ne_eq]

/-- Cutting the row of the index first makes no difference. -/
theorem prefix_rows (D : List (Fin N × ℚ)) (q : Fin N × ℚ → Bool) (row : List (Fin N × ℚ)) (k : ℕ)
    (hc : k - D.length ≤ (row.take k).countP q) :
    (D ++ (row.take k).filter q).take k = (D ++ row.filter q).take k := by
  rw [List.take_append, List.take_append]
  congr 1
  conv_rhs => rw [← List.take_append_drop k row, List.filter_append,
    List.take_append_of_le_length (by rw [← List.countP_eq_length_filter]; exact hc)]

/-- **C108** (partial: only if `np.argsort` on the mask is stable): if the index lists the same neighbours in the same order
whatever their number is, then so does the corrected graph. -/
theorem C108_prefix_partial {X : Type} [DecidableEq X] (S : ArgSort (Fin N)) (B : ArgSort Bool) (hB : Stable B)
    (features : Fin N → X) (values : List X) (hnd : values.Nodup) (hall : ∀ i, features i ∈ values) (k k' : ℕ) (hk : k ≤ k')
    (g g' : Graph N) (hg : ListsOthers k g) (hg' : ListsOthers k' g') (hN : 0 < N) (hp : ∀ p, g p = (g' p).take k)
    (a a' : CsrGraph N) (ha : correctGraph S B features values (constructGraph k g) = .ok a)
    (ha' : correctGraph S B features values (constructGraph k' g') = .ok a') (p : Fin N) :
    a.row p = (a'.row p).take k := by
  obtain ⟨b, h1, h2⟩ := C108_closed_form_partial S B hB features values hnd hall k g hg hN
  obtain ⟨b', h1', h2'⟩ := C108_closed_form_partial S B hB features values hnd hall k' g' hg' hN
  rw [ha] at h1
  rw [ha'] at h1'
  obtain rfl := Except.ok.inj h1
  obtain rfl := Except.ok.inj h1'
  rw [h2, h2', List.take_take, min_eq_left hk, hp]
  apply prefix_rows
  have hmp : p ∈ twins features p := (mem_twins features p p).mpr rfl
  have hc := countP_notMem_ge (twins features p) p hmp (g p) (hg p).2.1 (hg p).2.2
  rw [(hg p).1] at hc
  rw [List.length_map, List.length_erase_of_mem hmp, ← hp]
  refine le_trans hc (le_of_eq (List.countP_congr (fun e _ => ?_)))
  simp [mem_twins]

/-- Non-vacuity of `C108_closed_form_partial` and `C108_prefix_partial`: three coinciding points and two others, with two
and with three neighbours. -/
example : ((correctGraph (stableSort (Fin 5)) (stableSort Bool) (![0, 0, 0, 1, 2] : Fin 5 → ℕ) [0, 1, 2]
      (constructGraph 3 (![[(3, 1), (4, 2), (1, 0)], [(3, 1), (4, 2), (0, 0)], [(3, 1), (0, 0), (4, 2)],
        [(0, 1), (4, 1), (1, 1)], [(3, 1), (0, 2), (1, 2)]] : Fin 5 → _))).map (fun a => (List.range 5).map a.row)).toOption =
    some [[(1, 0), (2, 0), (3, 1)], [(0, 0), (2, 0), (3, 1)], [(0, 0), (1, 0), (3, 1)], [(0, 1), (4, 1), (1, 1)],
      [(3, 1), (0, 2), (1, 2)]] ∧
    ((correctGraph (stableSort (Fin 5)) (stableSort Bool) (![0, 0, 0, 1, 2] : Fin 5 → ℕ) [0, 1, 2]
      (constructGraph 2 (![[(3, 1), (4, 2)], [(3, 1), (4, 2)], [(3, 1), (0, 0)],
        [(0, 1), (4, 1)], [(3, 1), (0, 2)]] : Fin 5 → _))).map (fun a => (List.range 5).map a.row)).toOption =
    some [[(1, 0), (2, 0)], [(0, 0), (2, 0)], [(0, 0), (1, 0)], [(0, 1), (4, 1)], [(3, 1), (0, 2)]] := by decide +kernel

end Cleanlab.Props
