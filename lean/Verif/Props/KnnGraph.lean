import Verif.Model.KnnGraph

/-!
# C36: correction of exact duplicates in a kNN graph
-/

namespace Cleanlab.Props

open Np Cleanlab.Knn

variable {N : ℕ}

theorem circulantRow_eq (c : List (Fin N)) (i : ℕ) (hi : i < c.length) :
    circulantRow c i = (List.finRange (c.length - 1)).map
      (fun j : Fin (c.length - 1) => c.get ⟨(i + c.length - (j + 1)) % c.length, Nat.mod_lt _ (by omega)⟩) := by
  unfold circulantRow
  rw [← List.map_coe_finRange_eq_range, List.map_map]
  have : ((fun j => c[(i + c.length - (j + 1)) % c.length]?) ∘ fun j : Fin (c.length - 1) => (j : ℕ)) =
      fun j : Fin (c.length - 1) =>
        some (c.get ⟨(i + c.length - (j + 1)) % c.length, Nat.mod_lt _ (by omega)⟩) := by
    funext j
    simp only [Function.comp]
    rw [List.getElem?_eq_getElem (Nat.mod_lt _ (by omega))]
    rfl
  rw [this]
  generalize List.finRange (c.length - 1) = l
  induction l with
  | nil => rfl
  | cons a l ih => rw [List.map_cons, List.map_cons, ← ih]; rfl

theorem mod_shift (n i j : ℕ) (hi : i < n) :
    (i + n - (j + 1)) % n = if j + 1 ≤ i then i - (j + 1) else i + n - (j + 1) := by
  split_ifs with h
  · rw [show i + n - (j + 1) = (i - (j + 1)) + n by omega, Nat.add_mod_right, Nat.mod_eq_of_lt (by omega)]
  · exact Nat.mod_eq_of_lt (by omega)

theorem circulantRow_props (c : List (Fin N)) (hnd : c.Nodup) (i : ℕ) (hi : i < c.length) :
    (circulantRow c i).length = c.length - 1 ∧ (circulantRow c i).Nodup ∧
      ∀ x ∈ circulantRow c i, x ∈ c ∧ x ≠ c[i] := by
  rw [circulantRow_eq c i hi]
  refine ⟨by simp, ?_, ?_⟩
  · refine (List.nodup_finRange _).map (fun a b hab => ?_)
    have h1 := congrArg Fin.val (List.nodup_iff_injective_get.mp hnd hab)
    simp only at h1
    rw [mod_shift _ _ _ hi, mod_shift _ _ _ hi] at h1
    have := a.2; have := b.2
    apply Fin.ext
    split_ifs at h1 <;> omega
  · intro x hx
    obtain ⟨j, _, rfl⟩ := List.mem_map.mp hx
    refine ⟨List.get_mem _ _, fun h => ?_⟩
    have h1 := congrArg Fin.val (List.nodup_iff_injective_get.mp hnd (a₂ := ⟨i, hi⟩) h)
    simp only at h1
    rw [mod_shift _ _ _ hi] at h1
    have := j.2
    split_ifs at h1 <;> omega

/-- The row of a point of a duplicate set after correction: `k` distinct neighbours, none of them the point itself; first
as many other members of the set as possible, at distance 0; then entries of the old row that are not in the set. -/
structure Corrected (k : ℕ) (dups : List (Fin N)) (p : Fin N) (row row' : List (Fin N × ℚ)) : Prop where
  length : row'.length = k
  nodup : (row'.map Prod.fst).Nodup
  noSelf : p ∉ row'.map Prod.fst
  front : ∀ e ∈ row'.take (min (dups.length - 1) k), e.1 ∈ dups ∧ e.2 = 0
  back : ∀ e ∈ row'.drop (min (dups.length - 1) k), e ∈ row ∧ e.1 ∉ dups

theorem firstDuplicatesRow_props (S : ArgSort (Fin N)) (dups : List (Fin N)) (hnd : dups.Nodup) (inc i : ℕ)
    (hinc : inc + 1 ≤ dups.length) (hi : i < inc + 1) :
    (firstDuplicatesRow S dups inc i).length = inc ∧ (firstDuplicatesRow S dups inc i).Nodup ∧
      ∀ x ∈ firstDuplicatesRow S dups inc i, x ∈ dups ∧ x ≠ dups[i] := by
  have hl : (dups.take (inc + 1)).length = inc + 1 := by simp; omega
  obtain ⟨h1, h2, h3⟩ := circulantRow_props (dups.take (inc + 1)) (hnd.take) i (by omega)
  refine ⟨?_, ?_, ?_⟩
  · unfold firstDuplicatesRow
    rw [length_sortOn, h1, hl]; rfl
  · exact (sortOn_perm S id _).nodup_iff.mpr h2
  · intro x hx
    obtain ⟨h4, h5⟩ := h3 x ((mem_sortOn S id _ _).mp hx)
    refine ⟨List.mem_of_mem_take h4, ?_⟩
    simpa using h5

theorem sorted_bool_take {β : Type} (B : ArgSort Bool) (key : β → Bool) (l : List β) (m : ℕ)
    (hm : m ≤ l.countP (fun e => !key e)) : ∀ e ∈ (sortOn B key l).take m, key e = false := by
  intro e he
  by_contra hk
  rw [Bool.not_eq_false] at hk
  have hs := sortOn_sorted B key l
  rw [← List.take_append_drop m (sortOn B key l), List.pairwise_append] at hs
  have hdrop : ∀ x ∈ (sortOn B key l).drop m, key x = true := by
    intro x hx
    have := hs.2.2 e he x hx
    rw [hk] at this
    cases hkx : key x with
    | true => rfl
    | false => rw [hkx] at this; exact absurd this (by decide)
  have hc : (sortOn B key l).countP (fun e => !key e) = l.countP (fun e => !key e) :=
    (sortOn_perm B key l).countP_eq _
  rw [← List.take_append_drop m (sortOn B key l), List.countP_append] at hc
  have h0 : ((sortOn B key l).drop m).countP (fun e => !key e) = 0 := by
    rw [List.countP_eq_zero]
    intro x hx
    simp [hdrop x hx]
  have h1 : ((sortOn B key l).take m).countP (fun e => !key e) < ((sortOn B key l).take m).length := by
    refine lt_of_le_of_ne List.countP_le_length (fun h => ?_)
    have := List.countP_eq_length.mp h e he
    simp [hk] at this
  have h2 : ((sortOn B key l).take m).length ≤ m := by simp
  omega

theorem countP_notMem_ge (dups : List (Fin N)) (p : Fin N) (hp : p ∈ dups) (row : List (Fin N × ℚ))
    (hrow : (row.map Prod.fst).Nodup) (hself : p ∉ row.map Prod.fst) :
    row.length - (dups.length - 1) ≤ row.countP (fun e => !decide (e.1 ∈ dups)) := by
  have h1 : row.length = row.countP (fun e => decide (e.1 ∈ dups)) + row.countP (fun e => !decide (e.1 ∈ dups)) :=
    (List.length_eq_countP_add_countP (fun e : Fin N × ℚ => decide (e.1 ∈ dups))).trans (by simp)
  have h2 : row.countP (fun e => decide (e.1 ∈ dups)) ≤ dups.length - 1 := by
    rw [List.countP_eq_length_filter, ← List.length_map (f := Prod.fst), ← List.length_erase_of_mem hp]
    refine List.Subperm.length_le (List.subperm_of_subset ?_ ?_)
    · exact (List.filter_sublist.map Prod.fst).nodup hrow
    · intro x hx
      obtain ⟨e, he, rfl⟩ := List.mem_map.mp hx
      obtain ⟨he1, he2⟩ := List.mem_filter.mp he
      refine (List.mem_erase_of_ne ?_).mpr (of_decide_eq_true he2)
      rintro h
      exact hself (h ▸ List.mem_map_of_mem he1)
  omega

theorem correctRow_corrected (S : ArgSort (Fin N)) (B : ArgSort Bool) (k : ℕ) (dups : List (Fin N))
    (hnd : dups.Nodup) (h2 : 2 ≤ dups.length) (i : ℕ) (hi : i < dups.length) (row : List (Fin N × ℚ))
    (hlen : row.length = k) (hrow : (row.map Prod.fst).Nodup) (hself : dups[i] ∉ row.map Prod.fst) :
    ∃ row', correctRow S B k dups i row = .ok row' ∧ Corrected k dups dups[i] row row' := by
  unfold correctRow
  simp only
  by_cases hk : k + 1 ≤ dups.length
  · have hinc : min (dups.length - 1) k = k := by omega
    rw [if_pos hk, hinc]
    split_ifs with hik
    · obtain ⟨a1, a2, a3⟩ := firstDuplicatesRow_props S dups hnd k i hk hik
      refine ⟨_, rfl, by simpa using a1, ?_, ?_, ?_, ?_⟩
      · simpa [List.map_map, Function.comp_def] using a2
      · simp only [List.map_map, Function.comp_def, List.map_id']
        exact fun h => (a3 _ h).2 rfl
      · intro e he
        obtain ⟨j, hj, rfl⟩ := List.mem_map.mp (List.mem_of_mem_take he)
        exact ⟨(a3 j hj).1, rfl⟩
      · rw [hinc, List.drop_eq_nil_of_le (by simp [a1])]
        simp
    · refine ⟨_, rfl, by simp; omega, ?_, ?_, ?_, ?_⟩
      · have : (dups.take k).Nodup := hnd.take
        simpa [List.map_map, Function.comp_def] using this
      · simp only [List.map_map, Function.comp_def, List.map_id']
        intro h
        obtain ⟨j, hj, hj2⟩ := List.mem_iff_getElem.mp h
        have hj' : j < k := by simp at hj; omega
        rw [List.getElem_take] at hj2
        have := (List.Nodup.getElem_inj_iff hnd).mp hj2
        omega
      · intro e he
        obtain ⟨j, hj, rfl⟩ := List.mem_map.mp (List.mem_of_mem_take he)
        exact ⟨List.mem_of_mem_take hj, rfl⟩
      · rw [hinc, List.drop_eq_nil_of_le (by simp)]
        simp
  · have hinc : min (dups.length - 1) k = dups.length - 1 := by omega
    rw [if_neg hk, hinc, if_neg (by omega)]
    obtain ⟨a1, a2, a3⟩ := firstDuplicatesRow_props S dups hnd (dups.length - 1) i (by omega) (by omega)
    have hb := sorted_bool_take B (fun e : Fin N × ℚ => decide (e.1 ∈ dups)) row (row.length - (dups.length - 1))
      (countP_notMem_ge dups dups[i] (List.getElem_mem hi) row hrow hself)
    have hl : ((firstDuplicatesRow S dups (dups.length - 1) i).map (fun j => ((j, 0) : Fin N × ℚ))).length =
        dups.length - 1 := by simpa using a1
    have hperm := sortOn_perm B (fun e : Fin N × ℚ => decide (e.1 ∈ dups)) row
    refine ⟨_, rfl, ?_, ?_, ?_, ?_, ?_⟩
    · simp [a1, length_sortOn, hlen]; omega
    · rw [List.map_append, List.map_map]
      simp only [Function.comp_def, List.map_id']
      rw [List.nodup_append]
      refine ⟨a2, ?_, ?_⟩
      · exact ((List.take_sublist _ _).map Prod.fst).nodup ((hperm.map Prod.fst).nodup_iff.mpr hrow)
      · intro x hx y hy hxy
        obtain ⟨e, he, rfl⟩ := List.mem_map.mp hy
        have := hb e he
        simp only [decide_eq_false_iff_not] at this
        exact this (hxy ▸ (a3 x hx).1)
    · rw [List.map_append, List.map_map]
      simp only [Function.comp_def, List.map_id', List.mem_append, not_or]
      refine ⟨fun h => (a3 _ h).2 rfl, fun h => hself ?_⟩
      obtain ⟨e, he, he2⟩ := List.mem_map.mp h
      rw [← he2]
      exact List.mem_map_of_mem (hperm.mem_iff.mp (List.mem_of_mem_take he))
    · intro e he
      rw [hinc, List.take_append_of_le_length (by omega)] at he
      obtain ⟨j, hj, rfl⟩ := List.mem_map.mp (List.mem_of_mem_take he)
      exact ⟨(a3 j hj).1, rfl⟩
    · intro e he
      rw [hinc, List.drop_append_of_le_length (by omega), List.drop_eq_nil_of_le (by omega), List.nil_append] at he
      have := hb e he
      simp only [decide_eq_false_iff_not] at this
      exact ⟨hperm.mem_iff.mp (List.mem_of_mem_take he), this⟩

theorem correctSet_fold (S : ArgSort (Fin N)) (B : ArgSort Bool) (k : ℕ) (g : Graph N) (dups : List (Fin N))
    (R : Fin N → List (Fin N × ℚ) → Prop) (l : List (Fin N × ℕ)) (hnd : (l.map Prod.fst).Nodup)
    (hl : ∀ x ∈ l, ∃ r, correctRow S B k dups x.2 (g x.1) = .ok r ∧ R x.1 r) (acc : Graph N) :
    ∃ acc', l.foldlM (fun acc pi => do
      let r ← correctRow S B k dups pi.2 (g pi.1)
      return Function.update acc pi.1 r) acc = (.ok acc' : Except String (Graph N)) ∧
      (∀ x ∈ l, R x.1 (acc' x.1)) ∧ ∀ q, q ∉ l.map Prod.fst → acc' q = acc q := by
  induction l generalizing acc with
  | nil => exact ⟨acc, rfl, by simp, fun _ _ => rfl⟩
  | cons x l ih =>
    obtain ⟨r, hr, hR⟩ := hl x (List.mem_cons_self)
    rw [List.map_cons, List.nodup_cons] at hnd
    obtain ⟨acc', h1, h2, h3⟩ := ih hnd.2 (fun y hy => hl y (List.mem_cons_of_mem _ hy)) (Function.update acc x.1 r)
    refine ⟨acc', ?_, ?_, ?_⟩
    · rw [List.foldlM_cons, hr]
      exact h1
    · intro y hy
      rcases List.mem_cons.mp hy with rfl | hy
      · rw [h3 _ hnd.1, Function.update_self]; exact hR
      · exact h2 y hy
    · intro q hq
      rw [List.map_cons, List.mem_cons, not_or] at hq
      rw [h3 q hq.2, Function.update_of_ne hq.1]

/-- **C36**: after correction every row of every duplicate set is `Corrected` and the other rows are untouched, for any
graph whose rows list `k` distinct other points, any disjoint duplicate sets and any sorting routine. -/
theorem C36_corrected (S : ArgSort (Fin N)) (B : ArgSort Bool) (k : ℕ) (g : Graph N) (sets : List (List (Fin N)))
    (hdis : sets.Pairwise List.Disjoint) (hsets : ∀ s ∈ sets, s.Nodup ∧ 2 ≤ s.length)
    (hg : ∀ p, (g p).length = k ∧ ((g p).map Prod.fst).Nodup ∧ p ∉ (g p).map Prod.fst) :
    ∃ g', correctDuplicates S B k g sets = .ok g' ∧ (∀ s ∈ sets, ∀ p ∈ s, Corrected k s p (g p) (g' p)) ∧
      ∀ q, (∀ s ∈ sets, q ∉ s) → g' q = g q := by
  suffices h : ∀ h : Graph N, (∀ s ∈ sets, ∀ p ∈ s, h p = g p) →
      ∃ g', correctDuplicates S B k h sets = .ok g' ∧ (∀ s ∈ sets, ∀ p ∈ s, Corrected k s p (g p) (g' p)) ∧
        ∀ q, (∀ s ∈ sets, q ∉ s) → g' q = h q from h g (fun _ _ _ _ => rfl)
  induction sets with
  | nil => exact fun h _ => ⟨h, rfl, by simp, fun _ _ => rfl⟩
  | cons s sets ih =>
    intro h hh
    rw [List.pairwise_cons] at hdis
    obtain ⟨hnd, h2⟩ := hsets s List.mem_cons_self
    obtain ⟨h', e1, e2, e3⟩ := correctSet_fold S B k h s (fun p r => Corrected k s p (g p) r) s.zipIdx
      (by simpa using hnd) (fun x hx => by
        obtain ⟨p, i⟩ := x
        obtain ⟨hi, hpi⟩ := List.mem_zipIdx' hx
        simp only at hpi ⊢
        rw [hh s List.mem_cons_self p (hpi ▸ List.getElem_mem hi), hpi]
        exact correctRow_corrected S B k s hnd h2 i hi _ (hg _).1 (hg _).2.1 (hg _).2.2) h
    rw [List.zipIdx_map_fst] at e3
    have hdisj : ∀ t ∈ sets, ∀ p ∈ t, p ∉ s := fun t ht p hp hps => hdis.1 t ht hps hp
    obtain ⟨g', f1, f2, f3⟩ := ih hdis.2 (fun t ht => hsets t (List.mem_cons_of_mem _ ht)) h' (fun t ht p hp => by
      rw [e3 p (hdisj t ht p hp)]
      exact hh t (List.mem_cons_of_mem _ ht) p hp)
    refine ⟨g', ?_, ?_, ?_⟩
    · unfold correctDuplicates
      rw [List.foldlM_cons]
      have : correctSet S B k h s = .ok h' := e1
      rw [this]
      exact f1
    · intro t ht p hp
      rcases List.mem_cons.mp ht with rfl | ht
      · rw [f3 p (fun u hu hpu => hdisj u hu p hpu hp)]
        obtain ⟨i, hi, rfl⟩ := List.mem_iff_getElem.mp hp
        exact e2 (t[i], i) (by rw [List.mk_mem_zipIdx_iff_getElem?]; exact List.getElem?_eq_getElem hi)
      · exact f2 t ht p hp
    · intro q hq
      rw [f3 q (fun t ht => hq t (List.mem_cons_of_mem _ ht)), e3 q (hq s List.mem_cons_self)]

/-- **C36**: the sets computed from the features satisfy the hypotheses of `C36_corrected` and contain exactly the points
that share their features with another point. -/
theorem C36_duplicate_sets {X : Type} [DecidableEq X] (features : Fin N → X) (values : List X) (hnd : values.Nodup)
    (hall : ∀ i, features i ∈ values) :
    (duplicateSets features values).Pairwise List.Disjoint ∧
      (∀ s ∈ duplicateSets features values, s.Nodup ∧ 2 ≤ s.length) ∧
      ∀ i j, i ≠ j → ((∃ s ∈ duplicateSets features values, i ∈ s ∧ j ∈ s) ↔ features i = features j) := by
  refine ⟨?_, ?_, ?_⟩
  · unfold duplicateSets
    refine List.Pairwise.filter _ (List.pairwise_map.mpr (hnd.imp ?_))
    intro a b hab x hx hy
    simp only [List.mem_filter, decide_eq_true_eq] at hx hy
    exact hab (hx.2.symm.trans hy.2)
  · intro s hs
    obtain ⟨hs, hl⟩ := List.mem_filter.mp hs
    obtain ⟨v, _, rfl⟩ := List.mem_map.mp hs
    exact ⟨(List.nodup_finRange N).filter _, of_decide_eq_true hl⟩
  · intro i j hij
    constructor
    · rintro ⟨s, hs, hi, hj⟩
      obtain ⟨v, _, rfl⟩ := List.mem_map.mp (List.mem_filter.mp hs).1
      simp only [List.mem_filter, decide_eq_true_eq] at hi hj
      exact hi.2.trans hj.2.symm
    · intro h
      have hi : i ∈ (List.finRange N).filter (fun a => features a = features i) := by simp
      have hj : j ∈ (List.finRange N).filter (fun a => features a = features i) := by simp [h]
      refine ⟨_, List.mem_filter.mpr ⟨List.mem_map_of_mem (hall i), ?_⟩, hi, hj⟩
      refine decide_eq_true ?_
      by_contra hlt
      rcases hlist : (List.finRange N).filter (fun a => features a = features i) with _ | ⟨a, _ | ⟨b, l⟩⟩
      · rw [hlist] at hi; simp at hi
      · rw [hlist] at hi hj
        simp only [List.mem_singleton] at hi hj
        exact hij (hi.trans hj.symm)
      · rw [hlist] at hlt; simp at hlt

/-- Non-vacuity: points 0, 2 coincide, their distances are rounded and 1 comes first in both rows. -/
example : (correctDuplicates (N := 4) (stableSort (Fin 4)) (stableSort Bool) 2
    ![[(1, 0), (2, 1/100)], [(0, 1), (2, 1)], [(1, 0), (3, 5)], [(1, 5), (0, 5)]] [[0, 2]]).toOption =
    some ![[(2, 0), (1, 0)], [(0, 1), (2, 1)], [(0, 0), (1, 0)], [(1, 5), (0, 5)]] := by decide +kernel

end Cleanlab.Props
