import Verif.Model.DataValuation
import Mathlib.Algebra.Order.BigOperators.Ring.List

/-!
# C35: KNN-Shapley values
-/

namespace Cleanlab.Props

open Np Cleanlab.DataValuation

variable {N : ℕ} {L : Type} [DecidableEq L]

/-- 1 if point `i` has label `l`. -/
def matchInd (y : Fin N → L) (l : L) (i : Fin N) : ℚ := if y i = l then 1 else 0

/-- The contribution of point `i` to point `a` whose neighbour list is `idx`: whether the labels agree, compared with the
`k`-th neighbour; zero if `i` is not among the first `k` neighbours. -/
def contribution (y : Fin N → L) (l : L) (idx : List (Fin N)) (k : ℕ) (i : Fin N) : ℚ :=
  match idx[k - 1]? with
  | some z => if i ∈ idx.take k then matchInd y l i - matchInd y l z else 0
  | none => 0

theorem shapley_loop (y : Fin N → L) (l : L) (idx : List (Fin N)) (k : ℕ) (hk : 1 ≤ k)
    (hlen : k ≤ idx.length) (m : ℕ) (hm : m ≤ k - 1) (s : Fin N → ℚ)
    (hs : ∀ i, s i = if i ∈ (idx.take k).drop m then matchInd y l i - matchInd y l (idx[k - 1]'(by omega)) else 0) :
    (List.range m).reverse.foldlM (shapleyStep y l idx) s = .ok (contribution y l idx k) := by
  induction m generalizing s with
  | zero =>
    simp only [List.range_zero, List.reverse_nil, List.foldlM_nil]
    show Except.ok s = _
    congr 1
    funext i
    rw [hs, contribution, List.getElem?_eq_getElem (by omega), List.drop_zero]
  | succ m ih =>
    rw [List.range_succ, List.reverse_append, List.reverse_singleton, List.singleton_append, List.foldlM_cons]
    have h1 : idx[m]? = some (idx[m]'(by omega)) := List.getElem?_eq_getElem _
    have h2 : idx[m + 1]? = some (idx[m + 1]'(by omega)) := List.getElem?_eq_getElem _
    have hd : (idx.take k).drop m = idx[m]'(by omega) :: (idx.take k).drop (m + 1) := by
      rw [List.drop_eq_getElem_cons (by simp; omega)]
      simp
    have hstep : shapleyStep y l idx s m = .ok (Function.update s (idx[m]'(by omega))
        (s (idx[m + 1]'(by omega)) + (matchInd y l (idx[m]'(by omega)) - matchInd y l (idx[m + 1]'(by omega))))) := by
      unfold shapleyStep
      rw [h1, h2]; rfl
    rw [hstep]
    refine ih (by omega) _ (fun i => ?_)
    have hmem : idx[m + 1]'(by omega) ∈ (idx.take k).drop (m + 1) := by
      rw [List.drop_eq_getElem_cons (by simp; omega)]
      simp
    rw [hd]
    by_cases hi : i = idx[m]'(by omega)
    · subst hi
      rw [Function.update_self, hs, if_pos hmem, if_pos (by simp)]
      ring
    · rw [Function.update_of_ne hi, hs]
      simp only [List.mem_cons, hi, false_or]

theorem shapleyRow_eq (y : Fin N → L) (l : L) (idx : List (Fin N)) (k : ℕ) (hk : 1 ≤ k)
    (hlen : k ≤ idx.length) : shapleyRow y l idx k = .ok (contribution y l idx k) := by
  refine shapley_loop y l idx k hk hlen (k - 1) le_rfl _ (fun i => ?_)
  have hd : (idx.take k).drop (k - 1) = [idx[k - 1]'(by omega)] := by
    rw [List.drop_eq_getElem_cons (by simp; omega)]
    simp
    omega
  rw [hd]
  split_ifs with h
  · simp at h; rw [h]; ring
  · rfl

theorem contribution_bounds (y : Fin N → L) (l : L) (idx : List (Fin N)) (k : ℕ) (i : Fin N) :
    -1 ≤ contribution y l idx k i ∧ contribution y l idx k i ≤ 1 := by
  unfold contribution matchInd
  split
  · split_ifs <;> norm_num
  · norm_num

/-- **C35**: the score is one half plus half the mean contribution divided by `k`, for every graph with at least `k`
neighbours per point. -/
theorem C35_closed_form (neighbors : Fin N → List (Fin N)) (y : Fin N → L) (k : ℕ) (hk : 1 ≤ k) (hN : 0 < N)
    (hlen : ∀ a, k ≤ (neighbors a).length) :
    ∃ s, dataShapley neighbors y k = .ok s ∧
      ∀ i, s i = 1 / 2 + (∑ a, contribution y (y a) (neighbors a) k i) / (2 * k * N) := by
  have hrows : shapleyRows neighbors y k =
      .ok ((List.finRange N).map (fun a => contribution y (y a) (neighbors a) k)) := by
    unfold shapleyRows
    have : ∀ l : List (Fin N), l.mapM (fun a => shapleyRow y (y a) (neighbors a) k) =
        .ok (l.map (fun a => contribution y (y a) (neighbors a) k)) := by
      intro l
      induction l with
      | nil => rfl
      | cons a l ih => rw [List.mapM_cons, shapleyRow_eq y (y a) _ k hk (hlen a), ih]; rfl
    exact this _
  have hkn : ¬ (k = 0 ∨ N = 0) := by omega
  refine ⟨fun i => (1 / 2) * ((((List.finRange N).map (fun a => contribution y (y a) (neighbors a) k)).map
    (fun s => s i / (k : ℚ))).sum / (N : ℚ) + 1), ?_, ?_⟩
  · unfold dataShapley knnShapley
    simp only [hrows, bind, Except.bind, if_neg hkn]
    rfl
  · intro i
    simp only [List.map_map]
    have hsum : ((List.finRange N).map ((fun s : Fin N → ℚ => s i / k) ∘ fun a =>
        contribution y (y a) (neighbors a) k)).sum = (∑ a, contribution y (y a) (neighbors a) k i) / k := by
      rw [Finset.sum_div, ← List.sum_ofFn, List.ofFn_eq_map]; rfl
    rw [hsum]
    have hk' : (k : ℚ) ≠ 0 := by exact_mod_cast (by omega : k ≠ 0)
    have hN' : (N : ℚ) ≠ 0 := by exact_mod_cast (by omega : N ≠ 0)
    field_simp
    ring

/-- **C35**: all scores lie in `[0, 1]`, within `1/(2k)` of one half; a point that is no neighbour scores one half. -/
theorem C35_bounds (neighbors : Fin N → List (Fin N)) (y : Fin N → L) (k : ℕ) (hk : 1 ≤ k) (hN : 0 < N)
    (hlen : ∀ a, k ≤ (neighbors a).length) :
    ∃ s, dataShapley neighbors y k = .ok s ∧ ∀ i, 0 ≤ s i ∧ s i ≤ 1 ∧ |s i - 1 / 2| ≤ 1 / (2 * k) ∧
      ((∀ a, i ∉ (neighbors a).take k) → s i = 1 / 2) := by
  obtain ⟨s, hs, hf⟩ := C35_closed_form neighbors y k hk hN hlen
  refine ⟨s, hs, fun i => ?_⟩
  have hk' : (1 : ℚ) ≤ k := by exact_mod_cast hk
  have hN' : (0 : ℚ) < N := by exact_mod_cast hN
  have h1 : |∑ a, contribution y (y a) (neighbors a) k i| ≤ N := by
    calc _ ≤ ∑ a : Fin N, |contribution y (y a) (neighbors a) k i| := Finset.abs_sum_le_sum_abs _ _
      _ ≤ ∑ a : Fin N, (1 : ℚ) := Finset.sum_le_sum (fun a _ => abs_le.mpr (contribution_bounds _ _ _ _ _))
      _ = N := by simp
  have h2 : |s i - 1 / 2| ≤ 1 / (2 * k) := by
    rw [hf i, add_sub_cancel_left, abs_div, abs_of_pos (by positivity : (0 : ℚ) < 2 * k * N)]
    rw [div_le_div_iff₀ (by positivity) (by positivity)]
    nlinarith [h1]
  have h3 : (1 : ℚ) / (2 * k) ≤ 1 / 2 := by
    rw [div_le_div_iff₀ (by positivity) (by positivity)]; linarith
  have h4 := abs_le.mp h2
  refine ⟨by linarith [h4.1], by linarith [h4.2], h2, fun hi => ?_⟩
  rw [hf i]
  have : ∑ a, contribution y (y a) (neighbors a) k i = 0 := by
    refine Finset.sum_eq_zero (fun a _ => ?_)
    unfold contribution
    split
    · rw [if_neg (hi a)]
    · rfl
  rw [this]; simp

/-- The features of the example in the documentation are 0, 1, 2, 3, 4 on a line; `t` breaks the ties. -/
def docNeighbors (t : Fin 4 → Bool) : Fin 5 → List (Fin 5) :=
  ![[1, 2, 3, 4], (if t 0 then [0, 2] else [2, 0]) ++ [3, 4],
    (if t 1 then [1, 3] else [3, 1]) ++ (if t 2 then [0, 4] else [4, 0]),
    (if t 3 then [2, 4] else [4, 2]) ++ [1, 0], [3, 2, 1, 0]]

/-- **C35**: the example of the documentation announces 0.55 for the first point, but the score is 0.5 in every tie
order: the recursion starts at 0 instead of at the agreement of the `k`-th neighbour. -/
theorem C35_not_documented_example (t : Fin 4 → Bool) :
    ∃ s, dataShapley (docNeighbors t) (![0, 1, 0, 1, 0] : Fin 5 → Fin 2) 4 = .ok s ∧ s 0 = 1 / 2 := by
  obtain ⟨s, hs, hf⟩ := C35_closed_form (docNeighbors t) (![0, 1, 0, 1, 0] : Fin 5 → Fin 2) 4 (by decide) (by decide)
    (by revert t; decide +kernel)
  refine ⟨s, hs, ?_⟩
  have : ∑ a, contribution (![0, 1, 0, 1, 0] : Fin 5 → Fin 2) (![0, 1, 0, 1, 0] a) (docNeighbors t a) 4 0 = 0 := by
    clear hs hf; revert t; decide +kernel
  rw [hf, this]; simp

/-- **C35**: a graph with fewer than `k` neighbours at some point is rejected, for `k ≥ 2`. -/
theorem C35_too_few_neighbors (neighbors : Fin N → List (Fin N)) (y : Fin N → L) (k : ℕ) (hk : 2 ≤ k) (a : Fin N)
    (ha : (neighbors a).length < k) : ∃ e, dataShapley neighbors y k = .error e := by
  have hrow : ∃ e, shapleyRow y (y a) (neighbors a) k = .error e := by
    unfold shapleyRow
    obtain ⟨m, rfl⟩ : ∃ m, k = m + 2 := ⟨k - 2, by omega⟩
    rw [show m + 2 - 1 = m + 1 from rfl, List.range_succ, List.reverse_append, List.reverse_singleton,
      List.singleton_append, List.foldlM_cons]
    have : shapleyStep y (y a) (neighbors a) (fun _ => 0) m = .error "IndexError" := by
      unfold shapleyStep
      rw [List.getElem?_eq_none (by omega : (neighbors a).length ≤ m + 1)]
      cases (neighbors a)[m]? <;> rfl
    rw [this]
    exact ⟨_, rfl⟩
  have hrows : ∃ e, shapleyRows neighbors y k = .error e := by
    unfold shapleyRows
    have : ∀ l : List (Fin N), a ∈ l → ∃ e, l.mapM (fun a => shapleyRow y (y a) (neighbors a) k) = .error e := by
      intro l
      induction l with
      | nil => simp
      | cons b l ih =>
        intro hmem
        rw [List.mapM_cons]
        rcases List.mem_cons.mp hmem with rfl | hmem
        · obtain ⟨e, he⟩ := hrow
          rw [he]; exact ⟨e, rfl⟩
        · obtain ⟨e, he⟩ := ih hmem
          cases hb : shapleyRow y (y b) (neighbors b) k with
          | error e' => exact ⟨e', rfl⟩
          | ok r => rw [he]; exact ⟨e, rfl⟩
    exact this _ (List.mem_finRange a)
  obtain ⟨e, he⟩ := hrows
  refine ⟨e, ?_⟩
  unfold dataShapley knnShapley
  rw [he]; rfl

end Cleanlab.Props
