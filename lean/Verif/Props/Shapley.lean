import Verif.Props.DataValuation
import Mathlib.Algebra.BigOperators.Field
import Mathlib.GroupTheory.Perm.Basic
import Mathlib.Data.Fintype.Perm
import Mathlib.Data.Rat.BigOperators

/-!
# C170, C171: data values and Shapley values
-/

namespace Cleanlab.Props

open Np Cleanlab.DataValuation

variable {N : ℕ} {L : Type} [DecidableEq L]

/-- The points that arrive before `i` if the points arrive in the order `π`. -/
def arrived (π : Equiv.Perm (Fin N)) (i : Fin N) : Finset (Fin N) := Finset.univ.filter (fun j => π j < π i)

/-- The Shapley value of `i` in the game `v`: what `i` adds on arrival, averaged over all orders of arrival. -/
def shapleyValue (v : Finset (Fin N) → ℚ) (i : Fin N) : ℚ :=
  (∑ π : Equiv.Perm (Fin N), (v (insert i (arrived π i)) - v (arrived π i))) / (N.factorial : ℚ)

/-- What the training points `S` are worth at a point with label `l` that has the other points in the order `order` of
distance: the share of right labels among the `k` nearest members of `S`. -/
def knnWorth (y : Fin N → L) (l : L) (order : List (Fin N)) (k : ℕ) (S : Finset (Fin N)) : ℚ :=
  (((order.filter (fun j => decide (j ∈ S))).take k).map (matchInd y l)).sum / k

/-- The mean worth over all points. -/
def meanWorth (y : Fin N → L) (orders : Fin N → List (Fin N)) (k : ℕ) (S : Finset (Fin N)) : ℚ :=
  (∑ a, knnWorth y (y a) (orders a) k S) / N

/-- `orders a` has all other points in order of distance and the graph has the first of them, at least `k`. -/
structure RanksAll (neighbors orders : Fin N → List (Fin N)) (k : ℕ) : Prop where
  nodup : ∀ a, (orders a).Nodup
  others : ∀ a j, j ∈ orders a ↔ j ≠ a
  nearest : ∀ a, neighbors a <+: orders a
  enough : ∀ a, k ≤ (neighbors a).length

theorem shapleyValue_sum {ι : Type} (s : Finset ι) (v : ι → Finset (Fin N) → ℚ) (c : ℚ) (i : Fin N) :
    shapleyValue (fun S => (∑ a ∈ s, v a S) / c) i = (∑ a ∈ s, shapleyValue (v a) i) / c := by
  unfold shapleyValue
  rw [← Finset.sum_div, Finset.sum_comm, div_div, mul_comm (N.factorial : ℚ), ← div_div]
  refine congrArg (· / (N.factorial : ℚ)) ?_
  rw [Finset.sum_div]
  refine Finset.sum_congr rfl (fun π _ => ?_)
  rw [Finset.sum_sub_distrib, sub_div]

/-- The values of all players add up to the worth of all of them. -/
theorem shapleyValue_efficient (v : Finset (Fin N) → ℚ) : ∑ i, shapleyValue v i = v Finset.univ - v ∅ := by
  have hf : (N.factorial : ℚ) ≠ 0 := by exact_mod_cast N.factorial_ne_zero
  unfold shapleyValue
  rw [← Finset.sum_div, Finset.sum_comm, div_eq_iff hf]
  have hterm : ∀ π : Equiv.Perm (Fin N), ∑ i, (v (insert i (arrived π i)) - v (arrived π i)) = v Finset.univ - v ∅ := by
    intro π
    let f : ℕ → ℚ := fun m => v (Finset.univ.filter (fun j => (π j : ℕ) < m))
    have h1 : ∀ i, v (insert i (arrived π i)) - v (arrived π i) = f ((π i : ℕ) + 1) - f (π i : ℕ) := by
      intro i
      have e1 : insert i (arrived π i) = Finset.univ.filter (fun j => (π j : ℕ) < (π i : ℕ) + 1) := by
        ext j
        simp only [arrived, Finset.mem_insert, Finset.mem_filter, Finset.mem_univ, true_and, Fin.lt_def]
        constructor
        · rintro (rfl | h) <;> omega
        · intro h
          by_cases hji : (π j : ℕ) = π i
          · exact .inl (π.injective (Fin.ext hji))
          · exact .inr (by omega)
      rw [e1]; rfl
    rw [Finset.sum_congr rfl (fun i _ => h1 i), Equiv.sum_comp π (fun p : Fin N => f ((p : ℕ) + 1) - f (p : ℕ)),
      Fin.sum_univ_eq_sum_range (fun m => f (m + 1) - f m) N, Finset.sum_range_sub]
    have h2 : f N = v Finset.univ := by
      simp only [f]; congr 1; ext j; simp
    have h3 : f 0 = v ∅ := by
      simp only [f]; congr 1; ext j; simp
    rw [h2, h3]
  rw [Finset.sum_congr rfl (fun π _ => hterm π), Finset.sum_const, Finset.card_univ, Fintype.card_perm, Fintype.card_fin,
    nsmul_eq_mul, mul_comm]

/-- Two players whose marginal contributions always differ by `c` have Shapley values that differ by `c`. -/
theorem shapleyValue_sub (v : Finset (Fin N) → ℚ) (a b : Fin N) (hab : a ≠ b) (c : ℚ)
    (h : ∀ S : Finset (Fin N), a ∉ S → b ∉ S → v (insert a S) - v (insert b S) = c) :
    shapleyValue v a - shapleyValue v b = c := by
  have hf : (N.factorial : ℚ) ≠ 0 := by exact_mod_cast N.factorial_ne_zero
  unfold shapleyValue
  rw [← sub_div, div_eq_iff hf]
  have hb : ∑ π : Equiv.Perm (Fin N), (v (insert b (arrived π b)) - v (arrived π b)) =
      ∑ π : Equiv.Perm (Fin N), (v (insert b (arrived (π * Equiv.swap a b) b)) - v (arrived (π * Equiv.swap a b) b)) :=
    (Equiv.sum_comp (Equiv.mulRight (Equiv.swap a b))
      (fun π => v (insert b (arrived π b)) - v (arrived π b))).symm
  rw [hb, ← Finset.sum_sub_distrib]
  have hterm : ∀ π : Equiv.Perm (Fin N), (v (insert a (arrived π a)) - v (arrived π a)) -
      (v (insert b (arrived (π * Equiv.swap a b) b)) - v (arrived (π * Equiv.swap a b) b)) = c := by
    intro π
    let S : Finset (Fin N) := Finset.univ.filter (fun j => π j < π a ∧ j ≠ a ∧ j ≠ b)
    have haS : a ∉ S := by simp [S]
    have hbS : b ∉ S := by simp [S]
    by_cases hlt : π b < π a
    · have h1 : arrived π a = insert b S := by
        ext j
        by_cases hja : j = a
        · subst hja; simp [arrived, S, hab]
        · by_cases hjb : j = b
          · subst hjb; simp [arrived, hlt]
          · simp [arrived, S, hja, hjb]
      have h2 : arrived (π * Equiv.swap a b) b = insert a S := by
        ext j
        by_cases hja : j = a
        · subst hja; simp [arrived, hlt]
        · by_cases hjb : j = b
          · subst hjb; simp [arrived, S, Ne.symm hab]
          · simp [arrived, S, hja, hjb, Equiv.swap_apply_of_ne_of_ne hja hjb]
      rw [h1, h2, Finset.insert_comm a b, ← h S haS hbS]
      ring
    · have h1 : arrived π a = S := by
        ext j
        by_cases hja : j = a
        · subst hja; simp [arrived, S]
        · by_cases hjb : j = b
          · subst hjb; simp [arrived, S, hlt]
          · simp [arrived, S, hja, hjb]
      have h2 : arrived (π * Equiv.swap a b) b = S := by
        ext j
        by_cases hja : j = a
        · subst hja; simp [arrived, S, hlt]
        · by_cases hjb : j = b
          · subst hjb; simp [arrived, S]
          · simp [arrived, S, hja, hjb, Equiv.swap_apply_of_ne_of_ne hja hjb]
      rw [h1, h2, ← h S haS hbS]
      ring
  rw [Finset.sum_congr rfl (fun π _ => hterm π), Finset.sum_const, Finset.card_univ, Fintype.card_perm, Fintype.card_fin,
    nsmul_eq_mul, mul_comm]

/-- A player whose marginal contributions are at most `c` in size has a Shapley value of at most `c` in size. -/
theorem abs_shapleyValue_le (v : Finset (Fin N) → ℚ) (i : Fin N) (c : ℚ)
    (h : ∀ S : Finset (Fin N), i ∉ S → |v (insert i S) - v S| ≤ c) : |shapleyValue v i| ≤ c := by
  have hf : (0 : ℚ) < N.factorial := by exact_mod_cast N.factorial_pos
  unfold shapleyValue
  rw [abs_div, abs_of_pos hf, div_le_iff₀ hf]
  calc _ ≤ ∑ π : Equiv.Perm (Fin N), |v (insert i (arrived π i)) - v (arrived π i)| := Finset.abs_sum_le_sum_abs _ _
    _ ≤ ∑ _π : Equiv.Perm (Fin N), c := Finset.sum_le_sum (fun π _ => h _ (by simp [arrived]))
    _ = c * N.factorial := by
      rw [Finset.sum_const, Finset.card_univ, Fintype.card_perm, Fintype.card_fin, nsmul_eq_mul, mul_comm]

/-- Among the first `k` members of `S` and one more point, the point itself if it is one of the first `k` in the whole
list, and the first `k - 1` members of `S`. -/
theorem sum_take_insert (f : Fin N → ℚ) (order : List (Fin N)) (hn : order.Nodup) (k : ℕ) (i : Fin N)
    (hi : i ∈ order.take k) (S : Finset (Fin N)) (hS : i ∉ S) :
    (((order.filter (fun j => decide (j ∈ insert i S))).take k).map f).sum =
      f i + (((order.filter (fun j => decide (j ∈ S))).take (k - 1)).map f).sum := by
  induction order generalizing k with
  | nil => simp at hi
  | cons x xs ih =>
    obtain ⟨hx, hxs⟩ := List.nodup_cons.mp hn
    obtain ⟨m, rfl⟩ : ∃ m, k = m + 1 := by
      cases k with
      | zero => simp at hi
      | succ m => exact ⟨m, rfl⟩
    rw [List.take_succ_cons, List.mem_cons] at hi
    rcases hi with rfl | hi
    · rw [List.filter_cons_of_pos (by simp), List.filter_cons_of_neg (by simpa using hS), List.take_succ_cons,
        List.map_cons, List.sum_cons, Nat.add_sub_cancel]
      congr 4
      refine List.filter_congr (fun j hj => ?_)
      have : j ≠ i := fun h => hx (h ▸ hj)
      simp [this]
    · have hne : x ≠ i := fun h => hx (h ▸ List.mem_of_mem_take hi)
      obtain ⟨r, rfl⟩ : ∃ r, m = r + 1 := by
        cases m with
        | zero => simp at hi
        | succ r => exact ⟨r, rfl⟩
      by_cases hxS : x ∈ S
      · rw [List.filter_cons_of_pos (by simp [hxS]), List.filter_cons_of_pos (by simp [hxS]), List.take_succ_cons,
          List.map_cons, List.sum_cons, ih hxs _ hi, Nat.add_sub_cancel, Nat.add_sub_cancel, List.take_succ_cons,
          List.map_cons, List.sum_cons]
        ring
      · rw [List.filter_cons_of_neg (by simp [hne, hxS]), List.filter_cons_of_neg (by simp [hxS]),
          ih hxs (r + 1 + 1) (by
            have := List.take_subset_take_left xs (show r + 1 ≤ r + 1 + 1 by omega)
            exact this hi)]

theorem abs_sum_take_insert (f : Fin N → ℚ) (hf : ∀ j, 0 ≤ f j ∧ f j ≤ 1) (order : List (Fin N)) (hn : order.Nodup) (k : ℕ)
    (i : Fin N) (S : Finset (Fin N)) (hS : i ∉ S) :
    |(((order.filter (fun j => decide (j ∈ insert i S))).take k).map f).sum -
      (((order.filter (fun j => decide (j ∈ S))).take k).map f).sum| ≤ 1 := by
  induction order generalizing k with
  | nil => simp
  | cons x xs ih =>
    obtain ⟨hx, hxs⟩ := List.nodup_cons.mp hn
    cases k with
    | zero => simp
    | succ m =>
      by_cases hxi : x = i
      · subst hxi
        rw [List.filter_cons_of_pos (by simp), List.filter_cons_of_neg (by simpa using hS), List.take_succ_cons,
          List.map_cons, List.sum_cons]
        have he : xs.filter (fun j => decide (j ∈ insert x S)) = xs.filter (fun j => decide (j ∈ S)) := by
          refine List.filter_congr (fun j hj => ?_)
          have : j ≠ x := fun h => hx (h ▸ hj)
          simp [this]
        rw [he, List.take_add_one, List.map_append, List.sum_append]
        cases (xs.filter (fun j => decide (j ∈ S)))[m]? with
        | none =>
          simp only [Option.toList_none, List.map_nil, List.sum_nil, add_zero, add_sub_cancel_right]
          exact abs_le.mpr ⟨by linarith [(hf x).1], (hf x).2⟩
        | some z =>
          simp only [Option.toList_some, List.map_cons, List.map_nil, List.sum_cons, List.sum_nil, add_zero]
          rw [abs_le]
          constructor <;> linarith [(hf x).1, (hf x).2, (hf z).1, (hf z).2]
      · by_cases hxS : x ∈ S
        · rw [List.filter_cons_of_pos (by simp [hxS]), List.filter_cons_of_pos (by simp [hxS]), List.take_succ_cons,
            List.map_cons, List.sum_cons, List.take_succ_cons, List.map_cons, List.sum_cons, add_sub_add_left_eq_sub]
          exact ih hxs m
        · rw [List.filter_cons_of_neg (by simp [hxi, hxS]), List.filter_cons_of_neg (by simp [hxS])]
          exact ih hxs (m + 1)

theorem knnWorth_marginal (y : Fin N → L) (l : L) (order : List (Fin N)) (hn : order.Nodup) (k : ℕ) (hk : 1 ≤ k)
    (i : Fin N) (S : Finset (Fin N)) (hS : i ∉ S) :
    |knnWorth y l order k (insert i S) - knnWorth y l order k S| ≤ 1 / k := by
  have hk' : (0 : ℚ) < k := by exact_mod_cast hk
  unfold knnWorth
  rw [← sub_div, abs_div, abs_of_pos hk']
  refine div_le_div_of_nonneg_right (abs_sum_take_insert _ (fun j => ?_) order hn k i S hS) hk'.le
  unfold matchInd
  split_ifs <;> norm_num

/-- The difference of the Shapley values of two of the first `k` points. -/
theorem shapleyValue_knn_sub (y : Fin N → L) (l : L) (order : List (Fin N)) (hn : order.Nodup) (k : ℕ)
    (i j : Fin N) (hi : i ∈ order.take k) (hj : j ∈ order.take k) :
    shapleyValue (knnWorth y l order k) i - shapleyValue (knnWorth y l order k) j =
      (matchInd y l i - matchInd y l j) / k := by
  by_cases hij : i = j
  · subst hij; simp
  · refine shapleyValue_sub _ i j hij _ (fun S hiS hjS => ?_)
    unfold knnWorth
    rw [sum_take_insert _ order hn k i hi S hiS, sum_take_insert _ order hn k j hj S hjS]
    ring

theorem take_of_prefix {neighbors order : List (Fin N)} (h : neighbors <+: order) {k : ℕ} (hk : k ≤ neighbors.length) :
    neighbors.take k = order.take k := by
  obtain ⟨t, rfl⟩ := h
  rw [List.take_append_of_le_length hk]

/-- **C170**: between two of the `k` nearest neighbours of a point, the row computed for the point has exactly the
difference of their Shapley values in the game of this point; other points have 0 in the row. -/
theorem C170_differences (neighbors orders : Fin N → List (Fin N)) (y : Fin N → L) (k : ℕ) (hk : 1 ≤ k)
    (hO : RanksAll neighbors orders k) (a : Fin N) :
    ∃ s, shapleyRow y (y a) (neighbors a) k = .ok s ∧
      (∀ i ∈ (orders a).take k, ∀ j ∈ (orders a).take k, s i / k - s j / k =
        shapleyValue (knnWorth y (y a) (orders a) k) i - shapleyValue (knnWorth y (y a) (orders a) k) j) ∧
      ∀ i, i ∉ (orders a).take k → s i = 0 := by
  refine ⟨_, shapleyRow_eq y (y a) (neighbors a) k hk (hO.enough a), fun i hi j hj => ?_, fun i hi => ?_⟩
  · rw [shapleyValue_knn_sub y (y a) (orders a) (hO.nodup a) k i j hi hj]
    rw [← take_of_prefix (hO.nearest a) (hO.enough a)] at hi hj
    have := hO.enough a
    unfold contribution
    rw [List.getElem?_eq_getElem (show k - 1 < (neighbors a).length by omega)]
    simp only [hi, hj, if_true]
    ring
  · rw [← take_of_prefix (hO.nearest a) (hO.enough a)] at hi
    unfold contribution
    split
    · rw [if_neg hi]
    · rfl

/-- How far a row is from the Shapley values: by the Shapley value of the `k`-th neighbour for the `k` nearest, and by their
own for the others. -/
theorem contribution_error (neighbors orders : Fin N → List (Fin N)) (y : Fin N → L) (k : ℕ) (hk : 1 ≤ k)
    (hO : RanksAll neighbors orders k) (a i : Fin N) :
    |contribution y (y a) (neighbors a) k i / k - shapleyValue (knnWorth y (y a) (orders a) k) i| ≤ 1 / k := by
  have hen := hO.enough a
  have hb : ∀ j, |shapleyValue (knnWorth y (y a) (orders a) k) j| ≤ 1 / k := fun j =>
    abs_shapleyValue_le _ j _ (fun S hS => knnWorth_marginal y (y a) (orders a) (hO.nodup a) k hk j S hS)
  unfold contribution
  rw [List.getElem?_eq_getElem (show k - 1 < (neighbors a).length by omega)]
  simp only
  have hz : (neighbors a)[k - 1]'(by omega) ∈ (neighbors a).take k := by
    rw [List.mem_take_iff_getElem]
    exact ⟨k - 1, by omega, rfl⟩
  by_cases hi : i ∈ (neighbors a).take k
  · rw [if_pos hi]
    have h := take_of_prefix (hO.nearest a) (hO.enough a)
    rw [h] at hi hz
    rw [← shapleyValue_knn_sub y (y a) (orders a) (hO.nodup a) k i _ hi hz]
    rw [sub_sub_cancel_left, abs_neg]
    exact hb _
  · rw [if_neg hi, zero_div, zero_sub, abs_neg]
    exact hb i

/-- **C170**: a score is within `1/(2k)` of the score that the exact Shapley value would get. -/
theorem C170_approximates (neighbors orders : Fin N → List (Fin N)) (y : Fin N → L) (k : ℕ) (hk : 1 ≤ k) (hN : 0 < N)
    (hO : RanksAll neighbors orders k) :
    ∃ s, dataShapley neighbors y k = .ok s ∧
      ∀ i, |s i - 1 / 2 * (shapleyValue (meanWorth y orders k) i + 1)| ≤ 1 / (2 * k) := by
  obtain ⟨s, hs, hf⟩ := C35_closed_form neighbors y k hk hN hO.enough
  refine ⟨s, hs, fun i => ?_⟩
  have hk' : (0 : ℚ) < k := by exact_mod_cast hk
  have hN' : (0 : ℚ) < N := by exact_mod_cast hN
  have hv : shapleyValue (meanWorth y orders k) i =
      (∑ a, shapleyValue (knnWorth y (y a) (orders a) k) i) / N :=
    shapleyValue_sum Finset.univ (fun a => knnWorth y (y a) (orders a) k) N i
  have he : s i - 1 / 2 * (shapleyValue (meanWorth y orders k) i + 1) =
      (∑ a, (contribution y (y a) (neighbors a) k i / k - shapleyValue (knnWorth y (y a) (orders a) k) i)) / (2 * N) := by
    rw [hf, hv, Finset.sum_sub_distrib, ← Finset.sum_div]
    field_simp
    ring
  rw [he, abs_div, abs_of_pos (by positivity : (0 : ℚ) < 2 * N), div_le_iff₀ (by positivity)]
  calc _ ≤ ∑ a, |contribution y (y a) (neighbors a) k i / k - shapleyValue (knnWorth y (y a) (orders a) k) i| :=
        Finset.abs_sum_le_sum_abs _ _
    _ ≤ ∑ _a : Fin N, (1 / k : ℚ) := Finset.sum_le_sum (fun a _ => contribution_error neighbors orders y k hk hO a i)
    _ = 1 / (2 * k) * (2 * N) := by
      rw [Finset.sum_const, Finset.card_univ, Fintype.card_fin, nsmul_eq_mul]
      field_simp


/-- **C170**: with as many neighbours as there are other points, the Shapley value of a point is the share of the others
that have its label, out of all `N` points, divided by `k`. -/
theorem C170_all_neighbors (orders : Fin N → List (Fin N)) (y : Fin N → L) (k : ℕ) (hn : ∀ a, (orders a).Nodup)
    (ho : ∀ a j, j ∈ orders a ↔ j ≠ a) (hk : N ≤ k + 1) (i : Fin N) :
    shapleyValue (meanWorth y orders k) i =
      (((Finset.univ.filter (fun a => a ≠ i ∧ y a = y i)).card : ℕ) : ℚ) / (k * N) := by
  have hlen : ∀ a, (orders a).length ≤ k := by
    intro a
    have h1 : (a :: orders a).Nodup := List.nodup_cons.mpr ⟨fun h => (ho a a).mp h rfl, hn a⟩
    have h2 := h1.length_le_card
    rw [List.length_cons, Fintype.card_fin] at h2
    omega
  have hf : (N.factorial : ℚ) ≠ 0 := by exact_mod_cast N.factorial_ne_zero
  have hone : ∀ a, shapleyValue (knnWorth y (y a) (orders a) k) i = if a ≠ i ∧ y a = y i then 1 / (k : ℚ) else 0 := by
    intro a
    have hm : ∀ S : Finset (Fin N), i ∉ S → knnWorth y (y a) (orders a) k (insert i S) -
        knnWorth y (y a) (orders a) k S = if a ≠ i ∧ y a = y i then 1 / (k : ℚ) else 0 := by
      intro S hS
      by_cases hai : a = i
      · have he : (orders a).filter (fun j => decide (j ∈ insert i S)) = (orders a).filter (fun j => decide (j ∈ S)) := by
          refine List.filter_congr (fun j hj => ?_)
          have : j ≠ i := fun h => (ho a j).mp hj (h.trans hai.symm)
          simp [this]
        unfold knnWorth
        rw [he]; simp [hai]
      · have hi : i ∈ orders a := (ho a i).mpr (Ne.symm hai)
        have hik : i ∈ (orders a).take k := by rwa [List.take_of_length_le (hlen a)]
        unfold knnWorth
        rw [sum_take_insert _ (orders a) (hn a) k i hik S hS]
        have hlt : ((orders a).filter (fun j => decide (j ∈ S))).length ≤ k - 1 := by
          have h1 : ((orders a).filter (fun j => decide (j ∈ S))).length < (orders a).length := by
            rw [List.length_filter_lt_length_iff_exists]
            exact ⟨i, hi, by simpa using hS⟩
          have := hlen a
          omega
        rw [List.take_of_length_le hlt, List.take_of_length_le (show _ ≤ k by omega)]
        unfold matchInd
        rw [← sub_div, add_sub_cancel_right]
        by_cases hy : y a = y i
        · rw [if_pos hy.symm, if_pos ⟨hai, hy⟩]
        · rw [if_neg (Ne.symm hy), if_neg (fun h => hy h.2), zero_div]
    unfold shapleyValue
    rw [Finset.sum_congr rfl (fun π _ => hm (arrived π i) (by simp [arrived])), Finset.sum_const, Finset.card_univ,
      Fintype.card_perm, Fintype.card_fin, nsmul_eq_mul, mul_div_cancel_left₀ _ hf]
  have hv : shapleyValue (meanWorth y orders k) i =
      (∑ a, shapleyValue (knnWorth y (y a) (orders a) k) i) / N :=
    shapleyValue_sum Finset.univ (fun a => knnWorth y (y a) (orders a) k) N i
  rw [hv, Finset.sum_congr rfl (fun a _ => hone a), ← Finset.sum_filter, Finset.sum_const, nsmul_eq_mul, mul_one_div, div_div]

/-- **C170**: the 0.55 that the documentation announces for the first point of its example is the score of the exact Shapley
value, in every order of ties; see `C35_not_documented_example` for the score that is computed. -/
theorem C170_documented_example (t : Fin 4 → Bool) :
    1 / 2 * (shapleyValue (meanWorth (![0, 1, 0, 1, 0] : Fin 5 → Fin 2) (docNeighbors t) 4) 0 + 1) = 11 / 20 := by
  rw [C170_all_neighbors (docNeighbors t) _ 4 (by revert t; decide +kernel) (by revert t; decide +kernel) (by decide)]
  have : (Finset.univ.filter (fun a : Fin 5 => a ≠ 0 ∧ (![0, 1, 0, 1, 0] : Fin 5 → Fin 2) a =
      (![0, 1, 0, 1, 0] : Fin 5 → Fin 2) 0)).card = 2 := by decide
  rw [this]; norm_num

/-- The other points in order of distance, for points at (0, 10), (10, 10), (2, 6) and (1, 2). -/
def planeOrders : Fin 4 → List (Fin 4) := ![[2, 3, 1], [2, 0, 3], [3, 0, 1], [2, 0, 1]]

/-- The labels of these points. -/
def planeLabels : Fin 4 → Fin 2 := ![1, 0, 0, 1]

/-- The two nearest of the other points. -/
def planeNeighbors (a : Fin 4) : List (Fin 4) := (planeOrders a).take 2

theorem plane_ranksAll : RanksAll planeNeighbors planeOrders 2 where
  nodup := by decide
  others := by decide
  nearest := fun a => List.take_prefix 2 (planeOrders a)
  enough := by decide

/-- The hypotheses of `C170_differences` and `C170_approximates` hold here, and the values are not all equal. -/
example : shapleyValue (knnWorth planeLabels (planeLabels 0) (planeOrders 0) 2) 2 = 0 ∧
    shapleyValue (knnWorth planeLabels (planeLabels 0) (planeOrders 0) 2) 3 = 1 / 2 := by decide +kernel

theorem plane_values (i : Fin 4) :
    shapleyValue (meanWorth planeLabels planeOrders 2) i = ![1 / 12, 1 / 12, 1 / 8, 1 / 12] i := by
  revert i
  decide +kernel

/-- **C171**, refuted: of four points in the plane the only one that is flagged at the default threshold has the largest
Shapley value. -/
theorem C171_not_least_valuable : ∃ issues, findIssues planeNeighbors 2 planeLabels 2 none = .ok issues ∧
    (∀ i, issues.1 i = true ↔ i = 2) ∧
    ∀ i, i ≠ 2 → shapleyValue (meanWorth planeLabels planeOrders 2) i <
      shapleyValue (meanWorth planeLabels planeOrders 2) 2 := by
  obtain ⟨s, hs, hf⟩ := C35_closed_form planeNeighbors planeLabels 2 (by decide) (by decide) (by decide)
  refine ⟨(fun i => decide (s i < 1 / 2), s), ?_, ?_, ?_⟩
  · unfold findIssues
    rw [if_neg (by decide), hs]; rfl
  · intro i
    have hsum : ∀ i, ∑ a, contribution planeLabels (planeLabels a) (planeNeighbors a) 2 i = ![0, 0, -1, 0] i := by
      decide +kernel
    simp only [hf, hsum]
    clear hs hf
    revert i
    decide +kernel
  · simp only [plane_values]
    decide +kernel

/-- **C171**: what remains is that a flagged point is one of the `k` nearest neighbours of a point with another label. -/
theorem C171_flagged_partial (neighbors : Fin N → List (Fin N)) (columns : ℕ) (y : Fin N → L) (k : ℕ) (hk : 1 ≤ k)
    (hN : 0 < N) (hc : k ≤ columns) (hlen : ∀ a, (neighbors a).length = columns) :
    ∃ issues, findIssues neighbors columns y k none = .ok issues ∧
      ∀ i, issues.1 i = true → ∃ a, i ∈ (neighbors a).take k ∧ y a ≠ y i := by
  obtain ⟨s, hs, hf⟩ := C35_closed_form neighbors y k hk hN (fun a => by rw [hlen a]; exact hc)
  refine ⟨(fun i => decide (s i < 1 / 2), s), ?_, fun i hi => ?_⟩
  · unfold findIssues
    rw [if_neg (by omega), hs]; rfl
  · by_contra hcon
    push Not at hcon
    have hlt : s i < 1 / 2 := by simpa using hi
    rw [hf] at hlt
    have : 0 ≤ ∑ a, contribution y (y a) (neighbors a) k i := by
      refine Finset.sum_nonneg (fun a _ => ?_)
      unfold contribution
      split
      · split_ifs with hm
        · unfold matchInd
          rw [if_pos (hcon a hm).symm]
          split_ifs <;> norm_num
        · exact le_rfl
      · exact le_rfl
    have : 0 ≤ (∑ a, contribution y (y a) (neighbors a) k i) / (2 * k * N) := by positivity
    linarith

/-- The flag of the example rests on the neighbour 0 of another label. -/
example : (2 : Fin 4) ∈ (planeNeighbors 0).take 2 ∧ planeLabels 0 ≠ planeLabels 2 := by decide

end Cleanlab.Props
