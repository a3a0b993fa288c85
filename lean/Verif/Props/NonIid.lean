import Verif.Model.NonIid
import Verif.Lemmas.Count
import Mathlib.Data.List.GetD
import Verif.Np.Median
import Mathlib.Analysis.SpecialFunctions.Artanh
import Mathlib.Tactic.FinCases
import Mathlib.Tactic.FieldSimp
import Mathlib.Algebra.BigOperators.Field

/-!
# C89: the non-IID check
-/

namespace Cleanlab.Props

open Np Cleanlab.NonIid

variable {N k : ℕ}

theorem areaDiffs_nonneg (N i k : ℕ) : ∀ (prev j : ℕ) (l : List ℕ), ∀ v ∈ areaDiffs N i k prev j l, 0 ≤ v
  | _, _, [], v, hv => by simp [areaDiffs] at hv
  | prev, j, x :: l, v, hv => by
    rw [areaDiffs, List.mem_cons] at hv
    rcases hv with h | h
    · rw [h]; exact abs_nonneg _
    · exact areaDiffs_nonneg N i k x (j + 1) l v h

theorem ratio_nonneg (nbr : Fin N → Fin k → Fin N) (i : Fin N) : 0 ≤ ratio nbr i :=
  div_nonneg (List.sum_nonneg (areaDiffs_nonneg N i k 0 0 _)) (Nat.cast_nonneg _)

/-- **C89**: the scores lie in `(0, 1]`. -/
theorem C89_score_range (nbr : Fin N → Fin k → Fin N) (i : Fin N) : 0 < score nbr i ∧ score nbr i ≤ 1 := by
  unfold score
  have h0 : (0 : ℝ) ≤ (ratio nbr i : ℝ) := by exact_mod_cast ratio_nonneg nbr i
  constructor
  · have := Real.neg_one_lt_tanh (-1 * (ratio nbr i : ℝ))
    linarith
  · have h1 : Real.tanh (-1 * (ratio nbr i : ℝ)) ≤ 0 := by
      rw [Real.tanh_eq_sinh_div_cosh]
      exact div_nonpos_of_nonpos_of_nonneg (Real.sinh_nonpos_iff.mpr (by linarith)) (Real.cosh_pos _).le
    linarith

/-- **C89**: if the p-value is below the threshold exactly one example is flagged, the first of those with the lowest score;
otherwise none is. -/
theorem C89_flags [NeZero N] (nbr : Fin N → Fin k → Fin N) (p thr : ℝ) :
    (p < thr → ∃ i, (∀ j, (check nbr p thr).1 j = true ↔ j = i) ∧ (∀ j, score nbr i ≤ (check nbr p thr).2 j) ∧
      ∀ j, j < i → score nbr i < (check nbr p thr).2 j) ∧
    (¬p < thr → ∀ j, (check nbr p thr).1 j = false) := by
  classical
  constructor
  · intro h
    refine ⟨argmin (score nbr), fun j => ?_, fun j => argmin_le _ j, fun j hj => argmin_lt _ j hj⟩
    simp [check, h]
  · intro h j
    simp [check, h]

/-- The examples at distance at most `y` of example `i`, other than `i`. -/
def near (N i y : ℕ) : ℕ := ((Finset.range N).filter (fun j => j ≠ i ∧ (((i : ℕ) : ℤ) - (j : ℤ)).natAbs ≤ y)).card

theorem near_eq (N i y : ℕ) (hi : i < N) : near N i y = min y i + min y (N - 1 - i) := by
  have h1 : ((Finset.range N).filter (fun j => j ≠ i ∧ (((i : ℕ) : ℤ) - (j : ℤ)).natAbs ≤ y)) =
      Finset.Ico (i - y) i ∪ Finset.Ico (i + 1) (min (i + y + 1) N) := by
    ext j
    simp only [Finset.mem_filter, Finset.mem_range, Finset.mem_union, Finset.mem_Ico]
    omega
  rw [near, h1, Finset.card_union_of_disjoint]
  · simp only [Nat.card_Ico]; omega
  · rw [Finset.disjoint_left]
    intro j
    simp only [Finset.mem_Ico]
    omega

theorem doubleDistance_eq (N i : ℕ) (hi : i < N) : doubleDistance N i = min i (N - 1 - i) := by
  unfold doubleDistance
  split_ifs <;> omega

/-- The documented area: the trapezoids below the distribution function of the distance to a random other example. -/
def docArea (N i x : ℕ) : ℚ :=
  ∑ y ∈ Finset.range x, ((near N i y : ℚ) / ((N : ℚ) - 1) + (near N i (y + 1) : ℚ) / ((N : ℚ) - 1)) / 2

/-- **C89**: the closed form for the area under the background distribution function is the area under the (linearly
interpolated) distribution function of the distance to a uniformly chosen other example. -/
theorem C89_background_area (N i x : ℕ) (hN : 2 ≤ N) (hi : i < N) : backgroundArea N i x = docArea N i x := by
  have hN1 : ((N : ℚ) - 1) ≠ 0 := by
    have : (2 : ℚ) ≤ N := by exact_mod_cast hN
    linarith
  have hd := doubleDistance_eq N i hi
  obtain ⟨d, hd'⟩ : ∃ d, doubleDistance N i = d := ⟨_, rfl⟩
  rw [hd'] at hd
  obtain ⟨e, he⟩ : ∃ e, N = 2 * d + e + 1 := ⟨N - 1 - 2 * d, by omega⟩
  have hnear : ∀ y, near N i y = min y d + min y (d + e) := by
    intro y
    rw [near_eq N i y hi]
    omega
  have hNq : (N : ℚ) = 2 * d + e + 1 := by rw [he]; push_cast; ring
  induction x with
  | zero =>
    unfold backgroundArea docArea
    simp only [hd']
    rw [if_pos (by simp)]
    simp
  | succ x ih =>
    unfold docArea at ih ⊢
    rw [Finset.sum_range_succ, ← ih, hnear, hnear]
    unfold backgroundArea
    simp only [hd']
    have c1 : ∀ y : ℕ, ((y : ℚ) ≤ (d : ℚ)) ↔ y ≤ d := fun y => by exact_mod_cast Iff.rfl
    have c2 : ∀ y : ℕ, ((y : ℚ) ≤ (N : ℚ) - (d : ℚ) - 1) ↔ y ≤ d + e := fun y => by
      rw [hNq]
      constructor
      · intro h
        have : (y : ℚ) ≤ ((d + e : ℕ) : ℚ) := by push_cast; linarith
        exact_mod_cast this
      · intro h
        have : (y : ℚ) ≤ ((d + e : ℕ) : ℚ) := by exact_mod_cast h
        push_cast at this; linarith
    rw [hNq] at hN1
    have hN2 : (2 * (d : ℚ) + e) ≠ 0 := fun h => hN1 (by linarith)
    rcases Nat.lt_or_ge x d with h1 | h1
    · rw [if_pos ((c1 _).mpr (by omega)), if_pos ((c1 _).mpr (by omega))]
      rw [show min x d = x by omega, show min x (d + e) = x by omega, show min (x + 1) d = x + 1 by omega,
        show min (x + 1) (d + e) = x + 1 by omega, hNq]
      push_cast
      field_simp
      ring
    · rw [if_neg (fun h => absurd ((c1 _).mp h) (by omega))]
      rcases Nat.lt_or_ge x (d + e) with h2 | h2
      · rw [if_pos ((c2 _).mpr (by omega)), show min x d = d by omega, show min x (d + e) = x by omega,
          show min (x + 1) d = d by omega, show min (x + 1) (d + e) = x + 1 by omega]
        rcases Nat.eq_or_lt_of_le h1 with h3 | h3
        · rw [if_pos ((c1 _).mpr (by omega)), hNq, ← h3]
          push_cast
          field_simp
          ring
        · rw [if_neg (fun h => absurd ((c1 _).mp h) (by omega)), if_pos ((c2 _).mpr (by omega)), hNq]
          push_cast
          field_simp
          ring
      · rw [if_neg (fun h => absurd ((c2 _).mp h) (by omega)), show min x d = d by omega,
          show min x (d + e) = d + e by omega, show min (x + 1) d = d by omega,
          show min (x + 1) (d + e) = d + e by omega]
        rcases Nat.eq_or_lt_of_le h2 with h3 | h3
        · rcases Nat.eq_zero_or_pos e with h4 | h4
          · rw [if_pos ((c1 _).mpr (by omega)), hNq, ← h3, h4]
            have hd0 : (d : ℚ) ≠ 0 := by
              intro h
              apply hN2
              rw [h, h4]; simp
            push_cast
            field_simp
            ring
          · rw [if_neg (fun h => absurd ((c1 _).mp h) (by omega)), if_pos ((c2 _).mpr (by omega)), hNq, ← h3]
            push_cast
            rw [add_sub_cancel_right]
            field_simp
            ring
        · rw [if_neg (fun h => absurd ((c1 _).mp h) (by omega)), if_neg (fun h => absurd ((c2 _).mp h) (by omega)), hNq]
          push_cast
          rw [show 2 * (d : ℚ) + e + 1 - 1 = 2 * d + e by ring]
          have h5 : ((d : ℚ) + (d + e)) / (2 * d + e) = 1 := by rw [div_eq_one_iff_eq hN2]; ring
          rw [h5]
          ring

example : backgroundArea 6 1 3 = 7 / 5 := by decide +kernel

/-- The pairs of examples at distance at most `t`. -/
def closePairs (N t : ℕ) : ℕ := ((Finset.range N ×ˢ Finset.range N).filter (fun q => q.1 < q.2 ∧ q.2 ≤ q.1 + t)).card

theorem closePairs_succ (N t : ℕ) : closePairs N (t + 1) = closePairs N t + (N - (t + 1)) := by
  have h1 : ((Finset.range N ×ˢ Finset.range N).filter (fun q => q.1 < q.2 ∧ q.2 ≤ q.1 + (t + 1))) =
      ((Finset.range N ×ˢ Finset.range N).filter (fun q => q.1 < q.2 ∧ q.2 ≤ q.1 + t)) ∪
        (Finset.range (N - (t + 1))).image (fun a => (a, a + (t + 1))) := by
    ext ⟨a, b⟩
    simp only [Finset.mem_filter, Finset.mem_product, Finset.mem_range, Finset.mem_union, Finset.mem_image, Prod.mk.injEq]
    constructor
    · rintro ⟨⟨ha, hb⟩, h1, h2⟩
      rcases Nat.lt_or_ge (a + t) b with h | h
      · exact Or.inr ⟨a, by omega, rfl, by omega⟩
      · exact Or.inl ⟨⟨ha, hb⟩, h1, h⟩
    · rintro (⟨⟨ha, hb⟩, h1, h2⟩ | ⟨c, hc, rfl, rfl⟩)
      · exact ⟨⟨ha, hb⟩, h1, by omega⟩
      · exact ⟨⟨by omega, by omega⟩, by omega, by omega⟩
  rw [closePairs, h1, Finset.card_union_of_disjoint, Finset.card_image_of_injective, Finset.card_range]
  · rfl
  · intro a b h
    exact (Prod.mk.injEq _ _ _ _ ▸ h).1
  · rw [Finset.disjoint_left]
    rintro ⟨a, b⟩ h h'
    rw [Finset.mem_filter] at h
    rw [Finset.mem_image] at h'
    obtain ⟨c, _, hc⟩ := h'
    cases hc
    have := h.2.2
    simp only at this
    omega

theorem closePairs_zero (N : ℕ) : closePairs N 0 = 0 := by
  rw [closePairs, Finset.card_eq_zero, Finset.filter_eq_empty_iff]
  rintro q _ ⟨h1, h2⟩
  omega

/-- All pairs are at distance at most `N - 1`. -/
theorem closePairs_all (N : ℕ) : 2 * closePairs N (N - 1) = N * (N - 1) := by
  have h : ∀ t, t ≤ N - 1 → 2 * closePairs N t + t * (t + 1) = 2 * (t * N) := by
    intro t ht
    induction t with
    | zero => rw [closePairs_zero]; simp
    | succ t ih =>
      have := ih (by omega)
      rw [closePairs_succ]
      obtain ⟨u, hu⟩ : ∃ u, N = t + 1 + u := ⟨N - (t + 1), by omega⟩
      rw [show N - (t + 1) = u by omega]
      subst hu
      nlinarith
  have := h (N - 1) le_rfl
  rcases Nat.eq_zero_or_pos N with h0 | h0
  · subst h0; simp [closePairs_zero]
  · obtain ⟨M, hM⟩ : ∃ M, N = M + 1 := ⟨N - 1, by omega⟩
    subst hM
    simp only [Nat.add_sub_cancel] at this ⊢
    nlinarith

/-- **C89**: the background distribution function at gap `t` is the fraction of the pairs of examples whose indices differ by
at most `t`. -/
theorem C89_background_cdf (N t : ℕ) (hN : 2 ≤ N) (ht : 1 ≤ t) (htN : t ≤ N - 1) :
    backgroundAt N t = (closePairs N t : ℚ) / (closePairs N (N - 1) : ℚ) := by
  have htot : (closePairs N (N - 1) : ℚ) = (N : ℚ) * ((N : ℚ) - 1) / 2 := by
    have h1 : ((2 * closePairs N (N - 1) : ℕ) : ℚ) = ((N * (N - 1) : ℕ) : ℚ) := by rw [closePairs_all]
    rw [Nat.cast_mul, Nat.cast_mul, Nat.cast_sub (by omega)] at h1
    push_cast at h1
    linarith
  unfold backgroundAt
  rw [if_neg (by omega), htot]
  obtain ⟨s, rfl⟩ : ∃ s, t = s + 1 := ⟨t - 1, by omega⟩
  simp only [Nat.add_sub_cancel]
  clear ht
  induction s with
  | zero =>
    unfold backgroundCdf backgroundProb
    rw [closePairs_succ, closePairs_zero]
    simp only [zero_add, List.range_one, List.map_cons, List.map_nil, List.sum_cons, List.sum_nil, add_zero]
    rw [Nat.cast_sub (by omega)]
    simp
  | succ s ih =>
    have ih := ih (by omega)
    rw [closePairs_succ]
    unfold backgroundCdf at ih ⊢
    rw [List.range_succ, List.map_append, List.sum_append, ih]
    simp only [List.map_cons, List.map_nil, List.sum_cons, List.sum_nil, add_zero]
    unfold backgroundProb
    have hc : ((N - (s + 1 + 1) : ℕ) : ℚ) = (N : ℚ) - ((s : ℚ) + 1 + 1) := by
      rw [Nat.cast_sub (by omega)]; push_cast; ring
    push_cast
    rw [hc]
    ring

example : backgroundAt 4 2 = 5 / 6 := by decide +kernel

/-- The data in the opposite order. -/
def reversed (nbr : Fin N → Fin k → Fin N) (i : Fin N) (r : Fin k) : Fin N := (nbr i.rev r).rev

/-- **C89**, partial: reversing the order of the data reverses the areas. -/
theorem C89_stat_reversed_partial (nbr : Fin N → Fin k → Fin N) (i : Fin N) : stat (reversed nbr) i = stat nbr i.rev := by
  have hg : gaps (reversed nbr) i = gaps nbr i.rev := by
    unfold gaps
    congr 1
    funext r
    have h1 := i.2
    have h2 := (nbr i.rev r).2
    simp only [reversed, Fin.val_rev]
    omega
  have hd : doubleDistance N i = doubleDistance N i.rev := by
    rw [doubleDistance_eq N _ i.2, doubleDistance_eq N _ i.rev.2, Fin.val_rev]
    omega
  have hb : ∀ x, backgroundArea N i x = backgroundArea N i.rev x := by
    intro x
    unfold backgroundArea
    rw [hd]
  have ha : ∀ (l : List ℕ) (prev j : ℕ), areaDiffs N i k prev j l = areaDiffs N i.rev k prev j l := by
    intro l
    induction l with
    | nil => intro _ _; rfl
    | cons x l ih =>
      intro prev j
      rw [areaDiffs, areaDiffs, ih, hb, hb]
  unfold stat
  rw [hg, ha]

/-- **C89**, partial: for an example after the middle the area is divided by the largest possible distance to another
example; before the middle by one more than that. -/
theorem C89_normalizer_partial (N i : ℕ) (hi : i < N) :
    (N < 2 * i → normalizer N i = max i (N - 1 - i)) ∧ (2 * i ≤ N → normalizer N i = N - i) := by
  unfold normalizer
  constructor <;> intro h <;> split_ifs <;> omega

/-- **C89** fails: reversing the order of the data does not reverse the scores. -/
theorem C89_not_reversible : ¬ ∀ (N k : ℕ) (nbr : Fin N → Fin k → Fin N), (∀ i r, nbr i r ≠ i) →
    ∀ i, score (reversed nbr) i = score nbr i.rev := by
  intro h
  have h1 := h 3 1 (fun i _ => if i = 1 then 0 else 1) (by decide) 0
  unfold score at h1
  have h2 := Real.tanh_injective (add_right_cancel h1)
  have h3 : ratio (reversed (fun (i : Fin 3) (_ : Fin 1) => if i = 1 then 0 else 1)) 0 =
      ratio (fun (i : Fin 3) (_ : Fin 1) => if i = 1 then 0 else 1) (Fin.rev 0) := by
    have := mul_left_cancel₀ (by norm_num : (-1 : ℝ) ≠ 0) h2
    exact_mod_cast this
  revert h3
  decide +kernel

/-- The fraction of the gaps that are at most `t`. -/
def empirical (gs : List ℕ) (t : ℕ) : ℚ := (gs.countP (fun g => decide (g ≤ t)) : ℚ) / (gs.length : ℚ)

theorem areaDiffs_sum (N i k : ℕ) : ∀ (l : List ℕ) (prev j : ℕ), (areaDiffs N i k prev j l).sum =
    ∑ a ∈ Finset.range l.length,
      |((j + a : ℕ) : ℚ) / (k : ℚ) * (((prev :: l).getD (a + 1) 0 : ℕ) - ((prev :: l).getD a 0 : ℕ)) -
        (backgroundArea N i ((prev :: l).getD (a + 1) 0) -
          if j + a = 0 then 0 else backgroundArea N i ((prev :: l).getD a 0))|
  | [], prev, j => by simp [areaDiffs]
  | x :: l, prev, j => by
    rw [areaDiffs, List.sum_cons, areaDiffs_sum N i k l x (j + 1), List.length_cons, Finset.sum_range_succ', add_comm]
    congr 1
    refine Finset.sum_congr rfl fun a _ => ?_
    rw [show j + 1 + a = j + (a + 1) by omega]
    rfl

theorem gaps_lt (nbr : Fin N → Fin k → Fin N) (i : Fin N) (g : ℕ) (hg : g ∈ gaps nbr i) : g ≤ N - 1 := by
  unfold gaps at hg
  obtain ⟨r, rfl⟩ := (List.mem_ofFn' _ _).mp hg
  have h1 := i.2
  have h2 := (nbr i r).2
  dsimp only
  omega

/-- The distribution function of the distance to a random other example, interpolated linearly on `[y, y + 1]`: its
mean there. -/
def backgroundMean (N i y : ℕ) : ℚ := ((near N i y : ℚ) / ((N : ℚ) - 1) + (near N i (y + 1) : ℚ) / ((N : ℚ) - 1)) / 2

/-- **C89**, the statistic of an example: the distances `0, …, N - 1` are cut at the gaps to the neighbours, and the
areas between the distribution function of the gaps and the background on the pieces are added. -/
theorem C89_stat (nbr : Fin N → Fin k → Fin N) (i : Fin N) (hN : 2 ≤ N) :
    ∃ b : ℕ → ℕ, b 0 = 0 ∧ b (k + 1) = N - 1 ∧ (∀ j, j ≤ k → b j ≤ b (j + 1)) ∧
      (List.ofFn (fun j : Fin k => b (j + 1))).Perm (List.ofFn (fun r => (((i : ℕ) : ℤ) - ((nbr i r : ℕ) : ℤ)).natAbs)) ∧
      stat nbr i = ∑ j ∈ Finset.range (k + 1), |∑ y ∈ Finset.Ico (b j) (b (j + 1)),
        (empirical (List.ofFn (fun r => (((i : ℕ) : ℤ) - ((nbr i r : ℕ) : ℤ)).natAbs)) y - backgroundMean N i y)| := by
  set gs : List ℕ := List.ofFn (fun r => (((i : ℕ) : ℤ) - ((nbr i r : ℕ) : ℤ)).natAbs) with hgs
  have hlen : gs.length = k := by simp [hgs]
  have hperm : (sortNat gs).Perm gs := List.perm_insertionSort _ _
  have hsort : (sortNat gs).Pairwise (fun x y => x ≤ y) := List.pairwise_insertionSort _ _
  have hlen' : (sortNat gs).length = k := by rw [hperm.length_eq, hlen]
  have hle : ∀ g ∈ sortNat gs, g ≤ N - 1 := fun g hg => gaps_lt nbr i g (hperm.mem_iff.mp hg)
  set l : List ℕ := 0 :: (sortNat gs ++ [N - 1]) with hl
  have hll : l.length = k + 2 := by simp [hl, hlen']
  have hls : l.Pairwise (fun x y => x ≤ y) := by
    rw [hl, List.pairwise_cons]
    refine ⟨fun _ _ => Nat.zero_le _, ?_⟩
    rw [List.pairwise_append]
    exact ⟨hsort, by simp, fun x hx y hy => by rw [List.mem_singleton] at hy; rw [hy]; exact hle x hx⟩
  have hget : ∀ j (h : j < l.length), l.getD j 0 = l[j] := fun j h => by simp [h]
  have hmono : ∀ a c, a ≤ c → c ≤ k + 1 → l.getD a 0 ≤ l.getD c 0 := by
    intro a c hac hc
    rw [hget a (by omega), hget c (by omega)]
    rcases Nat.eq_or_lt_of_le hac with h | h
    · subst h; exact le_rfl
    · exact List.pairwise_iff_getElem.mp hls a c _ _ h
  have hofn : List.ofFn (fun j : Fin k => l.getD (j + 1) 0) = sortNat gs := by
    apply List.ext_getElem
    · simp [hlen']
    · intro j h1 h2
      simp only [List.getElem_ofFn]
      rw [hl, List.getD_cons_succ, List.getD_append _ _ _ _ h2]
      simp [h2]
  have hlast : l.getD (k + 1) 0 = N - 1 := by
    rw [hl, List.getD_cons_succ, List.getD_append_right _ _ _ _ (by omega), hlen']
    simp
  refine ⟨fun j => l.getD j 0, rfl, hlast, fun j hj => hmono j (j + 1) (by omega) (by omega), ?_, ?_⟩
  · rw [hofn]; exact hperm
  · have hemp : ∀ j, j ≤ k → ∀ y, l.getD j 0 ≤ y → y < l.getD (j + 1) 0 → empirical gs y = (j : ℚ) / (k : ℚ) := by
      intro j hj y h1 h2
      rw [empirical, hlen, ← hperm.countP_eq, ← hofn]
      congr 2
      rw [List.ofFn_eq_map, List.countP_map, countP_finRange]
      have : (Finset.univ.filter (fun a : Fin k => ((fun g => decide (g ≤ y)) ∘ fun j : Fin k => l.getD (j + 1) 0) a = true)) =
          Finset.univ.filter (fun a : Fin k => (a : ℕ) < j) := by
        ext a
        simp only [Finset.mem_filter, Finset.mem_univ, true_and, Function.comp_apply, decide_eq_true_eq]
        have ha := a.2
        constructor
        · intro h
          by_contra hc
          have := hmono (j + 1) (a + 1) (by omega) (by omega)
          omega
        · intro h
          exact (hmono (a + 1) j (by omega) (by omega)).trans h1
      rw [this, Fin.card_filter_val_lt]
      omega
    have hdoc : ∀ x, backgroundArea N i x = ∑ y ∈ Finset.range x, backgroundMean N i y := fun x =>
      C89_background_area N i x hN i.2
    unfold stat
    rw [areaDiffs_sum]
    have hlen1 : (sortNat (gaps nbr i) ++ [N - 1]).length = k + 1 := by
      rw [List.length_append, List.length_singleton]; exact congrArg (· + 1) hlen'
    rw [hlen1]
    refine Finset.sum_congr rfl fun j hj => ?_
    have hj' : j ≤ k := by have := Finset.mem_range.mp hj; omega
    have hstep := hmono j (j + 1) (by omega) (by omega)
    rw [show (0 :: (sortNat (gaps nbr i) ++ [N - 1])) = l from rfl]
    congr 1
    rw [Finset.sum_sub_distrib, Finset.sum_Ico_eq_sub (backgroundMean N i) hstep, ← hdoc, ← hdoc,
      Finset.sum_congr rfl (fun y hy => hemp j hj' y (Finset.mem_Ico.mp hy).1 (Finset.mem_Ico.mp hy).2),
      Finset.sum_const, Nat.card_Ico, nsmul_eq_mul, Nat.cast_sub hstep, zero_add, mul_comm]
    congr 2
    by_cases h0 : j = 0
    · subst h0
      rw [if_pos rfl, show l.getD 0 0 = 0 from rfl, hdoc]; simp
    · rw [if_neg h0]

/-- Three examples, each with one neighbour: for the first, with the neighbour next to it, the areas are `1/4` up to the
gap and `1/4` beyond. -/
example : stat (N := 3) (k := 1) (fun i _ => if i = 1 then 0 else 1) 0 = 1 / 2 := by decide +kernel

/-- `v` is the Kolmogorov–Smirnov distance between the gaps and the background. -/
def IsKs (N : ℕ) (gs : List ℕ) (v : ℚ) : Prop :=
  (∀ t, t ≤ N - 1 → |empirical gs t - (closePairs N t : ℚ) / (closePairs N (N - 1) : ℚ)| ≤ v) ∧
    ∃ t, t ≤ N - 1 ∧ |empirical gs t - (closePairs N t : ℚ) / (closePairs N (N - 1) : ℚ)| = v

/-- **C89** fails: the statistic is not the Kolmogorov–Smirnov distance. -/
theorem C89_not_ks : ¬ ∀ (N k : ℕ) (nbr : Fin N → Fin k → Fin N), (∀ i r, nbr i r ≠ i) →
    IsKs N ((List.ofFn (fun i => gaps nbr i)).flatten) (statistic nbr) := by
  intro h
  have h1 := (h 3 1 (fun i _ => if i = 1 then 0 else 1) (by decide)).2
  revert h1
  decide +kernel

theorem ksDiffs_mem (N m : ℕ) : ∀ (l : List ℕ) (j : ℕ) (v : ℚ), v ∈ ksDiffs N m j l ↔
    ∃ (a : ℕ) (h : a < l.length), v = |((j + a : ℕ) : ℚ) / (m : ℚ) - backgroundAt N l[a]|
  | [], j, v => by simp [ksDiffs]
  | x :: l, j, v => by
    rw [ksDiffs, List.mem_cons, ksDiffs_mem N m l (j + 1) v]
    constructor
    · rintro (h | ⟨a, ha, h⟩)
      · exact ⟨0, by simp, by simpa using h⟩
      · refine ⟨a + 1, by simpa using ha, ?_⟩
        rw [h, List.getElem_cons_succ, show j + 1 + a = j + (a + 1) by omega]
    · rintro ⟨a, ha, h⟩
      cases a with
      | zero => exact Or.inl (by simpa using h)
      | succ a =>
        refine Or.inr ⟨a, by simpa using ha, ?_⟩
        rw [h, List.getElem_cons_succ, show j + 1 + a = j + (a + 1) by omega]

theorem gap_max_mem (l : List ℚ) (hl : ∀ v ∈ l, 0 ≤ v) (hne : l ≠ []) :
    l.foldl max 0 ∈ l ∧ ∀ v ∈ l, v ≤ l.foldl max 0 := by
  have h : ∀ (l : List ℚ) (a : ℚ), (l.foldl max a = a ∨ l.foldl max a ∈ l) ∧ a ≤ l.foldl max a ∧
      ∀ v ∈ l, v ≤ l.foldl max a := by
    intro l
    induction l with
    | nil => intro a; simp
    | cons x l ih =>
      intro a
      obtain ⟨h1, h2, h3⟩ := ih (max a x)
      rw [List.foldl_cons]
      refine ⟨?_, (le_max_left a x).trans h2, fun v hv => ?_⟩
      · rcases h1 with h1 | h1
        · rcases max_choice a x with h4 | h4
          · exact Or.inl (h1.trans h4)
          · exact Or.inr (List.mem_cons.mpr (Or.inl (h1.trans h4)))
        · exact Or.inr (List.mem_cons_of_mem _ h1)
      · rcases List.mem_cons.mp hv with rfl | hv
        · exact (le_max_right a v).trans h2
        · exact h3 v hv
  obtain ⟨h1, h2, h3⟩ := h l 0
  refine ⟨?_, h3⟩
  rcases h1 with h1 | h1
  · obtain ⟨x, hx⟩ := List.exists_mem_of_ne_nil l hne
    have : x = l.foldl max 0 := le_antisymm (h3 x hx) (by rw [h1]; exact hl x hx)
    rw [← this]; exact hx
  · exact h1

/-- **C89**, partial: the statistic is the difference between the background and a value between the fractions of smaller and
of not larger gaps, at some gap that occurs or at the largest possible gap, and at least this difference of every
fraction of smaller gaps. -/
theorem C89_statistic_partial (N : ℕ) (gs : List ℕ) (hgs : ∀ g ∈ gs, 1 ≤ g ∧ g ≤ N - 1) (hne : gs ≠ []) :
    (∃ x q, (x ∈ gs ∨ x = N - 1) ∧ empirical gs (x - 1) ≤ q ∧ q ≤ empirical gs x ∧
      ksStatistic N gs = |q - backgroundAt N x|) ∧
    ∀ x ∈ gs, |empirical gs (x - 1) - backgroundAt N x| ≤ ksStatistic N gs := by
  have hperm : (sortNat gs).Perm gs := List.perm_insertionSort _ _
  have hsort : (sortNat gs).Pairwise (fun x y => x ≤ y) := List.pairwise_insertionSort _ _
  have hlen : (sortNat gs).length = gs.length := hperm.length_eq
  have hm : (0 : ℚ) < gs.length := by exact_mod_cast List.length_pos_iff.mpr hne
  have hemp : ∀ t, empirical gs t = ((sortNat gs).countP (fun g => decide (g ≤ t)) : ℚ) / (gs.length : ℚ) := by
    intro t
    rw [empirical, hperm.countP_eq]
  have hnn : ∀ v ∈ ksDiffs N gs.length 0 (sortNat gs ++ [N - 1]), 0 ≤ v := by
    intro v hv
    obtain ⟨a, _, h⟩ := (ksDiffs_mem N gs.length _ 0 v).mp hv
    rw [h]; exact abs_nonneg _
  have hne' : ksDiffs N gs.length 0 (sortNat gs ++ [N - 1]) ≠ [] := by
    cases h : sortNat gs ++ [N - 1] with
    | nil => simp at h
    | cons x l => simp [ksDiffs]
  obtain ⟨h1, h2⟩ := gap_max_mem _ hnn hne'
  constructor
  · obtain ⟨a, ha, hv⟩ := (ksDiffs_mem N gs.length _ 0 _).mp h1
    rw [zero_add] at hv
    refine ⟨_, _, ?_, ?_, ?_, hv⟩
    · have := List.getElem_mem ha
      rw [List.mem_append, List.mem_singleton, hperm.mem_iff] at this
      exact this
    · rw [hemp, div_le_div_iff_of_pos_right hm]
      rcases Nat.lt_or_ge a (sortNat gs).length with h | h
      · rw [List.getElem_append_left h]
        have hge := (hgs _ (hperm.mem_iff.mp (List.getElem_mem h))).1
        have := countP_le_of_drop (sortNat gs) (fun g => decide (g ≤ (sortNat gs)[a] - 1)) a (by
          intro x hx
          have := (sorted_split _ hsort a h).2 x hx
          simp only [decide_eq_false_iff_not]
          omega)
        exact_mod_cast this
      · have : (sortNat gs).countP (fun g => decide (g ≤ (sortNat gs ++ [N - 1])[a] - 1)) ≤ a :=
          List.countP_le_length.trans h
        exact_mod_cast this
    · rw [hemp, div_le_div_iff_of_pos_right hm]
      rcases Nat.lt_or_ge a (sortNat gs).length with h | h
      · rw [List.getElem_append_left h]
        have hcount : a + 1 ≤ (sortNat gs).countP (fun g => decide (g ≤ (sortNat gs)[a])) := by
          have h3 : ((sortNat gs).take (a + 1)).countP (fun g => decide (g ≤ (sortNat gs)[a])) = a + 1 := by
            rw [List.countP_eq_length.mpr (fun x hx => by
              simpa using (sorted_split _ hsort a h).1 x hx), List.length_take]
            omega
          rw [← h3]
          exact ((List.take_sublist _ _).countP_le)
        have : a ≤ (sortNat gs).countP (fun g => decide (g ≤ (sortNat gs)[a])) := by omega
        exact_mod_cast this
      · have haL : a = (sortNat gs).length := by
          rw [List.length_append, List.length_singleton] at ha; omega
        subst haL
        rw [List.countP_eq_length.mpr (fun x hx => by
          simpa using (hgs x (hperm.mem_iff.mp hx)).2)]
  · intro x hx
    have hx' := hperm.mem_iff.mpr hx
    -- the first occurrence of the gap
    have hc : (sortNat gs).countP (fun g => decide (g ≤ x - 1)) < (sortNat gs).length := by
      rw [List.countP_lt_length_iff]
      refine ⟨x, hx', ?_⟩
      have := (hgs x hx).1
      simp; omega
    have hval : (sortNat gs)[(sortNat gs).countP (fun g => decide (g ≤ x - 1))] = x := by
      have hx1 := (hgs x hx).1
      rcases Nat.lt_trichotomy (sortNat gs)[(sortNat gs).countP (fun g => decide (g ≤ x - 1))] x with hlt | heq | hgt
      · exfalso
        have h3 : ((sortNat gs).take ((sortNat gs).countP (fun g => decide (g ≤ x - 1)) + 1)).countP
            (fun g => decide (g ≤ x - 1)) = (sortNat gs).countP (fun g => decide (g ≤ x - 1)) + 1 := by
          rw [List.countP_eq_length.mpr (fun y hy => by
            have := (sorted_split _ hsort _ hc).1 y hy
            simp; omega), List.length_take]
          omega
        have h4 : ((sortNat gs).take ((sortNat gs).countP (fun g => decide (g ≤ x - 1)) + 1)).countP
            (fun g => decide (g ≤ x - 1)) ≤ (sortNat gs).countP (fun g => decide (g ≤ x - 1)) :=
          (List.take_sublist _ _).countP_le
        omega
      · exact heq
      · exfalso
        have h3 : x ∈ (sortNat gs).take ((sortNat gs).countP (fun g => decide (g ≤ x - 1))) := by
          have := hx'
          rw [← List.take_append_drop ((sortNat gs).countP (fun g => decide (g ≤ x - 1))) (sortNat gs),
            List.mem_append] at this
          rcases this with h | h
          · exact h
          · exact absurd ((sorted_split _ hsort _ hc).2 x h) (by omega)
        have h5 : ((sortNat gs).take ((sortNat gs).countP (fun g => decide (g ≤ x - 1)))).countP
            (fun g => decide (g ≤ x - 1)) < ((sortNat gs).take ((sortNat gs).countP (fun g => decide (g ≤ x - 1)))).length := by
          rw [List.countP_lt_length_iff]
          exact ⟨x, h3, by simp; omega⟩
        rw [List.length_take, Nat.min_eq_left hc.le] at h5
        have h6 : ((sortNat gs).drop ((sortNat gs).countP (fun g => decide (g ≤ x - 1)))).countP
            (fun g => decide (g ≤ x - 1)) = 0 := by
          rw [List.countP_eq_zero]
          intro y hy
          have := (sorted_split _ hsort _ hc).2 y hy
          simp; omega
        have h7 : (sortNat gs).countP (fun g => decide (g ≤ x - 1)) =
            ((sortNat gs).take ((sortNat gs).countP (fun g => decide (g ≤ x - 1)))).countP (fun g => decide (g ≤ x - 1)) +
            ((sortNat gs).drop ((sortNat gs).countP (fun g => decide (g ≤ x - 1)))).countP (fun g => decide (g ≤ x - 1)) := by
          rw [← List.countP_append, List.take_append_drop]
        omega
    refine h2 _ ((ksDiffs_mem N gs.length _ 0 _).mpr ⟨(sortNat gs).countP (fun g => decide (g ≤ x - 1)), by rw [List.length_append]; omega, ?_⟩)
    rw [List.getElem_append_left hc, hval, zero_add, hemp]

example : ksStatistic 5 [1, 1, 2, 4, 1] = 2 / 5 := by decide +kernel

end Cleanlab.Props
