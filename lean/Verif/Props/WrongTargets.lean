import Verif.Props.Outre
import Verif.Props.FarExamples
import Mathlib.Analysis.Complex.ExponentialBounds

/-!
# C200: wrong targets of similar size are found by Datalab's label check for regression; C201: wrong targets of very
different size are not
-/

namespace Cleanlab.Props

open Np Cleanlab.Outlier Cleanlab.Regression

variable {n : ℕ}

theorem median_le_of_count (A : ArgSort ℝ) (l : List ℝ) (d m : ℝ) (hm : npMedian A l = some m)
    (hc : l.length < 2 * l.countP (fun x => decide (x ≤ d))) : m ≤ d := by
  by_contra h
  have h := not_le.mp h
  have h1 := (npMedian_isMedian A l m hm).1
  have h2 : l.countP (fun x => decide (x ≤ d)) ≤ l.countP (fun x => decide (x < m)) :=
    List.countP_mono_left (fun x _ hx => decide_eq_true (lt_of_le_of_lt (of_decide_eq_true hx) h))
  omega

theorem half_le_median (A : ArgSort ℝ) (l : List ℝ) (v m : ℝ) (hm : npMedian A l = some m) (h0 : ∀ x ∈ l, 0 ≤ x) (hv : 0 ≤ v)
    (hc : 2 * l.countP (fun x => decide (x < v)) ≤ l.length) : v / 2 ≤ m := by
  have hlen := length_sortOn A id l
  unfold npMedian at hm
  dsimp only at hm
  split_ifs at hm with hodd
  · obtain ⟨hr, rfl⟩ := List.getElem?_eq_some_iff.mp hm
    have := le_sorted_getElem A l v (l.length / 2) hr (by omega)
    linarith
  · cases ha : (sortOn A id l)[l.length / 2 - 1]? with
    | none => rw [ha] at hm; cases hm
    | some a =>
      cases hb : (sortOn A id l)[l.length / 2]? with
      | none => rw [ha, hb] at hm; cases hm
      | some b =>
        rw [ha, hb] at hm
        have hm : (a + b) / 2 = m := Option.some.inj hm
        obtain ⟨hra, hae⟩ := List.getElem?_eq_some_iff.mp ha
        obtain ⟨hrb, rfl⟩ := List.getElem?_eq_some_iff.mp hb
        have h1 := le_sorted_getElem A l v (l.length / 2) hrb (by omega)
        have h2 : 0 ≤ a := h0 a ((mem_sortOn A id l a).mp (hae ▸ List.getElem_mem hra))
        linarith

theorem sum_ge_of_count (l : List ℝ) (x : ℝ) (h0 : ∀ z ∈ l, 0 ≤ z) :
    (l.countP (fun z => decide (x ≤ z)) : ℝ) * x ≤ l.sum := by
  induction l with
  | nil => simp
  | cons a t ih =>
    have ha := h0 a List.mem_cons_self
    have ih := ih (fun z hz => h0 z (List.mem_cons_of_mem _ hz))
    rw [List.sum_cons]
    by_cases hx : x ≤ a
    · rw [List.countP_cons_of_pos (p := fun z => decide (x ≤ z)) (decide_eq_true hx)]
      push_cast
      linarith
    · rw [List.countP_cons_of_neg (p := fun z => decide (x ≤ z)) (by simpa using hx)]
      linarith

theorem length_outreNearest (A : ArgSort ℝ) (y p : Fin n → ℝ) (i : Fin n) : (outreNearest A y p i).length = (n + 1) / 2 := by
  have := i.isLt
  unfold outreNearest
  rw [List.length_take, length_sortOn, List.length_ofFn]
  unfold outreNeighbors
  omega

/-- Half of the examples within `d`: the average distance is at most `d`. -/
theorem outreAvg_le (A : ArgSort ℝ) (y p : Fin n → ℝ) (i : Fin n) (d : ℝ) (hd : 0 ≤ d) (S : Finset (Fin n))
    (hS : (n + 1) / 2 ≤ S.card) (h : ∀ j ∈ S, outreDist y p i j ≤ d) : outreAvg A y p i ≤ d := by
  unfold outreAvg
  apply average_le _ _ hd
  intro x hx
  have hlen := length_outreNearest A y p i
  have hx' : x ∈ (sortOn A id (List.ofFn (outreDist y p i))).take (outreNeighbors n) := hx
  obtain ⟨r, hr, rfl⟩ := List.mem_iff_getElem.mp hx'
  have hr' : r < (n + 1) / 2 := lt_of_lt_of_eq hr hlen
  rw [List.getElem_take]
  apply sorted_getElem_le
  rw [List.ofFn_eq_map, List.countP_map, Np.countP_finRange]
  refine lt_of_lt_of_le ?_ (Finset.card_le_card (s := S) ?_)
  · omega
  · intro j hj
    simpa using h j hj

/-- All but `b` of the examples beyond `x`: so is the average distance, up to the share of these. -/
theorem le_outreAvg (A : ArgSort ℝ) (y p : Fin n → ℝ) (i : Fin n) (x : ℝ) (hx : 0 ≤ x) (S : Finset (Fin n))
    (h : ∀ j, j ∉ S → x ≤ outreDist y p i j) :
    ((((n + 1) / 2 : ℕ) : ℝ) - S.card) * x / ((n + 1) / 2 : ℕ) ≤ outreAvg A y p i := by
  unfold outreAvg
  rw [length_outreNearest]
  have hpos : (0 : ℝ) < ((n + 1) / 2 : ℕ) := by
    have := i.isLt
    exact_mod_cast (by omega : 0 < (n + 1) / 2)
  apply div_le_div_of_nonneg_right _ hpos.le
  have h0 : ∀ z ∈ outreNearest A y p i, 0 ≤ z := by
    intro z hz
    have := (mem_sortOn A id _ z).mp (List.mem_of_mem_take hz)
    obtain ⟨j, rfl⟩ := (List.mem_ofFn' _ _).mp this
    exact outreDist_nonneg y p i j
  refine le_trans ?_ (sum_ge_of_count _ x h0)
  apply mul_le_mul_of_nonneg_right _ hx
  have hlen := length_outreNearest A y p i
  have hsplit := List.length_eq_countP_add_countP (fun z => decide (x ≤ z)) (l := outreNearest A y p i)
  have hsmall : (outreNearest A y p i).countP (fun z => decide (¬ decide (x ≤ z) = true)) ≤ S.card := by
    unfold outreNearest
    refine le_trans ((List.take_sublist _ _).countP_le) ?_
    rw [(sortOn_perm A id _).countP_eq, List.ofFn_eq_map, List.countP_map, Np.countP_finRange]
    apply Finset.card_le_card
    intro j hj
    by_contra hjS
    have := h j hjS
    simp at hj
    linarith
  have : (n + 1) / 2 ≤ (outreNearest A y p i).countP (fun z => decide (x ≤ z)) + S.card := by omega
  have : (((n + 1) / 2 : ℕ) : ℝ) ≤ (outreNearest A y p i).countP (fun z => decide (x ≤ z)) + S.card := by exact_mod_cast this
  linarith

theorem tiny_pos' : (0 : ℝ) < Regression.tiny := by unfold Regression.tiny; norm_num

theorem std_nonneg (x : Fin n → ℝ) : 0 ≤ std x := Real.sqrt_nonneg _

theorem sum_centred (x : Fin n) (v : Fin n → ℝ) : ∑ i, (v i - mean v) = 0 := by
  have hn : (n : ℝ) ≠ 0 := by
    have := x.isLt
    exact_mod_cast (by omega : n ≠ 0)
  rw [Finset.sum_sub_distrib, Finset.sum_const, Finset.card_univ, Fintype.card_fin, nsmul_eq_mul]
  unfold mean
  field_simp
  ring

theorem std_sq (x : Fin n → ℝ) : (n : ℝ) * std x ^ 2 = ∑ i, (x i - mean x) ^ 2 := by
  unfold std
  rw [Real.sq_sqrt (div_nonneg (Finset.sum_nonneg (fun i _ => sq_nonneg _)) (Nat.cast_nonneg _))]
  by_cases hn : n = 0
  · subst hn; simp
  · have : (n : ℝ) ≠ 0 := by exact_mod_cast hn
    field_simp

theorem std_sq_le (i0 : Fin n) (x : Fin n → ℝ) : (n : ℝ) * std x ^ 2 ≤ ∑ i, x i ^ 2 := by
  rw [std_sq]
  have h1 : ∑ i, (x i - mean x) ^ 2 = ∑ i, x i ^ 2 - (n : ℝ) * mean x ^ 2 - 2 * mean x * ∑ i, (x i - mean x) := by
    have : (n : ℝ) * mean x ^ 2 = ∑ _i : Fin n, mean x ^ 2 := by simp
    rw [this, Finset.mul_sum, ← Finset.sum_sub_distrib, ← Finset.sum_sub_distrib]
    exact Finset.sum_congr rfl (fun i _ => by ring)
  rw [h1, sum_centred i0]
  have : 0 ≤ (n : ℝ) * mean x ^ 2 := by positivity
  linarith

theorem sum_standardize_sq (x : Fin n → ℝ) : ∑ i, standardize x i ^ 2 ≤ n := by
  have hs := std_nonneg x
  have ht := tiny_pos'
  have hpos : 0 < (std x + Regression.tiny) ^ 2 := by positivity
  have : ∑ i, standardize x i ^ 2 = (∑ i, (x i - mean x) ^ 2) / (std x + Regression.tiny) ^ 2 := by
    rw [Finset.sum_div]
    exact Finset.sum_congr rfl (fun i _ => by unfold standardize; rw [div_pow])
  rw [this, ← std_sq, div_le_iff₀ hpos]
  apply mul_le_mul_of_nonneg_left _ (Nat.cast_nonneg _)
  apply pow_le_pow_left₀ hs
  linarith

theorem standardize_sub (x : Fin n → ℝ) (i j : Fin n) : standardize x i - standardize x j = (x i - x j) / (std x + Regression.tiny) := by
  unfold standardize
  rw [← sub_div]
  congr 1
  ring

theorem outreDist_le_add (y p : Fin n → ℝ) (i j : Fin n) : outreDist y p i j ≤
    |standardize y i - standardize y j| + 5 * (|(p i - y i) - (p j - y j)| / (std (fun r => p r - y r) + Regression.tiny)) := by
  unfold outreDist
  have hpos : 0 < std (fun r => p r - y r) + Regression.tiny := by have := std_nonneg (fun r => p r - y r); have := tiny_pos'; linarith
  rw [← mul_sub, standardize_sub (fun r => p r - y r)]
  have hB : 0 ≤ |(p i - y i) - (p j - y j)| / (std (fun r => p r - y r) + Regression.tiny) := by positivity
  apply Real.sqrt_le_iff.mpr
  refine ⟨by positivity, ?_⟩
  have e1 : (5 * ((p i - y i - (p j - y j)) / (std (fun r => p r - y r) + Regression.tiny))) ^ 2 =
      (5 * (|(p i - y i) - (p j - y j)| / (std (fun r => p r - y r) + Regression.tiny))) ^ 2 := by
    rw [mul_pow, mul_pow, div_pow, div_pow, sq_abs]
  rw [e1, ← sq_abs (standardize y i - standardize y j)]
  nlinarith [abs_nonneg (standardize y i - standardize y j), mul_nonneg (abs_nonneg (standardize y i - standardize y j)) hB]

theorem le_outreDist_residual (y p : Fin n → ℝ) (i j : Fin n) :
    5 * (|(p i - y i) - (p j - y j)| / (std (fun r => p r - y r) + Regression.tiny)) ≤ outreDist y p i j := by
  unfold outreDist
  have hpos : 0 < std (fun r => p r - y r) + Regression.tiny := by have := std_nonneg (fun r => p r - y r); have := tiny_pos'; linarith
  rw [← mul_sub, standardize_sub (fun r => p r - y r)]
  apply Real.le_sqrt_of_sq_le
  rw [mul_pow, mul_pow, div_pow, div_pow, sq_abs]
  nlinarith [sq_nonneg (standardize y i - standardize y j)]

theorem le_outreDist_label (y p : Fin n → ℝ) (i j : Fin n) :
    |standardize y i - standardize y j| ≤ outreDist y p i j := by
  unfold outreDist
  apply Real.le_sqrt_of_sq_le
  rw [sq_abs]
  nlinarith [sq_nonneg (5 * standardize (fun r => p r - y r) i - 5 * standardize (fun r => p r - y r) j)]

/-- The scores in terms of the average distances. -/
theorem outreScores_ok (A : ArgSort ℝ) (y p s : Fin n → ℝ) (h : outreScores A y p = .ok s) :
    ∃ m, npMedian A (List.ofFn (outreAvg A y p)) = some m ∧
      ∀ i, s i = correctPrecision .euclidean (outreAvg A y p i) (transformScore (outreAvg A y p i) 1 (max m (100 * floatEps))) := by
  unfold outreScores at h
  split_ifs at h
  split at h
  · cases h
  · rename_i m hm
    cases h
    exact ⟨m, hm, fun i => rfl⟩

/-- An example five times as far from the others as the usual one has less than a twentieth of the median score. -/
theorem score_far (A : ArgSort ℝ) (y p s : Fin n → ℝ) (h : outreScores A y p = .ok s) (d : ℝ) (hd : 1 ≤ d) (S : Finset (Fin n))
    (hS : n < 2 * S.card) (hclose : ∀ i ∈ S, outreAvg A y p i ≤ d) (i : Fin n) (hi : 5 * d ≤ outreAvg A y p i)
    (m : ℝ) (hm : npMedian A (List.ofFn s) = some m) : s i < m * (1 / 20) := by
  obtain ⟨a, ha, hs⟩ := outreScores_ok A y p s h
  have had : a ≤ d := by
    apply median_le_of_count A _ d a ha
    rw [List.length_ofFn, List.ofFn_eq_map, List.countP_map, Np.countP_finRange]
    refine lt_of_lt_of_le hS (Nat.mul_le_mul_left 2 (Finset.card_le_card ?_))
    intro j hj
    simpa using hclose j hj
  set M := max (max a (100 * floatEps)) (1 / 1000000) with hM
  have hMpos : 0 < M := lt_of_lt_of_le (by norm_num) (le_max_right _ _)
  have hMd : M ≤ d := by
    refine max_le (max_le had ?_) (by linarith)
    unfold floatEps
    refine le_trans ?_ hd
    norm_num
  have haM : a ≤ M := le_trans (le_max_left _ _) (le_max_left _ _)
  have hscore : ∀ j, s j = correctPrecision .euclidean (outreAvg A y p j) (Real.exp (-1 * outreAvg A y p j / M)) := hs
  have hpos : ∀ j, 0 < s j := fun j => ((C104_range A y p).2.2 s h j).1
  have hmed : Real.exp (-1) / 2 ≤ m := by
    apply half_le_median A _ _ _ hm
    · intro x hx
      obtain ⟨j, rfl⟩ := (List.mem_ofFn' _ _).mp hx
      exact (hpos j).le
    · exact (Real.exp_pos _).le
    · have hmid := (npMedian_isMedian A _ a ha).2
      rw [List.length_ofFn, List.ofFn_eq_map, List.countP_map, Np.countP_finRange] at hmid ⊢
      refine le_trans (Nat.mul_le_mul_left 2 (Finset.card_le_card ?_)) hmid
      intro j hj
      simp only [Finset.mem_filter, Finset.mem_univ, true_and, Function.comp_apply, decide_eq_true_eq] at hj ⊢
      by_contra hle
      have hle := not_lt.mp hle
      apply absurd hj
      rw [not_lt, hscore j]
      unfold correctPrecision tolerance
      dsimp only
      split_ifs
      · exact Real.exp_le_one_iff.mpr (by norm_num)
      · apply Real.exp_le_exp.mpr
        rw [le_div_iff₀ hMpos]
        linarith
  have hlow : s i ≤ Real.exp (-5) := by
    rw [hscore i]
    unfold correctPrecision tolerance
    dsimp only
    rw [if_neg (not_lt.mpr (by have := tolerance_euclidean.2; linarith))]
    apply Real.exp_le_exp.mpr
    rw [div_le_iff₀ hMpos]
    linarith
  have he : Real.exp (-5) < Real.exp (-1) / 2 * (1 / 20) := by
    have h4 : (40 : ℝ) < Real.exp 4 := by
      have h1 := Real.exp_one_gt_d9
      have : Real.exp 4 = Real.exp 1 ^ 4 := by rw [← Real.exp_nat_mul]; norm_num
      rw [this]
      calc (40 : ℝ) < 2.7 ^ 4 := by norm_num
        _ ≤ Real.exp 1 ^ 4 := pow_le_pow_left₀ (by norm_num) (by linarith) 4
    have e : Real.exp (-1) = Real.exp (-5) * Real.exp 4 := by rw [← Real.exp_add]; norm_num
    rw [e]
    have := Real.exp_pos (-5)
    nlinarith
  linarith

/-- Up to a twentieth of the targets wrong by about the same amount. -/
theorem wrong_far (A : ArgSort ℝ) (y p : Fin n → ℝ) (hn : 20 ≤ n) (W : Finset (Fin n)) (hW : 20 * W.card ≤ n) (D : ℝ)
    (hD : 1 / 10 ^ 90 ≤ D) (hright : ∀ i, i ∉ W → |p i - y i| ≤ D / 110)
    (hwrong : ∀ i ∈ W, D ≤ |p i - y i| ∧ |p i - y i| ≤ 11 / 10 * D) :
    ∃ d, 1 ≤ d ∧ ∃ S : Finset (Fin n), n < 2 * S.card ∧ (∀ i ∈ S, outreAvg A y p i ≤ d) ∧
      ∀ i ∈ W, 5 * d ≤ outreAvg A y p i := by
  classical
  have hnR : (20 : ℝ) ≤ n := by exact_mod_cast hn
  have hWR : 20 * (W.card : ℝ) ≤ n := by exact_mod_cast hW
  have hDpos : 0 < D := lt_of_lt_of_le (by positivity) hD
  have i0 : Fin n := ⟨0, by omega⟩
  set r : Fin n → ℝ := fun i => p i - y i with hr
  set σ := std r + Regression.tiny with hσ
  have hσpos : 0 < σ := by have := std_nonneg r; have := tiny_pos'; linarith
  have hσle : σ ≤ D / 4 := by
    have h1 := std_sq_le i0 r
    have h2 : ∑ i, r i ^ 2 ≤ (n : ℝ) * ((D / 110) ^ 2 + (11 / 10 * D) ^ 2 / 20) := by
      have hb : ∀ i, r i ^ 2 ≤ (D / 110) ^ 2 + if i ∈ W then (11 / 10 * D) ^ 2 else 0 := by
        intro i
        by_cases hi : i ∈ W
        · rw [if_pos hi, ← sq_abs (r i)]
          have := pow_le_pow_left₀ (abs_nonneg _) (hwrong i hi).2 2
          nlinarith [sq_nonneg (D / 110)]
        · rw [if_neg hi, add_zero, ← sq_abs (r i)]
          exact pow_le_pow_left₀ (abs_nonneg _) (hright i hi) 2
      refine le_trans (Finset.sum_le_sum (fun i _ => hb i)) ?_
      rw [Finset.sum_add_distrib, Finset.sum_const, Finset.card_univ, Fintype.card_fin, nsmul_eq_mul, Finset.sum_ite_mem,
        Finset.univ_inter, Finset.sum_const, nsmul_eq_mul]
      have := sq_nonneg (11 / 10 * D)
      nlinarith
    have h3 : std r ^ 2 ≤ (D / 110) ^ 2 + (11 / 10 * D) ^ 2 / 20 := by
      have : (n : ℝ) * std r ^ 2 ≤ n * ((D / 110) ^ 2 + (11 / 10 * D) ^ 2 / 20) := h1.trans h2
      exact le_of_mul_le_mul_left this (by linarith)
    have h4 : std r ≤ 0.247 * D := by
      refine (pow_le_pow_iff_left₀ (std_nonneg r) (by positivity) two_ne_zero).mp ?_
      nlinarith [sq_nonneg D]
    have h5 : Regression.tiny ≤ 0.003 * D := by
      have : Regression.tiny ≤ 0.003 * (1 / 10 ^ 90) := by unfold Regression.tiny; norm_num
      linarith
    rw [hσ]; linarith
  set x := D / σ with hx
  have hx4 : 4 ≤ x := by rw [hx, le_div_iff₀ hσpos]; linarith
  -- most examples
  set S : Finset (Fin n) := Finset.univ.filter (fun i => i ∉ W ∧ standardize y i ^ 2 ≤ 12 / 5) with hSdef
  have hSc : (16 / 30 : ℝ) * n ≤ S.card := by
    set T : Finset (Fin n) := Finset.univ.filter (fun i => 12 / 5 < standardize y i ^ 2) with hT
    have hTc : (12 / 5 : ℝ) * T.card ≤ n := by
      refine le_trans ?_ (sum_standardize_sq y)
      refine le_trans ?_ (Finset.sum_le_sum_of_subset_of_nonneg (Finset.subset_univ T) (fun i _ _ => sq_nonneg _))
      rw [mul_comm, ← nsmul_eq_mul, ← Finset.sum_const]
      exact Finset.sum_le_sum (fun i hi => (Finset.mem_filter.mp hi).2.le)
    have hcov : (Finset.univ : Finset (Fin n)) ⊆ S ∪ (W ∪ T) := by
      intro i _
      by_cases hi : i ∈ W
      · exact Finset.mem_union_right _ (Finset.mem_union_left _ hi)
      · by_cases ht : standardize y i ^ 2 ≤ 12 / 5
        · exact Finset.mem_union_left _ (Finset.mem_filter.mpr ⟨Finset.mem_univ _, hi, ht⟩)
        · exact Finset.mem_union_right _ (Finset.mem_union_right _ (Finset.mem_filter.mpr ⟨Finset.mem_univ _, not_le.mp ht⟩))
    have hcard := Finset.card_le_card hcov
    rw [Finset.card_univ, Fintype.card_fin] at hcard
    have h1 := Finset.card_union_le S (W ∪ T)
    have h2 := Finset.card_union_le W T
    have : (n : ℝ) ≤ S.card + (W.card + T.card) := by exact_mod_cast (by omega : n ≤ S.card + (W.card + T.card))
    linarith
  have hS2 : n + 1 ≤ 2 * S.card := by
    have : (n : ℝ) + 1 ≤ 2 * S.card := by linarith
    exact_mod_cast this
  refine ⟨3.1 + x / 11, by linarith, S, by omega, fun i hi => ?_, fun i hi => ?_⟩
  · obtain ⟨_, hiW, hiz⟩ := Finset.mem_filter.mp hi
    apply outreAvg_le A y p i _ (by positivity) S (by omega)
    intro j hj
    obtain ⟨_, hjW, hjz⟩ := Finset.mem_filter.mp hj
    refine le_trans (outreDist_le_add y p i j) ?_
    have hz : ∀ k, standardize y k ^ 2 ≤ 12 / 5 → |standardize y k| ≤ 1.55 := by
      intro k hk
      apply abs_le_of_sq_le_sq _ (by norm_num)
      refine hk.trans (by norm_num)
    have h1 : |standardize y i - standardize y j| ≤ 3.1 := by
      have := abs_sub (standardize y i) (standardize y j)
      have := hz i hiz
      have := hz j hjz
      linarith
    have h2 : |(p i - y i) - (p j - y j)| ≤ D / 55 := by
      have := abs_sub (p i - y i) (p j - y j)
      have := hright i hiW
      have := hright j hjW
      linarith
    have h3 : |(p i - y i) - (p j - y j)| / σ ≤ x / 55 := by
      rw [hx, div_div, mul_comm σ, ← div_div]
      exact div_le_div_of_nonneg_right h2 hσpos.le
    have e : std (fun r => p r - y r) + Regression.tiny = σ := rfl
    rw [e]
    linarith
  · have hbeyond : ∀ j, j ∉ W → 5 * (109 / 110 * x) ≤ outreDist y p i j := by
      intro j hj
      refine le_trans ?_ (le_outreDist_residual y p i j)
      apply mul_le_mul_of_nonneg_left _ (by norm_num)
      rw [hx, ← mul_div_assoc]
      apply div_le_div_of_nonneg_right _ hσpos.le
      have h1 := (hwrong i hi).1
      have h2 := hright j hj
      have := abs_sub_abs_le_abs_sub (p i - y i) (p j - y j)
      linarith
    have hk := le_outreAvg A y p i (5 * (109 / 110 * x)) (by positivity) W hbeyond
    refine le_trans ?_ hk
    have hkn : (n : ℝ) ≤ 2 * ((n + 1) / 2 : ℕ) := by exact_mod_cast (by omega : n ≤ 2 * ((n + 1) / 2))
    have hkpos : (0 : ℝ) < ((n + 1) / 2 : ℕ) := by linarith
    rw [le_div_iff₀ hkpos]
    generalize (((n + 1) / 2 : ℕ) : ℝ) = k at hkn hkpos
    have hWk : 10 * (W.card : ℝ) ≤ k := by linarith
    nlinarith [mul_nonneg hkpos.le (by linarith : 0 ≤ x - 4)]

/-- **C200**: if up to a twentieth of at least twenty targets are wrong, by about the same amount (and in whichever
direction), and the other predictions are right up to a hundredth of it, then Datalab's label check for regression
reports every wrong target; a constant bias `c` of the predictions does no harm. -/
theorem C200_found {X : Type} (A : ArgSort ℝ) (fromFeatures : X → (Fin n → ℝ) → Except String (CheckResult n))
    (features : Option X) (threshold : ℝ) (ht : 1 / 20 ≤ threshold) (y p : Fin n → ℝ) (hn : 20 ≤ n) (W : Finset (Fin n))
    (hW : 20 * W.card ≤ n) (c D : ℝ) (hD : 1 / 10 ^ 90 ≤ D) (hright : ∀ i, i ∉ W → |p i - y i - c| ≤ D / 110)
    (hwrong : ∀ i ∈ W, D ≤ |p i - y i - c| ∧ |p i - y i - c| ≤ 11 / 10 * D) (q : CheckResult n)
    (h : labelCheck A (outreScores A) fromFeatures false threshold features (some p) y = .ok q) :
    ∀ i ∈ W, q.flags i = true := by
  intro i hi
  have hq : (withPredictions A (outreScores A) y p threshold).bind checkSummary = .ok q := by
    cases features <;> exact h
  obtain ⟨hs, -, -, -, m, hm, hflag⟩ := withPredictions_ok A _ y p threshold q (bind_checkSummary _ q hq).1
  rw [hflag i]
  have hs' : outreScores A y (fun i => p i - c) = .ok q.scores := by
    rw [← C104_shift A y (fun i => p i - c) c]
    simpa using hs
  have e : ∀ i, p i - c - y i = p i - y i - c := fun i => by ring
  obtain ⟨d, hd, S, hS, hclose, hfar⟩ := wrong_far A y (fun i => p i - c) hn W hW D hD
    (fun i hi => by rw [e]; exact hright i hi) (fun i hi => by rw [e]; exact hwrong i hi)
  have hmain := score_far A y (fun i => p i - c) q.scores hs' d hd S hS hclose i (hfar i hi) m hm
  have hm0 : 0 ≤ m := by
    have := ((C104_range A y _).2.2 q.scores hs' i).1
    linarith
  nlinarith

/-- Non-vacuity: the check runs on every data set of two or more examples. -/
theorem labelCheck_runs {X : Type} (A : ArgSort ℝ) (fromFeatures : X → (Fin n → ℝ) → Except String (CheckResult n))
    (features : Option X) (threshold : ℝ) (y p : Fin n → ℝ) (hn : 2 ≤ n) :
    ∃ q, labelCheck A (outreScores A) fromFeatures false threshold features (some p) y = .ok q := by
  obtain ⟨s, hs⟩ := (C104_range A y p).1 hn
  obtain ⟨q, hq, -⟩ := C105_succeeds A (outreScores A) fromFeatures threshold features p y s (by omega) hs
    (fun i => ⟨((C104_range A y p).2.2 s hs i).1.le, ((C104_range A y p).2.2 s hs i).2⟩)
  exact ⟨q, hq⟩

/-- **C201** (what holds): a single wrong target is found, however wrong it is. -/
theorem C201_single_partial {X : Type} (A : ArgSort ℝ) (fromFeatures : X → (Fin n → ℝ) → Except String (CheckResult n))
    (features : Option X) (y p : Fin n → ℝ) (hn : 20 ≤ n) (i : Fin n) (hi : 1 / 10 ^ 90 ≤ |p i - y i|)
    (hright : ∀ j, j ≠ i → |p j - y j| ≤ |p i - y i| / 110) (q : CheckResult n)
    (h : labelCheck A (outreScores A) fromFeatures false (1 / 20) features (some p) y = .ok q) : q.flags i = true := by
  refine C200_found A fromFeatures features (1 / 20) le_rfl y p hn {i} (by simpa using hn) 0 |p i - y i| hi ?_ ?_ q h i
    (Finset.mem_singleton_self i)
  · intro j hj
    rw [sub_zero]
    exact hright j (fun e => hj (Finset.mem_singleton.mpr e))
  · intro j hj
    rw [Finset.mem_singleton.mp hj, sub_zero]
    exact ⟨le_rfl, by have := abs_nonneg (p i - y i); linarith⟩

/-- Four groups of five targets. -/
noncomputable def groups (i : Fin 20) : ℝ := ((i.val / 5 : ℕ) : ℝ)

/-- All predictions right but the sixth, by 1, and the last, by `e`. -/
noncomputable def twoErrors (e : ℝ) (i : Fin 20) : ℝ := groups i + (if i = 5 then 1 else if i = 19 then e else 0)

theorem std_groups : std groups ≤ 2 := by
  have h := std_sq_le (0 : Fin 20) groups
  have h2 : ∑ i, groups i ^ 2 = 70 := by
    unfold groups
    simp only [Fin.sum_univ_succ, Fin.sum_univ_zero]
    norm_num [Fin.val_succ]
  rw [h2] at h
  push_cast at h
  have h0 := std_nonneg groups
  nlinarith

theorem std_twoErrors : 200 ≤ std (fun r => twoErrors 1000 r - groups r) := by
  have hsum : ∑ i, (twoErrors 1000 i - groups i) = 1001 := by
    unfold twoErrors
    simp only [add_sub_cancel_left]
    simp only [Fin.sum_univ_succ, Fin.sum_univ_zero]
    norm_num [Fin.ext_iff]
  have hm : mean (fun r => twoErrors 1000 r - groups r) = 1001 / 20 := by
    unfold mean
    rw [hsum]
    norm_num
  have h := std_sq (fun r => twoErrors 1000 r - groups r)
  have hge : ((twoErrors 1000 19 - groups 19) - mean (fun r => twoErrors 1000 r - groups r)) ^ 2 ≤
      ∑ i, ((twoErrors 1000 i - groups i) - mean (fun r => twoErrors 1000 r - groups r)) ^ 2 :=
    Finset.single_le_sum (f := fun i => ((twoErrors 1000 i - groups i) - mean (fun r => twoErrors 1000 r - groups r)) ^ 2)
      (fun i _ => sq_nonneg _) (Finset.mem_univ 19)
  have h19 : twoErrors 1000 19 - groups 19 = 1000 := by
    unfold twoErrors
    rw [add_sub_cancel_left, if_neg (by decide), if_pos rfl]
  rw [h19, hm] at hge
  rw [hm] at h
  have h0 := std_nonneg (fun r => twoErrors 1000 r - groups r)
  push_cast at h
  by_contra hlt
  have hlt := not_le.mp hlt
  nlinarith

/-- Non-vacuity of C200: one of twenty predictions is off by 1, all of them have a bias of 7. -/
example (A : ArgSort ℝ) (fromFeatures : Unit → (Fin 20 → ℝ) → Except String (CheckResult 20)) :
    ∃ q, labelCheck A (outreScores A) fromFeatures false (1 / 20) none (some (fun i => twoErrors 0 i + 7)) groups = .ok q ∧
      q.flags 5 = true := by
  obtain ⟨q, hq⟩ := labelCheck_runs A fromFeatures none (1 / 20) groups (fun i => twoErrors 0 i + 7) (by norm_num)
  refine ⟨q, hq, C200_found A fromFeatures none (1 / 20) le_rfl groups _ le_rfl {5} (by simp) 7 1 (by norm_num) ?_ ?_ q hq 5
    (Finset.mem_singleton_self _)⟩
  · intro i hi
    have h5 : i ≠ 5 := fun e => hi (Finset.mem_singleton.mpr e)
    have : twoErrors 0 i = groups i := by unfold twoErrors; rw [if_neg h5, ite_self, add_zero]
    rw [this]
    norm_num
  · intro i hi
    rw [Finset.mem_singleton.mp hi]
    have : twoErrors 0 5 = groups 5 + 1 := by unfold twoErrors; rw [if_pos rfl]
    rw [this, show groups 5 + 1 + 7 - groups 5 - 7 = 1 by ring, abs_one]
    norm_num

/-- **C201 refuted**: of twenty targets one is wrong by 1, the others are exactly right: it is reported.  If another
target is wrong by 1000 in addition, it is no longer reported. -/
theorem C201_not_found {X : Type} (A : ArgSort ℝ) (fromFeatures : X → (Fin 20 → ℝ) → Except String (CheckResult 20))
    (features : Option X) :
    ∃ (y p p' : Fin 20 → ℝ) (i j : Fin 20) (q q' : CheckResult 20), i ≠ j ∧ p i = y i + 1 ∧ (∀ k, k ≠ i → p k = y k) ∧
      (∀ k, k ≠ j → p' k = p k) ∧ p' j = y j + 1000 ∧
      labelCheck A (outreScores A) fromFeatures false (1 / 20) features (some p) y = .ok q ∧ q.flags i = true ∧
      labelCheck A (outreScores A) fromFeatures false (1 / 20) features (some p') y = .ok q' ∧ q'.flags i = false := by
  obtain ⟨q, hq⟩ := labelCheck_runs A fromFeatures features (1 / 20) groups (twoErrors 0) (by norm_num)
  obtain ⟨q', hq'⟩ := labelCheck_runs A fromFeatures features (1 / 20) groups (twoErrors 1000) (by norm_num)
  have h5 : ∀ e, twoErrors e 5 = groups 5 + 1 := fun e => by unfold twoErrors; rw [if_pos rfl]
  have h19 : ∀ e, twoErrors e 19 = groups 19 + e := fun e => by unfold twoErrors; rw [if_neg (by decide), if_pos rfl]
  have hrest : ∀ e k, k ≠ 5 → k ≠ 19 → twoErrors e k = groups k := fun e k h1 h2 => by
    unfold twoErrors; rw [if_neg h1, if_neg h2, add_zero]
  have hzero : ∀ k, k ≠ 5 → twoErrors 0 k = groups k := by
    intro k h1
    by_cases h2 : k = 19
    · rw [h2, h19, add_zero]
    · exact hrest 0 k h1 h2
  refine ⟨groups, twoErrors 0, twoErrors 1000, 5, 19, q, q', by decide, h5 0, hzero, ?_, h19 1000, hq, ?_, hq', ?_⟩
  · intro k hk
    by_cases h : k = 5
    · rw [h, h5, h5]
    · rw [hrest _ k h hk, hrest _ k h hk]
  · refine C201_single_partial A fromFeatures features groups (twoErrors 0) le_rfl 5 ?_ ?_ q hq
    · rw [h5, add_sub_cancel_left, abs_one]; norm_num
    · intro j hj
      rw [hzero j hj, h5]; norm_num
  · have hq1 : (withPredictions A (outreScores A) groups (twoErrors 1000) (1 / 20)).bind checkSummary = .ok q' := by
      cases features <;> exact hq'
    obtain ⟨hs, -, -, -, m, hm, hflag⟩ := withPredictions_ok A _ _ _ _ q' (bind_checkSummary _ q' hq1).1
    rw [Bool.eq_false_iff]
    intro hf
    rw [hflag 5] at hf
    have hrange := (C104_range A groups (twoErrors 1000)).2.2 q'.scores hs
    obtain ⟨a, ha, hsc⟩ := outreScores_ok A _ _ _ hs
    have hm1 : m ≤ 1 := by
      apply median_le_of_count A _ 1 m hm
      rw [List.countP_eq_length.mpr, List.length_ofFn]
      · norm_num
      · intro x hx
        obtain ⟨j, rfl⟩ := (List.mem_ofFn' _ _).mp hx
        exact decide_eq_true (hrange j).2
    set σ := std groups + Regression.tiny with hσ
    have hσpos : 0 < σ := by have := std_nonneg groups; have := tiny_pos'; linarith
    have hσ3 : σ ≤ 3 := by
      have := std_groups
      have : Regression.tiny ≤ (1 : ℝ) := by unfold Regression.tiny; norm_num
      linarith
    set u := 1 / σ with hu
    have hu3 : 1 / 3 ≤ u := by rw [hu]; exact one_div_le_one_div_of_le hσpos hσ3
    have hdist : ∀ i j : Fin 20, |standardize groups i - standardize groups j| = |groups i - groups j| * u := by
      intro i j
      rw [standardize_sub, abs_div, abs_of_pos hσpos, hu]
      ring
    -- every example is at least half a unit away from the others on average
    have hlow : ∀ i, u / 2 ≤ outreAvg A groups (twoErrors 1000) i := by
      intro i
      have h := le_outreAvg A groups (twoErrors 1000) i u (by positivity) (Finset.univ.filter (fun j : Fin 20 => j.val / 5 = i.val / 5))
        (by
          intro j hj
          have hne : j.val / 5 ≠ i.val / 5 := fun e => hj (Finset.mem_filter.mpr ⟨Finset.mem_univ _, e⟩)
          refine le_trans ?_ (le_outreDist_label _ _ i j)
          rw [hdist]
          have : 1 ≤ |groups i - groups j| := by
            unfold groups
            rcases Nat.lt_or_gt_of_ne hne with hlt | hlt
            · have : ((j.val / 5 : ℕ) : ℝ) + 1 ≤ ((i.val / 5 : ℕ) : ℝ) := by exact_mod_cast hlt
              exact le_trans (by linarith) (le_abs_self _)
            · have : ((i.val / 5 : ℕ) : ℝ) + 1 ≤ ((j.val / 5 : ℕ) : ℝ) := by exact_mod_cast hlt
              exact le_trans (by linarith) (neg_le_abs _)
          nlinarith)
      have hcard : ∀ i : Fin 20, (Finset.univ.filter (fun j : Fin 20 => j.val / 5 = i.val / 5)).card = 5 := by decide
      rw [hcard i] at h
      norm_num at h
      linarith
    have hamin : u / 2 ≤ a := by
      by_contra hlt
      have hlt := not_le.mp hlt
      have h2 := (npMedian_isMedian A _ a ha).2
      rw [List.countP_eq_length.mpr, List.length_ofFn] at h2
      · norm_num at h2
      · intro x hx
        obtain ⟨j, rfl⟩ := (List.mem_ofFn' _ _).mp hx
        exact decide_eq_true (lt_of_lt_of_le hlt (hlow j))
    -- the example with the smaller error is not far
    have hres : 0 < std (fun r => twoErrors 1000 r - groups r) + Regression.tiny := by have := std_twoErrors; have := tiny_pos'; linarith
    have havg : outreAvg A groups (twoErrors 1000) 5 ≤ u + 1 / 40 := by
      refine outreAvg_le A _ _ 5 _ (by positivity) (Finset.univ.filter (fun j : Fin 20 => j.val / 5 ≤ 2)) (by decide) ?_
      intro j hj
      have hj2 := (Finset.mem_filter.mp hj).2
      refine le_trans (outreDist_le_add _ _ 5 j) ?_
      rw [hdist]
      have h1 : |groups 5 - groups j| ≤ 1 := by
        have hj0 : (0 : ℝ) ≤ groups j := Nat.cast_nonneg _
        have hj2' : groups j ≤ 2 := by unfold groups; exact_mod_cast hj2
        have h5v : groups 5 = 1 := by unfold groups; norm_num
        rw [h5v, abs_le]
        constructor <;> linarith
      have hj19 : j ≠ 19 := by rintro rfl; revert hj2; decide
      have h2 : |(twoErrors 1000 5 - groups 5) - (twoErrors 1000 j - groups j)| ≤ 1 := by
        rw [h5]
        by_cases hj5 : j = 5
        · rw [hj5, h5]; norm_num
        · rw [hrest _ j hj5 hj19]; norm_num
      have h3 : |(twoErrors 1000 5 - groups 5) - (twoErrors 1000 j - groups j)| / (std (fun r => twoErrors 1000 r - groups r) + Regression.tiny) ≤
          1 / 200 := by
        apply div_le_of_le_mul₀ hres.le (by norm_num)
        have := std_twoErrors
        have := tiny_pos'
        linarith
      nlinarith
    have hs5 := hsc 5
    have hge : Real.exp (-2.5) ≤ q'.scores 5 := by
      rw [hs5]
      unfold correctPrecision tolerance transformScore
      dsimp only
      split_ifs
      · exact Real.exp_le_one_iff.mpr (by norm_num)
      · apply Real.exp_le_exp.mpr
        have hMa : a ≤ max (max a (100 * floatEps)) (1 / 1000000) := le_trans (le_max_left _ _) (le_max_left _ _)
        have hMpos : 0 < max (max a (100 * floatEps)) (1 / 1000000) := lt_of_lt_of_le (by norm_num) (le_max_right _ _)
        rw [le_div_iff₀ hMpos]
        linarith
    have hexp : 1 / 20 < Real.exp (-2.5) := by
      have h1 := Real.exp_one_lt_d9
      have h3 : Real.exp 3 < 20.1 := by
        have : Real.exp 3 = Real.exp 1 ^ 3 := by rw [← Real.exp_nat_mul]; norm_num
        rw [this]
        calc Real.exp 1 ^ 3 ≤ 2.7182818286 ^ 3 := pow_le_pow_left₀ (Real.exp_pos _).le h1.le 3
          _ < 20.1 := by norm_num
      have h05 : (1.5 : ℝ) ≤ Real.exp 0.5 := by have := Real.add_one_le_exp (0.5 : ℝ); linarith
      have e : Real.exp 3 * Real.exp (-2.5) = Real.exp 0.5 := by rw [← Real.exp_add]; norm_num
      have := Real.exp_pos (-2.5)
      nlinarith
    linarith

end Cleanlab.Props
