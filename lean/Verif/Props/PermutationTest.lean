import Verif.Model.PermutationTest
import Verif.Props.NonIid
import Mathlib.Logic.Equiv.Fin.Basic

/-!
# C174, C175: the permutation test of the non-IID check
-/

namespace Cleanlab.Props

open Np Cleanlab.NonIid

variable {N k : ℕ}

/-- The neighbour graph of the same data after example `i` has been put at position `π i`. -/
def inOrder (π : Equiv.Perm (Fin N)) (nbr : Fin N → Fin k → Fin N) (a : Fin N) (r : Fin k) : Fin N := π (nbr (π.symm a) r)

theorem sortNat_congr {l l' : List ℕ} (h : l.Perm l') : sortNat l = sortNat l' := by
  unfold sortNat
  exact List.Perm.eq_of_pairwise (fun a b _ _ h1 h2 => le_antisymm h1 h2) (List.pairwise_insertionSort _ _)
    (List.pairwise_insertionSort _ _)
    ((List.perm_insertionSort _ _).trans (h.trans (List.perm_insertionSort _ _).symm))

theorem ksStatistic_congr {l l' : List ℕ} (h : l.Perm l') : ksStatistic N l = ksStatistic N l' := by
  unfold ksStatistic
  rw [sortNat_congr h, h.length_eq]

/-- **C174**: the statistics that the data set is compared with are the statistics of the same data in other orders. -/
theorem C174_orders (nbr : Fin N → Fin k → Fin N) (perms : List (Equiv.Perm (Fin N))) :
    permutedStatistics nbr perms = perms.map (fun π => statistic (inOrder π nbr)) := by
  unfold permutedStatistics statistic
  refine List.map_congr_left (fun π _ => ksStatistic_congr ?_)
  unfold permutedGaps
  refine List.Perm.flatten ?_
  have : (fun i => List.ofFn (fun r => (((π i : ℕ) : ℤ) - ((π (nbr i r) : ℕ) : ℤ)).natAbs)) =
      fun i => gaps (inOrder π nbr) (π i) := by
    funext i
    unfold gaps inOrder
    simp only [Equiv.symm_apply_apply]
  rw [this]
  simpa [Function.comp_def] using Equiv.Perm.ofFn_comp_perm π (gaps (inOrder π nbr))

theorem normalCdf_range (x : ℝ) : 0 ≤ normalCdf x ∧ normalCdf x ≤ 1 :=
  ⟨ProbabilityTheory.cdf_nonneg _ x, ProbabilityTheory.cdf_le_one _ x⟩

theorem normalCdf_mono {x y : ℝ} (h : x ≤ y) : normalCdf x ≤ normalCdf y := ProbabilityTheory.monotone_cdf _ h

theorem half_le_normalCdf {x : ℝ} (h : 0 ≤ x) : 1 / 2 ≤ normalCdf x := by
  refine le_trans ?_ (normalCdf_mono h)
  unfold normalCdf
  have hsym : ProbabilityTheory.cdf (ProbabilityTheory.gaussianReal 0 1) 0 =
      (ProbabilityTheory.gaussianReal 0 1).real (Set.Ici 0) := by
    rw [ProbabilityTheory.cdf_eq_real]
    have h1 : (ProbabilityTheory.gaussianReal 0 1).map (fun x => -x) = ProbabilityTheory.gaussianReal 0 1 := by
      rw [ProbabilityTheory.gaussianReal_map_neg, neg_zero]
    conv_lhs => rw [← h1]
    rw [MeasureTheory.map_measureReal_apply measurable_neg measurableSet_Iic]
    congr 1
    ext x
    simp
  have hcov : (1 : ℝ) ≤ (ProbabilityTheory.gaussianReal 0 1).real (Set.Iic 0) +
      (ProbabilityTheory.gaussianReal 0 1).real (Set.Ici 0) := by
    have h2 := MeasureTheory.measureReal_union_le (μ := ProbabilityTheory.gaussianReal 0 1) (Set.Iic (0 : ℝ)) (Set.Ici 0)
    rw [Set.Iic_union_Ici] at h2
    simpa using h2
  rw [← hsym, ← ProbabilityTheory.cdf_eq_real] at hcov
  linarith

theorem kdeTail_ok {xs : List ℝ} {s p : ℝ} (h : kdeTail xs s = .ok p) : 0 < (xs.length : ℝ) ∧ 0 ≤ bandwidth xs ∧
    p = (xs.map (fun x => normalCdf ((100 - x) / bandwidth xs) - normalCdf ((s - x) / bandwidth xs))).sum / xs.length := by
  unfold kdeTail at h
  split_ifs at h with h1 h2
  refine ⟨by exact_mod_cast (by omega : 0 < xs.length), ?_, (Except.ok.inj h).symm⟩
  unfold bandwidth
  positivity

theorem sum_map_le {xs : List ℝ} {f g : ℝ → ℝ} (h : ∀ x ∈ xs, f x ≤ g x) : (xs.map f).sum ≤ (xs.map g).sum :=
  List.sum_le_sum h

theorem sum_map_const (xs : List ℝ) (c : ℝ) : (xs.map (fun _ => c)).sum = xs.length * c := by
  rw [List.map_const', List.sum_replicate, nsmul_eq_mul]

theorem backgroundAt_range (N x : ℕ) (hN : 2 ≤ N) (hx : x ≤ N - 1) : 0 ≤ backgroundAt N x ∧ backgroundAt N x ≤ 1 := by
  have h1 : ∀ t, 1 ≤ t → t ≤ N - 1 → 0 ≤ backgroundAt N t ∧ backgroundAt N t ≤ 1 := by
    intro t ht htN
    rw [C89_background_cdf N t hN ht htN]
    refine ⟨by positivity, div_le_one_of_le₀ ?_ (by positivity)⟩
    have : closePairs N t ≤ closePairs N (N - 1) := by
      unfold closePairs
      refine Finset.card_le_card (fun q hq => ?_)
      rw [Finset.mem_filter] at hq ⊢
      exact ⟨hq.1, hq.2.1, by omega⟩
    exact_mod_cast this
  rcases Nat.eq_zero_or_pos x with rfl | h
  · have : backgroundAt N 0 = backgroundAt N (N - 1) := by
      unfold backgroundAt
      rw [if_pos rfl, if_neg (by omega), show N - 1 - 1 = N - 2 by omega]
    rw [this]
    exact h1 _ (by omega) le_rfl
  · exact h1 x h hx

theorem statistic_range (nbr : Fin N → Fin k → Fin N) (hN : 2 ≤ N) : 0 ≤ statistic nbr ∧ statistic nbr ≤ 1 := by
  unfold statistic ksStatistic
  set gs := (List.ofFn (fun i => gaps nbr i)).flatten with hgs
  have hlen : (sortNat gs).length = gs.length := (List.perm_insertionSort _ _).length_eq
  have hnn : ∀ v ∈ ksDiffs N gs.length 0 (sortNat gs ++ [N - 1]), 0 ≤ v ∧ v ≤ 1 := by
    intro v hv
    obtain ⟨a, ha, rfl⟩ := (ksDiffs_mem N gs.length _ 0 v).mp hv
    refine ⟨abs_nonneg _, ?_⟩
    have hx : (sortNat gs ++ [N - 1])[a] ≤ N - 1 := by
      have hmem := List.getElem_mem ha
      rw [List.mem_append] at hmem
      rcases hmem with h | h
      · have h := (List.perm_insertionSort (· ≤ ·) gs).mem_iff.mp h
        obtain ⟨l, hl, h⟩ := List.mem_flatten.mp h
        obtain ⟨i, rfl⟩ := (List.mem_ofFn' _ _).mp hl
        exact gaps_lt nbr i _ h
      · rw [List.mem_singleton.mp h]
    obtain ⟨h1, h2⟩ := backgroundAt_range N _ hN hx
    have h3 : (0 : ℚ) ≤ ((0 + a : ℕ) : ℚ) / (gs.length : ℚ) := by positivity
    have h4 : ((0 + a : ℕ) : ℚ) / (gs.length : ℚ) ≤ 1 := by
      refine div_le_one_of_le₀ ?_ (by positivity)
      rw [List.length_append, hlen, List.length_singleton] at ha
      exact_mod_cast (by omega : 0 + a ≤ gs.length)
    rw [abs_le]
    constructor <;> linarith
  have hne : ksDiffs N gs.length 0 (sortNat gs ++ [N - 1]) ≠ [] := by
    cases h : sortNat gs ++ [N - 1] with
    | nil => simp at h
    | cons x l => simp [ksDiffs]
  exact hnn _ (gap_max_mem _ (fun v hv => (hnn v hv).1) hne).1

theorem kdeTail_mono {xs : List ℝ} {s s' p p' : ℝ} (h : kdeTail xs s = .ok p) (h' : kdeTail xs s' = .ok p') (hs : s ≤ s') :
    p' ≤ p := by
  obtain ⟨hn, hb, hp⟩ := kdeTail_ok h
  obtain ⟨_, _, hp'⟩ := kdeTail_ok h'
  rw [hp, hp']
  refine div_le_div_of_nonneg_right (sum_map_le (fun x _ => ?_)) hn.le
  have : normalCdf ((s - x) / bandwidth xs) ≤ normalCdf ((s' - x) / bandwidth xs) :=
    normalCdf_mono (div_le_div_of_nonneg_right (by linarith) hb)
  linarith

theorem kdeTail_range {xs : List ℝ} {s p : ℝ} (h : kdeTail xs s = .ok p) (hs : s ≤ 100) : 0 ≤ p ∧ p ≤ 1 := by
  obtain ⟨hn, hb, rfl⟩ := kdeTail_ok h
  constructor
  · refine div_nonneg (List.sum_nonneg (fun v hv => ?_)) hn.le
    obtain ⟨x, _, rfl⟩ := List.mem_map.mp hv
    have : normalCdf ((s - x) / bandwidth xs) ≤ normalCdf ((100 - x) / bandwidth xs) :=
      normalCdf_mono (div_le_div_of_nonneg_right (by linarith) hb)
    linarith
  · rw [div_le_one hn]
    have := sum_map_le (xs := xs) (f := fun x => normalCdf ((100 - x) / bandwidth xs) - normalCdf ((s - x) / bandwidth xs))
      (g := fun _ => 1) (fun x _ => by
        have h1 := normalCdf_range ((100 - x) / bandwidth xs)
        have h2 := normalCdf_range ((s - x) / bandwidth xs)
        linarith)
    rw [sum_map_const] at this
    linarith

theorem kdeTail_half {xs : List ℝ} {s p : ℝ} (h : kdeTail xs s = .ok p) (hs : ∀ x ∈ xs, x ≤ s) : p ≤ 1 / 2 := by
  obtain ⟨hn, hb, rfl⟩ := kdeTail_ok h
  rw [div_le_iff₀ hn]
  have := sum_map_le (xs := xs) (f := fun x => normalCdf ((100 - x) / bandwidth xs) - normalCdf ((s - x) / bandwidth xs))
    (g := fun _ => 1 / 2) (fun x hx => by
      have h1 := normalCdf_range ((100 - x) / bandwidth xs)
      have h2 := half_le_normalCdf (div_nonneg (sub_nonneg.mpr (hs x hx)) hb)
      linarith)
  rw [sum_map_const] at this
  linarith

theorem gaussianReal_Iic (x h b : ℝ) (hh : 0 < h) (v : NNReal) (hv : (v : ℝ) = h ^ 2) :
    (ProbabilityTheory.gaussianReal x v).real (Set.Iic b) = normalCdf ((b - x) / h) := by
  have h1 : ProbabilityTheory.gaussianReal x v = (ProbabilityTheory.gaussianReal 0 1).map (fun z => h * z + x) := by
    have h2 : (fun z => h * z + x) = (fun z => z + x) ∘ (fun z => h * z) := rfl
    rw [h2, ← MeasureTheory.Measure.map_map (by fun_prop) (by fun_prop), ProbabilityTheory.gaussianReal_map_const_mul,
      ProbabilityTheory.gaussianReal_map_add_const, mul_zero, zero_add, mul_one]
    congr 1
    exact NNReal.coe_injective hv
  rw [h1, MeasureTheory.map_measureReal_apply (by fun_prop) measurableSet_Iic]
  unfold normalCdf
  rw [ProbabilityTheory.cdf_eq_real]
  congr 1
  ext z
  simp only [Set.mem_preimage, Set.mem_Iic]
  rw [le_div_iff₀ hh]
  constructor <;> intro h3 <;> linarith

theorem gaussianReal_Ioc (x h a b : ℝ) (hab : a ≤ b) (hh : 0 < h) (v : NNReal) (hv : (v : ℝ) = h ^ 2) :
    (ProbabilityTheory.gaussianReal x v).real (Set.Ioc a b) = normalCdf ((b - x) / h) - normalCdf ((a - x) / h) := by
  rw [← gaussianReal_Iic x h b hh v hv, ← gaussianReal_Iic x h a hh v hv, ← Set.Iic_union_Ioc_eq_Iic hab,
    MeasureTheory.measureReal_union (Set.Iic_disjoint_Ioc le_rfl) measurableSet_Ioc]
  ring

/-- **C174**: the p-value is the mean probability of a value between the statistic of the data set and 100 under the normal
distributions whose means are the statistics of the drawn orders and whose variance is that of these statistics, times
`n ** (-2 / 5)` for `n` drawn orders. -/
theorem C174_formula (nbr : Fin N → Fin k → Fin N) (perms : List (Equiv.Perm (Fin N))) (hN : 2 ≤ N) (p : ℝ)
    (h : permutationTest nbr perms = .ok p) (m : ℝ) (hm : m * perms.length = (perms.map (fun π => (statistic (inOrder π nbr) : ℝ))).sum)
    (v : NNReal) (hv : (v : ℝ) * (perms.length - 1) * (perms.length : ℝ) ^ (2 / 5 : ℝ) =
      (perms.map (fun π => ((statistic (inOrder π nbr) : ℝ) - m) ^ 2)).sum) :
    p * perms.length = (perms.map (fun π => (ProbabilityTheory.gaussianReal (statistic (inOrder π nbr)) v).real
      (Set.Ioc (statistic nbr : ℝ) 100))).sum := by
  unfold permutationTest at h
  rw [C174_orders, List.map_map] at h
  set xs := perms.map ((fun q : ℚ => (q : ℝ)) ∘ fun π => statistic (inOrder π nbr)) with hxs
  have hlen : xs.length = perms.length := by rw [hxs, List.length_map]
  have hmap : ∀ f : ℝ → ℝ, xs.map f = perms.map (fun π => f (statistic (inOrder π nbr))) := by
    intro f; rw [hxs, List.map_map]; rfl
  obtain ⟨hn, hb, hp⟩ := kdeTail_ok h
  have hvar : NonIid.variance xs ≠ 0 ∧ 2 ≤ xs.length := by
    unfold kdeTail at h
    split_ifs at h with h1 h2
    exact ⟨h2, by omega⟩
  have hn1 : (0 : ℝ) < (xs.length : ℝ) - 1 := by
    have : (2 : ℝ) ≤ xs.length := by exact_mod_cast hvar.2
    linarith
  have hm' : xs.sum / xs.length = m := by
    rw [div_eq_iff hn.ne', hlen, hm]
    rfl
  have hvar0 : 0 ≤ NonIid.variance xs := by
    unfold NonIid.variance
    refine div_nonneg (List.sum_nonneg (fun y hy => ?_)) hn1.le
    obtain ⟨x, _, rfl⟩ := List.mem_map.mp hy
    positivity
  have hvar1 : NonIid.variance xs * (xs.length - 1) = (v : ℝ) * (perms.length - 1) * (perms.length : ℝ) ^ (2 / 5 : ℝ) := by
    rw [hv]
    unfold NonIid.variance
    rw [div_mul_cancel₀ _ hn1.ne', hm', hmap]
  have hbw : (v : ℝ) = bandwidth xs ^ 2 := by
    unfold bandwidth
    rw [mul_pow, Real.sq_sqrt hvar0, ← Real.rpow_natCast, ← Real.rpow_mul hn.le]
    have h5 : NonIid.variance xs = (v : ℝ) * (xs.length : ℝ) ^ (2 / 5 : ℝ) := by
      rw [hlen] at hvar1 hn1 ⊢
      have : (NonIid.variance xs - (v : ℝ) * (perms.length : ℝ) ^ (2 / 5 : ℝ)) * ((perms.length : ℝ) - 1) = 0 := by linarith
      rcases mul_eq_zero.mp this with h6 | h6
      · linarith
      · exact absurd h6 hn1.ne'
    rw [h5, mul_assoc, ← Real.rpow_add hn]
    norm_num
  have hbpos : 0 < bandwidth xs := by
    refine lt_of_le_of_ne hb (fun h0 => ?_)
    unfold bandwidth at h0
    rcases mul_eq_zero.mp h0.symm with h6 | h6
    · rw [Real.sqrt_eq_zero hvar0] at h6
      exact hvar.1 h6
    · exact (Real.rpow_pos_of_pos hn _).ne' h6
  have hs : (statistic nbr : ℝ) ≤ 100 := by
    have : (statistic nbr : ℝ) ≤ 1 := by exact_mod_cast (statistic_range nbr hN).2
    linarith
  rw [hp, ← hlen, div_mul_cancel₀ _ hn.ne', hmap]
  refine congrArg List.sum (List.map_congr_left (fun π _ => ?_))
  rw [gaussianReal_Ioc _ (bandwidth xs) _ _ hs hbpos v hbw]

/-- **C174**: the p-value lies between 0 and 1. -/
theorem C174_range (nbr : Fin N → Fin k → Fin N) (perms : List (Equiv.Perm (Fin N))) (hN : 2 ≤ N) (p : ℝ)
    (h : permutationTest nbr perms = .ok p) : 0 ≤ p ∧ p ≤ 1 := by
  refine kdeTail_range h ?_
  have : (statistic nbr : ℝ) ≤ 1 := by exact_mod_cast (statistic_range nbr hN).2
  linarith

/-- **C174**: if no compared order has a larger statistic than the order of the data set, the p-value is at most 1/2. -/
theorem C174_extreme (nbr : Fin N → Fin k → Fin N) (perms : List (Equiv.Perm (Fin N))) (p : ℝ)
    (h : permutationTest nbr perms = .ok p) (hs : ∀ π ∈ perms, statistic (inOrder π nbr) ≤ statistic nbr) : p ≤ 1 / 2 := by
  refine kdeTail_half h (fun x hx => ?_)
  rw [C174_orders, List.map_map] at hx
  obtain ⟨π, hπ, rfl⟩ := List.mem_map.mp hx
  exact Rat.cast_le.mpr (hs π hπ)

theorem inOrder_inOrder (π σ : Equiv.Perm (Fin N)) (nbr : Fin N → Fin k → Fin N) :
    inOrder π (inOrder σ nbr) = inOrder (σ.trans π) nbr := rfl

/-- **C174**: of two orders `σ`, `τ` of the same data that are compared with the same orders, the one with the larger statistic
has the smaller p-value. -/
theorem C174_monotone (nbr : Fin N → Fin k → Fin N) (σ τ : Equiv.Perm (Fin N)) (perms perms' : List (Equiv.Perm (Fin N)))
    (hsame : perms.map σ.trans = perms'.map τ.trans) (p p' : ℝ) (h : permutationTest (inOrder σ nbr) perms = .ok p)
    (h' : permutationTest (inOrder τ nbr) perms' = .ok p') (hs : statistic (inOrder σ nbr) ≤ statistic (inOrder τ nbr)) :
    p' ≤ p := by
  have hst : permutedStatistics (inOrder σ nbr) perms = permutedStatistics (inOrder τ nbr) perms' := by
    have := congrArg (List.map (fun π => statistic (inOrder π nbr))) hsame
    rw [List.map_map, List.map_map] at this
    rw [C174_orders, C174_orders]
    exact this
  unfold permutationTest at h h'
  rw [← hst] at h'
  exact kdeTail_mono h h' (Rat.cast_le.mpr hs)

theorem noVariance_iff (xs : List ℝ) (hl : 2 ≤ xs.length) : NonIid.variance xs = 0 ↔ ∀ x ∈ xs, ∀ y ∈ xs, x = y := by
  have hn : (0 : ℝ) < (xs.length : ℝ) - 1 := by
    have : (2 : ℝ) ≤ xs.length := by exact_mod_cast hl
    linarith
  unfold NonIid.variance
  rw [div_eq_zero_iff, or_iff_left hn.ne']
  constructor
  · intro h
    have h1 : ∀ x ∈ xs, x = xs.sum / xs.length := by
      intro x hx
      have h2 := List.single_le_sum (l := xs.map (fun x => (x - xs.sum / xs.length) ^ 2)) (fun v hv => by
        obtain ⟨y, _, rfl⟩ := List.mem_map.mp hv
        positivity) _ (List.mem_map_of_mem hx)
      rw [h] at h2
      have h3 : (x - xs.sum / xs.length) ^ 2 = 0 := le_antisymm h2 (by positivity)
      exact sub_eq_zero.mp (pow_eq_zero_iff (two_ne_zero) |>.mp h3)
    intro x hx y hy
    rw [h1 x hx, h1 y hy]
  · intro h
    refine List.sum_eq_zero (fun v hv => ?_)
    obtain ⟨x, hx, rfl⟩ := List.mem_map.mp hv
    have hsum : xs.sum = xs.length * x := by
      rw [List.sum_eq_card_nsmul xs x (fun y hy => h y hy x hx), nsmul_eq_mul]
    have h0 : (xs.length : ℝ) ≠ 0 := by intro h0; rw [h0] at hn; linarith
    rw [hsum, mul_div_cancel_left₀ x h0, sub_self]
    ring

/-- **C175**, partial: the non-IID check has a result exactly if two of the compared orders have different statistics. -/
theorem C175_result_partial [NeZero N] (nbr : Fin N → Fin k → Fin N) (perms : List (Equiv.Perm (Fin N))) (thr : ℝ) :
    (∃ r, findIssues nbr perms thr = .ok r) ↔
      ∃ π ∈ perms, ∃ σ ∈ perms, statistic (inOrder π nbr) ≠ statistic (inOrder σ nbr) := by
  have hmem : ∀ x, x ∈ (permutedStatistics nbr perms).map (fun q : ℚ => (q : ℝ)) ↔
      ∃ π ∈ perms, ((statistic (inOrder π nbr) : ℚ) : ℝ) = x := by
    intro x
    rw [C174_orders, List.map_map, List.mem_map]
    rfl
  have hk : (∃ r, findIssues nbr perms thr = .ok r) ↔ ∃ p, permutationTest nbr perms = .ok p := by
    unfold findIssues
    cases permutationTest nbr perms with
    | error e => exact Iff.intro (fun ⟨_, h⟩ => by cases h) (fun ⟨_, h⟩ => by cases h)
    | ok p => exact Iff.intro (fun _ => ⟨p, rfl⟩) (fun _ => ⟨_, rfl⟩)
  rw [hk]
  unfold permutationTest
  set xs := (permutedStatistics nbr perms).map (fun q : ℚ => (q : ℝ)) with hxs
  have hdiff : (∃ π ∈ perms, ∃ σ ∈ perms, statistic (inOrder π nbr) ≠ statistic (inOrder σ nbr)) ↔
      ∃ x ∈ xs, ∃ y ∈ xs, x ≠ y := by
    constructor
    · rintro ⟨π, hπ, σ, hσ, h⟩
      exact ⟨_, (hmem _).mpr ⟨π, hπ, rfl⟩, _, (hmem _).mpr ⟨σ, hσ, rfl⟩, fun he => h (Rat.cast_injective he)⟩
    · rintro ⟨x, hx, y, hy, h⟩
      obtain ⟨π, hπ, rfl⟩ := (hmem x).mp hx
      obtain ⟨σ, hσ, rfl⟩ := (hmem y).mp hy
      exact ⟨π, hπ, σ, hσ, fun he => h (by rw [he])⟩
  rw [hdiff]
  unfold kdeTail
  split_ifs with h1 h2
  · refine Iff.intro (fun ⟨_, h⟩ => by cases h) (fun ⟨x, hx, y, hy, h⟩ => absurd ?_ h)
    match xs, h1, hx, hy with
    | [a], _, hx, hy => rw [List.mem_singleton.mp hx, List.mem_singleton.mp hy]
  · refine Iff.intro (fun ⟨_, h⟩ => by cases h) (fun ⟨x, hx, y, hy, h⟩ => absurd ?_ h)
    exact (noVariance_iff xs (by omega)).mp h2 x hx y hy
  · refine Iff.intro (fun _ => ?_) (fun _ => ⟨_, rfl⟩)
    by_contra hne
    push Not at hne
    exact h2 ((noVariance_iff xs (by omega)).mpr hne)

/-- Every example is a neighbour of every other one. -/
def AllNeighbors (nbr : Fin N → Fin k → Fin N) : Prop :=
  ∀ i, ∀ j, (List.ofFn (nbr i)).count j = if j = i then 0 else 1

theorem statistic_allNeighbors (nbr : Fin N → Fin k → Fin N) (h : AllNeighbors nbr) (π : Equiv.Perm (Fin N)) :
    statistic (inOrder π nbr) = statistic nbr := by
  have hg : ∀ i, (gaps (inOrder π nbr) i).Perm (gaps nbr i) := by
    intro i
    have : (List.ofFn (inOrder π nbr i)).Perm (List.ofFn (nbr i)) := by
      rw [List.perm_iff_count]
      intro j
      have h1 : List.ofFn (inOrder π nbr i) = (List.ofFn (nbr (π.symm i))).map π := by
        rw [List.map_ofFn]; rfl
      rw [h1, h i j, show j = π (π.symm j) by simp, List.count_map_of_injective _ _ π.injective, h]
      simp
    have h2 := this.map (fun j : Fin N => (((i : ℕ) : ℤ) - ((j : ℕ) : ℤ)).natAbs)
    rw [List.map_ofFn, List.map_ofFn] at h2
    exact h2
  unfold statistic
  refine ksStatistic_congr ?_
  rw [List.ofFn_eq_map, List.ofFn_eq_map, ← List.flatMap_def, ← List.flatMap_def]
  exact List.Perm.flatMap_left _ (fun i _ => hg i)

/-- **C175** does not hold: where every example is a neighbour of every other one, the check fails for every choice of orders. -/
theorem C175_not_all_neighbors [NeZero N] (nbr : Fin N → Fin k → Fin N) (h : AllNeighbors nbr)
    (perms : List (Equiv.Perm (Fin N))) (thr : ℝ) : ¬ ∃ r, findIssues nbr perms thr = .ok r := by
  rw [C175_result_partial]
  rintro ⟨π, _, σ, _, hne⟩
  exact hne ((statistic_allNeighbors nbr h π).trans (statistic_allNeighbors nbr h σ).symm)

/-- **C175** does not hold: 11 examples with the default of 10 neighbours. -/
theorem C175_not_default : ∃ nbr : Fin 11 → Fin 10 → Fin 11, (∀ i, Function.Injective (nbr i)) ∧ (∀ i r, nbr i r ≠ i) ∧
    ∀ perms thr, ¬ ∃ r, findIssues nbr perms thr = .ok r := by
  refine ⟨fun i r => i.succAbove r, fun i => Fin.succAbove_right_injective, fun i r => Fin.succAbove_ne i r,
    C175_not_all_neighbors _ ?_⟩
  unfold AllNeighbors
  decide +kernel

/-- **C175** does not hold: a single order to compare with is not enough. -/
theorem C175_not_single [NeZero N] (nbr : Fin N → Fin k → Fin N) (π : Equiv.Perm (Fin N)) (thr : ℝ) :
    ¬ ∃ r, findIssues nbr [π] thr = .ok r := by
  rw [C175_result_partial]
  rintro ⟨σ, hσ, τ, hτ, hne⟩
  rw [List.mem_singleton.mp hσ, List.mem_singleton.mp hτ] at hne
  exact hne rfl

/-- Two pairs of similar examples, in the order first, second, first, second. -/
def twoPairs : Fin 4 → Fin 1 → Fin 4 := fun i _ => ![2, 3, 0, 1] i

theorem statistic_twoPairs : statistic twoPairs = 5 / 6 ∧ statistic (inOrder 1 twoPairs) = 5 / 6 ∧
    statistic (inOrder (Equiv.swap 1 2) twoPairs) = 1 / 2 := by
  decide +kernel

example (thr : ℝ) : ∃ r, findIssues twoPairs [1, Equiv.swap 1 2] thr = .ok r :=
  (C175_result_partial twoPairs _ thr).mpr ⟨1, by simp, Equiv.swap 1 2, by simp, by
    rw [statistic_twoPairs.2.1, statistic_twoPairs.2.2]; norm_num⟩

example (p : ℝ) (h : permutationTest twoPairs [1, Equiv.swap 1 2] = .ok p) : 0 ≤ p ∧ p ≤ 1 / 2 := by
  refine ⟨(C174_range twoPairs _ (by norm_num) p h).1, C174_extreme twoPairs _ p h (fun π hπ => ?_)⟩
  rw [statistic_twoPairs.1]
  rcases List.mem_cons.mp hπ with rfl | hπ
  · rw [statistic_twoPairs.2.1]
  · rw [List.mem_singleton.mp hπ, statistic_twoPairs.2.2]; norm_num

/-- With the pairs side by side, the statistic is smaller and the p-value larger. -/
example (p p' : ℝ) (h : permutationTest (inOrder (Equiv.swap 1 2) twoPairs) [1, Equiv.swap 1 2] = .ok p)
    (h' : permutationTest (inOrder 1 twoPairs) [Equiv.swap 1 2, 1] = .ok p') : p' ≤ p := by
  refine C174_monotone twoPairs (Equiv.swap 1 2) 1 _ _ ?_ p p' h h' ?_
  · decide +kernel
  · rw [statistic_twoPairs.2.1, statistic_twoPairs.2.2]; norm_num

end Cleanlab.Props
