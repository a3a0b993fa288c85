import Verif.Props.AnnotatorExtraClass
import Verif.Props.OodTwoClasses

/-!
# C247: a class nobody uses does not change which predictions are more out-of-distribution

`extendP P` has a further column of zeros, for a class that no example is labelled with.
-/

namespace Cleanlab.Props

open Np Cleanlab.Count Cleanlab.Rank Cleanlab.Spec Cleanlab.Outlier

variable {n K : ℕ} [NeZero K]

theorem max_extend (q : Fin (K + 1) → ℝ) (h : ∀ k : Fin K, q (Fin.last K) ≤ q k.castSucc) :
    q (argmax q) = (fun k : Fin K => q k.castSucc) (argmax (fun k : Fin K => q k.castSucc)) := by
  rw [argmax_castSucc q h]

/-- **C247.** Without adjustment `least_confidence` gives the same scores. -/
theorem C247_least (A A' : ArgSort ℝ) (M M' : ℕ) (gamma gamma' : ℝ) (labels : Option (Fin n → Fin K))
    (labels' : Option (Fin n → Fin (K + 1))) (P : Fin n → Fin K → ℝ) (hP : ∀ i k, 0 ≤ P i k) (s s' : Fin n → ℝ)
    (t : Option (Fin K → ℝ)) (t' : Option (Fin (K + 1) → ℝ))
    (hs : oodPredictionScores A .leastConfidence false M gamma labels none P = .ok (s, t))
    (hs' : oodPredictionScores A' .leastConfidence false M' gamma' labels' none (extendP P) = .ok (s', t')) : s' = s := by
  obtain ⟨-, -, hsc⟩ := score_ok A _ false M gamma labels none P s t hs
  obtain ⟨-, -, hsc'⟩ := score_ok A' _ false M' gamma' labels' none (extendP P) s' t' hs'
  rw [hsc, hsc']
  funext i
  show extendP P i (argmax (extendP P i)) = P i (argmax (P i))
  rw [max_extend (extendP P i) (fun k => by rw [extendP_last, extendP_castSucc]; exact hP i k)]
  simp only [extendP_castSucc]

omit [NeZero K] in
theorem rowEntropy_extend (p : Fin K → ℝ) (hK : 2 ≤ K) :
    rowEntropy (extendV p 0) = Real.log K / Real.log ((K + 1 : ℕ) : ℝ) * rowEntropy p := by
  have h2 : (2 : ℝ) ≤ K := by exact_mod_cast hK
  have hlog : 0 < Real.log K := Real.log_pos (by linarith)
  unfold rowEntropy
  rw [Fin.sum_univ_castSucc]
  simp only [extendV_castSucc, extendV_last, zero_mul, add_zero]
  field_simp

/-- **C247.** Without adjustment `entropy` orders the examples as before, although the scores change. -/
theorem C247_entropy (A A' : ArgSort ℝ) (M M' : ℕ) (gamma gamma' : ℝ) (hK : 2 ≤ K) (labels : Option (Fin n → Fin K))
    (labels' : Option (Fin n → Fin (K + 1))) (P : Fin n → Fin K → ℝ) (s s' : Fin n → ℝ)
    (t : Option (Fin K → ℝ)) (t' : Option (Fin (K + 1) → ℝ))
    (hs : oodPredictionScores A .entropy false M gamma labels none P = .ok (s, t))
    (hs' : oodPredictionScores A' .entropy false M' gamma' labels' none (extendP P) = .ok (s', t')) (i j : Fin n) :
    s' i ≤ s' j ↔ s i ≤ s j := by
  obtain ⟨-, -, hsc⟩ := score_ok A _ false M gamma labels none P s t hs
  obtain ⟨-, -, hsc'⟩ := score_ok A' _ false M' gamma' labels' none (extendP P) s' t' hs'
  rw [hsc, hsc']
  show 1 - rowEntropy (extendV (P i) 0) ≤ 1 - rowEntropy (extendV (P j) 0) ↔ 1 - rowEntropy (P i) ≤ 1 - rowEntropy (P j)
  have h2 : (2 : ℝ) ≤ K := by exact_mod_cast hK
  have hc : 0 < Real.log K / Real.log ((K + 1 : ℕ) : ℝ) :=
    div_pos (Real.log_pos (by linarith)) (Real.log_pos (by push_cast; linarith))
  rw [rowEntropy_extend _ hK, rowEntropy_extend _ hK, sub_le_sub_iff_left, sub_le_sub_iff_left, mul_le_mul_iff_right₀ hc]

omit [NeZero K] in
theorem realThresholds_extend (labels : Fin n → Fin K) (P : Fin n → Fin K → ℝ) :
    realThresholds (extendL labels) (extendP P) = extendV (realThresholds labels P) 2 := by
  funext k
  refine Fin.lastCases ?_ (fun k => ?_) k
  · have h0 : (Finset.univ.filter (fun i => extendL labels i = Fin.last K)).card = 0 := by
      rw [Finset.card_eq_zero, Finset.filter_eq_empty_iff]
      exact fun i _ => (Fin.castSucc_lt_last (labels i)).ne
    rw [realThresholds_eq_sum, if_pos h0, extendV_last]
    norm_num
  · rw [realThresholds_eq_sum, extendV_castSucc, realThresholds_eq_sum]
    unfold extendL
    simp only [Fin.castSucc_inj, extendP_castSucc]

omit [NeZero K] in
theorem realThresholds_le_two (labels : Fin n → Fin K) (P : Fin n → Fin K → ℝ) (hP : ∀ i k, P i k ≤ 1) (k : Fin K) :
    realThresholds labels P k ≤ 2 := by
  rw [realThresholds_eq_sum]
  refine max_le ?_ (by norm_num)
  split_ifs with h0
  · exact le_rfl
  · have hpos : (0 : ℝ) < ((Finset.univ.filter (fun i => labels i = k)).card : ℝ) := by
      exact_mod_cast Nat.pos_of_ne_zero h0
    have hsum : (∑ i with labels i = k, P i k) ≤ ((Finset.univ.filter (fun i => labels i = k)).card : ℝ) := by
      have := Finset.sum_le_card_nsmul (Finset.univ.filter (fun i => labels i = k)) (fun i => P i k) 1
        (fun i _ => hP i k)
      simpa using this
    have := (div_le_one hpos).mpr hsum
    linarith

/-- **C247.** With predictions adjusted by the thresholds of the labels, `least_confidence` orders the examples as before. -/
theorem C247_adjusted (A A' : ArgSort ℝ) (M M' : ℕ) (gamma gamma' : ℝ) (labels : Fin n → Fin K) (P : Fin n → Fin K → ℝ)
    (hP : ∀ i, IsDistribution (P i)) (s s' : Fin n → ℝ) (t : Option (Fin K → ℝ)) (t' : Option (Fin (K + 1) → ℝ))
    (hs : oodPredictionScores A .leastConfidence true M gamma (some labels) none P = .ok (s, t))
    (hs' : oodPredictionScores A' .leastConfidence true M' gamma' (some (extendL labels)) none (extendP P) = .ok (s', t'))
    (i j : Fin n) : s' i ≤ s' j ↔ s i ≤ s j := by
  obtain ⟨ht, -, hsc⟩ := score_ok A _ true M gamma (some labels) none P s t hs
  obtain ⟨ht', -, hsc'⟩ := score_ok A' _ true M' gamma' (some (extendL labels)) none (extendP P) s' t' hs'
  have ht1 : t = some (realThresholds labels P) := ht
  have ht2 : t' = some (extendV (realThresholds labels P) 2) := by rw [← realThresholds_extend]; exact ht'
  subst ht1
  subst ht2
  rw [hsc, hsc']
  generalize hT : realThresholds labels P = T
  have hT2 : ∀ k, T k ≤ 2 := by
    intro k
    rw [← hT]
    exact realThresholds_le_two labels P (fun i k => isDistribution_le_one (hP i) k) k
  set m := T (argmax T) with hm
  have hTm : ∀ k, T k ≤ m := fun k => le_argmax T k
  have hmax : extendV T 2 (argmax (extendV T 2)) = 2 := by
    refine le_antisymm ?_ ?_
    · generalize argmax (extendV T 2) = a
      refine Fin.lastCases ?_ (fun a => ?_) a
      · rw [extendV_last]
      · rw [extendV_castSucc]; exact hT2 a
    · have := le_argmax (extendV T 2) (Fin.last K)
      rwa [extendV_last] at this
  have hD : ∀ i, (∑ k, (P i k - T k + m)) = 1 + ∑ k, (m - T k) := by
    intro i
    rw [← (hP i).2, ← Finset.sum_add_distrib]
    exact Finset.sum_congr rfl (fun k _ => by ring)
  have hD' : ∀ i, (∑ k, (extendP P i k - extendV T 2 k + 2)) = 1 + ∑ k, (2 - T k) := by
    intro i
    rw [Fin.sum_univ_castSucc]
    simp only [extendP_castSucc, extendV_castSucc, extendP_last, extendV_last]
    rw [← (hP i).2, ← Finset.sum_add_distrib]
    have : ∑ k, (P i k - T k + 2) = ∑ k, (P i k + (2 - T k)) := Finset.sum_congr rfl (fun k _ => by ring)
    rw [this]
    ring
  have h1 : 0 < 1 + ∑ k, (m - T k) := by
    have := Finset.sum_nonneg (fun k (_ : k ∈ Finset.univ) => sub_nonneg.mpr (hTm k))
    linarith
  have h2 : 0 < 1 + ∑ k, (2 - T k) := by
    have := Finset.sum_nonneg (fun k (_ : k ∈ Finset.univ) => sub_nonneg.mpr (hT2 k))
    linarith
  have key : ∀ i, subtractConfidentThresholds (extendP P) (extendV T 2) i
        (argmax (subtractConfidentThresholds (extendP P) (extendV T 2) i)) =
      (1 + ∑ k, (m - T k)) / (1 + ∑ k, (2 - T k)) *
        subtractConfidentThresholds P T i (argmax (subtractConfidentThresholds P T i)) +
        (2 - m) / (1 + ∑ k, (2 - T k)) := by
    intro i
    have hq' : ∀ k, subtractConfidentThresholds (extendP P) (extendV T 2) i k =
        (extendP P i k - extendV T 2 k + 2) / (1 + ∑ k, (2 - T k)) := by
      intro k
      unfold subtractConfidentThresholds
      dsimp only
      rw [hmax, hD']
    have hq : ∀ k, subtractConfidentThresholds P T i k = (P i k - T k + m) / (1 + ∑ k, (m - T k)) := by
      intro k
      unfold subtractConfidentThresholds
      dsimp only
      rw [← hm, hD]
    rw [max_extend (subtractConfidentThresholds (extendP P) (extendV T 2) i) (fun k => by
      rw [hq', hq', extendP_last, extendV_last, extendP_castSucc, extendV_castSucc]
      refine div_le_div_of_nonneg_right ?_ h2.le
      linarith [(hP i).1 k, hT2 k])]
    refine max_affine (K := K) (p := subtractConfidentThresholds P T i)
      (q := fun k : Fin K => subtractConfidentThresholds (extendP P) (extendV T 2) i k.castSucc) (div_pos h1 h2) (fun k => ?_)
    rw [hq', hq, extendP_castSucc, extendV_castSucc]
    field_simp
    ring
  have e1 : ∀ i, rowScore A .leastConfidence M gamma (scoredProbs true (some T) P i) =
    subtractConfidentThresholds P T i (argmax (subtractConfidentThresholds P T i)) := fun _ => rfl
  have e2 : ∀ i, rowScore A' .leastConfidence M' gamma' (scoredProbs true (some (extendV T 2)) (extendP P) i) =
    subtractConfidentThresholds (extendP P) (extendV T 2) i
      (argmax (subtractConfidentThresholds (extendP P) (extendV T 2) i)) := fun _ => rfl
  dsimp only
  rw [e1, e1, e2, e2]
  rw [key, key, add_le_add_iff_right, mul_le_mul_iff_right₀ (div_pos h1 h2)]

/-- Both calls are accepted for labels of two classes and predictions that are distributions. -/
example (A : ArgSort ℝ) : ∃ r r', oodPredictionScores A .leastConfidence true 100 (1 / 10) (some (![0, 1] : Fin 2 → Fin 2))
      none (fun _ _ => 1 / 2) = .ok r ∧
    oodPredictionScores A .leastConfidence true 100 (1 / 10) (some (extendL (![0, 1] : Fin 2 → Fin 2))) none
      (extendP (fun _ _ => 1 / 2)) = .ok r' := by
  have c1 : checkReal false (![0, 1] : Fin 2 → Fin 2) (fun _ _ => 1 / 2) = .ok () := by
    unfold checkReal
    rw [if_neg (by norm_num), if_neg (fun h => absurd (h.2 0 1) (by decide)), if_neg]
    rintro ⟨i, k, h | h⟩ <;> norm_num at h
  have c2 : checkReal false (extendL (![0, 1] : Fin 2 → Fin 2)) (extendP (fun _ _ => 1 / 2)) = .ok () := by
    unfold checkReal
    rw [if_neg (by norm_num), if_neg (fun h => absurd (h.2 0 1) (by unfold extendL; decide)), if_neg]
    rintro ⟨i, k, h⟩
    revert h
    refine Fin.lastCases ?_ (fun k => ?_) k
    · rw [extendP_last]; rintro (h | h) <;> norm_num at h
    · rw [extendP_castSucc]; rintro (h | h) <;> norm_num at h
  unfold oodPredictionScores
  simp only [if_true, c1, c2]
  exact ⟨_, _, rfl, rfl⟩

end Cleanlab.Props
