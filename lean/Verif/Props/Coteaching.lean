import Verif.Model.Coteaching
import Verif.Np.Lemmas
import Mathlib.Tactic.Linarith
import Mathlib.Tactic.FieldSimp
import Mathlib.Tactic.Positivity
import Mathlib.Tactic.NormNum

/-!
# C98: co-teaching
-/

namespace Cleanlab.Props

open Np Cleanlab.Coteaching

variable {n : ℕ}

/-- `s` holds `m` examples with the smallest losses. -/
structure SmallestLosses (loss : Fin n → ℚ) (m : ℕ) (s : List (Fin n)) : Prop where
  nodup : s.Nodup
  length : s.length = m
  smallest : ∀ i ∈ s, ∀ j, j ∉ s → loss i ≤ loss j

theorem remembered_spec (A : ArgSort ℚ) (loss : Fin n → ℚ) (m : ℕ) (hm : m ≤ n) :
    SmallestLosses loss m (remembered A loss m) := by
  refine ⟨(A.nodup_indices loss).sublist (List.take_sublist _ _), ?_, ?_⟩
  · unfold remembered
    rw [List.length_take, A.length_indices, min_eq_left hm]
  · intro i hi j hj
    have hs := A.pairwise_indices loss
    rw [← List.take_append_drop m (A.indices loss), List.pairwise_append] at hs
    refine hs.2.2 i hi j ?_
    have hmem := A.mem_indices loss j
    rw [← List.take_append_drop m (A.indices loss), List.mem_append] at hmem
    exact hmem.resolve_left hj

theorem numRemember_le (forget : ℚ) (h0 : 0 ≤ forget) (n : ℕ) : numRemember forget n ≤ n := by
  unfold numRemember
  rw [Int.toNat_le]
  have : (1 - forget) * n ≤ (n : ℤ) := by
    push_cast
    have : (0 : ℚ) ≤ n := Nat.cast_nonneg n
    nlinarith
  exact_mod_cast (Int.floor_le _).trans this

/-- **C98.** Each network is updated with the examples that have the smallest losses under the *other* network; their number is
the remembered fraction, rounded down. The reported value times that number is the mean loss of these examples.
Missing: the loss itself is not the mean (`C98_not_mean`). -/
theorem C98_loss_partial (A : ArgSort ℚ) (loss1 loss2 : Fin n → ℚ) (forget : ℚ) (h0 : 0 ≤ forget)
    (hm : 1 ≤ (1 - forget) * n) :
    ∃ (m : ℕ) (s1 s2 : List (Fin n)) (r1 r2 : ℚ), 0 < m ∧ (m : ℚ) ≤ (1 - forget) * n ∧ (1 - forget) * n < m + 1 ∧
      SmallestLosses loss1 m s1 ∧ SmallestLosses loss2 m s2 ∧
      lossCoteaching A loss1 loss2 forget = (some r1, some r2) ∧
      r1 * m = (s2.map loss1).sum / m ∧ r2 * m = (s1.map loss2).sum / m := by
  have hle := numRemember_le forget h0 n
  have hfl : (numRemember forget n : ℤ) = ⌊(1 - forget) * n⌋ := by
    unfold numRemember
    exact Int.toNat_of_nonneg (Int.floor_nonneg.mpr (by linarith))
  have hpos : 0 < numRemember forget n := by
    have : (1 : ℤ) ≤ ⌊(1 - forget) * n⌋ := Int.le_floor.mpr (by exact_mod_cast hm)
    omega
  have hq : ((numRemember forget n : ℕ) : ℚ) = (⌊(1 - forget) * n⌋ : ℤ) := by rw [← hfl]; simp
  have s1 := remembered_spec A loss1 _ hle
  have s2 := remembered_spec A loss2 _ hle
  have hmq : ((numRemember forget n : ℕ) : ℚ) ≠ 0 := by exact_mod_cast hpos.ne'
  have hne : ∀ loss : Fin n → ℚ, SmallestLosses loss (numRemember forget n) (remembered A loss (numRemember forget n)) →
      remembered A loss (numRemember forget n) ≠ [] := by
    intro loss h e
    have := h.length
    rw [e] at this
    simp at this
    omega
  refine ⟨numRemember forget n, _, _, ((remembered A loss2 (numRemember forget n)).map loss1).sum /
    numRemember forget n / numRemember forget n, ((remembered A loss1 (numRemember forget n)).map loss2).sum /
    numRemember forget n / numRemember forget n, hpos, ?_, ?_, s1, s2, ?_, ?_, ?_⟩
  · rw [hq]; exact Int.floor_le _
  · rw [hq]; exact Int.lt_floor_add_one _
  · unfold lossCoteaching crossEntropy
    dsimp only
    rw [if_neg (hne loss2 s2), if_neg (hne loss1 s1), s1.length, s2.length]
    rfl
  · field_simp
  · field_simp

/-- **C98 is violated.** The mean is divided by the number of remembered examples once more: if every example has the loss `c`
under both networks, the reported loss is `c / m` and not `c`. -/
theorem C98_not_mean (A : ArgSort ℚ) (c : ℚ) (forget : ℚ) (h0 : 0 ≤ forget) (hm : 1 ≤ (1 - forget) * n) :
    ∃ m : ℕ, 0 < m ∧ (m : ℚ) ≤ (1 - forget) * n ∧ (1 - forget) * n < m + 1 ∧
      lossCoteaching A (fun _ : Fin n => c) (fun _ => c) forget = (some (c / m), some (c / m)) := by
  obtain ⟨m, s1, s2, r1, r2, hpos, h1, h2, hs1, hs2, he, e1, e2⟩ :=
    C98_loss_partial A (fun _ : Fin n => c) (fun _ => c) forget h0 hm
  refine ⟨m, hpos, h1, h2, ?_⟩
  have hmq : (m : ℚ) ≠ 0 := by exact_mod_cast hpos.ne'
  rw [he]
  simp only [List.map_const', List.sum_replicate, nsmul_eq_mul, hs2.length, hs1.length] at e1 e2
  have : (m : ℚ) * c / m = c := by field_simp
  rw [this] at e1 e2
  rw [← e1]
  congr 2
  · field_simp
  · have : r1 = r2 := mul_right_cancel₀ hmq (e1.trans e2.symm)
    rw [this]; field_simp

/-- **C98.** If less than one example is remembered, the losses are undefined. -/
theorem C98_nothing_remembered (A : ArgSort ℚ) (loss1 loss2 : Fin n → ℚ) (forget : ℚ) (hm : (1 - forget) * n < 1) :
    lossCoteaching A loss1 loss2 forget = (none, none) := by
  have : numRemember forget n = 0 := by
    unfold numRemember
    have : ⌊(1 - forget) * n⌋ < 1 := Int.floor_lt.mpr (by exact_mod_cast hm)
    omega
  unfold lossCoteaching
  rw [this]
  simp [crossEntropy, remembered]

/-! ## Schedules -/

/-- **C98.** The learning rate stays at `lr` until the decay starts, is then positive and never increases. -/
theorem C98_learning_rate (lr : ℚ) (hlr : 0 < lr) (epochs start : ℕ) :
    (alphaPlan lr epochs start).length = epochs ∧
      (∀ a ∈ alphaPlan lr epochs start, 0 < a ∧ a ≤ lr) ∧
      (∀ i, i < epochs → i ≤ start → (alphaPlan lr epochs start)[i]? = some lr) ∧
      (alphaPlan lr epochs start).Pairwise (· ≥ ·) := by
  have hval : ∀ i, i < epochs → start ≤ i →
      0 < ((epochs : ℚ) - i) / ((epochs : ℚ) - start) * lr ∧ ((epochs : ℚ) - i) / ((epochs : ℚ) - start) * lr ≤ lr := by
    intro i hi hs
    have h1 : (0 : ℚ) < (epochs : ℚ) - i := by have : (i : ℚ) < epochs := by exact_mod_cast hi
                                               linarith
    have h2 : ((epochs : ℚ) - i) ≤ (epochs : ℚ) - start := by have : (start : ℚ) ≤ i := by exact_mod_cast hs
                                                              linarith
    have h3 : (0 : ℚ) < (epochs : ℚ) - start := lt_of_lt_of_le h1 h2
    refine ⟨mul_pos (div_pos h1 h3) hlr, ?_⟩
    have : ((epochs : ℚ) - i) / ((epochs : ℚ) - start) ≤ 1 := (div_le_one h3).mpr h2
    nlinarith
  refine ⟨by simp [alphaPlan], ?_, ?_, ?_⟩
  · intro a ha
    obtain ⟨i, hi, rfl⟩ := List.mem_map.mp ha
    rw [List.mem_range] at hi
    split
    · exact hval i hi (by assumption)
    · exact ⟨hlr, le_rfl⟩
  · intro i hi hs
    unfold alphaPlan
    rw [List.getElem?_map, List.getElem?_range hi]
    simp only [Option.map_some]
    split
    · have : i = start := by omega
      subst this
      have : (epochs : ℚ) - i ≠ 0 := by
        have : (i : ℚ) < epochs := by exact_mod_cast hi
        linarith
      rw [div_self this, one_mul]
    · rfl
  · unfold alphaPlan
    rw [List.pairwise_map]
    refine List.Pairwise.imp_of_mem ?_ List.pairwise_lt_range
    intro i j hi hj hij
    rw [List.mem_range] at hi hj
    show (if start ≤ j then _ else lr) ≤ if start ≤ i then _ else lr
    by_cases h1 : start ≤ i
    · rw [if_pos h1, if_pos (by omega)]
      have h3 : (0 : ℚ) < (epochs : ℚ) - start := by
        have : (start : ℚ) < epochs := by exact_mod_cast (by omega : start < epochs)
        linarith
      have h4 : (epochs : ℚ) - j ≤ (epochs : ℚ) - i := by
        have : (i : ℚ) ≤ j := by exact_mod_cast hij.le
        linarith
      exact mul_le_mul_of_nonneg_right (div_le_div_of_nonneg_right h4 h3.le) hlr.le
    · rw [if_neg h1]
      by_cases h2 : start ≤ j
      · rw [if_pos h2]; exact (hval j hj h2).2
      · rw [if_neg h2]

/-- **C98.** For an exponent of at least 1, the forget rate starts at 0, never decreases, never exceeds the requested rate and has
that value after the gradual phase. Missing: exponents below 1 and a gradual phase longer than the training
(`C98_not_schedule`). -/
theorem C98_schedule_partial (epochs : ℕ) (forget : ℝ) (h0 : 0 ≤ forget) (h1 : forget ≤ 1) (numGradual : ℕ)
    (hg : numGradual ≤ epochs) (exponent : ℝ) (he : 1 ≤ exponent) :
    ∃ s, forgetSchedule epochs forget numGradual exponent = .ok s ∧ s.length = epochs ∧
      (0 < numGradual → s[0]? = some 0) ∧ (∀ r ∈ s, 0 ≤ r ∧ r ≤ forget) ∧ s.Pairwise (· ≤ ·) ∧
      ∀ i, numGradual ≤ i → i < epochs → s[i]? = some forget := by
  have hstop : 0 ≤ forget ^ exponent ∧ forget ^ exponent ≤ forget := by
    refine ⟨Real.rpow_nonneg h0 _, ?_⟩
    rcases h0.eq_or_lt with rfl | hpos
    · rw [Real.zero_rpow (by linarith)]
    · calc forget ^ exponent ≤ forget ^ (1 : ℝ) := Real.rpow_le_rpow_of_exponent_ge hpos h1 he
        _ = forget := Real.rpow_one _
  set stop := forget ^ exponent with hstopdef
  have hstep : ∀ i, i < numGradual → 0 ≤ (i : ℝ) * (stop / ((numGradual : ℝ) - 1)) ∧
      (i : ℝ) * (stop / ((numGradual : ℝ) - 1)) ≤ stop := by
    intro i hi
    rcases Nat.eq_zero_or_pos i with rfl | hi0
    · simp [hstop.1]
    · have hn : (0 : ℝ) < (numGradual : ℝ) - 1 := by
        have : (1 : ℝ) < numGradual := by exact_mod_cast (by omega : 1 < numGradual)
        linarith
      have hi' : (i : ℝ) ≤ (numGradual : ℝ) - 1 := by
        have : (i : ℝ) + 1 ≤ numGradual := by exact_mod_cast hi
        linarith
      refine ⟨by have := hstop.1; positivity, ?_⟩
      rw [mul_div_assoc', div_le_iff₀ hn]
      nlinarith [hstop.1]
  have hlin : ∀ r ∈ linspace stop numGradual, 0 ≤ r ∧ r ≤ stop := by
    intro r hr
    obtain ⟨i, hi, rfl⟩ := List.mem_map.mp hr
    exact hstep i (List.mem_range.mp hi)
  have hlen : (linspace stop numGradual).length = numGradual := by simp [linspace]
  refine ⟨linspace stop numGradual ++ List.replicate (epochs - numGradual) forget, ?_, ?_, ?_, ?_, ?_, ?_⟩
  · unfold forgetSchedule
    rw [if_neg (by omega)]
  · rw [List.length_append, hlen, List.length_replicate]; omega
  · intro hpos
    rw [List.getElem?_append_left (by rw [hlen]; exact hpos)]
    unfold linspace
    rw [List.getElem?_map, List.getElem?_range hpos]
    simp
  · intro r hr
    rcases List.mem_append.mp hr with hr | hr
    · exact ⟨(hlin r hr).1, (hlin r hr).2.trans hstop.2⟩
    · rw [List.eq_of_mem_replicate hr]; exact ⟨h0, le_rfl⟩
  · rw [List.pairwise_append]
    refine ⟨?_, List.pairwise_replicate.mpr (Or.inr le_rfl), ?_⟩
    · unfold linspace
      rw [List.pairwise_map]
      refine List.Pairwise.imp_of_mem ?_ List.pairwise_lt_range
      intro i j _ hj hij
      rw [List.mem_range] at hj
      have hn : (0 : ℝ) < (numGradual : ℝ) - 1 := by
        have : (1 : ℝ) < numGradual := by exact_mod_cast (by omega : 1 < numGradual)
        linarith
      refine mul_le_mul_of_nonneg_right (by exact_mod_cast hij.le) (div_nonneg hstop.1 hn.le)
    · intro a ha b hb
      rw [List.eq_of_mem_replicate hb]
      exact (hlin a ha).2.trans hstop.2
  · intro i hi hie
    rw [List.getElem?_append_right (by rw [hlen]; exact hi), hlen, List.getElem?_replicate_of_lt (by omega)]

/-- **C98 is violated.** With an exponent of 1/2 (one of the values of the original method) the forget rate rises to twice the
requested rate and then drops; a gradual phase longer than the training raises. -/
theorem C98_not_schedule :
    (∃ s, forgetSchedule 3 (1 / 4) 2 (1 / 2) = .ok s ∧ s[1]? = some (1 / 2) ∧ s[2]? = some (1 / 4)) ∧
      ∃ e, forgetSchedule 3 (1 / 4) 4 1 = .error e := by
  have h : ((1 / 4 : ℝ)) ^ (1 / 2 : ℝ) = 1 / 2 := by
    rw [← Real.sqrt_eq_rpow, show (1 / 4 : ℝ) = (1 / 2) ^ 2 by norm_num, Real.sqrt_sq (by norm_num)]
  constructor
  · refine ⟨linspace (1 / 2) 2 ++ List.replicate 1 (1 / 4), ?_, ?_, ?_⟩
    · unfold forgetSchedule
      rw [if_neg (by omega), h]
    · simp [linspace, List.range_succ]
      norm_num
    · simp [linspace, List.range_succ]
  · unfold forgetSchedule
    rw [if_pos (by omega)]
    exact ⟨_, rfl⟩

example : lossCoteaching (stableSort ℚ) (fun i : Fin 4 => (i : ℚ)) (fun i => 3 - (i : ℚ)) (1 / 2) = (some (5 / 4), some (5 / 4)) := by
  decide +kernel

end Cleanlab.Props
