import Verif.Props.MoreCertain
import Verif.Props.BetterPrediction
import Verif.Props.ExtraClass

/-!
# C138 for `confidence_weighted_entropy`: only the lower bound of the denominator spoils it
-/

namespace Cleanlab.Props

open Np Cleanlab.Count Cleanlab.Rank Cleanlab.Spec Cleanlab.Outlier

variable {n K : ℕ}

theorem negMulLog_tangent {x y : ℝ} (hx : 0 < x) (hy : 0 ≤ y) :
    Real.negMulLog y - Real.negMulLog x ≤ -(1 + Real.log x) * (y - x) := by
  unfold Real.negMulLog
  rcases eq_or_lt_of_le hy with h0 | h0
  · rw [← h0]
    simp only [neg_zero, Real.log_zero, mul_zero, zero_sub]
    linarith
  · have h1 : Real.log (x / y) ≤ x / y - 1 := Real.log_le_sub_one_of_pos (div_pos hx h0)
    rw [Real.log_div hx.ne' h0.ne'] at h1
    have h2 := mul_le_mul_of_nonneg_left h1 h0.le
    have h3 : y * (x / y - 1) = x - y := by field_simp
    rw [h3] at h2
    linarith

/-- The sum of the entropy terms, divided by the probability of a class, does not grow if the class gains what the
others lose. -/
theorem entropy_ratio {a : Fin K} {p q : Fin K → ℝ} (hp : IsDistribution p) (hq : IsDistribution q) (h : Surer a p q)
    (hpa : 0 < p a) : p a * ∑ k, Real.negMulLog (q k) ≤ q a * ∑ k, Real.negMulLog (p k) := by
  have hterm : ∀ k ∈ Finset.univ.erase a, Real.negMulLog (q k) - Real.negMulLog (p k) ≤ p k - q k := by
    intro k hk
    have hle := h.loss k (Finset.ne_of_mem_erase hk)
    rcases eq_or_lt_of_le (hp.1 k) with h0 | h0
    · have hq0 : q k = 0 := le_antisymm (h0 ▸ hle) (hq.1 k)
      rw [hq0, ← h0]; simp
    · have h1 := negMulLog_tangent h0 (hq.1 k)
      have h2 : Real.log (p k) ≤ 0 := Real.log_nonpos h0.le (isDistribution_le_one hp k)
      nlinarith
  have hsum := Finset.sum_le_sum hterm
  rw [Finset.sum_sub_distrib, Finset.sum_sub_distrib] at hsum
  have e1 := Finset.add_sum_erase Finset.univ p (Finset.mem_univ a)
  have e2 := Finset.add_sum_erase Finset.univ q (Finset.mem_univ a)
  have e3 := Finset.add_sum_erase Finset.univ (fun k => Real.negMulLog (p k)) (Finset.mem_univ a)
  have e4 := Finset.add_sum_erase Finset.univ (fun k => Real.negMulLog (q k)) (Finset.mem_univ a)
  rw [hp.2] at e1
  rw [hq.2] at e2
  have ha := negMulLog_tangent hpa (hq.1 a)
  have hle : Real.negMulLog (p a) ≤ ∑ k, Real.negMulLog (p k) :=
    Finset.single_le_sum (f := fun k => Real.negMulLog (p k))
      (fun k _ => Real.negMulLog_nonneg (hp.1 k) (isDistribution_le_one hp k)) (Finset.mem_univ a)
  have hH : ∑ k, Real.negMulLog (q k) ≤ ∑ k, Real.negMulLog (p k) + (q a - p a) * (-Real.log (p a)) := by
    linarith
  have hneg : Real.negMulLog (p a) = p a * (-Real.log (p a)) := by unfold Real.negMulLog; ring
  have h5 := mul_le_mul_of_nonneg_left hH hpa.le
  have h6 := mul_le_mul_of_nonneg_left hle (sub_nonneg.mpr h.gain)
  rw [hneg] at h6
  linarith

/-- `log (1 + x) / x` falls. -/
theorem log_ratio_antitone {x y : ℝ} (hy : 0 < y) (h : y ≤ x) : Real.log (x + 1) / x ≤ Real.log (y + 1) / y := by
  rcases eq_or_lt_of_le h with he | hlt
  · rw [he]
  · have hx : 0 < x := hy.trans hlt
    have hc := strictConcaveOn_log_Ioi.concaveOn.slope_anti_adjacent (x := 1) (y := y + 1) (z := x + 1)
      (by simp) (by simp only [Set.mem_Ioi]; linarith) (by linarith) (by linarith)
    rw [Real.log_one, sub_zero, add_sub_cancel_right, show x + 1 - (y + 1) = x - y by ring,
      div_le_div_iff₀ (sub_pos.mpr hlt) hy] at hc
    rw [div_le_div_iff₀ hx hy]
    nlinarith

/-- **C138 for `confidence_weighted_entropy`, partially.** If the given label of example `i`, whose probability is at least a
millionth, gets more probability and no other class does, its score does not fall, unless the entropy of the new
prediction is less than a millionth of the probability of the label. -/
theorem C138_entropy_partial (hK : 2 ≤ K) (labels : Fin n → Fin K) (P Q : Fin n → Fin K → ℝ) (i : Fin n)
    (hP : ∀ j, IsDistribution (P j)) (hQ : ∀ j, IsDistribution (Q j)) (h : Surer (labels i) (P i) (Q i))
    (hlabel : 1 / 1000000 ≤ P i (labels i))
    (hent : Q i (labels i) / 1000000 ≤ (-∑ k, Q i k * Real.log (Q i k)) / Real.log K) (s s' : Fin n → ℝ)
    (hs : confidenceWeightedEntropy labels P = .ok s) (hs' : confidenceWeightedEntropy labels Q = .ok s') :
    s i ≤ s' i := by
  rw [C57_formula hK labels P hP] at hs
  rw [C57_formula hK labels Q hQ] at hs'
  rw [← Except.ok.inj hs, ← Except.ok.inj hs']
  have hlabel' : 1 / 1000000 ≤ Q i (labels i) := hlabel.trans h.gain
  have hp0 : 0 < P i (labels i) := lt_of_lt_of_le (by norm_num) hlabel
  have hq0 : 0 < Q i (labels i) := lt_of_lt_of_le (by norm_num) hlabel'
  have hlog : 0 < Real.log K := Real.log_pos (by exact_mod_cast hK)
  have hr := entropy_ratio (hP i) (hQ i) h hp0
  have hneg : ∀ R : Fin n → Fin K → ℝ, ∑ k, Real.negMulLog (R i k) = -∑ k, R i k * Real.log (R i k) := fun R => by
    rw [← Finset.sum_neg_distrib]
    exact Finset.sum_congr rfl fun k _ => by unfold Real.negMulLog; ring
  rw [hneg, hneg] at hr
  dsimp only
  rw [max_eq_left hlabel, max_eq_left hlabel']
  set H := -∑ k, P i k * Real.log (P i k)
  set H' := -∑ k, Q i k * Real.log (Q i k)
  have hxy : H' / Real.log K / Q i (labels i) ≤ H / Real.log K / P i (labels i) := by
    rw [div_le_div_iff₀ hq0 hp0, div_mul_eq_mul_div, div_mul_eq_mul_div]
    exact div_le_div_of_nonneg_right (by linarith) hlog.le
  have hy : 1 / 1000000 ≤ H' / Real.log K / Q i (labels i) := by
    rw [le_div_iff₀ hq0]
    linarith
  rw [max_eq_left hy, max_eq_left (hy.trans hxy)]
  exact log_ratio_antitone (lt_of_lt_of_le (by norm_num) hy) hxy

/-- Two classes: the label gains a quarter, the entropy stays above the bound. -/
example : Surer (0 : Fin 2) (fun k => if k = 0 then 1/4 else 3/4) (fun _ => 1/2) ∧
    (1/2 : ℝ) / 1000000 ≤ (-∑ _ : Fin 2, (1/2 : ℝ) * Real.log (1/2)) / Real.log (2 : ℕ) := by
  refine ⟨⟨by norm_num, fun k hk => ?_, ?_⟩, ?_⟩
  · fin_cases k <;> simp_all; norm_num
  · simp [Fin.sum_univ_two]; norm_num
  · have : 0 < Real.log 2 := Real.log_pos (by norm_num)
    rw [Fin.sum_univ_two, one_div, Real.log_inv, le_div_iff₀ (by exact_mod_cast this)]
    push_cast
    linarith

end Cleanlab.Props
