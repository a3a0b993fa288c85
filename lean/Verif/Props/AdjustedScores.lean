import Verif.Props.Smoothing
import Verif.Props.TwoClassesAgree
import Verif.Model.RankAdjusted

/-!
# C208, C235: the same for scores of adjusted predictions
-/

namespace Cleanlab.Props

open Np Cleanlab.Util Cleanlab.Count Cleanlab.Rank Cleanlab.Spec Cleanlab.Filter

variable {n K : ℕ}

/-- What all rows are divided by when the thresholds have been subtracted. -/
theorem adjusted_total [NeZero K] (thr : Fin K → ℚ) {p : Fin K → ℚ} (hp : ∑ k, p k = 1) :
    ∑ k, (p k - thr k + thr (argmax thr)) = 1 + ∑ k, (thr (argmax thr) - thr k) ∧
      0 < 1 + ∑ k, (thr (argmax thr) - thr k) := by
  constructor
  · rw [← hp, ← Finset.sum_add_distrib]
    exact Finset.sum_congr rfl fun k _ => by ring
  · have : 0 ≤ ∑ k, (thr (argmax thr) - thr k) := Finset.sum_nonneg fun k _ => sub_nonneg.mpr (le_argmax thr k)
    linarith

/-- **C235, adjusted predictions.** With `adjust_pred_probs` too, `normalized_margin` gives the scores of `self_confidence`. -/
theorem C235_adjusted (adjust : Bool) (labels : Fin n → Fin 2) (P : Fin n → Fin 2 → ℚ) (hP : ∀ i, ∑ k, P i k = 1) :
    scoresAdjusted .normalizedMargin adjust labels P = scoresAdjusted .selfConfidence adjust labels P := by
  have h : labelQualityScores .normalizedMargin labels
      (if adjust then subtractConfidentThresholds P (getConfidentThresholds labels P) else P) =
      labelQualityScores .selfConfidence labels
        (if adjust then subtractConfidentThresholds P (getConfidentThresholds labels P) else P) := by
    cases adjust with
    | false => exact C235_scores labels P hP
    | true =>
      refine C235_scores labels (subtractConfidentThresholds P (getConfidentThresholds labels P)) fun i => ?_
      set t := getConfidentThresholds labels P
      show ∑ k, (P i k - t k + t (argmax t)) / ∑ k', (P i k' - t k' + t (argmax t)) = 1
      obtain ⟨h1, h2⟩ := adjusted_total t (hP i)
      rw [← Finset.sum_div, h1, div_self h2.ne']
  unfold scoresAdjusted
  rw [h]

/-- Adjusted probabilities of predictions that are all changed in the same linear way, with thresholds that change likewise. -/
theorem subtract_rescaled [NeZero K] {c d : ℚ} {P Q : Fin n → Fin K → ℚ} (h : Rescaled c d P Q) (hP : ∀ i, ∑ k, P i k = 1)
    (hQ : ∀ i, ∑ k, Q i k = 1) (t u : Fin K → ℚ) (hu : ∀ k, u k = c * t k + d) :
    ∃ a b : ℚ, 0 < a ∧ ∀ i k, subtractConfidentThresholds Q u i k = a * subtractConfidentThresholds P t i k + b := by
  have hm : u (argmax u) = c * t (argmax t) + d := by
    refine le_antisymm ?_ ?_
    · rw [hu]
      have := mul_le_mul_of_nonneg_left (le_argmax t (argmax u)) h.pos.le
      linarith
    · rw [← hu]; exact le_argmax u _
  set m := t (argmax t) with hmdef
  set x := 1 + ∑ k, (m - t k) with hx
  set y := 1 + ∑ k, (u (argmax u) - u k) with hy
  have hx0 : 0 < x := by
    have : 0 ≤ ∑ k, (m - t k) := Finset.sum_nonneg fun k _ => sub_nonneg.mpr (le_argmax t k)
    rw [hx]; linarith
  have hy0 : 0 < y := by
    have : 0 ≤ ∑ k, (u (argmax u) - u k) := Finset.sum_nonneg fun k _ => sub_nonneg.mpr (le_argmax u k)
    rw [hy]; linarith
  refine ⟨c * x / y, d / y, div_pos (mul_pos h.pos hx0) hy0, fun i k => ?_⟩
  show (Q i k - u k + u (argmax u)) / ∑ k', (Q i k' - u k' + u (argmax u)) =
    c * x / y * ((P i k - t k + m) / ∑ k', (P i k' - t k' + m)) + d / y
  rw [(adjusted_total u (hQ i)).1, (adjusted_total t (hP i)).1, hm, hu, h.eq]
  rw [hm] at hy
  rw [← hx, ← hy]
  field_simp
  ring

/-- **C208, adjusted predictions.** If every class is given, mixing the predictions with the uniform distribution does not change
the order of the examples by `self_confidence` with `adjust_pred_probs`. -/
theorem C208_adjusted [NeZero K] {c d : ℚ} (labels : Fin n → Fin K) {P Q : Fin n → Fin K → ℚ} (h : Rescaled c d P Q)
    (hP : ∀ i, ∑ k, P i k = 1) (hQ : ∀ i, ∑ k, Q i k = 1) (hall : ∀ k, ∃ i, labels i = k) (hu : Usable d c labels P)
    (adjust : Bool) (s s' : Fin n → ℚ) (hs : scoresAdjusted .selfConfidence adjust labels P = .ok s)
    (hs' : scoresAdjusted .selfConfidence adjust labels Q = .ok s') (i j : Fin n) : s' i ≤ s' j ↔ s i ≤ s j := by
  have key : ∀ (R : Fin n → Fin K → ℚ) (r : Fin n → ℚ), scoresAdjusted .selfConfidence adjust labels R = .ok r →
      ∀ i, r i = (if adjust then subtractConfidentThresholds R (getConfidentThresholds labels R) else R) i (labels i) := by
    intro R r hr i
    unfold scoresAdjusted at hr
    cases hv : validate true labels R with
    | error e => rw [hv] at hr; cases hr
    | ok u =>
      rw [hv] at hr
      have hr' : labelQualityScores .selfConfidence labels
          (if adjust then subtractConfidentThresholds R (getConfidentThresholds labels R) else R) = .ok r := hr
      rw [labelQualityScores_iff] at hr'
      exact hr' i
  cases adjust with
  | false =>
    rw [key P s hs i, key P s hs j, key Q s' hs' i, key Q s' hs' j]
    exact rescaled_le h i j _ _
  | true =>
    obtain ⟨a, b, ha, hab⟩ := subtract_rescaled h hP hQ (getConfidentThresholds labels P) (getConfidentThresholds labels Q)
      (fun k => thresholds_rescaled h labels hu k (hall k))
    rw [key _ s hs i, key _ s hs j, key _ s' hs' i, key _ s' hs' j]
    show subtractConfidentThresholds Q (getConfidentThresholds labels Q) i (labels i) ≤
        subtractConfidentThresholds Q (getConfidentThresholds labels Q) j (labels j) ↔
      subtractConfidentThresholds P (getConfidentThresholds labels P) i (labels i) ≤
        subtractConfidentThresholds P (getConfidentThresholds labels P) j (labels j)
    rw [hab, hab, add_le_add_iff_right, mul_le_mul_iff_right₀ ha]

/-- Two examples of two classes, half and half with the uniform distribution. -/
example : Rescaled (1 / 2) (1 / 4) (![![3/4, 1/4], ![1/4, 3/4]] : Fin 2 → Fin 2 → ℚ) ![![5/8, 3/8], ![3/8, 5/8]] ∧
    Usable (1 / 4) (1 / 2) (![0, 1] : Fin 2 → Fin 2) (![![3/4, 1/4], ![1/4, 3/4]] : Fin 2 → Fin 2 → ℚ) := by
  refine ⟨⟨by decide +kernel, by norm_num, by norm_num⟩, fun k _ => ?_, by decide +kernel⟩
  revert k
  decide +kernel

end Cleanlab.Props
