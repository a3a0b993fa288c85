import Verif.Lemmas.Count
import Mathlib.Tactic.FinCases

/-!
# C01, C03, C04, C05: confident joint, thresholds and estimated joint
-/

namespace Cleanlab.Props

open Np Cleanlab.Util Cleanlab.Count Cleanlab.Spec

variable {n K : ℕ}

/-! ## C01 -/

/-- **C01.** The calibrated confident joint has non-negative integer entries, its `k`-th row sums to the
number of examples given label `k`, and all entries together sum to `n`; for every data set, every
threshold vector and every admissible `argsort`. -/
theorem C01_calibrated_confident_joint (A : ArgSort ℚ) [NeZero K] (labels : Fin n → Fin K)
    (P : Fin n → Fin K → ℚ) (thr : Fin K → ℚ) :
    (∀ a b, 0 ≤ computeConfidentJoint A labels P thr true a b) ∧
    (∀ a, ∑ b, computeConfidentJoint A labels P thr true a b = (numGiven labels a : ℤ)) ∧
    ∑ a, ∑ b, computeConfidentJoint A labels P thr true a b = (n : ℤ) := by
  have h := calibrate_spec A (fun a b => (confidentJointRaw labels P thr a b : ℚ)) labels
    (fun a => Or.inl (raw_row_tiny labels P thr a)) (fun a b => by positivity)
  have hrow : ∀ a, ∑ b, computeConfidentJoint A labels P thr true a b = (numGiven labels a : ℤ) :=
    fun a => (h a).1
  refine ⟨fun a b => (h a).2 b, hrow, ?_⟩
  rw [Finset.sum_congr rfl (fun a _ => hrow a), ← Nat.cast_sum, sum_numGiven]

/-- **C01**, user supplied confident joint: the same holds for any non-negative matrix in which every
class that has examples has a row total of at least `1e-100`. -/
theorem C01_calibrate_user_joint (A : ArgSort ℚ) (cj : Fin K → Fin K → ℚ) (labels : Fin n → Fin K)
    (hnn : ∀ a b, 0 ≤ cj a b)
    (hrow : ∀ a, (∃ i, labels i = a) → (1 : ℚ) / 10 ^ 100 ≤ ∑ b, cj a b) :
    (∀ a b, 0 ≤ calibrateConfidentJoint A cj labels a b) ∧
    (∀ a, ∑ b, calibrateConfidentJoint A cj labels a b = (numGiven labels a : ℤ)) := by
  have h := calibrate_spec A cj labels (fun a => by
    by_cases hex : ∃ i, labels i = a
    · exact Or.inl (hrow a hex)
    · right
      unfold numGiven
      rw [Finset.card_eq_zero, Finset.filter_eq_empty_iff]
      intro i _ hi
      exact hex ⟨i, hi⟩) hnn
  exact ⟨fun a b => (h a).2 b, fun a => (h a).1⟩

example : (∀ a b, (0 : ℚ) ≤ (![![3, 1], ![0, 2]] : Fin 2 → Fin 2 → ℚ) a b) ∧
    (∀ a, (∃ i, (![0, 1, 1] : Fin 3 → Fin 2) i = a) →
      (1 : ℚ) / 10 ^ 100 ≤ ∑ b, (![![3, 1], ![0, 2]] : Fin 2 → Fin 2 → ℚ) a b) := by
  refine ⟨by decide +kernel, ?_⟩
  intro a _
  fin_cases a <;> simp [Fin.sum_univ_succ] <;> norm_num

/-- The hypothesis on row totals is needed: with a zero row for a class that has an example the row
totals of the result are not the label counts (here `[0, 2]` instead of `[1, 1]`). -/
theorem C01_zero_row_breaks_row_totals (A : ArgSort ℚ) :
    ∑ b, calibrateConfidentJoint A (![![0, 0], ![0, 1]] : Fin 2 → Fin 2 → ℚ)
      (![0, 1] : Fin 2 → Fin 2) 0 b = 0 ∧
    ∑ b, calibrateConfidentJoint A (![![0, 0], ![0, 1]] : Fin 2 → Fin 2 → ℚ)
      (![0, 1] : Fin 2 → Fin 2) 1 b = 2 := by
  unfold calibrateConfidentJoint
  rw [(roundRows_spec A _ 0).1, (roundRows_spec A _ 1).1]
  decide +kernel

/-! ## C03 -/

/-- **C03 (refuted as stated).** The confident joint does *not* count, for every data set, the examples
whose most probable threshold-reaching class is `b`: with two or more such classes the code takes the
overall argmax, which may itself miss its threshold. The witness uses the default thresholds. -/
theorem C03_not_most_probable_confident :
    ¬ ∀ (n K : ℕ) (_ : NeZero K) (labels : Fin n → Fin K) (P : Fin n → Fin K → ℚ),
      RowStochastic P → ∀ a b, a ≠ b →
        confidentJointRaw labels P (getConfidentThresholds labels P) a b =
          (Finset.univ.filter (fun i => labels i = a ∧
            MostProbableConfident P (getConfidentThresholds labels P) i b)).card := by
  intro h
  have h1 := h 3 3 inferInstance ![0, 1, 2] ![![1, 0, 0], ![1/2, 3/10, 1/5], ![1/2, 3/10, 1/5]]
    (by unfold RowStochastic; decide +kernel) 1 0 (by decide)
  revert h1
  decide +kernel

/-- **C03 (partial).** What the code counts: off the diagonal, entry `(a, b)` is the number of examples
given label `a` for which either `b` is the only class reaching its threshold, or at least two classes
reach theirs and `b` is the overall prediction; diagonal entries are that count raised to at least 1.
Missing for the full property: the overall prediction need not reach its own threshold. -/
theorem C03_confident_joint_counts_partial [NeZero K] (labels : Fin n → Fin K) (P : Fin n → Fin K → ℚ)
    (thr : Fin K → ℚ) (a b : Fin K) :
    let assigned := fun i => (Reaches P thr i b ∧ ∀ k, Reaches P thr i k → k = b) ∨
      ((∃ k l, k ≠ l ∧ Reaches P thr i k ∧ Reaches P thr i l) ∧ IsPrediction (P i) b)
    ∀ _ : DecidablePred assigned,
    confidentJointRaw labels P thr a b =
      if a = b then max 1 (Finset.univ.filter (fun i => labels i = a ∧ assigned i)).card
      else (Finset.univ.filter (fun i => labels i = a ∧ assigned i)).card := by
  intro assigned _
  have hset : (Finset.univ.filter (fun i => labels i = a ∧ (∃ k, Reaches P thr i k) ∧
      trueLabelGuess P thr i = b)) = Finset.univ.filter (fun i => labels i = a ∧ assigned i) := by
    ext i
    simp only [Finset.mem_filter, Finset.mem_univ, true_and, assigned]
    refine and_congr_right (fun _ => ?_)
    constructor
    · rintro ⟨⟨k, hk⟩, hg⟩
      by_cases hu : ∀ l, Reaches P thr i l → l = k
      · left
        rw [trueLabelGuess_of_unique P thr i k hk hu] at hg
        subst hg
        exact ⟨hk, hu⟩
      · right
        push Not at hu
        obtain ⟨l, hl, hlk⟩ := hu
        rw [trueLabelGuess_of_two P thr i l k hlk hl hk] at hg
        exact ⟨⟨l, k, hlk, hl, hk⟩, (argmax_eq_iff_isPrediction _ _).mp hg⟩
    · rintro (⟨hb, hu⟩ | ⟨⟨k, l, hkl, hk, hl⟩, hp⟩)
      · exact ⟨⟨b, hb⟩, trueLabelGuess_of_unique P thr i b hb hu⟩
      · refine ⟨⟨k, hk⟩, ?_⟩
        rw [trueLabelGuess_of_two P thr i k l hkl hk hl]
        exact (argmax_eq_iff_isPrediction _ _).mpr hp
  unfold confidentJointRaw
  simp only
  rw [confidentJointRaw_count, hset, max_comm]

/-- **C03**, the case where the property does hold: if in every row the prediction reaches its
threshold whenever two or more classes do, the off-diagonal counts are those of the most probable
threshold-reaching class. -/
theorem C03_most_probable_confident_partial [NeZero K] (labels : Fin n → Fin K) (P : Fin n → Fin K → ℚ)
    (thr : Fin K → ℚ)
    (hpred : ∀ i, (∃ k l, k ≠ l ∧ Reaches P thr i k ∧ Reaches P thr i l) →
      ∀ b, IsPrediction (P i) b → Reaches P thr i b)
    (a b : Fin K) (hab : a ≠ b) :
    confidentJointRaw labels P thr a b =
      (Finset.univ.filter (fun i => labels i = a ∧ MostProbableConfident P thr i b)).card := by
  classical
  rw [C03_confident_joint_counts_partial labels P thr a b inferInstance, if_neg hab]
  congr 1
  ext i
  simp only [Finset.mem_filter, Finset.mem_univ, true_and]
  refine and_congr_right (fun _ => ?_)
  constructor
  · rintro (⟨hb, hu⟩ | ⟨h2, hp⟩)
    · refine ⟨hb, fun k hk => by rw [hu k hk], fun k hk hr => absurd (hu k hr) (ne_of_lt hk)⟩
    · exact ⟨hpred i h2 b hp, fun k _ => hp.1 k, fun k hk _ => hp.2 k hk⟩
  · rintro ⟨hb, hmax, hfirst⟩
    by_cases hu : ∀ k, Reaches P thr i k → k = b
    · exact Or.inl ⟨hb, hu⟩
    · right
      push Not at hu
      obtain ⟨l, hl, hlb⟩ := hu
      have h2 : ∃ k l, k ≠ l ∧ Reaches P thr i k ∧ Reaches P thr i l := ⟨l, b, hlb, hl, hb⟩
      refine ⟨h2, ?_⟩
      have hm := (argmax_eq_iff_isPrediction (P i) (argmax (P i))).mp rfl
      have hmr := hpred i h2 _ hm
      have : argmax (P i) = b := by
        rcases lt_trichotomy (argmax (P i)) b with h | h | h
        · exact absurd (hfirst _ h hmr) (not_lt.mpr (hm.1 b))
        · exact h
        · exact absurd (hm.2 b h) (not_lt.mpr (hmax _ hmr))
      rw [← this]; exact hm

example : ∀ i : Fin 3, (∃ k l : Fin 2, k ≠ l ∧
      Reaches (![![9/10, 1/10], ![1/2, 1/2], ![2/5, 3/5]] : Fin 3 → Fin 2 → ℚ) ![1/2, 1/2] i k ∧
      Reaches (![![9/10, 1/10], ![1/2, 1/2], ![2/5, 3/5]] : Fin 3 → Fin 2 → ℚ) ![1/2, 1/2] i l) →
    ∀ b, IsPrediction ((![![9/10, 1/10], ![1/2, 1/2], ![2/5, 3/5]] : Fin 3 → Fin 2 → ℚ) i) b →
      Reaches (![![9/10, 1/10], ![1/2, 1/2], ![2/5, 3/5]] : Fin 3 → Fin 2 → ℚ) ![1/2, 1/2] i b := by
  decide +kernel

/-- **C03.** The returned off-diagonal indices are strictly increasing and are exactly the examples
assigned to a class other than their given one. -/
theorem C03_off_diagonal_indices [NeZero K] (labels : Fin n → Fin K) (P : Fin n → Fin K → ℚ)
    (thr : Fin K → ℚ) :
    (offDiagonalIndices labels P thr).Pairwise (· < ·) ∧
    ∀ i, i ∈ offDiagonalIndices labels P thr ↔
      ∃ b, b ≠ labels i ∧ ((Reaches P thr i b ∧ ∀ k, Reaches P thr i k → k = b) ∨
        ((∃ k l, k ≠ l ∧ Reaches P thr i k ∧ Reaches P thr i l) ∧ IsPrediction (P i) b)) := by
  constructor
  · exact ((List.pairwise_lt_finRange n).filter _).filter _
  · intro i
    unfold offDiagonalIndices confidentRows
    simp only [List.mem_filter, List.mem_finRange, true_and, atLeastOneConfident_iff, decide_eq_true_eq]
    constructor
    · rintro ⟨⟨k, hk⟩, hne⟩
      refine ⟨trueLabelGuess P thr i, hne, ?_⟩
      by_cases hu : ∀ l, Reaches P thr i l → l = k
      · left
        rw [trueLabelGuess_of_unique P thr i k hk hu]
        exact ⟨hk, hu⟩
      · right
        push Not at hu
        obtain ⟨l, hl, hlk⟩ := hu
        rw [trueLabelGuess_of_two P thr i l k hlk hl hk]
        exact ⟨⟨l, k, hlk, hl, hk⟩, (argmax_eq_iff_isPrediction _ _).mp rfl⟩
    · rintro ⟨b, hb, ⟨hr, hu⟩ | ⟨⟨k, l, hkl, hk, hl⟩, hp⟩⟩
      · refine ⟨⟨b, hr⟩, ?_⟩
        rw [trueLabelGuess_of_unique P thr i b hr hu]; exact hb
      · refine ⟨⟨k, hk⟩, ?_⟩
        rw [trueLabelGuess_of_two P thr i k l hkl hk hl, (argmax_eq_iff_isPrediction _ _).mpr hp]
        exact hb

/-! ## C04 -/

/-- **C04.** A class with at least one example has as threshold its mean self-confidence, raised to at
least `2e-6`. -/
theorem C04_threshold_present (labels : Fin n → Fin K) (P : Fin n → Fin K → ℚ) (k : Fin K)
    (h : ∃ i, labels i = k) :
    getConfidentThresholds labels P k = max (meanSelfConfidence labels P k) (2 / 1000000) := by
  unfold getConfidentThresholds
  rw [if_pos ((mem_ofFn_iff labels k).mpr h), classMean_eq]
  rfl

example : ∃ i, (![0, 1, 1] : Fin 3 → Fin 2) i = 1 := ⟨1, rfl⟩

/-- **C04.** A class without examples has a threshold that no probability can reach, even up to the
tolerance. -/
theorem C04_threshold_absent (labels : Fin n → Fin K) (P : Fin n → Fin K → ℚ) (hP : ∀ i k, P i k ≤ 1)
    (k : Fin K) (h : ∀ i, labels i ≠ k) (i : Fin n) :
    ¬ Reaches P (getConfidentThresholds labels P) i k := by
  unfold Reaches getConfidentThresholds
  rw [if_neg (by rw [mem_ofFn_iff]; rintro ⟨i, hi⟩; exact h i hi), not_le]
  refine lt_of_lt_of_le ?_ (le_max_left _ _)
  linarith [hP i k]

example : (∀ i : Fin 2, (![1, 1] : Fin 2 → Fin 2) i ≠ 0) ∧
    ∀ (i : Fin 2) (k : Fin 2), (![![1/2, 1/2], ![1/4, 3/4]] : Fin 2 → Fin 2 → ℚ) i k ≤ 1 := by
  decide +kernel

/-- **C04 (refuted in part).** Although no example reaches the threshold of an absent class, examples
*can* be counted into an absent class: here class 0 has no examples, but both examples are counted in its
column, because two other classes reach their thresholds and class 0 is the overall prediction. -/
theorem C04_absent_class_is_counted :
    ∃ (labels : Fin 2 → Fin 3) (P : Fin 2 → Fin 3 → ℚ), RowStochastic P ∧ (∀ i, labels i ≠ 0) ∧
      confidentJointRaw labels P (getConfidentThresholds labels P) 1 0 = 1 ∧
      confidentJointRaw labels P (getConfidentThresholds labels P) 2 0 = 1 ∧
      offDiagonalIndices labels P (getConfidentThresholds labels P) = [0, 1] :=
  ⟨![1, 2], ![![1/2, 3/10, 1/5], ![1/2, 3/10, 1/5]], by unfold RowStochastic; decide +kernel,
    by decide, by decide +kernel, by decide +kernel, by decide +kernel⟩

/-- **C04 (partial).** An example is counted into an absent class only if two other classes reach their
thresholds and the absent class is the overall prediction. -/
theorem C04_absent_class_partial [NeZero K] (labels : Fin n → Fin K) (P : Fin n → Fin K → ℚ)
    (hP : ∀ i k, P i k ≤ 1) (b : Fin K) (h : ∀ i, labels i ≠ b) (i : Fin n)
    (hb : ∃ k, Reaches P (getConfidentThresholds labels P) i k)
    (hg : trueLabelGuess P (getConfidentThresholds labels P) i = b) :
    (∃ k l, k ≠ l ∧ Reaches P (getConfidentThresholds labels P) i k ∧
      Reaches P (getConfidentThresholds labels P) i l) ∧ IsPrediction (P i) b := by
  obtain ⟨k, hk⟩ := hb
  by_cases hu : ∀ l, Reaches P (getConfidentThresholds labels P) i l → l = k
  · rw [trueLabelGuess_of_unique P _ i k hk hu] at hg
    subst hg
    exact absurd hk (C04_threshold_absent labels P hP k h i)
  · push Not at hu
    obtain ⟨l, hl, hlk⟩ := hu
    rw [trueLabelGuess_of_two P _ i l k hlk hl hk] at hg
    exact ⟨⟨l, k, hlk, hl, hk⟩, (argmax_eq_iff_isPrediction _ _).mp hg⟩

/-! ## C05 -/

/-- **C05.** `estimate_joint` without a supplied confident joint: non-negative entries, row sums equal to
the observed label frequencies, total 1. -/
theorem C05_estimate_joint (A : ArgSort ℚ) [NeZero K] (labels : Fin n → Fin K) (P : Fin n → Fin K → ℚ)
    (hn : 0 < n) :
    (∀ a b, 0 ≤ estimateJoint A labels P a b) ∧
    (∀ a, ∑ b, estimateJoint A labels P a b = (numGiven labels a : ℚ) / n) ∧
    ∑ a, ∑ b, estimateJoint A labels P a b = 1 := by
  obtain ⟨h1, h2, _⟩ := C01_calibrated_confident_joint A labels P (getConfidentThresholds labels P)
  obtain ⟨g1, g2'⟩ := joint_of_counts _ labels hn h1 h2
  have g2 : ∀ a, ∑ b, estimateJoint A labels P a b = (numGiven labels a : ℚ) / n := g2'
  refine ⟨g1, g2, ?_⟩
  rw [Finset.sum_congr rfl (fun a _ => g2 a), ← Finset.sum_div, ← Nat.cast_sum, sum_numGiven, div_self]
  exact_mod_cast hn.ne'

/-- **C05 (partial)**, with a supplied confident joint. Missing: it must not have a zero row for a class that is present, see
`C05_not_zero_row`. -/
theorem C05_estimate_joint_user_partial (A : ArgSort ℚ) (cj : Fin K → Fin K → ℚ) (labels : Fin n → Fin K)
    (hn : 0 < n) (hnn : ∀ a b, 0 ≤ cj a b)
    (hrow : ∀ a, (∃ i, labels i = a) → (1 : ℚ) / 10 ^ 100 ≤ ∑ b, cj a b) :
    (∀ a b, 0 ≤ estimateJointFrom A cj labels a b) ∧
    (∀ a, ∑ b, estimateJointFrom A cj labels a b = (numGiven labels a : ℚ) / n) ∧
    ∑ a, ∑ b, estimateJointFrom A cj labels a b = 1 := by
  obtain ⟨h1, h2⟩ := C01_calibrate_user_joint A cj labels hnn hrow
  obtain ⟨g1, g2'⟩ := joint_of_counts _ labels hn h1 h2
  have g2 : ∀ a, ∑ b, estimateJointFrom A cj labels a b = (numGiven labels a : ℚ) / n := g2'
  refine ⟨g1, g2, ?_⟩
  rw [Finset.sum_congr rfl (fun a _ => g2 a), ← Finset.sum_div, ← Nat.cast_sum, sum_numGiven, div_self]
  exact_mod_cast hn.ne'

example : 0 < 3 ∧ (∀ a b, (0 : ℚ) ≤ (![![3, 1], ![0, 2]] : Fin 2 → Fin 2 → ℚ) a b) := by decide +kernel

/-- **C05 fails for a supplied confident joint with a zero row.** Half of the examples are given class 0, but the estimated
joint says that none are. -/
theorem C05_not_zero_row (A : ArgSort ℚ) :
    ∑ b, estimateJointFrom A (![![0, 0], ![0, 1]] : Fin 2 → Fin 2 → ℚ) (![0, 1] : Fin 2 → Fin 2) 0 b = 0 ∧
    (numGiven (![0, 1] : Fin 2 → Fin 2) 0 : ℚ) / (2 : ℕ) = 1 / 2 := by
  refine ⟨?_, by decide +kernel⟩
  have h := (C01_zero_row_breaks_row_totals A).1
  unfold estimateJointFrom
  rw [← Finset.sum_div]
  have h' : ∑ b, (calibrateConfidentJoint A (![![0, 0], ![0, 1]] : Fin 2 → Fin 2 → ℚ)
      (![0, 1] : Fin 2 → Fin 2) 0 b : ℚ) = 0 := by exact_mod_cast h
  rw [h', zero_div]

/-- **C05**, consequence: calibrating an already calibrated joint changes no entry. -/
theorem C05_calibration_idempotent (A : ArgSort ℚ) [NeZero K] (labels : Fin n → Fin K)
    (P : Fin n → Fin K → ℚ) (thr : Fin K → ℚ) :
    calibrateConfidentJoint A (fun a b => (computeConfidentJoint A labels P thr true a b : ℚ)) labels
      = computeConfidentJoint A labels P thr true := by
  obtain ⟨h1, h2, _⟩ := C01_calibrated_confident_joint A labels P thr
  set C := computeConfidentJoint A labels P thr true with hC
  have hrow : ∀ a, ∑ b, (C a b : ℚ) = (numGiven labels a : ℚ) := fun a => by exact_mod_cast h2 a
  have hyp : ∀ a, tinyValue ≤ ∑ b, (C a b : ℚ) ∨ numGiven labels a = 0 := by
    intro a
    rcases Nat.eq_zero_or_pos (numGiven labels a) with h | h
    · exact Or.inr h
    · left
      rw [hrow a]
      have h1 : (1 : ℚ) ≤ numGiven labels a := by exact_mod_cast h
      have h3 : tinyValue ≤ 1 := by unfold tinyValue; norm_num
      linarith
  funext a b
  unfold calibrateConfidentJoint
  apply roundRows_intCast
  rw [calibrateTotal_eq _ labels hyp]
  unfold calibrateRows
  rw [labelCounts_eq, hrow a]
  rcases Nat.eq_zero_or_pos (numGiven labels a) with h | h
  · rw [h]
    have hz : ∑ b, C a b = 0 := by rw [h2 a, h]; rfl
    have := (Finset.sum_eq_zero_iff_of_nonneg (fun b _ => h1 a b)).mp hz b (Finset.mem_univ b)
    rw [this]; simp
  · have h1 : (1 : ℚ) ≤ numGiven labels a := by exact_mod_cast h
    rw [clipTiny_of_one_le h1, div_mul_cancel₀]
    exact ne_of_gt (lt_of_lt_of_le one_pos h1)

end Cleanlab.Props
