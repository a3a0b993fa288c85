import Verif.Model.CrossValEstimates
import Verif.Props.Latent
import Verif.Props.CrossVal
import Mathlib.Tactic.FieldSimp

/-!
# C117: the estimates are the frequencies of the confident joint
-/

namespace Cleanlab.Props

open Np Cleanlab.Util Cleanlab.Count Cleanlab.Latent Cleanlab.Spec Cleanlab.CrossVal

variable {n K : ℕ}

/-- A joint of counts for the labels in which every class has a correctly labelled example, for at most 10000
examples. -/
structure Regular (J : Fin K → Fin K → ℚ) (labels : Fin n → Fin K) : Prop where
  nonneg : ∀ s y, 0 ≤ J s y
  diag : ∀ k, 1 ≤ J k k
  row : ∀ s, ∑ y, J s y = numGiven labels s
  small : n ≤ 10000

/-- For `py_method = "eqn"`: the vector is the solution of the linear system, and the matrix of the system is regular. -/
def Solves (J : Fin K → Fin K → ℚ) (labels : Fin n → Fin K) : PyMethod K → Prop
  | .eqn x => (∀ s, ∑ y, J s y / (∑ s', J s' y) * x y = (numGiven labels s : ℚ) / n) ∧
      ∀ z : Fin K → ℚ, (∀ s, ∑ y, J s y / (∑ s', J s' y) * z y = 0) → z = 0
  | _ => True

/-- The frequencies: of the true classes, of the given label in a true class, of the true class in a given label. -/
def frequencies (J : Fin K → Fin K → ℚ) (labels : Fin n → Fin K) : Estimates K :=
  (fun y => (∑ s, J s y) / n, fun s y => J s y / ∑ s', J s' y, fun y s => J s y / numGiven labels s)

theorem tiny_le_div {a b : ℚ} (ha : 1 ≤ a) (hb : 0 < b) (hb' : b ≤ 10000) : tiny ≤ a / b := by
  have h1 : (1 : ℚ) / 10000 ≤ a / b := by rw [div_le_div_iff₀ (by norm_num) hb]; linarith
  refine le_trans ?_ h1
  unfold tiny
  norm_num

namespace Regular

variable {J : Fin K → Fin K → ℚ} {labels : Fin n → Fin K}

theorem total (h : Regular J labels) : ∑ y, ∑ s, J s y = n := by
  rw [Finset.sum_comm, Finset.sum_congr rfl (fun s _ => h.row s), ← Nat.cast_sum, sum_numGiven]

theorem le_col (h : Regular J labels) (s y : Fin K) : J s y ≤ ∑ s', J s' y :=
  Finset.single_le_sum (f := fun s' => J s' y) (fun s' _ => h.nonneg s' y) (Finset.mem_univ s)

theorem le_row (h : Regular J labels) (s y : Fin K) : J s y ≤ numGiven labels s :=
  (Finset.single_le_sum (f := fun y' => J s y') (fun y' _ => h.nonneg s y') (Finset.mem_univ y)).trans_eq (h.row s)

theorem col_one (h : Regular J labels) (y : Fin K) : 1 ≤ ∑ s, J s y := (h.diag y).trans (h.le_col y y)

theorem row_one (h : Regular J labels) (s : Fin K) : (1 : ℚ) ≤ numGiven labels s := (h.diag s).trans (h.le_row s s)

theorem col_le (h : Regular J labels) (y : Fin K) : ∑ s, J s y ≤ n := by
  rw [← h.total]
  exact Finset.single_le_sum (f := fun y' => ∑ s, J s y') (fun y' _ => zero_le_one.trans (h.col_one y')) (Finset.mem_univ y)

theorem n_le (h : Regular J labels) : (n : ℚ) ≤ 10000 := by exact_mod_cast h.small

theorem n_one (h : Regular J labels) (y : Fin K) : (1 : ℚ) ≤ n := (h.col_one y).trans (h.col_le y)

theorem row_le (_ : Regular J labels) (s : Fin K) : (numGiven labels s : ℚ) ≤ n := by
  have : numGiven labels s ≤ n := by
    refine le_of_le_of_eq ?_ (sum_numGiven labels)
    exact Finset.single_le_sum (f := fun k => numGiven labels k) (fun _ _ => Nat.zero_le _) (Finset.mem_univ s)
  exact_mod_cast this

theorem off_col (h : Regular J labels) {s y : Fin K} (hsy : s ≠ y) : J s y + 1 ≤ ∑ s', J s' y := by
  have h1 : J s y + J y y ≤ ∑ s', J s' y := by
    rw [← Finset.sum_pair (f := fun s' => J s' y) hsy]
    exact Finset.sum_le_sum_of_subset_of_nonneg (Finset.subset_univ _) (fun s' _ _ => h.nonneg s' y)
  linarith [h.diag y]

theorem off_row (h : Regular J labels) {s y : Fin K} (hsy : s ≠ y) : J s y + 1 ≤ numGiven labels s := by
  have h1 : J s s + J s y ≤ ∑ y', J s y' := by
    rw [← Finset.sum_pair (f := fun y' => J s y') hsy]
    exact Finset.sum_le_sum_of_subset_of_nonneg (Finset.subset_univ _) (fun y' _ _ => h.nonneg s y')
  linarith [h.diag s, h.row s]

theorem noise_fixed (h : Regular J labels) :
    clipNoiseRates (fun s y => J s y / ∑ s', J s' y) = fun s y => J s y / ∑ s', J s' y := by
  apply clipNoiseRates_of_stochastic
  · intro s y; exact div_nonneg (h.nonneg s y) (zero_le_one.trans (h.col_one y))
  · intro s y hsy
    have h1 := h.col_one y
    rw [div_le_iff₀ (by linarith)]
    linarith [h.off_col hsy, h.col_le y, h.n_le]
  · intro y
    rw [← Finset.sum_div, div_self (by have := h.col_one y; positivity)]

theorem inv_fixed (h : Regular J labels) :
    clipNoiseRates (fun y s => J s y / numGiven labels s) = fun y s => J s y / numGiven labels s := by
  apply clipNoiseRates_of_stochastic
  · intro y s; exact div_nonneg (h.nonneg s y) (zero_le_one.trans (h.row_one s))
  · intro y s hsy
    have h1 := h.row_one s
    rw [div_le_iff₀ (by linarith)]
    linarith [h.off_row hsy.symm, h.row_le s, h.n_le]
  · intro s
    rw [← Finset.sum_div, h.row s, div_self (by have := h.row_one s; positivity)]

theorem py_fixed (h : Regular J labels) {low : ℚ} (hl : low ≤ 1 / 10000) :
    clipValues (fun y => (∑ s, J s y) / n) low 1 (some 1) = fun y => (∑ s, J s y) / n := by
  funext y
  have hn := h.n_one y
  have hc : ∀ y, clip ((∑ s, J s y) / n) low 1 = (∑ s, J s y) / n := by
    intro y
    apply clip_of_mem
    · refine hl.trans ?_
      rw [div_le_div_iff₀ (by norm_num) (by linarith)]
      linarith [h.col_one y, h.n_le]
    · rw [div_le_one (by linarith)]
      exact h.col_le y
  unfold clipValues
  simp only [hc]
  rw [← Finset.sum_div, h.total, div_self (by positivity), clipTiny_of_one_le le_rfl]
  ring

/-- The frequencies of the true classes solve the linear system. -/
theorem eqn (h : Regular J labels) (s : Fin K) :
    ∑ y, J s y / (∑ s', J s' y) * ((∑ s', J s' y) / n) = (numGiven labels s : ℚ) / n := by
  rw [← h.row s, Finset.sum_div]
  apply Finset.sum_congr rfl
  intro y _
  have := h.col_one y
  field_simp

theorem counts (h : Regular J labels) (k : Fin K) : (J k k / numGiven labels k) / clipTiny (J k k / ∑ s, J s k) *
    ((numGiven labels k : ℚ) / n) = (∑ s, J s k) / n := by
  have h1 := h.col_one k
  have h2 := h.row_one k
  have h3 := h.diag k
  have h4 := h.n_one k
  have h5 : tiny ≤ J k k / ∑ s, J s k := by
    exact tiny_le_div h3 (by linarith) ((h.col_le k).trans h.n_le)
  rw [clipTiny_of_le h5]
  field_simp

theorem ps_tiny (h : Regular J labels) (s : Fin K) : tiny ≤ (numGiven labels s : ℚ) / n := by
  exact tiny_le_div (h.row_one s) (by linarith [h.n_one s]) h.n_le

theorem py_tiny (h : Regular J labels) (y : Fin K) : tiny ≤ (∑ s, J s y) / n := by
  exact tiny_le_div (h.col_one y) (by linarith [h.n_one y]) h.n_le

theorem raw (h : Regular J labels) (method : PyMethod K) (hm : Solves J labels method) :
    rawPy (fun k => (numGiven labels k : ℚ) / n) (fun s y => J s y / ∑ s', J s' y) (fun y s => J s y / numGiven labels s)
      (some (fun y => ∑ s, J s y)) method = .ok (fun y => (∑ s, J s y) / n) := by
  cases method with
  | cnt => exact congrArg Except.ok (funext h.counts)
  | eqn x =>
    refine congrArg Except.ok ?_
    have := hm.2 (fun y => x y - (∑ s, J s y) / n) (fun s => by
      simp only [mul_sub, Finset.sum_sub_distrib, hm.1 s, h.eqn s, sub_self])
    funext y
    have := congrFun this y
    simp only [Pi.zero_apply] at this
    linarith
  | marginal =>
    refine congrArg Except.ok (funext fun y => ?_)
    rw [h.total, clipTiny_of_one_le (h.n_one y)]
  | marginalPs =>
    refine congrArg Except.ok (funext fun y => ?_)
    rw [Finset.sum_div]
    apply Finset.sum_congr rfl
    intro s _
    have := h.row_one s
    field_simp

theorem inner_fixed (h : Regular J labels) :
    convergeInner (fun k => (numGiven labels k : ℚ) / n) (frequencies J labels).2.1
      ((frequencies J labels).1, (frequencies J labels).2.2) = ((frequencies J labels).1, (frequencies J labels).2.2) := by
  have hi : computeInvNoiseMatrix (frequencies J labels).1 (frequencies J labels).2.1
      (some (fun k => (numGiven labels k : ℚ) / n)) = (frequencies J labels).2.2 := by
    unfold computeInvNoiseMatrix frequencies
    dsimp only [Option.getD]
    rw [← h.inv_fixed]
    congr 1
    funext y s
    have h1 := h.col_one y
    have h2 := h.row_one s
    have h3 := h.n_one y
    rw [clipTiny_of_le (h.ps_tiny s)]
    field_simp
  unfold convergeInner
  dsimp only
  rw [hi]
  refine Prod.ext ?_ rfl
  dsimp only [frequencies]
  simp only [h.counts]
  exact h.py_fixed (by unfold clippingLowerBound; norm_num)

theorem outer_fixed (h : Regular J labels) :
    convergeOuter (fun k => (numGiven labels k : ℚ) / n) (frequencies J labels) = frequencies J labels := by
  unfold convergeOuter
  dsimp only
  rw [Function.iterate_fixed h.inner_fixed]
  refine Prod.ext rfl (Prod.ext ?_ rfl)
  unfold computeNoiseMatrixFromInverse frequencies
  dsimp only [Option.getD]
  rw [← h.noise_fixed]
  congr 1
  funext s y
  have h1 := h.col_one y
  have h2 := h.row_one s
  have h3 := h.n_one y
  rw [clipTiny_of_le (h.py_tiny y)]
  field_simp

end Regular

/-- **C117 (partial).** For a joint of counts with a correctly labelled example in every class and at most 10000 examples
the estimates are the frequencies in the joint, with every `py_method` and with or without `converge_latent_estimates`.
Missing: classes without a correctly labelled example in the joint, and larger data sets with very rare classes. -/
theorem C117_latent_partial (J : Fin K → Fin K → ℚ) (labels : Fin n → Fin K) (h : Regular J labels) (method : PyMethod K)
    (hm : Solves J labels method) (converge : Bool) :
    estimateLatent J labels method converge = .ok (frequencies J labels) := by
  unfold estimateLatent
  have e1 : (fun s y => J s y / clipTiny (∑ s', J s' y)) = fun s y => J s y / ∑ s', J s' y := by
    funext s y; rw [clipTiny_of_one_le (h.col_one y)]
  have e2 : (fun y s => J s y / clipTiny (∑ y', J s y')) = fun y s => J s y / (numGiven labels s : ℚ) := by
    funext y s; rw [h.row s, clipTiny_of_one_le (h.row_one s)]
  simp only [e1, e2, labelCounts_eq]
  unfold computePy
  rw [h.raw method hm]
  dsimp only [bind, Except.bind, pure, Except.pure]
  rw [h.noise_fixed, h.inv_fixed, h.py_fixed (by unfold clippingLowerBound; norm_num)]
  cases converge with
  | false => rfl
  | true =>
    rw [if_pos rfl]
    unfold convergeEstimates
    rw [show ((fun y => (∑ s, J s y) / (n : ℚ)), (fun s y => J s y / ∑ s', J s' y),
      fun y s => J s y / (numGiven labels s : ℚ)) = frequencies J labels from rfl, Function.iterate_fixed h.outer_fixed]
    unfold frequencies
    dsimp only
    rw [h.noise_fixed, h.inv_fixed, h.py_fixed (by norm_num)]

/-- **C117 (partial).** So the estimates agree with one another: the prior and the noise matrix have the same joint as the
given label frequencies and the inverse noise matrix, and the columns of the matrices and the prior are distributions. -/
theorem C117_consistent_partial (J : Fin K → Fin K → ℚ) (labels : Fin n → Fin K) (h : Regular J labels) :
    (∀ s y, (frequencies J labels).2.1 s y * (frequencies J labels).1 y =
        (frequencies J labels).2.2 y s * ((numGiven labels s : ℚ) / n)) ∧
      (∀ y, IsDistribution (fun s => (frequencies J labels).2.1 s y)) ∧
      (∀ s, IsDistribution (fun y => (frequencies J labels).2.2 y s)) ∧
      (0 < K → IsDistribution (frequencies J labels).1) := by
  unfold frequencies
  refine ⟨fun s y => ?_, fun y => ⟨fun s => ?_, ?_⟩, fun s => ⟨fun y => ?_, ?_⟩, fun hK => ⟨fun y => ?_, ?_⟩⟩
  · have h1 := h.col_one y
    have h2 := h.row_one s
    have h3 := h.n_one y
    dsimp only
    field_simp
  · exact div_nonneg (h.nonneg s y) (zero_le_one.trans (h.col_one y))
  · dsimp only
    rw [← Finset.sum_div, div_self (by have := h.col_one y; positivity)]
  · exact div_nonneg (h.nonneg s y) (zero_le_one.trans (h.row_one s))
  · dsimp only
    rw [← Finset.sum_div, h.row s, div_self (by have := h.row_one s; positivity)]
  · exact div_nonneg (zero_le_one.trans (h.col_one y)) (zero_le_one.trans (h.n_one y))
  · dsimp only
    have := h.n_one ⟨0, hK⟩
    rw [← Finset.sum_div, h.total, div_self (by positivity)]

/-- **C117 (partial).** If in every class some example has its given label as prediction and reaches the threshold, every
entry of the diagonal of the calibrated confident joint is at least 1. -/
theorem C117_diagonal_partial (A : ArgSort ℚ) [NeZero K] (labels : Fin n → Fin K) (P : Fin n → Fin K → ℚ) (thr : Fin K → ℚ)
    (k : Fin K) (h : ∃ i, labels i = k ∧ IsPrediction (P i) k ∧ Reaches P thr i k) :
    1 ≤ computeConfidentJoint A labels P thr true k k := by
  obtain ⟨i, h1, h2, h3⟩ := h
  have hg : trueLabelGuess P thr i = k := by
    by_cases hu : ∀ l, Reaches P thr i l → l = k
    · exact trueLabelGuess_of_unique P thr i k h3 hu
    · push Not at hu
      obtain ⟨l, hl, hlk⟩ := hu
      rw [trueLabelGuess_of_two P thr i l k hlk hl h3]
      exact (argmax_eq_iff_isPrediction _ _).mpr h2
  have hcard : ∀ b, confidentJointRaw labels P thr k b = (Finset.univ.filter (fun i => labels i = k ∧
      (∃ c, Reaches P thr i c) ∧ trueLabelGuess P thr i = b)).card := by
    intro b
    unfold confidentJointRaw
    dsimp only
    rw [confidentJointRaw_count]
    split_ifs with hkb
    · subst hkb
      apply max_eq_left
      apply Finset.card_pos.mpr
      exact ⟨i, by simp only [Finset.mem_filter, Finset.mem_univ, true_and]; exact ⟨h1, ⟨k, h3⟩, hg⟩⟩
    · rfl
  have hsum : ∑ b, confidentJointRaw labels P thr k b ≤ numGiven labels k := by
    rw [Finset.sum_congr rfl (fun b _ => hcard b)]
    have := Finset.card_eq_sum_card_fiberwise (s := Finset.univ.filter (fun i => labels i = k ∧ ∃ c, Reaches P thr i c))
      (t := Finset.univ) (f := trueLabelGuess P thr) (fun i _ => Finset.mem_univ _)
    simp only [Finset.filter_filter, and_assoc] at this
    rw [← this]
    unfold numGiven
    apply Finset.card_le_card
    intro j hj
    simp only [Finset.mem_filter, Finset.mem_univ, true_and] at hj ⊢
    exact hj.1
  have hraw : 1 ≤ confidentJointRaw labels P thr k k := confidentJointRaw_diag_pos labels P thr k
  have hle : confidentJointRaw labels P thr k k ≤ ∑ b, confidentJointRaw labels P thr k b :=
    Finset.single_le_sum (f := fun b => confidentJointRaw labels P thr k b) (fun _ _ => Nat.zero_le _) (Finset.mem_univ k)
  have hx : 1 ≤ calibrateTotal (fun a b => (confidentJointRaw labels P thr a b : ℚ)) labels k k := by
    rw [calibrateTotal_eq _ labels (fun a => Or.inl (raw_row_tiny labels P thr a))]
    unfold calibrateRows
    have q1 : (1 : ℚ) ≤ ∑ b, (confidentJointRaw labels P thr k b : ℚ) := by exact_mod_cast hraw.trans hle
    have q2 : (∑ b, (confidentJointRaw labels P thr k b : ℚ)) ≤ numGiven labels k := by exact_mod_cast hsum
    have q3 : (1 : ℚ) ≤ confidentJointRaw labels P thr k k := by exact_mod_cast hraw
    rw [clipTiny_of_one_le q1, labelCounts_eq, div_mul_eq_mul_div, le_div_iff₀ (by linarith)]
    nlinarith
  have hr : 1 ≤ rint (calibrateTotal (fun a b => (confidentJointRaw labels P thr a b : ℚ)) labels k k) := by
    have := rint_mono hx
    rwa [show (1 : ℚ) = ((1 : ℤ) : ℚ) by norm_num, rint_intCast] at this
  unfold computeConfidentJoint calibrateConfidentJoint
  rw [if_pos rfl]
  rcases (roundRows_spec A (calibrateTotal (fun a b => (confidentJointRaw labels P thr a b : ℚ)) labels) k).2 k with
    e | ⟨e, -⟩ | ⟨e, e'⟩
  · omega
  · omega
  · have : (1 : ℚ) < (rint (calibrateTotal (fun a b => (confidentJointRaw labels P thr a b : ℚ)) labels k k) : ℚ) :=
      lt_of_le_of_lt hx e'
    have : 1 < rint (calibrateTotal (fun a b => (confidentJointRaw labels P thr a b : ℚ)) labels k k) := by
      exact_mod_cast this
    omega

/-- The thresholds used: those given or the mean self-confidences. -/
def usedThresholds (labels : Fin n → Fin K) (P : Fin n → Fin K → ℚ) (thr : Option (Fin K → ℚ)) : Fin K → ℚ :=
  thr.getD (getConfidentThresholds labels P)

theorem jointOf_eq (A : ArgSort ℚ) [NeZero K] (labels : Fin n → Fin K) (P : Fin n → Fin K → ℚ) (thr : Option (Fin K → ℚ))
    (calibrate : Bool) : jointOf A labels P thr calibrate =
      computeConfidentJoint A labels P (usedThresholds labels P thr) calibrate := by
  cases thr <;> rfl

theorem regular_joint (A : ArgSort ℚ) [NeZero K] (labels : Fin n → Fin K) (P : Fin n → Fin K → ℚ) (thr : Fin K → ℚ)
    (hn : n ≤ 10000) (h : ∀ k, ∃ i, labels i = k ∧ IsPrediction (P i) k ∧ Reaches P thr i k) :
    Regular (fun a b => (computeConfidentJoint A labels P thr true a b : ℚ)) labels := by
  obtain ⟨c1, c2, -⟩ := C01_calibrated_confident_joint A labels P thr
  exact ⟨fun s y => by exact_mod_cast c1 s y, fun k => by exact_mod_cast C117_diagonal_partial A labels P thr k (h k),
    fun s => by exact_mod_cast c2 s, hn⟩

/-- **C117 (partial).** For every data set of at most 10000 examples in which every class has an example with its given
label as prediction that reaches the threshold, the estimates from the predicted probabilities are the frequencies in the
calibrated confident joint returned with them, with every `py_method` and with or without `converge_latent_estimates`. -/
theorem C117_probabilities_partial (A : ArgSort ℚ) [NeZero K] (labels : Fin n → Fin K) (P : Fin n → Fin K → ℚ)
    (thr : Option (Fin K → ℚ)) (converge : Bool) (method : PyMethod K) (hn : n ≤ 10000)
    (h : ∀ k, ∃ i, labels i = k ∧ IsPrediction (P i) k ∧ Reaches P (usedThresholds labels P thr) i k)
    (hm : Solves (fun a b => (jointOf A labels P thr true a b : ℚ)) labels method) :
    fromProbabilities A labels P thr converge method =
      .ok (frequencies (fun a b => (jointOf A labels P thr true a b : ℚ)) labels, jointOf A labels P thr true) := by
  unfold fromProbabilities
  dsimp only
  rw [C117_latent_partial _ labels (by rw [jointOf_eq]; exact regular_joint A labels P _ hn h) method hm converge]
  rfl

/-- **C117.** The cross-validating functions are the ones for given probabilities applied to the out-of-sample
probabilities: whenever the cross-validation succeeds with `P`, the joint and all estimates are those of `P`. -/
theorem C117_cross_validation (A : ArgSort ℚ) [NeZero K] (cv : Cv n K) (labels : Fin n → Fin K) (thr : Option (Fin K → ℚ))
    (converge : Bool) (method : PyMethod K) (P : Fin n → Fin K → ℚ)
    (hP : cvPredProbs cv.order cv.learn cv.validation labels cv.splits = .ok P) :
    (∀ calibrate, jointAndProbs A cv labels thr calibrate = .ok (jointOf A labels P thr calibrate, P)) ∧
      estimatesAndProbs A cv labels thr converge method =
        (fromProbabilities A labels P thr converge method).map (fun r => (r.1, r.2, P)) ∧
      noiseMatricesCv A cv labels thr converge =
        (fromProbabilities A labels P thr converge).map (fun r => (r.1.2.1, r.1.2.2)) := by
  have h0 : ∀ calibrate, jointAndProbs A cv labels thr calibrate = .ok (jointOf A labels P thr calibrate, P) := by
    intro calibrate
    unfold jointAndProbs
    rw [hP]
    rfl
  have h1 : ∀ method, estimatesAndProbs A cv labels thr converge method =
      (fromProbabilities A labels P thr converge method).map (fun r => (r.1, r.2, P)) := by
    intro method
    unfold estimatesAndProbs fromProbabilities
    rw [h0 true]
    dsimp only [bind, Except.bind, pure, Except.pure]
    cases estimateLatent (fun a b => (jointOf A labels P thr true a b : ℚ)) labels method converge <;> rfl
  refine ⟨h0, h1 method, ?_⟩
  unfold noiseMatricesCv
  rw [h1 .cnt]
  cases fromProbabilities A labels P thr converge .cnt <;> rfl

/-- **C117.** `estimate_cv_predicted_probabilities` returns exactly the out-of-sample probabilities, and fails exactly if
the cross-validation does: the estimation of noise rates it runs for nothing cannot fail. -/
theorem C117_cv_probabilities (A : ArgSort ℚ) [NeZero K] (cv : Cv n K) (labels : Fin n → Fin K) :
    cvProbabilities A cv labels = cvPredProbs cv.order cv.learn cv.validation labels cv.splits := by
  cases hP : cvPredProbs cv.order cv.learn cv.validation labels cv.splits with
  | error e =>
    unfold cvProbabilities estimatesAndProbs jointAndProbs
    rw [hP]
    rfl
  | ok P =>
    unfold cvProbabilities
    rw [(C117_cross_validation A cv labels none false .cnt P hP).2.1]
    obtain ⟨c1, -, -⟩ := C01_calibrated_confident_joint A labels P (getConfidentThresholds labels P)
    obtain ⟨py, noise, inv, he, -⟩ := C58_estimate_latent_partial (Nat.pos_of_ne_zero (NeZero.ne K))
      (fun a b => (jointOf A labels P none true a b : ℚ)) (fun a b => by exact_mod_cast c1 a b) labels .cnt false
    unfold fromProbabilities
    dsimp only
    rw [he]
    rfl

/-- **C117.** By default the estimates from probabilities and `estimate_noise_matrices` converge the latent estimates and
calibrate the joint; `estimate_py_noise_matrices_and_cv_pred_proba` by default does not converge them. -/
theorem C117_defaults (A : ArgSort ℚ) [NeZero K] (cv : Cv n K) (labels : Fin n → Fin K) (P : Fin n → Fin K → ℚ)
    (hP : cvPredProbs cv.order cv.learn cv.validation labels cv.splits = .ok P) :
    fromProbabilities A labels P = fromProbabilities A labels P none (converge := true) .cnt (calibrate := true) ∧
      noiseMatricesCv A cv labels =
        (fromProbabilities A labels P none (converge := true)).map (fun r => (r.1.2.1, r.1.2.2)) ∧
      estimatesAndProbs A cv labels =
        (fromProbabilities A labels P none (converge := false)).map (fun r => (r.1, r.2, P)) :=
  ⟨rfl, (C117_cross_validation A cv labels none true .cnt P hP).2.2,
    (C117_cross_validation A cv labels none false .cnt P hP).2.1⟩

/-- Four examples: the joint counts one of two examples given 0 as 1. -/
example : Regular (![![1, 1], ![0, 2]] : Fin 2 → Fin 2 → ℚ) (![0, 0, 1, 1] : Fin 4 → Fin 2) :=
  ⟨by decide +kernel, by decide +kernel, by decide +kernel, by norm_num⟩

example : ((frequencies (![![1, 1], ![0, 2]] : Fin 2 → Fin 2 → ℚ) (![0, 0, 1, 1] : Fin 4 → Fin 2)).1 0,
    (frequencies (![![1, 1], ![0, 2]] : Fin 2 → Fin 2 → ℚ) (![0, 0, 1, 1] : Fin 4 → Fin 2)).2.1 0 1,
    (frequencies (![![1, 1], ![0, 2]] : Fin 2 → Fin 2 → ℚ) (![0, 0, 1, 1] : Fin 4 → Fin 2)).2.2 1 0) =
    ((1 / 4, 1 / 3, 1 / 2) : ℚ × ℚ × ℚ) := by
  decide +kernel

example : Solves (![![1, 1], ![0, 2]] : Fin 2 → Fin 2 → ℚ) (![0, 0, 1, 1] : Fin 4 → Fin 2) (.eqn ![1 / 4, 3 / 4]) := by
  refine ⟨by decide +kernel, fun z hz => ?_⟩
  have h0 := hz 0
  have h1 := hz 1
  simp [Fin.sum_univ_two] at h0 h1
  norm_num at h0 h1
  funext k
  fin_cases k
  · simpa [h1] using h0
  · exact h1

/-- Four examples of two classes, one given 0 and predicted as 1: each class has an example that is predicted correctly and
reaches the threshold. -/
example : ∀ k : Fin 2, ∃ i : Fin 4, (![0, 0, 1, 1] : Fin 4 → Fin 2) i = k ∧
    IsPrediction ((![![9/10, 1/10], ![1/10, 9/10], ![1/5, 4/5], ![1/10, 9/10]] : Fin 4 → Fin 2 → ℚ) i) k ∧
    Reaches (![![9/10, 1/10], ![1/10, 9/10], ![1/5, 4/5], ![1/10, 9/10]] : Fin 4 → Fin 2 → ℚ)
      (getConfidentThresholds ![0, 0, 1, 1] ![![9/10, 1/10], ![1/10, 9/10], ![1/5, 4/5], ![1/10, 9/10]]) i k := by
  decide +kernel

/-- **C117 (refuted as stated).** For a joint of counts without a correctly labelled example of class 0 the prior of class
0 is not its frequency 1/4 in the joint but below a thousandth, with the default `py_method`, although the joint has
the right row sums; `py_method="marginal"` gives 1/4. -/
theorem C117_not_zero_diagonal :
    ¬ ∀ (n K : ℕ) (J : Fin K → Fin K → ℚ) (labels : Fin n → Fin K) (method : PyMethod K) (converge : Bool),
      0 < n → n ≤ 10000 → (∀ s y, 0 ≤ J s y) → (∀ s, ∑ y, J s y = numGiven labels s) → (∀ y, 1 ≤ ∑ s, J s y) →
      Solves J labels method →
      ∃ e, estimateLatent J labels method converge = .ok e ∧ e.1 = fun y => (∑ s, J s y) / n := by
  intro h
  obtain ⟨e, h1, h2⟩ := h 4 2 ![![0, 2], ![1, 1]] ![0, 0, 1, 1] .cnt false (by norm_num) (by norm_num)
    (by decide +kernel) (by decide +kernel) (by decide +kernel) trivial
  have h3 : (estimateLatent (![![0, 2], ![1, 1]] : Fin 2 → Fin 2 → ℚ) (![0, 0, 1, 1] : Fin 4 → Fin 2) .cnt
      false).toOption.map (fun e => decide (e.1 0 < 1 / 1000)) = some true := by decide +kernel
  rw [h1] at h3
  simp only [Except.toOption, Option.map_some, Option.some.injEq, decide_eq_true_eq] at h3
  rw [h2] at h3
  revert h3
  decide +kernel

/-- The other prior of the same joint. -/
example : (estimateLatent (![![0, 2], ![1, 1]] : Fin 2 → Fin 2 → ℚ) (![0, 0, 1, 1] : Fin 4 → Fin 2) .marginal
    false).toOption.map (fun e => e.1 0) = some (1 / 4) := by decide +kernel

end Cleanlab.Props
