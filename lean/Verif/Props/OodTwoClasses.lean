import Verif.Props.MoreCertain
import Verif.Props.TwoClassesAgree
import Mathlib.Analysis.SpecialFunctions.BinaryEntropy
import Mathlib.Analysis.SpecialFunctions.Trigonometric.DerivHyp

/-!
# C239, C240: the ways to score out-of-distribution examples from predictions, with two classes and with smoothed predictions
-/

namespace Cleanlab.Props

open Np Cleanlab.Count Cleanlab.Rank Cleanlab.Spec Cleanlab.Outlier

variable {n K : ℕ}

/-- The score of one row of probabilities. -/
noncomputable def rowScore [NeZero K] (A : ArgSort ℝ) (method : OodMethod) (M : ℕ) (gamma : ℝ) (q : Fin K → ℝ) : ℝ :=
  match method with
  | .entropy => 1 - rowEntropy q
  | .leastConfidence => q (argmax q)
  | .gen => genScore A M gamma q

/-- The thresholds in use after a successful call. -/
noncomputable def storedThresholds (adjust : Bool) (labels : Option (Fin n → Fin K)) (thr : Option (Fin K → ℝ))
    (P : Fin n → Fin K → ℝ) : Option (Fin K → ℝ) :=
  match adjust, thr, labels with
  | true, none, some l => some (realThresholds l P)
  | _, t, _ => t

theorem score_ok [NeZero K] (A : ArgSort ℝ) (method : OodMethod) (adjust : Bool) (M : ℕ) (gamma : ℝ)
    (labels : Option (Fin n → Fin K)) (thr : Option (Fin K → ℝ)) (P : Fin n → Fin K → ℝ) (s : Fin n → ℝ)
    (t : Option (Fin K → ℝ)) (h : oodPredictionScores A method adjust M gamma labels thr P = .ok (s, t)) :
    t = storedThresholds adjust labels thr P ∧ (method = .gen → M ≠ 0) ∧
      s = fun i => rowScore A method M gamma (scoredProbs adjust t P i) := by
  have key : ∀ (t' : Option (Fin K → ℝ)), (adjust = true → t' ≠ none) →
      oodPredictionScores A method adjust M gamma none t' P = .ok (s, t) →
      t = t' ∧ (method = .gen → M ≠ 0) ∧ s = fun i => rowScore A method M gamma (scoredProbs adjust t P i) := by
    intro t' ht' h
    rw [score_call A method adjust M gamma t' ht'] at h
    cases method with
    | entropy =>
      dsimp only at h
      unfold normalizedEntropy at h
      split_ifs at h with h1 h2
      · cases h
      · cases h
      · have := Prod.mk.inj (Except.ok.inj h)
        refine ⟨this.2.symm, fun h => (by cases h), ?_⟩
        rw [← this.1, ← this.2]; rfl
    | leastConfidence =>
      have := Prod.mk.inj (Except.ok.inj h)
      refine ⟨this.2.symm, fun h => (by cases h), ?_⟩
      rw [← this.1, ← this.2]; rfl
    | gen =>
      dsimp only at h
      split_ifs at h with hM
      have := Prod.mk.inj (Except.ok.inj h)
      refine ⟨this.2.symm, fun _ => hM, ?_⟩
      rw [← this.1, ← this.2]; rfl
  cases adjust with
  | false =>
    have h' := key thr (fun h => (by cases h)) h
    exact ⟨by rw [h'.1]; rfl, h'.2⟩
  | true =>
    cases thr with
    | some t' =>
      have h' := key (some t') (fun _ => by simp) h
      exact ⟨by rw [h'.1]; rfl, h'.2⟩
    | none =>
      cases labels with
      | none => cases h
      | some l =>
        have h' := key (some (realThresholds l P)) (fun _ => by simp) (by
          unfold oodPredictionScores at h ⊢
          simp only [if_true] at h ⊢
          cases hc : checkReal false l P with
          | error m => rw [hc] at h; cases h
          | ok u => rw [hc] at h; exact h)
        exact ⟨by rw [h'.1]; rfl, h'.2⟩

/-- The probabilities that are scored are distributions. -/
theorem scoredProbs_distribution [NeZero K] (adjust : Bool) (thr : Option (Fin K → ℝ)) {P : Fin n → Fin K → ℝ} {i : Fin n}
    (hP : IsDistribution (P i)) : IsDistribution (scoredProbs adjust thr P i) := by
  cases adjust with
  | false => exact hP
  | true =>
    cases thr with
    | none => exact hP
    | some t =>
      have hm : ∀ k, 0 ≤ P i k - t k + t (argmax t) := fun k => by linarith [hP.1 k, le_argmax t k]
      have hpos : 0 < ∑ k, (P i k - t k + t (argmax t)) := by
        have : ∑ k, P i k ≤ ∑ k, (P i k - t k + t (argmax t)) :=
          Finset.sum_le_sum fun k _ => by linarith [le_argmax t k]
        rw [hP.2] at this
        linarith
      refine ⟨fun k => div_nonneg (hm k) hpos.le, ?_⟩
      show ∑ k, (P i k - t k + t (argmax t)) / ∑ k', (P i k' - t k' + t (argmax t)) = 1
      rw [← Finset.sum_div, div_self hpos.ne']

/-- The larger of two probabilities. -/
theorem larger_two {q : Fin 2 → ℝ} (hq : IsDistribution q) :
    2⁻¹ ≤ q (argmax q) ∧ q (argmax q) ≤ 1 ∧ q (argmax q) = 1 / 2 + |q 0 - 1 / 2| := by
  have hs := hq.2
  rw [Fin.sum_univ_two] at hs
  have h0 := le_argmax q 0
  have h1 := le_argmax q 1
  refine ⟨by linarith, isDistribution_le_one hq _, ?_⟩
  have hc : argmax q = 0 ∨ argmax q = 1 := by omega
  rcases hc with h | h <;> rw [h] at h0 h1 ⊢
  · rw [abs_of_nonneg (by linarith)]; ring
  · rw [abs_of_nonpos (by linarith)]; linarith

theorem rowEntropy_two {q : Fin 2 → ℝ} (hq : IsDistribution q) :
    rowEntropy q = Real.binEntropy (q (argmax q)) / Real.log (2 : ℕ) := by
  unfold rowEntropy
  rw [entropy_two hq (argmax q), Real.binEntropy_eq_negMulLog_add_negMulLog_one_sub]

theorem softmax_two {q : Fin 2 → ℝ} (hq : IsDistribution q) (k : Fin 2) :
    softmaxRow q k * (1 - softmaxRow q k) = (1 / (2 * Real.cosh (q 0 - 1 / 2))) ^ 2 := by
  have hs := hq.2
  rw [Fin.sum_univ_two] at hs
  have h1 : q 1 = 1 - q 0 := by linarith
  set d := q 0 - 1 / 2 with hd
  have e0 : Real.exp (q 0) = Real.exp (1 / 2) * Real.exp d := by rw [← Real.exp_add]; congr 1; rw [hd]; ring
  have e1 : Real.exp (q 1) = Real.exp (1 / 2) * Real.exp (-d) := by rw [← Real.exp_add]; congr 1; rw [hd, h1]; ring
  have hx : 0 < Real.exp d := Real.exp_pos d
  have hh : 0 < Real.exp (1 / 2) := Real.exp_pos _
  have hc : 2 * Real.cosh d = Real.exp d + Real.exp (-d) := by rw [Real.cosh_eq]; ring
  rw [hc]
  unfold softmaxRow
  rw [Fin.sum_univ_two, e0, e1]
  have hinv : Real.exp d * Real.exp (-d) = 1 := by rw [← Real.exp_add]; simp
  have hy : 0 < Real.exp (-d) := Real.exp_pos _
  generalize Real.exp d = x at *
  generalize Real.exp (-d) = y at *
  generalize Real.exp (1 / 2) = z at *
  have hk : k = 0 ∨ k = 1 := by omega
  rcases hk with rfl | rfl
  · rw [e0]
    field_simp
    nlinarith
  · rw [e1]
    field_simp
    nlinarith

theorem genScore_two (A : ArgSort ℝ) (M : ℕ) (gamma : ℝ) {q : Fin 2 → ℝ} (hq : IsDistribution q) :
    genScore A M gamma q = 1 - (min M 2 : ℕ) * ((1 / (2 * Real.cosh (q 0 - 1 / 2))) ^ 2) ^ gamma / M := by
  obtain ⟨S, hS, -, h⟩ := C71_gen A M gamma q
  rw [h]
  have : ∀ k ∈ S, softmaxRow q k ^ gamma * (1 - softmaxRow q k) ^ gamma =
      ((1 / (2 * Real.cosh (q 0 - 1 / 2))) ^ 2) ^ gamma := fun k _ => by
    have hr := softmaxRow_range q k
    rw [← Real.mul_rpow hr.1 (sub_nonneg.mpr hr.2), softmax_two hq]
  rw [Finset.sum_congr rfl this, Finset.sum_const, hS, nsmul_eq_mul]

/-- With two classes every method orders rows by the larger probability. -/
theorem rowScore_two (A : ArgSort ℝ) (method : OodMethod) (M : ℕ) (gamma : ℝ)
    (hgen : method = .gen → M ≠ 0 ∧ 0 < gamma) {p q : Fin 2 → ℝ} (hp : IsDistribution p) (hq : IsDistribution q) :
    rowScore A method M gamma p ≤ rowScore A method M gamma q ↔ p (argmax p) ≤ q (argmax q) := by
  obtain ⟨hp1, hp2, hp3⟩ := larger_two hp
  obtain ⟨hq1, hq2, hq3⟩ := larger_two hq
  cases method with
  | leastConfidence => exact Iff.rfl
  | entropy =>
    show 1 - rowEntropy p ≤ 1 - rowEntropy q ↔ _
    rw [sub_le_sub_iff_left, rowEntropy_two hp, rowEntropy_two hq,
      div_le_div_iff_of_pos_right (Real.log_pos (by norm_num)),
      Real.binEntropy_strictAntiOn.le_iff_ge ⟨hq1, hq2⟩ ⟨hp1, hp2⟩]
  | gen =>
    obtain ⟨hM, hg⟩ := hgen rfl
    show genScore A M gamma p ≤ genScore A M gamma q ↔ _
    have hc : (0 : ℝ) < (min M 2 : ℕ) := by
      have : 0 < min M 2 := by omega
      exact_mod_cast this
    have hM' : (0 : ℝ) < M := by exact_mod_cast Nat.pos_of_ne_zero hM
    have hpp := Real.cosh_pos (p 0 - 1 / 2)
    have hqp := Real.cosh_pos (q 0 - 1 / 2)
    rw [genScore_two A M gamma hp, genScore_two A M gamma hq, sub_le_sub_iff_left, div_le_div_iff_of_pos_right hM',
      mul_le_mul_iff_right₀ hc, Real.rpow_le_rpow_iff (by positivity) (by positivity) hg,
      pow_le_pow_iff_left₀ (by positivity) (by positivity) (by norm_num),
      one_div_le_one_div (by positivity) (by positivity), mul_le_mul_iff_right₀ (by norm_num), Real.cosh_le_cosh, hp3, hq3]
    constructor <;> intro h <;> linarith

/-- **C239.** With two classes `entropy`, `least_confidence` and `gen` (with a positive `gamma`, and whatever `M`) order the
examples in the same way, with and without adjustment, when fitting as well as when scoring. -/
theorem C239_two (A A' : ArgSort ℝ) (method method' : OodMethod) (adjust : Bool) (M M' : ℕ) (gamma gamma' : ℝ)
    (hg : 0 < gamma) (hg' : 0 < gamma') (labels : Option (Fin n → Fin 2)) (thr : Option (Fin 2 → ℝ))
    (P : Fin n → Fin 2 → ℝ) (hP : ∀ i, IsDistribution (P i)) (s s' : Fin n → ℝ) (t t' : Option (Fin 2 → ℝ))
    (hs : oodPredictionScores A method adjust M gamma labels thr P = .ok (s, t))
    (hs' : oodPredictionScores A' method' adjust M' gamma' labels thr P = .ok (s', t')) (i j : Fin n) :
    s i ≤ s j ↔ s' i ≤ s' j := by
  obtain ⟨ht, hM, hsc⟩ := score_ok A method adjust M gamma labels thr P s t hs
  obtain ⟨ht', hM', hsc'⟩ := score_ok A' method' adjust M' gamma' labels thr P s' t' hs'
  have htt : t' = t := ht'.trans ht.symm
  rw [hsc, hsc', htt]
  dsimp only
  rw [rowScore_two A method M gamma (fun h => ⟨hM h, hg⟩) (scoredProbs_distribution adjust t (hP i))
      (scoredProbs_distribution adjust t (hP j)),
    rowScore_two A' method' M' gamma' (fun h => ⟨hM' h, hg'⟩) (scoredProbs_distribution adjust t (hP i))
      (scoredProbs_distribution adjust t (hP j))]

/-- Every method accepts such data: the call of `entropy` succeeds. -/
theorem C239_accepted (A : ArgSort ℝ) (adjust : Bool) (M : ℕ) (gamma : ℝ) (thr : Option (Fin 2 → ℝ))
    (hthr : adjust = true → thr ≠ none) (P : Fin n → Fin 2 → ℝ) (hP : ∀ i, IsDistribution (P i)) :
    ∃ r, oodPredictionScores A .entropy adjust M gamma none thr P = .ok r := by
  rw [score_call A .entropy adjust M gamma thr hthr]
  dsimp only
  unfold normalizedEntropy
  have hd := fun i => scoredProbs_distribution adjust thr (hP i)
  rw [if_neg (by
    rintro ⟨i, k, h | h⟩
    · exact absurd h (not_lt.mpr ((hd i).1 k))
    · exact absurd h (not_lt.mpr (isDistribution_le_one (hd i) k))), if_neg (by norm_num)]
  exact ⟨_, rfl⟩

/-- A row of predicted probabilities mixed with the uniform distribution. -/
noncomputable def mixed (ε : ℝ) (p : Fin K → ℝ) : Fin K → ℝ := fun k => (1 - ε) * p k + ε / K

theorem mixed_distribution {ε : ℝ} (h0 : 0 ≤ ε) (h1 : ε < 1) {p : Fin K → ℝ} (hp : IsDistribution p) :
    IsDistribution (mixed ε p) := by
  have hK : (K : ℝ) ≠ 0 := by
    intro h
    have : K = 0 := by exact_mod_cast h
    subst this
    have := hp.2
    simp at this
  refine ⟨fun k => add_nonneg (mul_nonneg (by linarith) (hp.1 k)) (div_nonneg h0 (Nat.cast_nonneg K)), ?_⟩
  unfold mixed
  rw [Finset.sum_add_distrib, ← Finset.mul_sum, hp.2, Finset.sum_const, Finset.card_univ, Fintype.card_fin, nsmul_eq_mul,
    mul_div_cancel₀ _ hK]
  ring

/-- The largest value after an increasing linear change. -/
theorem max_affine [NeZero K] {a b : ℝ} (ha : 0 < a) {p q : Fin K → ℝ} (h : ∀ k, q k = a * p k + b) :
    q (argmax q) = a * p (argmax p) + b := by
  refine le_antisymm ?_ ?_
  · rw [h]
    have := mul_le_mul_of_nonneg_left (le_argmax p (argmax q)) ha.le
    linarith
  · rw [← h]; exact le_argmax q _

/-- The probabilities that are scored change in the same increasing and linear way. -/
theorem scoredProbs_mixed [NeZero K] {ε : ℝ} (h0 : 0 ≤ ε) (h1 : ε < 1) (adjust : Bool) (thr : Option (Fin K → ℝ))
    (P : Fin n → Fin K → ℝ) (hP : ∀ i, IsDistribution (P i)) :
    ∃ a b : ℝ, 0 < a ∧ ∀ i k, scoredProbs adjust (thr.map (mixed ε)) (fun i => mixed ε (P i)) i k =
      a * scoredProbs adjust thr P i k + b := by
  have hplain : ∃ a b : ℝ, 0 < a ∧ ∀ i k, mixed ε (P i) k = a * P i k + b := ⟨1 - ε, ε / K, by linarith, fun _ _ => rfl⟩
  cases adjust with
  | false => exact hplain
  | true =>
    cases thr with
    | none => exact hplain
    | some t =>
      have hK : (K : ℝ) ≠ 0 := by exact_mod_cast NeZero.ne K
      set m := t (argmax t) with hm
      have hm' : mixed ε t (argmax (mixed ε t)) = (1 - ε) * m + ε / K :=
        max_affine (by linarith) (p := t) (fun _ => rfl)
      have hnum : ∀ i k, mixed ε (P i) k - mixed ε t k + mixed ε t (argmax (mixed ε t)) =
          (1 - ε) * (P i k - t k + m) + ε / K := fun i k => by
        rw [hm']; unfold mixed; ring
      set c := 1 + ∑ k, (m - t k) with hc
      have hsum : ∀ i, ∑ k, (P i k - t k + m) = c := fun i => by
        rw [hc, ← (hP i).2, ← Finset.sum_add_distrib]
        exact Finset.sum_congr rfl fun k _ => by ring
      have hcpos : 0 < c := by
        have : 0 ≤ ∑ k, (m - t k) := Finset.sum_nonneg fun k _ => sub_nonneg.mpr (le_argmax t k)
        rw [hc]; linarith
      have hsum' : ∀ i, ∑ k, (mixed ε (P i) k - mixed ε t k + mixed ε t (argmax (mixed ε t))) = (1 - ε) * c + ε := fun i => by
        simp only [hnum]
        rw [Finset.sum_add_distrib, ← Finset.mul_sum, hsum, Finset.sum_const, Finset.card_univ, Fintype.card_fin,
          nsmul_eq_mul, mul_div_cancel₀ _ hK]
      have hcpos' : 0 < (1 - ε) * c + ε := by
        have := mul_pos (by linarith : 0 < 1 - ε) hcpos
        linarith
      refine ⟨(1 - ε) * c / ((1 - ε) * c + ε), ε / K / ((1 - ε) * c + ε),
        div_pos (mul_pos (by linarith) hcpos) hcpos', fun i k => ?_⟩
      show (mixed ε (P i) k - mixed ε t k + mixed ε t (argmax (mixed ε t))) /
        ∑ k', (mixed ε (P i) k' - mixed ε t k' + mixed ε t (argmax (mixed ε t))) =
        (1 - ε) * c / ((1 - ε) * c + ε) * ((P i k - t k + m) / ∑ k', (P i k' - t k' + m)) + _
      rw [hsum', hnum, hsum]
      field_simp

/-- All classes are given as labels, and their average self-confidences are at least the lower bound of the thresholds. -/
def Fittable (labels : Fin n → Fin K) (P : Fin n → Fin K → ℝ) : Prop :=
  ∀ k, (∃ i, labels i = k) ∧
    2 / 1000000 ≤ (∑ i with labels i = k, P i k) / ((Finset.univ.filter (fun i => labels i = k)).card : ℝ)

theorem realThresholds_mixed {ε : ℝ} (h0 : 0 ≤ ε) (h1 : ε < 1) (hK : K ≤ 500000) (labels : Fin n → Fin K)
    (P : Fin n → Fin K → ℝ) (hf : Fittable labels P) :
    realThresholds labels (fun i => mixed ε (P i)) = mixed ε (realThresholds labels P) := by
  funext k
  obtain ⟨⟨i, hi⟩, hmean⟩ := hf k
  have hcard : (Finset.univ.filter (fun i => labels i = k)).card ≠ 0 :=
    Finset.card_ne_zero_of_mem (Finset.mem_filter.mpr ⟨Finset.mem_univ i, hi⟩)
  have hcard' : ((Finset.univ.filter (fun i => labels i = k)).card : ℝ) ≠ 0 := by exact_mod_cast hcard
  have hmix : (∑ i with labels i = k, mixed ε (P i) k) / ((Finset.univ.filter (fun i => labels i = k)).card : ℝ) =
      (1 - ε) * ((∑ i with labels i = k, P i k) / ((Finset.univ.filter (fun i => labels i = k)).card : ℝ)) + ε / K := by
    unfold mixed
    rw [Finset.sum_add_distrib, ← Finset.mul_sum, Finset.sum_const, nsmul_eq_mul, add_div, mul_div_assoc,
      mul_div_cancel_left₀ _ hcard']
  have hunif : ε * (2 / 1000000) ≤ ε / K := by
    have hK0 : 0 < K := k.pos
    have hK' : (K : ℝ) ≤ 500000 := by exact_mod_cast hK
    have hK1 : (0 : ℝ) < K := by exact_mod_cast hK0
    rw [le_div_iff₀ hK1]
    nlinarith
  rw [realThresholds_eq_sum]
  unfold mixed at hmix ⊢
  rw [realThresholds_eq_sum, if_neg hcard, if_neg hcard, hmix, max_eq_left hmean, max_eq_left]
  nlinarith

theorem storedThresholds_mixed {ε : ℝ} (h0 : 0 ≤ ε) (h1 : ε < 1) (hK : K ≤ 500000) (adjust : Bool)
    (labels : Option (Fin n → Fin K)) (thr : Option (Fin K → ℝ)) (P : Fin n → Fin K → ℝ)
    (hfit : adjust = true → thr = none → ∀ l, labels = some l → Fittable l P) :
    storedThresholds adjust labels (thr.map (mixed ε)) (fun i => mixed ε (P i)) =
      (storedThresholds adjust labels thr P).map (mixed ε) := by
  cases adjust with
  | false => rfl
  | true =>
    cases thr with
    | some t => rfl
    | none =>
      cases labels with
      | none => rfl
      | some l =>
        show some (realThresholds l fun i => mixed ε (P i)) = some (mixed ε (realThresholds l P))
        rw [realThresholds_mixed h0 h1 hK l P (hfit rfl rfl l rfl)]

/-- **C240, partially.** If the predicted probabilities are mixed with the uniform distribution, also in the data the
thresholds are fitted to, `least_confidence` orders the examples as before. Where thresholds are fitted, all classes must be
given and no average self-confidence may be below the lower bound of the thresholds. -/
theorem C240_least_partial [NeZero K] (A A' : ArgSort ℝ) (adjust : Bool) (M : ℕ) (gamma : ℝ) {ε : ℝ} (h0 : 0 ≤ ε)
    (h1 : ε < 1) (hK : K ≤ 500000) (labels : Option (Fin n → Fin K)) (thr : Option (Fin K → ℝ))
    (P : Fin n → Fin K → ℝ) (hP : ∀ i, IsDistribution (P i))
    (hfit : adjust = true → thr = none → ∀ l, labels = some l → Fittable l P) (s s' : Fin n → ℝ)
    (t t' : Option (Fin K → ℝ)) (hs : oodPredictionScores A .leastConfidence adjust M gamma labels thr P = .ok (s, t))
    (hs' : oodPredictionScores A' .leastConfidence adjust M gamma labels (thr.map (mixed ε)) (fun i => mixed ε (P i)) =
      .ok (s', t')) (i j : Fin n) : s' i ≤ s' j ↔ s i ≤ s j := by
  obtain ⟨ht, -, hsc⟩ := score_ok A _ adjust M gamma labels thr P s t hs
  obtain ⟨ht', -, hsc'⟩ := score_ok A' _ adjust M gamma labels _ _ s' t' hs'
  rw [storedThresholds_mixed h0 h1 hK adjust labels thr P hfit, ← ht] at ht'
  obtain ⟨a, b, ha, hab⟩ := scoredProbs_mixed h0 h1 adjust t P hP
  rw [hsc, hsc', ht']
  show scoredProbs adjust _ _ i _ ≤ scoredProbs adjust _ _ j _ ↔ scoredProbs adjust t P i _ ≤ scoredProbs adjust t P j _
  rw [max_affine ha (hab i), max_affine ha (hab j), add_le_add_iff_right, mul_le_mul_iff_right₀ ha]

/-- **C240, partially.** With two classes this is so for every method, `gen` with a positive `gamma`. For more classes nothing is
shown about `gen`, and `entropy` does not have the property. -/
theorem C240_two_partial (A A' : ArgSort ℝ) (method : OodMethod) (adjust : Bool) (M : ℕ) (gamma : ℝ) (hg : 0 < gamma)
    {ε : ℝ} (h0 : 0 ≤ ε) (h1 : ε < 1) (labels : Option (Fin n → Fin 2)) (thr : Option (Fin 2 → ℝ))
    (P : Fin n → Fin 2 → ℝ) (hP : ∀ i, IsDistribution (P i))
    (hfit : adjust = true → thr = none → ∀ l, labels = some l → Fittable l P) (s s' : Fin n → ℝ)
    (t t' : Option (Fin 2 → ℝ)) (hs : oodPredictionScores A method adjust M gamma labels thr P = .ok (s, t))
    (hs' : oodPredictionScores A' method adjust M gamma labels (thr.map (mixed ε)) (fun i => mixed ε (P i)) =
      .ok (s', t')) (i j : Fin n) : s' i ≤ s' j ↔ s i ≤ s j := by
  obtain ⟨ht, hM, hsc⟩ := score_ok A _ adjust M gamma labels thr P s t hs
  obtain ⟨ht', -, hsc'⟩ := score_ok A' _ adjust M gamma labels _ _ s' t' hs'
  rw [storedThresholds_mixed h0 h1 (by norm_num) adjust labels thr P hfit, ← ht] at ht'
  obtain ⟨a, b, ha, hab⟩ := scoredProbs_mixed h0 h1 adjust t P hP
  have hP' : ∀ i, IsDistribution (mixed ε (P i)) := fun i => mixed_distribution h0 h1 (hP i)
  rw [hsc, hsc', ht']
  dsimp only
  rw [rowScore_two A method M gamma (fun h => ⟨hM h, hg⟩) (scoredProbs_distribution adjust t (hP i))
      (scoredProbs_distribution adjust t (hP j)),
    rowScore_two A' method M gamma (fun h => ⟨hM h, hg⟩)
      (scoredProbs_distribution (P := fun i => mixed ε (P i)) adjust _ (hP' i))
      (scoredProbs_distribution (P := fun i => mixed ε (P i)) adjust _ (hP' j)),
    max_affine ha (hab i), max_affine ha (hab j), add_le_add_iff_right, mul_le_mul_iff_right₀ ha]

/-- A data set the thresholds can be fitted to. -/
example : Fittable (![0, 1] : Fin 2 → Fin 2) (fun i k => if i = k then 3 / 4 else 1 / 4) := by
  intro k
  have hk : k = 0 ∨ k = 1 := by omega
  rcases hk with rfl | rfl
  · refine ⟨⟨0, rfl⟩, ?_⟩
    rw [show (Finset.univ.filter fun i : Fin 2 => (![0, 1] : Fin 2 → Fin 2) i = 0) = {0} by decide]
    norm_num
  · refine ⟨⟨1, rfl⟩, ?_⟩
    rw [show (Finset.univ.filter fun i : Fin 2 => (![0, 1] : Fin 2 → Fin 2) i = 1) = {1} by decide]
    norm_num

/-- Two examples with three classes: the first is torn between two classes, the second leans towards one. -/
noncomputable def tornAndLeaning (i : Fin 2) : Fin 3 → ℝ := if i = 0 then ![1 / 2, 1 / 2, 0] else ![3 / 4, 1 / 8, 1 / 8]

theorem tornAndLeaning_values : tornAndLeaning 0 0 = 1 / 2 ∧ tornAndLeaning 0 1 = 1 / 2 ∧ tornAndLeaning 0 2 = 0 ∧
    tornAndLeaning 1 0 = 3 / 4 ∧ tornAndLeaning 1 1 = 1 / 8 ∧ tornAndLeaning 1 2 = 1 / 8 :=
  ⟨rfl, rfl, rfl, rfl, rfl, rfl⟩

theorem tornAndLeaning_distribution (i : Fin 2) : IsDistribution (tornAndLeaning i) := by
  have hi : i = 0 ∨ i = 1 := by omega
  rcases hi with rfl | rfl
  · refine ⟨fun k => ?_, ?_⟩
    · fin_cases k <;> norm_num [tornAndLeaning]
    · obtain ⟨v1, v2, v3, v4, v5, v6⟩ := tornAndLeaning_values
      rw [Fin.sum_univ_three]
      linarith
  · refine ⟨fun k => ?_, ?_⟩
    · fin_cases k <;> norm_num [tornAndLeaning]
    · obtain ⟨v1, v2, v3, v4, v5, v6⟩ := tornAndLeaning_values
      rw [Fin.sum_univ_three]
      linarith

theorem entropy_call (A : ArgSort ℝ) (M : ℕ) (gamma : ℝ) (P : Fin n → Fin 3 → ℝ) (hP : ∀ i, IsDistribution (P i)) :
    oodPredictionScores A .entropy false M gamma none none P = .ok (fun i => 1 - rowEntropy (P i), none) := by
  rw [score_call A .entropy false M gamma none (fun h => (by cases h))]
  show (normalizedEntropy P).map _ = _
  unfold normalizedEntropy
  rw [if_neg (by
    rintro ⟨i, k, h | h⟩
    · exact absurd h (not_lt.mpr ((hP i).1 k))
    · exact absurd h (not_lt.mpr (isDistribution_le_one (hP i) k))), if_neg (by norm_num)]
  rfl

theorem rowEntropy_three (p : Fin 3 → ℝ) :
    rowEntropy p = (Real.negMulLog (p 0) + Real.negMulLog (p 1) + Real.negMulLog (p 2)) / Real.log (3 : ℕ) := by
  unfold rowEntropy Real.negMulLog
  rw [Fin.sum_univ_three]
  congr 1
  ring

/-- **C240 fails** for `entropy` with three classes: of two examples the second is more out-of-distribution, but the first is
after mixing their predicted probabilities half and half with the uniform distribution. -/
theorem C240_not_entropy (A A' : ArgSort ℝ) (M : ℕ) (gamma : ℝ) : ∃ s s' : Fin 2 → ℝ,
    oodPredictionScores A .entropy false M gamma none none tornAndLeaning = .ok (s, none) ∧
    oodPredictionScores A' .entropy false M gamma none none (fun i => mixed (1 / 2) (tornAndLeaning i)) = .ok (s', none) ∧
    s 1 < s 0 ∧ s' 0 < s' 1 := by
  refine ⟨_, _, entropy_call A M gamma _ tornAndLeaning_distribution, entropy_call A' M gamma _ fun i =>
    mixed_distribution (by norm_num) (by norm_num) (tornAndLeaning_distribution i), ?_, ?_⟩
  · have hlog : 0 < Real.log (3 : ℕ) := Real.log_pos (by norm_num)
    rw [sub_lt_sub_iff_left, rowEntropy_three, rowEntropy_three]
    refine div_lt_div_of_pos_right ?_ hlog
    simp [tornAndLeaning, Real.negMulLog]
    have h43 : Real.log 2 < 3 * Real.log (4 / 3) := by
      rw [← Real.log_rpow (by norm_num)]
      exact Real.log_lt_log (by norm_num) (by norm_num)
    have e1 : Real.log (3 / 4) = -Real.log (4 / 3) := by rw [← Real.log_inv]; norm_num
    have e2 : Real.log 8 = 3 * Real.log 2 := by rw [← Real.log_rpow (by norm_num)]; norm_num
    rw [e1, e2]
    linarith
  · have hlog : 0 < Real.log (3 : ℕ) := Real.log_pos (by norm_num)
    rw [sub_lt_sub_iff_left, rowEntropy_three, rowEntropy_three]
    refine div_lt_div_of_pos_right ?_ hlog
    have v : mixed (1 / 2) (tornAndLeaning 0) 0 = 5 / 12 ∧ mixed (1 / 2) (tornAndLeaning 0) 1 = 5 / 12 ∧
        mixed (1 / 2) (tornAndLeaning 0) 2 = 1 / 6 ∧ mixed (1 / 2) (tornAndLeaning 1) 0 = 13 / 24 ∧
        mixed (1 / 2) (tornAndLeaning 1) 1 = 11 / 48 ∧ mixed (1 / 2) (tornAndLeaning 1) 2 = 11 / 48 := by
      obtain ⟨v1, v2, v3, v4, v5, v6⟩ := tornAndLeaning_values
      refine ⟨?_, ?_, ?_, ?_, ?_, ?_⟩ <;> unfold mixed <;> push_cast <;> linarith
    rw [v.1, v.2.1, v.2.2.1, v.2.2.2.1, v.2.2.2.2.1, v.2.2.2.2.2]
    unfold Real.negMulLog
    have key : 20 * Real.log (5 / 12) + 4 * Real.log (1 / 6) < 13 * Real.log (13 / 24) + 11 * Real.log (11 / 48) := by
      rw [← Real.log_rpow (by norm_num), ← Real.log_rpow (by norm_num), ← Real.log_rpow (by norm_num),
        ← Real.log_rpow (by norm_num), ← Real.log_mul (by norm_num) (by norm_num), ← Real.log_mul (by norm_num) (by norm_num)]
      exact Real.log_lt_log (by norm_num) (by norm_num)
    linarith

end Cleanlab.Props
