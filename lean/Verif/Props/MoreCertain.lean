import Verif.Props.OodNumbering
import Mathlib.Analysis.SpecialFunctions.Log.NegMulLog
import Mathlib.Analysis.Convex.SpecificFunctions.Pow
import Mathlib.Analysis.Complex.ExponentialBounds

/-!
# C234: a more certain prediction and the out-of-distribution score
-/

namespace Cleanlab.Props

open Np Cleanlab.Count Cleanlab.Rank Cleanlab.Spec Cleanlab.Outlier

variable {n K : ℕ}

/-- The row `q` is more certain of class `a` than `p`: class `a` has gained what the others have lost. -/
structure Surer (a : Fin K) (p q : Fin K → ℝ) : Prop where
  gain : p a ≤ q a
  loss : ∀ k, k ≠ a → q k ≤ p k
  total : ∑ k, q k = ∑ k, p k

/-- If the largest entry grows at the expense of the others, a sum of concave terms does not grow. -/
theorem concave_sum_surer {s : Set ℝ} {f : ℝ → ℝ} (hf : ConcaveOn ℝ s f) {a : Fin K} {p q : Fin K → ℝ}
    (hq : ∀ k, q k ∈ s) (h : Surer a p q) (hmax : ∀ k, p k ≤ p a) : ∑ k, f (q k) ≤ ∑ k, f (p k) := by
  rcases eq_or_lt_of_le h.gain with heq | hlt
  · have hle : ∀ k ∈ Finset.univ, q k ≤ p k := fun k _ => by
      by_cases hk : k = a
      · rw [hk, heq]
      · exact h.loss k hk
    have hall := (Finset.sum_eq_sum_iff_of_le hle).mp h.total
    exact le_of_eq (Finset.sum_congr rfl fun k hk => by rw [hall k hk])
  · set m := (f (q a) - f (p a)) / (q a - p a) with hm
    have hma : f (q a) - f (p a) = m * (q a - p a) := by
      rw [hm, div_mul_cancel₀ _ (sub_ne_zero.mpr hlt.ne')]
    have hterm : ∀ k, f (q k) - f (p k) ≤ m * (q k - p k) := by
      intro k
      by_cases hk : k = a
      · rw [hk, hma]
      · rcases eq_or_lt_of_le (h.loss k hk) with he | hl
        · rw [he]; simp
        · have hslope : m ≤ (f (p k) - f (q k)) / (p k - q k) := by
            rcases eq_or_lt_of_le (hmax k) with he | hl2
            · rw [hm, he]
              have hl' : q k < p a := he ▸ hl
              exact hf.slope_anti_adjacent (hq k) (hq a) hl' hlt
            · have hpa : p a ∈ s := hf.1.ordConnected.out (hq k) (hq a) ⟨(hl.trans hl2).le, hlt.le⟩
              have h1 := hf.slope_anti_adjacent (hq k) hpa hl hl2
              have hpk : p k ∈ s := hf.1.ordConnected.out (hq k) (hq a) ⟨hl.le, (hl2.trans hlt).le⟩
              have h2 := hf.slope_anti_adjacent hpk (hq a) hl2 hlt
              exact h2.trans h1
          rw [le_div_iff₀ (sub_pos.mpr hl)] at hslope
          linarith
    have hsum : ∑ k, (f (q k) - f (p k)) ≤ ∑ k, m * (q k - p k) := Finset.sum_le_sum fun k _ => hterm k
    rw [← Finset.mul_sum, Finset.sum_sub_distrib, Finset.sum_sub_distrib, h.total, sub_self, mul_zero] at hsum
    linarith

/-- The entropy of a row does not grow if the largest entry grows at the expense of the others. -/
theorem rowEntropy_surer {a : Fin K} {p q : Fin K → ℝ} (hq : ∀ k, 0 ≤ q k) (h : Surer a p q) (hmax : ∀ k, p k ≤ p a) :
    rowEntropy q ≤ rowEntropy p := by
  have := concave_sum_surer Real.concaveOn_negMulLog (fun k => hq k) h hmax
  unfold rowEntropy
  refine div_le_div_of_nonneg_right ?_ (Real.log_natCast_nonneg K)
  simp only [Real.negMulLog, neg_mul, Finset.sum_neg_distrib] at this
  exact this

theorem gen_term_concave {gamma : ℝ} (h0 : 0 ≤ gamma) (h1 : gamma ≤ 1) :
    ConcaveOn ℝ (Set.Icc 0 1) (fun x : ℝ => x ^ gamma * (1 - x) ^ gamma) := by
  have hc := Real.concaveOn_rpow h0 h1
  refine ⟨convex_Icc 0 1, fun x hx y hy a b ha hb hab => ?_⟩
  have key : ∀ z : ℝ, z ∈ Set.Icc (0 : ℝ) 1 → z ^ gamma * (1 - z) ^ gamma = (z * (1 - z)) ^ gamma := fun z hz =>
    (Real.mul_rpow hz.1 (sub_nonneg.mpr hz.2)).symm
  have hz : a • x + b • y ∈ Set.Icc (0 : ℝ) 1 := (convex_Icc (0 : ℝ) 1) hx hy ha hb hab
  dsimp only
  rw [key x hx, key y hy, key _ hz]
  have hx0 : 0 ≤ x * (1 - x) := mul_nonneg hx.1 (sub_nonneg.mpr hx.2)
  have hy0 : 0 ≤ y * (1 - y) := mul_nonneg hy.1 (sub_nonneg.mpr hy.2)
  refine (hc.2 hx0 hy0 ha hb hab).trans (Real.rpow_le_rpow ?_ ?_ h0)
  · simp only [smul_eq_mul]; positivity
  · simp only [smul_eq_mul]
    have hb' : b = 1 - a := by linarith
    subst hb'
    nlinarith [mul_nonneg (mul_nonneg ha hb) (sq_nonneg (x - y))]

/-- The softmax of a row that is more certain of its largest class is more certain of it, too. -/
theorem softmax_surer {a : Fin K} {p q : Fin K → ℝ} (h : Surer a p q) (hmax : ∀ k, p k ≤ p a) :
    Surer a (softmaxRow p) (softmaxRow q) ∧ ∀ k, softmaxRow p k ≤ softmaxRow p a := by
  have hp0 : 0 < ∑ k, Real.exp (p k) := Finset.sum_pos (fun k _ => Real.exp_pos _) ⟨a, Finset.mem_univ a⟩
  have hq0 : 0 < ∑ k, Real.exp (q k) := Finset.sum_pos (fun k _ => Real.exp_pos _) ⟨a, Finset.mem_univ a⟩
  have hone : ∀ (r : Fin K → ℝ), 0 < ∑ k, Real.exp (r k) → ∑ k, softmaxRow r k = 1 := fun r hr => by
    unfold softmaxRow
    rw [← Finset.sum_div, div_self hr.ne']
  have htang : ∀ x y : ℝ, Real.exp x * (y - x) ≤ Real.exp y - Real.exp x := fun x y => by
    have h1 := Real.add_one_le_exp (y - x)
    have h2 : Real.exp y = Real.exp x * Real.exp (y - x) := by rw [← Real.exp_add]; congr 1; ring
    rw [h2]
    nlinarith [Real.exp_pos x]
  have hS : ∑ k, Real.exp (p k) ≤ ∑ k, Real.exp (q k) := by
    have hterm : ∀ k, Real.exp (p a) * (q k - p k) ≤ Real.exp (q k) - Real.exp (p k) := by
      intro k
      by_cases hk : k = a
      · rw [hk]; exact htang _ _
      · have h1 := htang (p k) (q k)
        have h2 : Real.exp (p k) ≤ Real.exp (p a) := Real.exp_le_exp.mpr (hmax k)
        nlinarith [h.loss k hk]
    have := Finset.sum_le_sum (fun k (_ : k ∈ Finset.univ) => hterm k)
    rw [← Finset.mul_sum, Finset.sum_sub_distrib, Finset.sum_sub_distrib, h.total, sub_self, mul_zero] at this
    linarith
  have hloss : ∀ k, k ≠ a → softmaxRow q k ≤ softmaxRow p k := fun k hk => by
    unfold softmaxRow
    exact div_le_div₀ (Real.exp_pos _).le (Real.exp_le_exp.mpr (h.loss k hk)) hp0 hS
  refine ⟨⟨?_, hloss, by rw [hone p hp0, hone q hq0]⟩, fun k => ?_⟩
  · have h1 := Finset.add_sum_erase Finset.univ (softmaxRow p) (Finset.mem_univ a)
    have h2 := Finset.add_sum_erase Finset.univ (softmaxRow q) (Finset.mem_univ a)
    have h3 : ∑ k ∈ Finset.univ.erase a, softmaxRow q k ≤ ∑ k ∈ Finset.univ.erase a, softmaxRow p k :=
      Finset.sum_le_sum fun k hk => hloss k (Finset.ne_of_mem_erase hk)
    rw [hone p hp0] at h1
    rw [hone q hq0] at h2
    linarith
  · unfold softmaxRow
    exact div_le_div_of_nonneg_right (Real.exp_le_exp.mpr (hmax k)) hp0.le

theorem genScore_all (A : ArgSort ℝ) (M : ℕ) (hM : K ≤ M) (gamma : ℝ) (p : Fin K → ℝ) :
    genScore A M gamma p = 1 - (∑ k, softmaxRow p k ^ gamma * (1 - softmaxRow p k) ^ gamma) / M := by
  obtain ⟨S, hS, -, h⟩ := C71_gen A M gamma p
  rw [min_eq_right hM] at hS
  have : S = Finset.univ := Finset.card_eq_iff_eq_univ S |>.mp (by rw [hS, Fintype.card_fin])
  rw [h, this]

theorem genScore_surer (A : ArgSort ℝ) (M : ℕ) (hM : K ≤ M) {gamma : ℝ} (h0 : 0 ≤ gamma) (h1 : gamma ≤ 1)
    {a : Fin K} {p q : Fin K → ℝ} (h : Surer a p q) (hmax : ∀ k, p k ≤ p a) :
    genScore A M gamma p ≤ genScore A M gamma q := by
  obtain ⟨hs, hm⟩ := softmax_surer h hmax
  have := concave_sum_surer (gen_term_concave h0 h1) (fun k => softmaxRow_range q k) hs hm
  rw [genScore_all A M hM, genScore_all A M hM]
  have := div_le_div_of_nonneg_right this (Nat.cast_nonneg (α := ℝ) M)
  linarith

theorem scoredProbs_surer [NeZero K] (adjust : Bool) (thr : Option (Fin K → ℝ)) {P Q : Fin n → Fin K → ℝ} {i : Fin n}
    {a : Fin K} (hP : IsDistribution (P i)) (hQ : IsDistribution (Q i)) (h : Surer a (P i) (Q i)) :
    Surer a (scoredProbs adjust thr P i) (scoredProbs adjust thr Q i) ∧ ∀ k, 0 ≤ scoredProbs adjust thr Q i k := by
  cases adjust with
  | false => exact ⟨h, hQ.1⟩
  | true =>
    cases thr with
    | none => exact ⟨h, hQ.1⟩
    | some t =>
      have hm : ∀ k, 0 ≤ t (argmax t) - t k := fun k => sub_nonneg.mpr (le_argmax t k)
      set m := t (argmax t) with hmdef
      have hsplit : ∀ R : Fin n → Fin K → ℝ, ∑ k, (R i k - t k + m) = ∑ k, R i k + ∑ k, (m - t k) := fun R => by
        rw [← Finset.sum_add_distrib]
        exact Finset.sum_congr rfl fun k _ => by ring
      have hD : ∑ k, (Q i k - t k + m) = ∑ k, (P i k - t k + m) := by rw [hsplit, hsplit, h.total]
      have hpos : 0 < ∑ k, (P i k - t k + m) := by
        rw [hsplit, hP.2]
        have : 0 ≤ ∑ k, (m - t k) := Finset.sum_nonneg fun k _ => hm k
        linarith
      have e : ∀ R : Fin n → Fin K → ℝ, ∀ k, scoredProbs true (some t) R i k =
          (R i k - t k + m) / ∑ k', (R i k' - t k' + m) := fun R k => rfl
      refine ⟨⟨?_, fun k hk => ?_, ?_⟩, fun k => ?_⟩
      · rw [e, e, hD]
        exact div_le_div_of_nonneg_right (by linarith [h.gain]) hpos.le
      · rw [e, e, hD]
        exact div_le_div_of_nonneg_right (by linarith [h.loss k hk]) hpos.le
      · simp only [e]
        rw [← Finset.sum_div, ← Finset.sum_div, hD]
      · rw [e, hD]
        exact div_nonneg (by linarith [hQ.1 k, hm k]) hpos.le

/-- **C234, partially.** If the class that is most likely for an example (after the adjustment, if one is made) gets
more probability and the other classes do not, the score of the example does not fall: always for `entropy` and
`least_confidence`, and for `gen` if `M` is at least the number of classes and `gamma` is in [0, 1]. -/
theorem C234_surer_partial [NeZero K] (A : ArgSort ℝ) (method : OodMethod) (adjust : Bool) (M : ℕ) (gamma : ℝ)
    (hgen : method = .gen → K ≤ M ∧ 0 ≤ gamma ∧ gamma ≤ 1) (thr : Option (Fin K → ℝ))
    (hthr : adjust = true → thr ≠ none) (P Q : Fin n → Fin K → ℝ) (i : Fin n) (a : Fin K)
    (hP : IsDistribution (P i)) (hQ : IsDistribution (Q i)) (h : Surer a (P i) (Q i))
    (hmax : ∀ k, scoredProbs adjust thr P i k ≤ scoredProbs adjust thr P i a) (s s' : Fin n → ℝ)
    (t t' : Option (Fin K → ℝ)) (hs : oodPredictionScores A method adjust M gamma none thr P = .ok (s, t))
    (hs' : oodPredictionScores A method adjust M gamma none thr Q = .ok (s', t')) : s i ≤ s' i := by
  rw [score_call A method adjust M gamma thr hthr] at hs hs'
  obtain ⟨hsure, hnn⟩ := scoredProbs_surer adjust thr hP hQ h
  cases method with
  | entropy =>
    have key : ∀ (R : Fin n → Fin K → ℝ) (r : Fin n → ℝ) (u : Option (Fin K → ℝ)),
        (normalizedEntropy (scoredProbs adjust thr R)).map (fun s => ((fun i => 1 - s i, thr) : (Fin n → ℝ) × _)) =
          .ok (r, u) → r i = 1 - rowEntropy (scoredProbs adjust thr R i) := by
      intro R r u hr
      unfold normalizedEntropy at hr
      split_ifs at hr with h1 h2
      · cases hr
      · cases hr
      · have := (Prod.mk.inj (Except.ok.inj hr)).1
        rw [← this]
    rw [key P s t hs, key Q s' t' hs']
    linarith [rowEntropy_surer hnn hsure hmax]
  | leastConfidence =>
    rw [← (Prod.mk.inj (Except.ok.inj hs)).1, ← (Prod.mk.inj (Except.ok.inj hs')).1]
    dsimp only
    exact (hmax _).trans (hsure.gain.trans (le_argmax _ a))
  | gen =>
    obtain ⟨hM, h0, h1⟩ := hgen rfl
    dsimp only at hs hs'
    split_ifs at hs hs' with hM0
    rw [← (Prod.mk.inj (Except.ok.inj hs)).1, ← (Prod.mk.inj (Except.ok.inj hs')).1]
    exact genScore_surer A M hM h0 h1 hsure hmax

/-- Three classes: from (1/2, 1/4, 1/4) to (3/4, 1/4, 0). -/
example : Surer (0 : Fin 3) (fun k => if k = 0 then 1/2 else 1/4) (fun k => if k = 0 then 3/4 else if k = 1 then 1/4 else 0) := by
  refine ⟨by norm_num, fun k hk => ?_, ?_⟩
  · fin_cases k <;> simp_all
  · simp [Fin.sum_univ_three]; norm_num

/-- The prediction that is certain of class `a`. -/
def certainRow (a : Fin K) : Fin K → ℝ := fun k => if k = a then 1 else 0

theorem softmax_certain (a : Fin K) (k : Fin K) :
    softmaxRow (certainRow a) k = (if k = a then Real.exp 1 else 1) / (Real.exp 1 + (K - 1)) := by
  have hsum : ∑ j, Real.exp (certainRow a j) = Real.exp 1 + (K - 1) := by
    have h1 := Finset.add_sum_erase Finset.univ (fun j => Real.exp (certainRow a j)) (Finset.mem_univ a)
    rw [← h1]
    have h2 : ∑ j ∈ Finset.univ.erase a, Real.exp (certainRow a j) = ∑ j ∈ Finset.univ.erase a, (1 : ℝ) :=
      Finset.sum_congr rfl fun j hj => by simp [certainRow, Finset.ne_of_mem_erase hj]
    rw [h2, Finset.sum_const, Finset.card_erase_of_mem (Finset.mem_univ a), Finset.card_univ, Fintype.card_fin,
      nsmul_eq_mul, mul_one, Nat.cast_sub (Nat.one_le_iff_ne_zero.mpr (fun h => by subst h; exact a.elim0))]
    simp [certainRow]
  unfold softmaxRow
  rw [hsum]
  congr 1
  unfold certainRow
  split_ifs <;> simp

/-- A lower bound of a tenth root of a quotient. -/
theorem tenth_root_bound {x u c : ℝ} (hc : 0 ≤ c) (hu : 0 ≤ u) (h : c ^ 10 * u ≤ x) :
    c * u ^ (1 / 10 : ℝ) ≤ x ^ (1 / 10 : ℝ) := by
  have h1 : c * u ^ (1 / 10 : ℝ) = (c ^ 10 * u) ^ (1 / 10 : ℝ) := by
    rw [Real.mul_rpow (pow_nonneg hc 10) hu]
    congr 1
    rw [← Real.rpow_natCast, ← Real.rpow_mul hc]
    norm_num
  rw [h1]
  exact Real.rpow_le_rpow (mul_nonneg (pow_nonneg hc 10) hu) h (by norm_num)

theorem first_bound {x e D : ℝ} (hx : 1000 ≤ x) (he : 2.7182818283 < e) (h0 : 0 < D) (hD : D ≤ 1.0018 * x) :
    1.1 ^ 10 * (x - 1) * D ^ 2 ≤ e * (x - 1) * x ^ 2 := by
  have hDK : D ^ 2 ≤ 1.004 * x ^ 2 := by nlinarith
  have hc : (1.1 : ℝ) ^ 10 * D ^ 2 ≤ e * x ^ 2 := by nlinarith [sq_nonneg x]
  have := mul_le_mul_of_nonneg_left hc (by linarith : 0 ≤ x - 1)
  linarith

theorem rest_bound {x d : ℝ} (hx : 1000 ≤ x) (hd0 : 1.718 ≤ d) (hd1 : d ≤ 1.7183) :
    0.9998 ^ 10 * (x - 1) * (x + d) ^ 2 ≤ (x + d - 1) * x ^ 2 := by
  have hc : (0.9998 : ℝ) ^ 10 ≤ 0.99801 := by norm_num
  have h0 : 0 ≤ (x - 1) * (x + d) ^ 2 := mul_nonneg (by linarith) (sq_nonneg _)
  have h1 := mul_le_mul_of_nonneg_right hc h0
  have h2 : (x + d) ^ 2 ≤ x ^ 2 + 3.44 * x := by nlinarith
  have h3 : 0.99801 * (x - 1) * (x + d) ^ 2 ≤ 0.99801 * (x - 1) * (x ^ 2 + 3.44 * x) :=
    mul_le_mul_of_nonneg_left h2 (by linarith)
  have h4 : 0.99801 * (x - 1) * (x + 3.44) ≤ (x + 0.718) * x := by nlinarith
  have h5 := mul_le_mul_of_nonneg_right h4 (by linarith : 0 ≤ x)
  have h6 := mul_le_mul_of_nonneg_right (by linarith : x + 0.718 ≤ x + d - 1) (sq_nonneg x)
  linarith

/-- **C234 fails** for `gen` with its default settings `M = 100` and `gamma = 0.1` on data with 1000 or more classes: an
example whose class is predicted with probability 1 gets a lower score, so counts as more out-of-distribution, than an
example for which all classes are equally likely. -/
theorem C234_not_gen [NeZero K] (hK : 1000 ≤ K) (A : ArgSort ℝ) (a : Fin K) :
    ∃ (s : Fin 2 → ℝ) (t : Option (Fin K → ℝ)),
      oodPredictionScores A .gen false 100 (1 / 10) none none
        (fun i : Fin 2 => if i = 0 then certainRow a else fun _ => 1 / (K : ℝ)) = .ok (s, t) ∧ s 0 < s 1 := by
  refine ⟨_, _, rfl, ?_⟩
  show genScore A 100 (1 / 10) (certainRow a) < genScore A 100 (1 / 10) (fun _ => 1 / (K : ℝ))
  have hKr : (1000 : ℝ) ≤ K := by exact_mod_cast hK
  have hK0 : (0 : ℝ) < K := by linarith
  have he1 := Real.exp_one_gt_d9
  have he2 := Real.exp_one_lt_d9
  have hpow : ∀ q : ℝ, 0 ≤ q → q ≤ 1 → q ^ (1 / 10 : ℝ) * (1 - q) ^ (1 / 10 : ℝ) = (q * (1 - q)) ^ (1 / 10 : ℝ) :=
    fun q h0 h1 => (Real.mul_rpow h0 (sub_nonneg.mpr h1)).symm
  set u : ℝ := 1 / K * (1 - 1 / K) with hu
  have hu0 : 0 < u := by
    rw [hu]
    refine mul_pos (by positivity) ?_
    rw [sub_pos, div_lt_one hK0]; linarith
  set w : ℝ := u ^ (1 / 10 : ℝ) with hw
  have hw0 : 0 < w := Real.rpow_pos_of_pos hu0 _
  -- the ignorant row
  have hign : genScore A 100 (1 / 10) (fun _ : Fin K => 1 / (K : ℝ)) = 1 - (100 * w) / (100 : ℕ) := by
    obtain ⟨S, hS, -, h⟩ := C71_gen A 100 (1 / 10) (fun _ : Fin K => 1 / (K : ℝ))
    rw [min_eq_left (by omega)] at hS
    have hsoft : ∀ k, softmaxRow (fun _ : Fin K => 1 / (K : ℝ)) k = 1 / K := fun k => by
      unfold softmaxRow
      rw [Finset.sum_const, Finset.card_univ, Fintype.card_fin, nsmul_eq_mul, div_mul_eq_div_div_swap,
        div_self (Real.exp_pos _).ne']
    rw [h]
    simp only [hsoft]
    rw [hpow _ (by positivity) (by rw [div_le_one hK0]; linarith), Finset.sum_const, hS, nsmul_eq_mul]
    norm_num [hw, hu]
  -- the certain row
  obtain ⟨S, hS, htop, h⟩ := C71_gen A 100 (1 / 10) (certainRow a)
  rw [min_eq_left (by omega)] at hS
  have haS : a ∈ S := by
    by_contra hna
    obtain ⟨k, hk⟩ := Finset.card_pos.mp (by omega : 0 < S.card)
    have hka : k ≠ a := fun e => hna (e ▸ hk)
    have := htop k hk a hna
    simp only [certainRow, if_true, if_neg hka] at this
    linarith
  set D : ℝ := Real.exp 1 + (K - 1) with hD
  have hD0 : 0 < D := by rw [hD]; linarith
  have hfirst : 1.1 * w ≤ (softmaxRow (certainRow a) a) ^ (1 / 10 : ℝ) * (1 - softmaxRow (certainRow a) a) ^ (1 / 10 : ℝ) := by
    have hr := softmaxRow_range (certainRow a) a
    rw [hpow _ hr.1 hr.2]
    refine tenth_root_bound (by norm_num) hu0.le ?_
    rw [softmax_certain, if_pos rfl, hu, ← hD]
    have e1 : Real.exp 1 / D * (1 - Real.exp 1 / D) = Real.exp 1 * (K - 1) / D ^ 2 := by
      field_simp
      rw [hD]; ring
    have e2 : (1 : ℝ) / K * (1 - 1 / K) = (K - 1) / K ^ 2 := by field_simp
    rw [e1, e2, le_div_iff₀ (by positivity), mul_div_assoc', div_mul_eq_mul_div, div_le_iff₀ (by positivity)]
    exact first_bound hKr he1 hD0 (by rw [hD]; linarith)
  have hrest : ∀ k, k ≠ a → 0.9998 * w ≤
      (softmaxRow (certainRow a) k) ^ (1 / 10 : ℝ) * (1 - softmaxRow (certainRow a) k) ^ (1 / 10 : ℝ) := by
    intro k hk
    have hr := softmaxRow_range (certainRow a) k
    rw [hpow _ hr.1 hr.2]
    refine tenth_root_bound (by norm_num) hu0.le ?_
    rw [softmax_certain, if_neg hk, hu, ← hD]
    have e1 : 1 / D * (1 - 1 / D) = (D - 1) / D ^ 2 := by field_simp
    have e2 : (1 : ℝ) / K * (1 - 1 / K) = (K - 1) / K ^ 2 := by field_simp
    rw [e1, e2, le_div_iff₀ (by positivity), mul_div_assoc', div_mul_eq_mul_div, div_le_iff₀ (by positivity)]
    obtain ⟨d, hd, hd2⟩ : ∃ d : ℝ, D = K + d ∧ d = Real.exp 1 - 1 := ⟨Real.exp 1 - 1, by rw [hD]; ring, rfl⟩
    have hd0 : 1.718 ≤ d := by rw [hd2]; linarith
    have hd1 : d ≤ 1.7183 := by rw [hd2]; linarith
    rw [hd]
    exact rest_bound hKr hd0 hd1
  rw [h, hign]
  have hsum : (1.1 + 99 * 0.9998) * w ≤
      ∑ k ∈ S, softmaxRow (certainRow a) k ^ (1 / 10 : ℝ) * (1 - softmaxRow (certainRow a) k) ^ (1 / 10 : ℝ) := by
    rw [← Finset.add_sum_erase S _ haS]
    have hcard : (S.erase a).card = 99 := by rw [Finset.card_erase_of_mem haS, hS]
    have := Finset.card_nsmul_le_sum (S.erase a) (fun k => softmaxRow (certainRow a) k ^ (1 / 10 : ℝ) *
      (1 - softmaxRow (certainRow a) k) ^ (1 / 10 : ℝ)) (0.9998 * w) (fun k hk => hrest k (Finset.ne_of_mem_erase hk))
    rw [hcard, nsmul_eq_mul] at this
    push_cast at this
    linarith
  have hlt : 100 * w < ∑ k ∈ S, softmaxRow (certainRow a) k ^ (1 / 10 : ℝ) *
      (1 - softmaxRow (certainRow a) k) ^ (1 / 10 : ℝ) := by nlinarith
  have := div_lt_div_of_pos_right hlt (by norm_num : (0 : ℝ) < (100 : ℕ))
  linarith

end Cleanlab.Props
