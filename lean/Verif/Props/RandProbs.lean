import Verif.Model.NoiseGeneration
import Verif.Np.Lemmas

/-!
# C77: random probabilities with a given sum
-/

namespace Cleanlab.Props

open Np Cleanlab.Noise

variable {n : ℕ}

theorem sum_update_eq (r : Fin n → ℚ) (a : Fin n) (v : ℚ) : ∑ i, Function.update r a v i = ∑ i, r i + (v - r a) := by
  rw [Finset.sum_update_of_mem (Finset.mem_univ a), ← Finset.sum_sdiff (Finset.subset_univ {a}) (f := r),
    Finset.sum_singleton]
  ring

/-- One pass of the capping loop: the smallest and the largest entry are replaced by two numbers between the cap and
the new minimum, with the same sum. -/
theorem capStep_eq [NeZero n] (M u : ℚ) (hu0 : 0 ≤ u) (hu1 : u ≤ 1) (r : Fin n → ℚ) (hsum : ∑ i, r i ≤ n * M)
    (hmax : M < r (argmax r)) :
    ∃ v w, argmin r ≠ argmax r ∧ r (argmin r) < M ∧
      capStep M u r = Function.update (Function.update r (argmin r) v) (argmax r) w ∧
      v + w = r (argmin r) + r (argmax r) ∧
      ((r (argmin r) + r (argmax r) - M ≤ v ∧ r (argmin r) + r (argmax r) - M ≤ w ∧ v ≤ M ∧ w ≤ M) ∨
       (M < r (argmin r) + r (argmax r) - M ∧ M ≤ v ∧ M ≤ w)) := by
  have hmin : r (argmin r) < M := by
    by_contra hge
    push Not at hge
    have : ∑ _i : Fin n, M < ∑ i, r i :=
      Finset.sum_lt_sum (fun i _ => hge.trans (argmin_le r i)) ⟨argmax r, Finset.mem_univ _, hmax⟩
    rw [Finset.sum_const, Finset.card_univ, Fintype.card_fin, nsmul_eq_mul] at this
    linarith
  have hne : argmin r ≠ argmax r := by
    intro h
    rw [h] at hmin
    linarith
  have hu : 0 ≤ 1 - u := by linarith
  refine ⟨r (argmin r) + (r (argmax r) - M) + (M - (r (argmin r) + (r (argmax r) - M))) * u,
    M - (M - (r (argmin r) + (r (argmax r) - M))) * u, hne, hmin, ?_, by ring, ?_⟩
  · unfold capStep
    simp only []
    have hv : r (argmin r) + (r (argmax r) - M) + (M - (r (argmin r) + (r (argmax r) - M))) * u < r (argmax r) := by
      have e : r (argmin r) + (r (argmax r) - M) + (M - (r (argmin r) + (r (argmax r) - M))) * u =
          (r (argmin r) + r (argmax r) - M) * (1 - u) + M * u := by ring
      rw [e]
      have h1 : (r (argmin r) + r (argmax r) - M) * (1 - u) ≤ r (argmax r) * (1 - u) :=
        mul_le_mul_of_nonneg_right (by linarith) hu
      have h2 : M * u ≤ r (argmax r) * u := mul_le_mul_of_nonneg_right hmax.le hu0
      rcases eq_or_lt_of_le hu0 with h | h
      · rw [← h]; linarith
      · have : M * u < r (argmax r) * u := mul_lt_mul_of_pos_right hmax h
        nlinarith
    congr 1
    rw [argmax_eq_iff]
    constructor
    · intro i
      rw [Function.update_of_ne hne.symm]
      by_cases hi : i = argmin r
      · rw [hi, Function.update_self]; exact hv.le
      · rw [Function.update_of_ne hi]; exact le_argmax r i
    · intro i hlt
      rw [Function.update_of_ne hne.symm]
      by_cases hi : i = argmin r
      · rw [hi, Function.update_self]; exact hv
      · rw [Function.update_of_ne hi]; exact lt_argmax r i hlt
  · rcases le_or_gt (r (argmin r) + r (argmax r) - M) M with h | h
    · left
      have hd : 0 ≤ M - (r (argmin r) + (r (argmax r) - M)) := by linarith
      have h1 := mul_nonneg hd hu0
      have h2 := mul_le_of_le_one_right hd hu1
      refine ⟨by linarith, by linarith, by linarith, by linarith⟩
    · right
      have hd : 0 ≤ (r (argmin r) + (r (argmax r) - M)) - M := by linarith
      have h1 := mul_nonneg hd hu0
      have h2 := mul_le_of_le_one_right hd hu1
      refine ⟨h, by nlinarith, by nlinarith⟩

theorem capStep_sum [NeZero n] (M u : ℚ) (hu0 : 0 ≤ u) (hu1 : u ≤ 1) (r : Fin n → ℚ) (hsum : ∑ i, r i ≤ n * M)
    (hmax : M < r (argmax r)) : ∑ i, capStep M u r i = ∑ i, r i := by
  obtain ⟨v, w, hne, -, he, hvw, -⟩ := capStep_eq M u hu0 hu1 r hsum hmax
  rw [he, sum_update_eq, sum_update_eq, Function.update_of_ne hne.symm]
  linarith

theorem capStep_lower [NeZero n] (M u : ℚ) (hu0 : 0 ≤ u) (hu1 : u ≤ 1) (r : Fin n → ℚ) (hsum : ∑ i, r i ≤ n * M)
    (hmax : M < r (argmax r)) (lo : ℚ) (hlo : ∀ i, lo ≤ r i) (i : Fin n) : lo ≤ capStep M u r i := by
  obtain ⟨v, w, hne, hmin, he, hvw, hcase⟩ := capStep_eq M u hu0 hu1 r hsum hmax
  have := hlo (argmin r)
  rw [he]
  by_cases h1 : i = argmax r
  · rw [h1, Function.update_self]
    rcases hcase with ⟨_, _, _, _⟩ | ⟨_, _, _⟩ <;> linarith
  · rw [Function.update_of_ne h1]
    by_cases h2 : i = argmin r
    · rw [h2, Function.update_self]
      rcases hcase with ⟨_, _, _, _⟩ | ⟨_, _, _⟩ <;> linarith
    · rw [Function.update_of_ne h2]; exact hlo i

theorem capStep_upper [NeZero n] (M u : ℚ) (hu0 : 0 ≤ u) (hu1 : u ≤ 1) (r : Fin n → ℚ) (hsum : ∑ i, r i ≤ n * M)
    (hmax : M < r (argmax r)) (hi : ℚ) (hhi : ∀ i, r i ≤ hi) (i : Fin n) : capStep M u r i ≤ hi := by
  obtain ⟨v, w, hne, hmin, he, hvw, hcase⟩ := capStep_eq M u hu0 hu1 r hsum hmax
  have := hhi (argmax r)
  rw [he]
  by_cases h1 : i = argmax r
  · rw [h1, Function.update_self]
    rcases hcase with ⟨_, _, _, _⟩ | ⟨_, _, _⟩ <;> linarith
  · rw [Function.update_of_ne h1]
    by_cases h2 : i = argmin r
    · rw [h2, Function.update_self]
      rcases hcase with ⟨_, _, _, _⟩ | ⟨_, _, _⟩ <;> linarith
    · rw [Function.update_of_ne h2]; exact hhi i

theorem capLoop_spec [NeZero n] (M : ℚ) (u : ℕ → ℚ) (hu : ∀ t, 0 ≤ u t ∧ u t ≤ 1) :
    ∀ fuel t (r r' : Fin n → ℚ), ∑ i, r i ≤ n * M → capLoop M u fuel t r = some r' →
      ∑ i, r' i = ∑ i, r i ∧ (∀ i, r' i ≤ M + eps) ∧ (∀ lo, (∀ i, lo ≤ r i) → ∀ i, lo ≤ r' i) ∧
        ∀ hi, (∀ i, r i ≤ hi) → ∀ i, r' i ≤ hi := by
  intro fuel
  induction fuel with
  | zero => intro t r r' _ h; cases h
  | succ fuel ih =>
    intro t r r' hsum h
    unfold capLoop at h
    have heps : (0 : ℚ) < eps := by norm_num [eps]
    by_cases hc : M + eps < r (argmax r)
    · rw [if_pos hc] at h
      have hM : M < r (argmax r) := by linarith
      have hs := capStep_sum M (u t) (hu t).1 (hu t).2 r hsum hM
      obtain ⟨h1, h2, h3, h4⟩ := ih (t + 1) _ r' (by rw [hs]; exact hsum) h
      exact ⟨by rw [h1, hs], h2, fun lo hlo => h3 lo (capStep_lower M (u t) (hu t).1 (hu t).2 r hsum hM lo hlo),
        fun hi hhi => h4 hi (capStep_upper M (u t) (hu t).1 (hu t).2 r hsum hM hi hhi)⟩
    · rw [if_neg hc] at h
      have := Option.some.inj h
      subst this
      push Not at hc
      exact ⟨rfl, fun i => (le_argmax r i).trans hc, fun lo hlo => hlo, fun hi hhi => hhi⟩

/-! ### Termination -/

/-- How far the entries exceed the cap in total. -/
def excess (M : ℚ) (r : Fin n → ℚ) : ℚ := ∑ i, max (r i - M) 0

/-- How many entries are below the cap. -/
def below (M : ℚ) (r : Fin n → ℚ) : ℕ := (Finset.univ.filter (fun i => r i < M)).card

theorem excess_nonneg (M : ℚ) (r : Fin n → ℚ) : 0 ≤ excess M r := Finset.sum_nonneg (fun _ _ => le_max_right _ _)

theorem below_le (M : ℚ) (r : Fin n → ℚ) : below M r ≤ n := by
  unfold below
  exact (Finset.card_le_univ _).trans (by simp)

theorem excess_update (M : ℚ) (r : Fin n → ℚ) (a : Fin n) (v : ℚ) :
    excess M (Function.update r a v) = excess M r + (max (v - M) 0 - max (r a - M) 0) := by
  unfold excess
  have : (fun i => max (Function.update r a v i - M) 0) =
      Function.update (fun i => max (r i - M) 0) a (max (v - M) 0) := by
    funext i
    by_cases h : i = a
    · subst h; simp
    · simp [h]
  rw [this, sum_update_eq]

theorem capStep_measure [NeZero n] (M u : ℚ) (hu0 : 0 ≤ u) (hu1 : u ≤ 1) (r : Fin n → ℚ) (hsum : ∑ i, r i ≤ n * M)
    (hmax : M + eps < r (argmax r)) :
    excess M (capStep M u r) ≤ excess M r - eps ∨
    (excess M (capStep M u r) ≤ excess M r ∧ below M (capStep M u r) < below M r) := by
  have heps : (0 : ℚ) < eps := by norm_num [eps]
  have hM : M < r (argmax r) := by linarith
  obtain ⟨v, w, hne, hmin, he, hvw, hcase⟩ := capStep_eq M u hu0 hu1 r hsum hM
  have hex : excess M (capStep M u r) =
      excess M r + (max (v - M) 0 - max (r (argmin r) - M) 0) + (max (w - M) 0 - max (r (argmax r) - M) 0) := by
    rw [he, excess_update, excess_update, Function.update_of_ne hne.symm]
  rw [max_eq_right (by linarith : r (argmin r) - M ≤ 0), max_eq_left (by linarith : 0 ≤ r (argmax r) - M)] at hex
  rcases hcase with ⟨_, _, h1, h2⟩ | ⟨h0, h1, h2⟩
  · left
    rw [max_eq_right (by linarith : v - M ≤ 0), max_eq_right (by linarith : w - M ≤ 0)] at hex
    linarith
  · right
    rw [max_eq_left (by linarith : 0 ≤ v - M), max_eq_left (by linarith : 0 ≤ w - M)] at hex
    refine ⟨by linarith, ?_⟩
    unfold below
    refine Finset.card_lt_card ⟨?_, ?_⟩
    · intro i hi
      simp only [Finset.mem_filter, Finset.mem_univ, true_and] at hi ⊢
      rw [he] at hi
      by_cases h3 : i = argmax r
      · rw [h3, Function.update_self] at hi; linarith
      · rw [Function.update_of_ne h3] at hi
        by_cases h4 : i = argmin r
        · rw [h4]; exact hmin
        · rw [Function.update_of_ne h4] at hi; exact hi
    · intro hsub
      have := hsub (show argmin r ∈ _ by simpa using hmin)
      simp only [Finset.mem_filter, Finset.mem_univ, true_and] at this
      rw [he, Function.update_of_ne hne, Function.update_self] at this
      linarith

theorem capLoop_terminates [NeZero n] (M : ℚ) (u : ℕ → ℚ) (hu : ∀ t, 0 ≤ u t ∧ u t ≤ 1) :
    ∀ (N t : ℕ) (r : Fin n → ℚ), ∑ i, r i ≤ n * M → ⌊excess M r / eps⌋.toNat * (n + 1) + below M r ≤ N →
      (capLoop M u (N + 1) t r).isSome = true := by
  intro N
  have heps : (0 : ℚ) < eps := by norm_num [eps]
  induction N with
  | zero =>
    intro t r hsum hN
    unfold capLoop
    by_cases hc : M + eps < r (argmax r)
    · exfalso
      have hbel : below M r = 0 := by omega
      obtain ⟨v, w, hne, hmin, -⟩ := capStep_eq M 0 le_rfl (by norm_num) r hsum (by linarith)
      unfold below at hbel
      rw [Finset.card_eq_zero] at hbel
      have : argmin r ∈ (Finset.univ.filter (fun i => r i < M)) := by simpa using hmin
      rw [hbel] at this
      cases this
    · rw [if_neg hc]; rfl
  | succ N ih =>
    intro t r hsum hN
    unfold capLoop
    by_cases hc : M + eps < r (argmax r)
    · rw [if_pos hc]
      refine ih (t + 1) _ (by rw [capStep_sum M _ (hu t).1 (hu t).2 r hsum (by linarith)]; exact hsum) ?_
      have hb := below_le M (capStep M (u t) r)
      have hfl : ∀ a b : ℚ, a ≤ b → ⌊a / eps⌋ ≤ ⌊b / eps⌋ := fun a b hab =>
        Int.floor_le_floor ((div_le_div_iff_of_pos_right heps).mpr hab)
      have h0 : 0 ≤ ⌊excess M (capStep M (u t) r) / eps⌋ :=
        Int.floor_nonneg.mpr (div_nonneg (excess_nonneg _ _) heps.le)
      rcases capStep_measure M (u t) (hu t).1 (hu t).2 r hsum hc with h | ⟨h1, h2⟩
      · have h3 := hfl _ _ h
        rw [sub_div, div_self heps.ne', Int.floor_sub_one] at h3
        have h4 : ⌊excess M (capStep M (u t) r) / eps⌋.toNat + 1 ≤ ⌊excess M r / eps⌋.toNat := by omega
        have h5 := Nat.mul_le_mul_right (n + 1) h4
        rw [Nat.add_mul] at h5
        omega
      · have h3 := hfl _ _ h1
        have h4 : ⌊excess M (capStep M (u t) r) / eps⌋.toNat ≤ ⌊excess M r / eps⌋.toNat := by omega
        have h5 := Nat.mul_le_mul_right (n + 1) h4
        omega
    · rw [if_neg hc]; rfl

theorem capLoop_mono [NeZero n] (M : ℚ) (u : ℕ → ℚ) :
    ∀ fuel fuel' t (r r' : Fin n → ℚ), fuel ≤ fuel' → capLoop M u fuel t r = some r' →
      capLoop M u fuel' t r = some r' := by
  intro fuel
  induction fuel with
  | zero => intro _ _ _ _ _ h; cases h
  | succ fuel ih =>
    intro fuel' t r r' hle h
    obtain ⟨f, rfl⟩ : ∃ f, fuel' = f + 1 := ⟨fuel' - 1, by omega⟩
    unfold capLoop at h ⊢
    by_cases hc : M + eps < r (argmax r)
    · rw [if_pos hc] at h ⊢
      exact ih f _ _ _ (by omega) h
    · rw [if_neg hc] at h ⊢
      exact h

/-! ### The second loop is the first one on the negated numbers -/

theorem argmax_neg [NeZero n] (r : Fin n → ℚ) : argmax (fun i => -r i) = argmin r := by
  rw [argmax_eq_iff]
  exact ⟨fun i => neg_le_neg (argmin_le r i), fun i hi => neg_lt_neg (argmin_lt r i hi)⟩

theorem argmin_neg [NeZero n] (r : Fin n → ℚ) : argmin (fun i => -r i) = argmax r := by
  rw [← argmax_neg]
  simp

theorem neg_update (r : Fin n → ℚ) (a : Fin n) (v : ℚ) :
    (fun i => -Function.update r a v i) = Function.update (fun i => -r i) a (-v) := by
  funext i
  by_cases h : i = a
  · subst h; simp
  · simp [h]

theorem raiseStep_eq [NeZero n] (m u : ℚ) (r : Fin n → ℚ) :
    (fun i => -raiseStep m u r i) = capStep (-m) u (fun i => -r i) := by
  unfold raiseStep capStep
  simp only []
  rw [neg_update, neg_update]
  simp only [argmax_neg, argmin_neg]
  have h1 : -(r (argmax r) - (m - r (argmin r)) - (r (argmax r) - (m - r (argmin r)) - m) * u) =
      -r (argmax r) + (-r (argmin r) - -m) + (-m - (-r (argmax r) + (-r (argmin r) - -m))) * u := by ring
  have h2 : -(m + (r (argmax r) - (m - r (argmin r)) - m) * u) =
      -m - (-m - (-r (argmax r) + (-r (argmin r) - -m))) * u := by ring
  have h3 : ∀ v, argmin (Function.update r (argmax r) v) =
      argmax (Function.update (fun i => -r i) (argmax r) (-v)) := by
    intro v
    rw [← neg_update, argmax_neg]
  rw [h3, h1, h2]

theorem raiseLoop_eq [NeZero n] (m : ℚ) (u : ℕ → ℚ) : ∀ fuel t (r : Fin n → ℚ),
    (raiseLoop m u fuel t r).map (fun r i => -r i) = capLoop (-m) u fuel t (fun i => -r i) := by
  intro fuel
  induction fuel with
  | zero => intro t r; rfl
  | succ fuel ih =>
    intro t r
    unfold raiseLoop capLoop
    rw [argmax_neg]
    by_cases hc : r (argmin r) < m - eps
    · rw [if_pos hc, if_pos (by linarith), ih, raiseStep_eq]
    · rw [if_neg hc, if_neg (by linarith)]
      rfl

theorem raiseLoop_spec [NeZero n] (m : ℚ) (u : ℕ → ℚ) (hu : ∀ t, 0 ≤ u t ∧ u t ≤ 1) (fuel t : ℕ) (r r' : Fin n → ℚ)
    (hsum : n * m ≤ ∑ i, r i) (h : raiseLoop m u fuel t r = some r') :
    ∑ i, r' i = ∑ i, r i ∧ (∀ i, m - eps ≤ r' i) ∧ (∀ hi, (∀ i, r i ≤ hi) → ∀ i, r' i ≤ hi) ∧
      ∀ lo, (∀ i, lo ≤ r i) → ∀ i, lo ≤ r' i := by
  have he := raiseLoop_eq m u fuel t r
  rw [h, Option.map_some] at he
  obtain ⟨h1, h2, h3, h4⟩ := capLoop_spec (-m) u hu fuel t (fun i => -r i) (fun i => -r' i)
    (by rw [Finset.sum_neg_distrib]; linarith) he.symm
  rw [Finset.sum_neg_distrib, Finset.sum_neg_distrib] at h1
  refine ⟨by linarith, fun i => by have := h2 i; linarith, fun hi hb i => ?_, fun lo hb i => ?_⟩
  · have := h3 (-hi) (fun i => neg_le_neg (hb i)) i
    linarith
  · have := h4 (-lo) (fun i => neg_le_neg (hb i)) i
    linarith

/-- **C77.** When `min_prob ≤ m / n ≤ max_prob`, whatever the random draws, `generate_n_rand_probabilities_that_sum_to_m`
ends, and what it returns sums to exactly `m` and lies between `min_prob` and `max_prob` up to the numerical
tolerance; the entries are non-negative if `m` is. -/
theorem C77_rand_probs [NeZero n] (m maxP minP : ℚ) (d : Fin n → ℚ) (hd : ∑ i, d i = 1) (hd0 : ∀ i, 0 ≤ d i)
    (u u' : ℕ → ℚ) (hu : ∀ t, 0 ≤ u t ∧ u t ≤ 1) (hu' : ∀ t, 0 ≤ u' t ∧ u' t ≤ 1) (hmin : minP ≤ m / n)
    (hmax : m / n ≤ maxP) :
    ∃ r fuel₀, (∀ fuel, fuel₀ ≤ fuel → randProbs m maxP minP d u u' fuel = .value r) ∧ ∑ i, r i = m ∧
      (∀ i, minP - eps ≤ r i ∧ r i ≤ maxP + eps) ∧ (0 ≤ m → ∀ i, 0 ≤ r i) := by
  have heps : (0 : ℚ) < eps := by norm_num [eps]
  have hn : (0 : ℚ) < n := by exact_mod_cast Nat.pos_of_ne_zero (NeZero.ne n)
  have hs : ∑ i, d i * m = m := by rw [← Finset.sum_mul, hd, one_mul]
  have h1 : ∑ i, d i * m ≤ n * maxP := by
    rw [hs]; rw [div_le_iff₀ hn] at hmax; linarith
  obtain ⟨r1, hr1⟩ := Option.isSome_iff_exists.mp (capLoop_terminates maxP u hu _ 0 (fun i => d i * m) h1 le_rfl)
  obtain ⟨f1, hr1⟩ : ∃ f, capLoop maxP u f 0 (fun i => d i * m) = some r1 := ⟨_, hr1⟩
  obtain ⟨s1, b1, lo1, -⟩ := capLoop_spec maxP u hu _ 0 _ r1 h1 hr1
  have h2 : n * minP ≤ ∑ i, r1 i := by
    rw [s1, hs]; rw [le_div_iff₀ hn] at hmin; linarith
  have h2' : ∑ i, -r1 i ≤ n * -minP := by rw [Finset.sum_neg_distrib]; linarith
  obtain ⟨r2', hr2'⟩ := Option.isSome_iff_exists.mp
    (capLoop_terminates (-minP) u' hu' _ 0 (fun i => -r1 i) h2' le_rfl)
  obtain ⟨f2, hr2'⟩ : ∃ f, capLoop (-minP) u' f 0 (fun i => -r1 i) = some r2' := ⟨_, hr2'⟩
  have key : ∀ fuel, f2 ≤ fuel → raiseLoop minP u' fuel 0 r1 = some (fun i => -r2' i) := by
    intro fuel hf
    have he := raiseLoop_eq minP u' fuel 0 r1
    rw [capLoop_mono (-minP) u' _ fuel 0 _ _ hf hr2', Option.map_eq_some_iff] at he
    obtain ⟨r3, hr3, he3⟩ := he
    rw [hr3, ← he3]
    simp
  obtain ⟨s2, b2, b3, lo2⟩ := raiseLoop_spec minP u' hu' f2 0 r1 _ h2 (key f2 le_rfl)
  refine ⟨fun i => -r2' i, max f1 f2, ?_, by rw [s2, s1, hs], fun i => ⟨b2 i, b3 _ b1 i⟩, fun hm => ?_⟩
  · intro fuel hf
    unfold randProbs
    rw [if_neg (by linarith), if_neg (by
      rw [not_lt]
      exact hmin.trans ((div_le_div_iff_of_pos_right hn).mpr (by linarith)))]
    rw [capLoop_mono maxP u _ fuel 0 _ _ ((le_max_left _ _).trans hf) hr1]
    simp only []
    rw [key fuel ((le_max_right _ _).trans hf)]
  · exact lo2 0 (lo1 0 (fun i => mul_nonneg (hd0 i) hm))

/-- Two numbers with sum 1, at most 3/4: one pass of the first loop. -/
example : randProbs (n := 2) 1 (3/4) 0 ![1, 0] (fun _ => 1/2) (fun _ => 1/2) 2 = .value ![1/2, 1/2] := by
  have h1 : capLoop (n := 2) (3/4) (fun _ => 1/2) 2 0 (fun i => (![1, 0] : Fin 2 → ℚ) i * 1) = some ![1/2, 1/2] := by
    decide +kernel
  have h2 : raiseLoop (n := 2) 0 (fun _ => 1/2) 2 0 ![1/2, 1/2] = some ![1/2, 1/2] := by decide +kernel
  unfold randProbs
  rw [if_neg (by decide +kernel), if_neg (by decide +kernel), h1]
  simp only [h2]

/-- Three numbers with sum 6/5, at most 1/2: the new minimum 3/5 is above the cap, a second pass is needed. -/
example : capStep (n := 3) (1/2) (1/2) ![1, 1/10, 1/10] = ![11/20, 11/20, 1/10] ∧
    capStep (n := 3) (1/2) (1/2) ![11/20, 11/20, 1/10] = ![13/40, 11/20, 13/40] := by
  decide +kernel

/-- **C77.** Infeasible bounds are refused. -/
theorem C77_infeasible [NeZero n] (m maxP minP : ℚ) (d : Fin n → ℚ) (u u' : ℕ → ℚ) (fuel : ℕ)
    (h : maxP + eps < m / n ∨ (m + eps) / n < minP) : ∃ msg, randProbs m maxP minP d u u' fuel = .raised msg := by
  unfold randProbs
  by_cases h1 : maxP + eps < m / n
  · exact ⟨_, if_pos h1⟩
  · rw [if_neg h1]
    exact ⟨_, if_pos (h.resolve_left h1)⟩

end Cleanlab.Props
