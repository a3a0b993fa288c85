import Verif.Props.RandProbs

/-!
# C78: distributing balls into bins
-/

namespace Cleanlab.Props

open Np Cleanlab.Noise

variable {n : ℕ}

theorem sum_update_int (r : Fin n → ℤ) (a : Fin n) (v : ℤ) : ∑ i, Function.update r a v i = ∑ i, r i + (v - r a) := by
  rw [Finset.sum_update_of_mem (Finset.mem_univ a), ← Finset.sum_sdiff (Finset.subset_univ {a}) (f := r),
    Finset.sum_singleton]
  ring

theorem card_mul_argmin_le [NeZero n] (a : Fin n → ℤ) : n * a (argmin a) ≤ ∑ i, a i := by
  have : ∑ _i : Fin n, a (argmin a) ≤ ∑ i, a i := Finset.sum_le_sum (fun i _ => argmin_le a i)
  simpa using this

theorem le_card_mul_argmax [NeZero n] (a : Fin n → ℤ) : ∑ i, a i ≤ n * a (argmax a) := by
  have : ∑ i, a i ≤ ∑ _i : Fin n, a (argmax a) := Finset.sum_le_sum (fun i _ => le_argmax a i)
  simpa using this

theorem lowerTo_spec [NeZero n] (N lo hi : ℤ) (hlo : n * lo ≤ N) : ∀ (c : ℕ) (arr : Fin n → ℤ),
    ∑ i, arr i - N = c → (∀ i, lo ≤ arr i ∧ arr i ≤ hi) →
    ∑ i, ((fun a : Fin n → ℤ => Function.update a (argmax a) (a (argmax a) - 1))^[c] arr) i = N ∧
    ∀ i, lo ≤ ((fun a : Fin n → ℤ => Function.update a (argmax a) (a (argmax a) - 1))^[c] arr) i ∧
      ((fun a : Fin n → ℤ => Function.update a (argmax a) (a (argmax a) - 1))^[c] arr) i ≤ hi := by
  have hn : (0 : ℤ) < n := by exact_mod_cast Nat.pos_of_ne_zero (NeZero.ne n)
  intro c
  induction c with
  | zero => intro arr h hb; exact ⟨by simpa using (by omega : ∑ i, arr i = N), hb⟩
  | succ c ih =>
    intro arr h hb
    rw [Function.iterate_succ_apply]
    refine ih _ (by rw [sum_update_int]; push_cast at h; omega) ?_
    intro i
    by_cases hi : i = argmax arr
    · rw [hi, Function.update_self]
      have h1 := le_card_mul_argmax arr
      have h2 : (n : ℤ) * lo < n * arr (argmax arr) := by push_cast at h; omega
      have h3 := lt_of_mul_lt_mul_left h2 hn.le
      have := (hb (argmax arr)).2
      omega
    · rw [Function.update_of_ne hi]; exact hb i

theorem raiseTo_spec [NeZero n] (N lo hi : ℤ) (hhi : N ≤ n * hi) : ∀ (c : ℕ) (arr : Fin n → ℤ),
    N - ∑ i, arr i = c → (∀ i, lo ≤ arr i ∧ arr i ≤ hi) →
    ∑ i, ((fun a : Fin n → ℤ => Function.update a (argmin a) (a (argmin a) + 1))^[c] arr) i = N ∧
    ∀ i, lo ≤ ((fun a : Fin n → ℤ => Function.update a (argmin a) (a (argmin a) + 1))^[c] arr) i ∧
      ((fun a : Fin n → ℤ => Function.update a (argmin a) (a (argmin a) + 1))^[c] arr) i ≤ hi := by
  have hn : (0 : ℤ) < n := by exact_mod_cast Nat.pos_of_ne_zero (NeZero.ne n)
  intro c
  induction c with
  | zero => intro arr h hb; exact ⟨by simpa using (by omega : ∑ i, arr i = N), hb⟩
  | succ c ih =>
    intro arr h hb
    rw [Function.iterate_succ_apply]
    refine ih _ (by rw [sum_update_int]; push_cast at h; omega) ?_
    intro i
    by_cases hi' : i = argmin arr
    · rw [hi', Function.update_self]
      have h1 := card_mul_argmin_le arr
      have h2 : (n : ℤ) * arr (argmin arr) < n * hi := by push_cast at h; omega
      have h3 := lt_of_mul_lt_mul_left h2 hn.le
      have := (hb (argmin arr)).1
      omega
    · rw [Function.update_of_ne hi']; exact hb i

/-- Correcting the sum keeps the bounds. -/
theorem correct_spec [NeZero n] (N lo hi : ℤ) (hlo : n * lo ≤ N) (hhi : N ≤ n * hi) (arr : Fin n → ℤ)
    (hb : ∀ i, lo ≤ arr i ∧ arr i ≤ hi) :
    ∑ i, raiseTo N (lowerTo N arr) i = N ∧
    ∀ i, lo ≤ raiseTo N (lowerTo N arr) i ∧ raiseTo N (lowerTo N arr) i ≤ hi := by
  unfold raiseTo
  rcases le_or_gt N (∑ i, arr i) with h | h
  · have h1 := lowerTo_spec N lo hi hlo (∑ i, arr i - N).toNat arr (by omega) hb
    have h2 := raiseTo_spec N lo hi hhi (N - ∑ i, lowerTo N arr i).toNat (lowerTo N arr)
      (by unfold lowerTo; rw [h1.1]; simp) h1.2
    exact h2
  · have h1 : lowerTo N arr = arr := by
      unfold lowerTo
      rw [show (∑ i, arr i - N).toNat = 0 by omega]
      rfl
    rw [h1]
    exact raiseTo_spec N lo hi hhi (N - ∑ i, arr i).toNat arr (by omega) hb

/-- **C78.** For a feasible request of fewer than 500000 balls, `randomly_distribute_N_balls_into_K_bins` ends for all
random draws, the bins hold `N` balls together, and each holds between `min_balls_per_bin` and
`max_balls_per_bin`. -/
theorem C78_balls [NeZero n] (N maxB minB : ℕ) (hN : N < 500000) (hmin : n * minB ≤ N) (hmax : N ≤ n * maxB)
    (d : Fin n → ℚ) (hd : ∑ i, d i = 1) (hd0 : ∀ i, 0 ≤ d i) (u u' : ℕ → ℚ) (hu : ∀ t, 0 ≤ u t ∧ u t ≤ 1)
    (hu' : ∀ t, 0 ≤ u' t ∧ u' t ≤ 1) :
    ∃ arr fuel₀, (∀ fuel, fuel₀ ≤ fuel → distributeBalls N (some maxB) (some minB) d u u' fuel = .value arr) ∧
      ∑ i, arr i = (N : ℤ) ∧ ∀ i, (minB : ℤ) ≤ arr i ∧ arr i ≤ maxB := by
  have hnn : 0 < n := Nat.pos_of_ne_zero (NeZero.ne n)
  have hn : (0 : ℚ) < n := by exact_mod_cast hnn
  unfold distributeBalls
  by_cases h0 : N = 0
  · refine ⟨fun _ => 0, 0, fun fuel _ => if_pos h0, by simp [h0], fun i => ⟨?_, by simp⟩⟩
    rw [h0] at hmin
    have : n * minB = 0 := by omega
    rcases Nat.mul_eq_zero.mp this with h | h
    · omega
    · simp [h]
  · simp only [if_neg h0]
    have hNq : (0 : ℚ) < N := by exact_mod_cast Nat.pos_of_ne_zero h0
    have hmaxq : (N : ℚ) ≤ n * maxB := by exact_mod_cast hmax
    have hminq : (n : ℚ) * minB ≤ N := by exact_mod_cast hmin
    have hmaxN : (N : ℚ) ≤ n * ((min maxB N : ℕ) : ℚ) := by
      have : N ≤ n * min maxB N := by
        rcases le_total maxB N with h | h
        · rw [min_eq_left h]; exact hmax
        · rw [min_eq_right h]; exact Nat.le_mul_of_pos_left N hnn
      exact_mod_cast this
    rw [min_eq_left (show (minB : ℚ) ≤ (N : ℚ) / n by rw [le_div_iff₀ hn]; linarith),
      if_neg (show ¬ ((min maxB N : ℕ) : ℚ) < (N : ℚ) / n by rw [not_lt, div_le_iff₀ hn]; linarith)]
    simp only [if_neg h0]
    obtain ⟨r, fuel₀, hr, hsum, hb, -⟩ := C77_rand_probs (n := n) 1 (((min maxB N : ℕ) : ℚ) / N) ((minB : ℚ) / N) d hd
      hd0 u u' hu hu' (by rw [div_le_div_iff₀ hNq hn]; linarith) (by rw [div_le_div_iff₀ hn hNq]; linarith)
    have hbound : ∀ i, (minB : ℤ) ≤ rint (r i * N) ∧ rint (r i * N) ≤ (min maxB N : ℕ) := by
      intro i
      have he : eps * N < 1 / 2 := by
        have : (N : ℚ) < 500000 := by exact_mod_cast hN
        unfold eps; linarith
      have h1 : (minB : ℚ) - eps * N ≤ r i * N := by
        have := mul_le_mul_of_nonneg_right (hb i).1 hNq.le
        rw [sub_mul, div_mul_cancel₀ _ hNq.ne'] at this
        exact this
      have h2 : r i * N ≤ ((min maxB N : ℕ) : ℚ) + eps * N := by
        have := mul_le_mul_of_nonneg_right (hb i).2 hNq.le
        rw [add_mul, div_mul_cancel₀ _ hNq.ne'] at this
        exact this
      have h3 := sub_rint_le (r i * N)
      have h4 := rint_sub_le (r i * N)
      constructor
      · have : ((minB : ℤ) : ℚ) < ((rint (r i * N) + 1 : ℤ) : ℚ) := by push_cast; linarith
        have := Int.cast_lt.mp this
        omega
      · have : ((rint (r i * N) : ℤ) : ℚ) < (((min maxB N : ℕ) : ℤ) + 1 : ℤ) := by push_cast at *; linarith
        have := Int.cast_lt.mp this
        omega
    have hc := correct_spec (N : ℤ) minB ((min maxB N : ℕ) : ℤ) (by exact_mod_cast hmin) (by exact_mod_cast hmaxN)
      (fun i => rint (r i * N)) hbound
    refine ⟨raiseTo N (lowerTo N (fun i => rint (r i * N))), fuel₀, ?_, hc.1, fun i => ⟨(hc.2 i).1, ?_⟩⟩
    · intro fuel hf
      rw [hr fuel hf]
    · have := (hc.2 i).2
      have h5 : ((min maxB N : ℕ) : ℤ) ≤ maxB := by exact_mod_cast min_le_left _ _
      omega

/-- Seven balls in three bins, at most three per bin: rounding gives eight, one is taken out. -/
example : raiseTo (n := 3) 7 (lowerTo 7 ![3, 3, 2]) = ![2, 3, 2] := by decide +kernel

/-- **C78.** If the bins hold fewer balls than asked for, every bin is filled: the number of balls is reduced to what they
hold, whatever the random draws. -/
theorem C78_infeasible_reduced [NeZero n] (N maxB minB : ℕ) (hpos : 0 < maxB) (hle : minB ≤ maxB) (hmax : n * maxB < N)
    (hN : n * maxB < 500000) (d : Fin n → ℚ) (hd : ∑ i, d i = 1) (hd0 : ∀ i, 0 ≤ d i) (u u' : ℕ → ℚ)
    (hu : ∀ t, 0 ≤ u t ∧ u t ≤ 1) (hu' : ∀ t, 0 ≤ u' t ∧ u' t ≤ 1) :
    ∃ fuel₀, ∀ fuel, fuel₀ ≤ fuel →
      distributeBalls N (some maxB) (some minB) d u u' fuel = .value (fun _ => (maxB : ℤ)) := by
  have hnn : 0 < n := Nat.pos_of_ne_zero (NeZero.ne n)
  obtain ⟨arr, fuel₀, h, hs, hb⟩ := C78_balls (n := n) (n * maxB) maxB minB hN (Nat.mul_le_mul_left n hle) le_rfl d hd hd0
    u u' hu hu'
  have hn : (0 : ℚ) < n := by exact_mod_cast hnn
  have hmaxN : maxB ≤ N := le_trans (Nat.le_mul_of_pos_left maxB hnn) hmax.le
  have hq : (maxB : ℚ) < (N : ℚ) / n := by
    rw [lt_div_iff₀ hn, mul_comm]; exact_mod_cast hmax
  have hq' : (maxB : ℚ) = ((n * maxB : ℕ) : ℚ) / n := by
    rw [eq_div_iff hn.ne']; push_cast; ring
  have hz : n * maxB ≠ 0 := Nat.mul_ne_zero hnn.ne' hpos.ne'
  have hall : arr = fun _ => (maxB : ℤ) := by
    have hc : ∑ i, ((maxB : ℤ) - arr i) = 0 := by
      rw [Finset.sum_sub_distrib, hs]; simp
    have := (Finset.sum_eq_zero_iff_of_nonneg (fun i _ => sub_nonneg.mpr (hb i).2)).mp hc
    funext i
    have := this i (Finset.mem_univ i)
    omega
  refine ⟨fuel₀, fun fuel hf => ?_⟩
  rw [← hall, ← h fuel hf]
  unfold distributeBalls
  rw [if_neg (by omega), if_neg hz]
  simp only
  rw [min_eq_left hmaxN, min_eq_left (Nat.le_mul_of_pos_left maxB hnn), if_pos hq,
    min_eq_left ((Nat.cast_le.mpr hle).trans hq.le), min_eq_left ((Nat.cast_le.mpr hle).trans hq'.le), mul_comm maxB n]
  simp only [ite_self]

/-- Three bins that hold one ball each are asked for five. -/
example : ∃ fuel₀, ∀ fuel, fuel₀ ≤ fuel →
    distributeBalls (n := 3) 5 (some 1) (some 0) (fun _ => 1/3) (fun _ => 0) (fun _ => 0) fuel = .value (fun _ => 1) :=
  C78_infeasible_reduced 5 1 0 (by decide) (by decide) (by decide) (by decide) _ (by simp)
    (by intro; norm_num) _ _ (by intro; norm_num) (by intro; norm_num)

end Cleanlab.Props
