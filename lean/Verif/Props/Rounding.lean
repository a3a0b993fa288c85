import Verif.Lemmas.Rounding

/-!
# C02: rounding keeps the total and moves no entry by one or more
-/

namespace Cleanlab.Props

open Np Cleanlab.Util

/-- **C02.** For every vector of rationals and every admissible `argsort`, the corrective loop ends, and
* the total of the result is the rounded total of the input (so within one half of it),
* no entry moves by one or more,
* entries that already are integers are kept,
* non-negative entries stay non-negative. -/
theorem C02_round_preserving_sum (A : ArgSort ℚ) {n : ℕ} (x : Fin n → ℚ) :
    ∃ r, roundPreservingSum A x = some r ∧
      ∑ i, r i = rint (∑ i, x i) ∧
      |((∑ i, r i : ℤ) : ℚ) - ∑ i, x i| ≤ 1 / 2 ∧
      (∀ i, |(r i : ℚ) - x i| < 1) ∧
      (∀ i (z : ℤ), x i = z → r i = z) ∧
      (∀ i, 0 ≤ x i → 0 ≤ r i) := by
  obtain ⟨r, h1, h2, h3⟩ := roundPreservingSum_core A x
  refine ⟨r, h1, h2, ?_, ?_, ?_, ?_⟩
  · rw [h2, abs_sub_comm]
    exact abs_sub_rint_le _
  · intro i
    have a := sub_rint_le (x i)
    have b := rint_sub_le (x i)
    rw [abs_lt]
    rcases h3 i with h | ⟨h, h'⟩ | ⟨h, h'⟩ <;> rw [h] <;> push_cast <;> constructor <;> linarith
  · intro i z hz
    have hr : rint (x i) = z := by rw [hz, rint_intCast]
    rcases h3 i with h | ⟨h, h'⟩ | ⟨h, h'⟩
    · rw [h, hr]
    · rw [hr, hz] at h'; exact absurd h' (lt_irrefl _)
    · rw [hr, hz] at h'; exact absurd h' (lt_irrefl _)
  · intro i hi
    have hn := rint_nonneg hi
    rcases h3 i with h | ⟨h, h'⟩ | ⟨h, h'⟩
    · omega
    · omega
    · have : (0 : ℚ) < (rint (x i) : ℚ) := lt_of_le_of_lt hi h'
      have : 0 < rint (x i) := by exact_mod_cast this
      omega

/-- **C02**, the case used by calibration: if the input total is an integer it is kept exactly. -/
theorem C02_integer_total_kept (A : ArgSort ℚ) {n : ℕ} (x : Fin n → ℚ) (N : ℤ)
    (hN : ∑ i, x i = N) :
    ∃ r, roundPreservingSum A x = some r ∧ ∑ i, r i = N := by
  obtain ⟨r, h1, h2, _⟩ := C02_round_preserving_sum A x
  exact ⟨r, h1, by rw [h2, hN, rint_intCast]⟩

/-- The hypothesis of `C02_integer_total_kept` is met by a row that needs a correction:
`[1/2, 1/2]` rounds half-to-even to `[0, 0]`, but its total is `1`. -/
example : ∑ i, (![1/2, 1/2] : Fin 2 → ℚ) i = ((1 : ℤ) : ℚ) ∧
    ∑ i, rint ((![1/2, 1/2] : Fin 2 → ℚ) i) ≠ 1 := by
  refine ⟨by simp [Fin.sum_univ_succ]; norm_num, by simp [Fin.sum_univ_succ]; decide +kernel⟩

end Cleanlab.Props
