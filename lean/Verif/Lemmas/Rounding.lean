import Verif.Np.Lemmas
import Verif.Model.Rounding

/-! # Helper lemmas for the rounding loop -/

namespace Cleanlab.Util

open Np

theorem bumpAll_apply {n : ℕ} (inc : ℤ) (l : List (Fin n)) (hl : l.Nodup) (a : Fin n → ℤ)
    (i : Fin n) : bumpAll inc l a i = a i + (if i ∈ l then inc else 0) := by
  unfold bumpAll
  induction l generalizing a with
  | nil => simp
  | cons j l ih =>
    rw [List.nodup_cons] at hl
    rw [List.foldl_cons, ih hl.2]
    by_cases hij : i = j
    · subst hij
      simp [hl.1]
    · simp [hij]

theorem sum_bumpAll {n : ℕ} (inc : ℤ) (l : List (Fin n)) (hl : l.Nodup) (a : Fin n → ℤ) :
    ∑ i, bumpAll inc l a i = ∑ i, a i + l.length * inc := by
  simp_rw [bumpAll_apply inc l hl a]
  rw [Finset.sum_add_distrib]
  congr 1
  have : ∀ i, (if i ∈ l then inc else 0) = if i ∈ l.toFinset then inc else 0 := by
    intro i; simp
  simp_rw [this]
  rw [Finset.sum_ite_mem]
  simp [List.toFinset_card_of_nodup hl]

/-- If the elements satisfying `P` come first and there are at least `c` of them,
the first `c` elements all satisfy `P`. -/
theorem forall_take_of_le_countP {α : Type} (P : α → Bool) (l : List α)
    (hl : l.Pairwise (fun a b => P b → P a)) (c : ℕ) (hc : c ≤ l.countP P) :
    ∀ a ∈ l.take c, P a := by
  induction l generalizing c with
  | nil => simp
  | cons x l ih =>
    rw [List.pairwise_cons] at hl
    cases c with
    | zero => simp
    | succ c =>
      intro a ha
      rw [List.take_succ_cons, List.mem_cons] at ha
      by_cases hx : P x
      · rcases ha with rfl | ha
        · exact hx
        · refine ih hl.2 c ?_ a ha
          rw [List.countP_cons_of_pos hx] at hc
          omega
      · exfalso
        have h0 : l.countP P = 0 := by
          rw [List.countP_eq_zero]
          intro b hb hPb
          exact hx (hl.1 b hb hPb)
        rw [List.countP_cons_of_neg hx, h0] at hc
        omega

theorem sum_map_le_countP {α : Type} (d : α → ℚ) (hd : ∀ a, d a ≤ 1 / 2) (l : List α) :
    (l.map d).sum ≤ (l.countP (fun a => decide (0 < d a)) : ℚ) / 2 := by
  induction l with
  | nil => simp
  | cons a l ih =>
    rw [List.map_cons, List.sum_cons]
    by_cases h : 0 < d a
    · rw [List.countP_cons_of_pos (by simpa using h)]
      push_cast
      linarith [hd a]
    · rw [List.countP_cons_of_neg (by simpa using h)]
      linarith

theorem sum_eq_sum_map_of_perm {n : ℕ} (d : Fin n → ℚ) (l : List (Fin n))
    (h : l.Perm (List.finRange n)) : ∑ i, d i = (l.map d).sum := by
  rw [(h.map d).sum_eq, ← List.ofFn_eq_map, List.sum_ofFn]

/-- The core of the loop: with a positive deficit `c` that is at most the sum of the
differences plus one half, the `c` largest differences are all positive. -/
theorem top_positive {n : ℕ} (d : Fin n → ℚ) (hd : ∀ i, d i ≤ 1 / 2) (l : List (Fin n))
    (hperm : l.Perm (List.finRange n)) (hs : l.Pairwise (fun i j => d j ≤ d i)) (c : ℕ)
    (hc : (c : ℚ) ≤ ∑ i, d i + 1 / 2) :
    c ≤ n ∧ ∀ i ∈ l.take c, 0 < d i := by
  rw [sum_eq_sum_map_of_perm d l hperm] at hc
  have h1 := sum_map_le_countP d hd l
  have hcount : c ≤ l.countP (fun a => decide (0 < d a)) := by
    rcases Nat.eq_zero_or_pos c with rfl | hpos
    · exact Nat.zero_le _
    · have h2 : (2 * c : ℚ) ≤ l.countP (fun a => decide (0 < d a)) + 1 := by linarith
      have h3 : 2 * c ≤ l.countP (fun a => decide (0 < d a)) + 1 := by exact_mod_cast h2
      omega
  refine ⟨?_, ?_⟩
  · have := List.countP_le_length (p := fun a => decide (0 < d a)) (l := l)
    have hlen : l.length = n := by rw [hperm.length_eq, List.length_finRange]
    omega
  · intro i hi
    have := forall_take_of_le_countP (fun a => decide (0 < d a)) l
      (hs.imp (fun h => by simp only [decide_eq_true_eq]; intro hb; linarith)) c hcount i hi
    simpa using this

theorem gt_fpc_iff (z : ℤ) : |((z : ℤ) : ℚ)| > floatingPointComparison ↔ z ≠ 0 := by
  constructor
  · rintro h rfl
    simp [floatingPointComparison] at h
    linarith
  · intro h
    have : (1 : ℚ) ≤ |(z : ℚ)| := by
      rw [← Int.cast_abs]
      exact_mod_cast Int.one_le_abs h
    unfold floatingPointComparison
    linarith

/-- One pass of the loop reaches the target sum; only entries rounded in the opposite direction move. -/
theorem roundPreservingSum_core (A : ArgSort ℚ) {n : ℕ} (x : Fin n → ℚ) :
    ∃ r, roundPreservingSum A x = some r ∧ ∑ i, r i = rint (∑ i, x i) ∧
      ∀ i, r i = rint (x i) ∨ (r i = rint (x i) + 1 ∧ (rint (x i) : ℚ) < x i) ∨
        (r i = rint (x i) - 1 ∧ x i < (rint (x i) : ℚ)) := by
  unfold roundPreservingSum
  set ints : Fin n → ℤ := fun i => rint (x i) with hints
  set target : ℤ := rint (∑ i, x i) with htarget
  have hsumd : ∑ i, (x i - (ints i : ℚ)) = ∑ i, x i - ((∑ i, ints i : ℤ) : ℚ) := by
    rw [Finset.sum_sub_distrib]; push_cast; rfl
  have hr1 := sub_rint_le (∑ i, x i)
  have hr2 := rint_sub_le (∑ i, x i)
  rw [← htarget] at hr1 hr2
  rw [roundLoop]
  simp only [gt_fpc_iff, ← htarget]
  by_cases h0 : (∑ i, ints i) - target = 0
  · rw [if_neg (not_not.mpr h0)]
    exact ⟨ints, rfl, by omega, fun i => Or.inl rfl⟩
  · rw [if_pos h0]
    by_cases hneg : target - ∑ i, ints i < 0
    · simp only [if_pos hneg]
      set c : ℕ := (target - ∑ i, ints i).natAbs with hc
      have hcz : (c : ℤ) = ∑ i, ints i - target := by omega
      have hcq : (c : ℚ) = ((∑ i, ints i : ℤ) : ℚ) - (target : ℚ) := by
        exact_mod_cast congrArg (fun z : ℤ => (z : ℚ)) hcz
      have hp := A.perm_indices (fun i => x i - (ints i : ℚ))
      have key := top_positive (fun i => (ints i : ℚ) - x i) (fun i => rint_sub_le (x i))
        (A.indices (fun i => x i - (ints i : ℚ))) hp
        ((A.pairwise_indices _).imp (fun h => by linarith)) c (by
          have : ∑ i, ((ints i : ℚ) - x i) = - ∑ i, (x i - (ints i : ℚ)) := by
            rw [← Finset.sum_neg_distrib]; exact Finset.sum_congr rfl (fun i _ => by ring)
          rw [this, hsumd, hcq]; linarith)
      obtain ⟨hcn, hpos⟩ := key
      rw [min_eq_left hcn]
      set l := (A.indices (fun i => x i - (ints i : ℚ))).take c with hl
      have hnd : l.Nodup := (A.nodup_indices _).sublist (List.take_sublist _ _)
      have hlen : l.length = c := by rw [hl, List.length_take, A.length_indices]; omega
      have hsum := sum_bumpAll (-1) l hnd ints
      rw [hlen] at hsum
      rw [roundLoop]
      simp only [gt_fpc_iff, ← htarget]
      rw [if_neg (by rw [hsum]; omega)]
      refine ⟨_, rfl, by rw [hsum]; omega, fun i => ?_⟩
      rw [bumpAll_apply _ _ hnd]
      by_cases hi : i ∈ l
      · right; right
        have := hpos i hi
        refine ⟨by simp [hi, hints]; ring, by simp only [hints] at this; linarith⟩
      · left; simp [hi, hints]
    · simp only [if_neg hneg]
      set c : ℕ := (target - ∑ i, ints i).natAbs with hc
      have hcz : (c : ℤ) = target - ∑ i, ints i := by omega
      have hcq : (c : ℚ) = (target : ℚ) - ((∑ i, ints i : ℤ) : ℚ) := by
        exact_mod_cast congrArg (fun z : ℤ => (z : ℚ)) hcz
      have hp := (List.reverse_perm _).trans (A.perm_indices (fun i => x i - (ints i : ℚ)))
      have key := top_positive (fun i => x i - (ints i : ℚ)) (fun i => sub_rint_le (x i))
        (A.indices (fun i => x i - (ints i : ℚ))).reverse hp
        (by rw [List.pairwise_reverse]; exact (A.pairwise_indices _)) c (by
          rw [hsumd, hcq]; linarith)
      obtain ⟨hcn, hpos⟩ := key
      rw [min_eq_left hcn]
      set l := (A.indices (fun i => x i - (ints i : ℚ))).reverse.take c with hl
      have hnd : l.Nodup :=
        (List.nodup_reverse.mpr (A.nodup_indices _)).sublist (List.take_sublist _ _)
      have hlen : l.length = c := by
        rw [hl, List.length_take, List.length_reverse, A.length_indices]; omega
      have hsum := sum_bumpAll 1 l hnd ints
      rw [hlen] at hsum
      rw [roundLoop]
      simp only [gt_fpc_iff, ← htarget]
      rw [if_neg (by rw [hsum]; omega)]
      refine ⟨_, rfl, by rw [hsum]; omega, fun i => ?_⟩
      rw [bumpAll_apply _ _ hnd]
      by_cases hi : i ∈ l
      · right; left
        have := hpos i hi
        refine ⟨by simp [hi, hints], by simp only [hints] at this; linarith⟩
      · left; simp [hi, hints]

end Cleanlab.Util
