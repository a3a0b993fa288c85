import Verif.Lemmas.Count
import Verif.Lemmas.Filter

/-!
# Which entries the rounding helpers move

`round_preserving_sum` rounds every entry and then moves the entries furthest from their rounded values, all in the same
direction. Unless two of them are equally far this determines the result, whatever the order of the entries and however
`np.argsort` breaks ties.
-/

namespace Cleanlab.Util

open Np Cleanlab.Filter

/-- `r` is `x` rounded to the nearest integers, apart from as many entries as are needed for the sum, all moved in the same
direction, and these are the ones furthest from their rounded values. -/
def IsRounding {n : ℕ} (x : Fin n → ℚ) (r : Fin n → ℤ) : Prop :=
  ∑ i, r i = rint (∑ i, x i) ∧
  (((∀ i, r i = rint (x i) ∨ (r i = rint (x i) + 1 ∧ (rint (x i) : ℚ) < x i)) ∧
      ∀ i j, r i = rint (x i) + 1 → r j = rint (x j) → x j - rint (x j) ≤ x i - rint (x i)) ∨
    ((∀ i, r i = rint (x i) ∨ (r i = rint (x i) - 1 ∧ x i < (rint (x i) : ℚ))) ∧
      ∀ i j, r i = rint (x i) - 1 → r j = rint (x j) → x i - rint (x i) ≤ x j - rint (x j)))

/-- No two entries are equally far from their rounded values, unless they are integers. -/
def NoRoundingTies {n : ℕ} (x : Fin n → ℚ) : Prop :=
  ∀ i j, i ≠ j → x i - rint (x i) = x j - rint (x j) → x i = rint (x i)

theorem take_indices_le' {α : Type} [LinearOrder α] (A : ArgSort α) {c : ℕ} (v : Fin c → α) (m : ℕ)
    (r s : Fin c) (hr : r ∈ (A.indices v).take m) (hs : s ∉ (A.indices v).take m) : v r ≤ v s :=
  take_indices_le A v m r s hr hs

theorem take_reverse_indices {α : Type} [LinearOrder α] (A : ArgSort α) {c : ℕ} (v : Fin c → α) (m : ℕ)
    (r s : Fin c) (hr : r ∈ (A.indices v).reverse.take m) (hs : s ∉ (A.indices v).reverse.take m) : v s ≤ v r := by
  have hp : (A.indices v).reverse.Pairwise (fun a b => v b ≤ v a) := by
    rw [List.pairwise_reverse]; exact A.pairwise_indices v
  have hmem : s ∈ (A.indices v).reverse.take m ++ (A.indices v).reverse.drop m := by
    rw [List.take_append_drop, List.mem_reverse]; exact A.mem_indices v s
  rw [← List.take_append_drop m (A.indices v).reverse, List.pairwise_append] at hp
  rcases List.mem_append.mp hmem with h | h
  · exact absurd h hs
  · exact hp.2.2 r hr s h

/-- The entries that move are the ones furthest from their rounded values. -/
theorem roundPreservingSum_rounding (A : ArgSort ℚ) {n : ℕ} (x : Fin n → ℚ) :
    ∃ r, roundPreservingSum A x = some r ∧ IsRounding x r := by
  unfold roundPreservingSum
  set ints : Fin n → ℤ := fun i => rint (x i) with hints
  set target : ℤ := rint (∑ i, x i) with htarget
  have hsumd : ∑ i, (x i - (ints i : ℚ)) = ∑ i, x i - ((∑ i, ints i : ℤ) : ℚ) := by
    rw [Finset.sum_sub_distrib]; push_cast; rfl
  have hr1 := sub_rint_le (∑ i, x i)
  have hr2 := rint_sub_le (∑ i, x i)
  rw [← htarget] at hr1 hr2
  rw [roundLoop]
  simp only [gt_fpc_iff, ← htarget]
  by_cases h0 : (∑ i, ints i) - target = 0
  · rw [if_neg (not_not.mpr h0)]
    exact ⟨ints, rfl, by omega, Or.inl ⟨fun i => Or.inl rfl, fun i j h => by simp only [hints] at h; omega⟩⟩
  · rw [if_pos h0]
    by_cases hneg : target - ∑ i, ints i < 0
    · simp only [if_pos hneg]
      set c : ℕ := (target - ∑ i, ints i).natAbs with hc
      have hcz : (c : ℤ) = ∑ i, ints i - target := by omega
      have hcq : (c : ℚ) = ((∑ i, ints i : ℤ) : ℚ) - (target : ℚ) := by
        exact_mod_cast congrArg (fun z : ℤ => (z : ℚ)) hcz
      have hp := A.perm_indices (fun i => x i - (ints i : ℚ))
      have key := top_positive (fun i => (ints i : ℚ) - x i) (fun i => rint_sub_le (x i))
        (A.indices (fun i => x i - (ints i : ℚ))) hp
        ((A.pairwise_indices _).imp (fun h => by linarith)) c (by
          have : ∑ i, ((ints i : ℚ) - x i) = - ∑ i, (x i - (ints i : ℚ)) := by
            rw [← Finset.sum_neg_distrib]; exact Finset.sum_congr rfl (fun i _ => by ring)
          rw [this, hsumd, hcq]; linarith)
      obtain ⟨hcn, hpos⟩ := key
      rw [min_eq_left hcn]
      set l := (A.indices (fun i => x i - (ints i : ℚ))).take c with hl
      have hnd : l.Nodup := (A.nodup_indices _).sublist (List.take_sublist _ _)
      have hlen : l.length = c := by rw [hl, List.length_take, A.length_indices]; omega
      have hsum := sum_bumpAll (-1) l hnd ints
      rw [hlen] at hsum
      rw [roundLoop]
      simp only [gt_fpc_iff, ← htarget]
      rw [if_neg (by rw [hsum]; omega)]
      refine ⟨_, rfl, by rw [hsum]; omega, Or.inr ⟨fun i => ?_, fun i j hi hj => ?_⟩⟩
      · rw [bumpAll_apply _ _ hnd]
        by_cases hi : i ∈ l
        · right
          have := hpos i hi
          refine ⟨by simp [hi, hints]; ring, by simp only [hints] at this; linarith⟩
        · left; simp [hi, hints]
      · rw [bumpAll_apply _ _ hnd] at hi hj
        have hil : i ∈ l := by
          by_contra hn
          rw [if_neg hn] at hi
          simp only [hints] at hi
          omega
        have hjl : j ∉ l := by
          intro hn
          rw [if_pos hn] at hj
          simp only [hints] at hj
          omega
        rw [hl] at hil hjl
        exact take_indices_le' A _ _ i j hil hjl
    · simp only [if_neg hneg]
      set c : ℕ := (target - ∑ i, ints i).natAbs with hc
      have hcz : (c : ℤ) = target - ∑ i, ints i := by omega
      have hcq : (c : ℚ) = (target : ℚ) - ((∑ i, ints i : ℤ) : ℚ) := by
        exact_mod_cast congrArg (fun z : ℤ => (z : ℚ)) hcz
      have hp := (List.reverse_perm _).trans (A.perm_indices (fun i => x i - (ints i : ℚ)))
      have key := top_positive (fun i => x i - (ints i : ℚ)) (fun i => sub_rint_le (x i))
        (A.indices (fun i => x i - (ints i : ℚ))).reverse hp
        (by rw [List.pairwise_reverse]; exact (A.pairwise_indices _)) c (by
          rw [hsumd, hcq]; linarith)
      obtain ⟨hcn, hpos⟩ := key
      rw [min_eq_left hcn]
      set l := (A.indices (fun i => x i - (ints i : ℚ))).reverse.take c with hl
      have hnd : l.Nodup :=
        (List.nodup_reverse.mpr (A.nodup_indices _)).sublist (List.take_sublist _ _)
      have hlen : l.length = c := by
        rw [hl, List.length_take, List.length_reverse, A.length_indices]; omega
      have hsum := sum_bumpAll 1 l hnd ints
      rw [hlen] at hsum
      rw [roundLoop]
      simp only [gt_fpc_iff, ← htarget]
      rw [if_neg (by rw [hsum]; omega)]
      refine ⟨_, rfl, by rw [hsum]; omega, Or.inl ⟨fun i => ?_, fun i j hi hj => ?_⟩⟩
      · rw [bumpAll_apply _ _ hnd]
        by_cases hi : i ∈ l
        · right
          have := hpos i hi
          refine ⟨by simp [hi, hints], by simp only [hints] at this; linarith⟩
        · left; simp [hi, hints]
      · rw [bumpAll_apply _ _ hnd] at hi hj
        have hil : i ∈ l := by
          by_contra hn
          rw [if_neg hn] at hi
          simp only [hints] at hi
          omega
        have hjl : j ∉ l := by
          intro hn
          rw [if_pos hn] at hj
          simp only [hints] at hj
          omega
        rw [hl] at hil hjl
        exact take_reverse_indices A _ _ i j hil hjl

theorem roundRows_rounding (A : ArgSort ℚ) {m n : ℕ} (x : Fin m → Fin n → ℚ) (k : Fin m) :
    IsRounding (x k) (roundRows A x k) := by
  obtain ⟨r, h1, h2⟩ := roundPreservingSum_rounding A (x k)
  have : roundRows A x k = r := by
    unfold roundRows
    exact Option.get_of_eq_some _ h1
  rw [this]
  exact h2

/-- Two roundings of the same numbers agree unless there are ties. -/
theorem IsRounding.unique {n : ℕ} {x : Fin n → ℚ} {r r' : Fin n → ℤ} (ht : NoRoundingTies x) (h : IsRounding x r)
    (h' : IsRounding x r') : r = r' := by
  obtain ⟨hs, h⟩ := h
  obtain ⟨hs', h'⟩ := h'
  -- an entry that one of them moves and the other one does not, and the other way round
  have swap : ∀ r r' : Fin n → ℤ, ∑ i, r i = ∑ i, r' i → r ≠ r' → ∃ i j, r i < r' i ∧ r' j < r j := by
    intro r r' he hne
    have key : ∀ r r' : Fin n → ℤ, ∑ i, r i = ∑ i, r' i → r ≠ r' → ∃ i, r i < r' i := by
      intro r r' he hne
      by_contra hc
      push Not at hc
      exact hne (funext (fun i => ((Finset.sum_eq_sum_iff_of_le (fun i _ => hc i)).mp he.symm i (Finset.mem_univ i)).symm))
    obtain ⟨i, hi⟩ := key r r' he hne
    obtain ⟨j, hj⟩ := key r' r he.symm hne.symm
    exact ⟨i, j, hi, hj⟩
  by_contra hne
  obtain ⟨i, j, hi, hj⟩ := swap r r' (hs.trans hs'.symm) hne
  have hij : i ≠ j := by rintro rfl; omega
  rcases h with ⟨h1, h2⟩ | ⟨h1, h2⟩ <;> rcases h' with ⟨h1', h2'⟩ | ⟨h1', h2'⟩
  · rcases h1 i with a | ⟨a, _⟩
    · rcases h1' i with a' | ⟨a', b'⟩
      · omega
      · rcases h1 j with c | ⟨c, _⟩
        · rcases h1' j with c' | ⟨c', _⟩ <;> omega
        · rcases h1' j with c' | ⟨c', _⟩
          · have := ht i j hij (le_antisymm (h2 j i c a) (h2' i j a' c'))
            rw [← this] at b'
            exact lt_irrefl _ b'
          · omega
    · rcases h1' i with a' | ⟨a', _⟩ <;> omega
  · rcases h1 i with a | ⟨a, _⟩ <;> rcases h1' i with a' | ⟨a', _⟩ <;> omega
  · rcases h1 j with a | ⟨a, _⟩ <;> rcases h1' j with a' | ⟨a', _⟩ <;> omega
  · rcases h1 i with a | ⟨a, b⟩
    · rcases h1' i with a' | ⟨a', _⟩ <;> omega
    · rcases h1' i with a' | ⟨a', _⟩
      · rcases h1 j with c | ⟨c, _⟩
        · rcases h1' j with c' | ⟨c', _⟩
          · omega
          · have := ht i j hij (le_antisymm (h2 i j a c) (h2' j i c' a'))
            rw [← this] at b
            exact lt_irrefl _ b
        · rcases h1' j with c' | ⟨c', _⟩ <;> omega
      · omega

end Cleanlab.Util
