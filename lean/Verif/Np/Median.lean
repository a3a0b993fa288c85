import Verif.Np.SortOn
import Mathlib.Tactic.Linarith
import Mathlib.Algebra.Order.Field.Basic

/-!
# `np.median`
-/

namespace Np

variable {F : Type} [Field F] [LinearOrder F]

/-- `np.median`; `none` (`nan`) for an empty array. -/
def npMedian (A : ArgSort F) (l : List F) : Option F :=
  let s := sortOn A id l
  if l.length % 2 = 1 then s[l.length / 2]?
  else do
    let a ← s[l.length / 2 - 1]?
    let b ← s[l.length / 2]?
    return (a + b) / 2

/-- `m` splits the values in half. -/
def IsMedian (l : List F) (m : F) : Prop :=
  2 * l.countP (fun x => decide (x < m)) ≤ l.length ∧ 2 * l.countP (fun x => decide (m < x)) ≤ l.length

theorem countP_le_of_drop {α : Type} (l : List α) (p : α → Bool) (m : ℕ) (h : ∀ x ∈ l.drop m, p x = false) :
    l.countP p ≤ m := by
  have h0 : (l.drop m).countP p = 0 := List.countP_eq_zero.mpr (fun x hx => by simp [h x hx])
  rw [← List.take_append_drop m l, List.countP_append, h0, add_zero]
  exact List.countP_le_length.trans (by simp)

theorem countP_le_of_take {α : Type} (l : List α) (p : α → Bool) (m : ℕ) (h : ∀ x ∈ l.take m, p x = false) :
    l.countP p ≤ l.length - m := by
  rw [← List.take_append_drop m l, List.countP_append, List.countP_eq_zero.mpr (fun x hx => by simp [h x hx]), zero_add]
  exact List.countP_le_length.trans (by simp)

omit [Field F] in
theorem sorted_split (s : List F) (hs : s.Pairwise (fun x y => x ≤ y)) (m : ℕ) (hm : m < s.length) :
    (∀ x ∈ s.take (m + 1), x ≤ s[m]) ∧ ∀ x ∈ s.drop m, s[m] ≤ x := by
  rw [List.pairwise_iff_getElem] at hs
  constructor
  · intro x hx
    obtain ⟨i, hi, rfl⟩ := List.mem_iff_getElem.mp hx
    rw [List.getElem_take]
    have hi' : i < m + 1 := by simp at hi; omega
    rcases Nat.lt_or_ge i m with h | h
    · exact hs i m _ _ h
    · have : i = m := by omega
      subst this; exact le_rfl
  · intro x hx
    obtain ⟨i, hi, rfl⟩ := List.mem_iff_getElem.mp hx
    rw [List.getElem_drop]
    rcases Nat.eq_zero_or_pos i with h | h
    · subst h; exact le_rfl
    · exact hs m (m + i) _ _ (by omega)

theorem npMedian_isMedian [IsStrictOrderedRing F] (A : ArgSort F) (l : List F) (m : F) (h : npMedian A l = some m) : IsMedian l m := by
  have hp := sortOn_perm A id l
  have hs : (sortOn A id l).Pairwise (fun x y => x ≤ y) := sortOn_sorted A id l
  have hlen := length_sortOn A id l
  unfold IsMedian
  rw [← hp.countP_eq, ← hp.countP_eq]
  unfold npMedian at h
  simp only at h
  generalize sortOn A id l = s at *
  split_ifs at h with hodd
  · have hlt : l.length / 2 < s.length := by omega
    rw [List.getElem?_eq_getElem hlt, Option.some.injEq] at h
    obtain ⟨h1, h2⟩ := sorted_split s hs _ hlt
    rw [h] at h1 h2
    have c1 := countP_le_of_drop s (fun x => decide (x < m)) (l.length / 2)
      (fun x hx => by simpa using h2 x hx)
    have c2 := countP_le_of_take s (fun x => decide (m < x)) (l.length / 2 + 1)
      (fun x hx => by simpa using h1 x hx)
    omega
  · rcases Nat.eq_zero_or_pos l.length with h0 | hpos
    · have : s = [] := List.length_eq_zero_iff.mp (by omega)
      subst this; simp
    have hlt : l.length / 2 < s.length := by omega
    have hlt' : l.length / 2 - 1 < s.length := by omega
    rw [List.getElem?_eq_getElem hlt, List.getElem?_eq_getElem hlt'] at h
    have h : (s[l.length / 2 - 1] + s[l.length / 2]) / 2 = m := by simpa using h
    obtain ⟨h1, -⟩ := sorted_split s hs _ hlt'
    obtain ⟨-, h2⟩ := sorted_split s hs _ hlt
    have hab : s[l.length / 2 - 1] ≤ s[l.length / 2] := List.pairwise_iff_getElem.mp hs _ _ _ _ (by omega)
    have c1 := countP_le_of_drop s (fun x => decide (x < m)) (l.length / 2)
      (fun x hx => by have := h2 x hx; simp only [decide_eq_false_iff_not, not_lt]; linarith)
    rw [show l.length / 2 - 1 + 1 = l.length / 2 by omega] at h1
    have c2 := countP_le_of_take s (fun x => decide (m < x)) (l.length / 2)
      (fun x hx => by have := h1 x hx; simp only [decide_eq_false_iff_not, not_lt]; linarith)
    omega

theorem npMedian_isSome (A : ArgSort F) (l : List F) (hl : l ≠ []) : (npMedian A l).isSome := by
  have hlen := length_sortOn A id l
  have hpos : 0 < l.length := List.length_pos_iff.mpr hl
  unfold npMedian
  simp only
  generalize sortOn A id l = s at *
  split_ifs with hodd
  · rw [List.getElem?_eq_getElem (by omega)]; rfl
  · rw [List.getElem?_eq_getElem (by omega : l.length / 2 < s.length),
      List.getElem?_eq_getElem (by omega : l.length / 2 - 1 < s.length)]; rfl

end Np
