import Verif.Model.Multilabel
import Verif.Lemmas.Filter

/-! # Lemmas about the multi-label model -/

namespace Cleanlab.Multilabel

open Np Cleanlab.Util Cleanlab.Count Cleanlab.Rank Cleanlab.Filter

variable {n K : ℕ} {F : Type} [Field F] [LinearOrder F]

omit [Field F] in
theorem sortDesc_perm (s : Fin K → F) : (sortDesc s).Perm (List.ofFn s) := List.perm_insertionSort _ _

omit [Field F] in
theorem sortDesc_sorted (s : Fin K → F) : (sortDesc s).Pairwise (· ≥ ·) := by
  have : Std.Total (fun (a b : F) => a ≥ b) := ⟨fun a b => le_total b a⟩
  exact List.pairwise_insertionSort _ _

omit [Field F] in
theorem sortDesc_comp (s : Fin K → F) (σ : Equiv.Perm (Fin K)) : sortDesc (s ∘ σ) = sortDesc s := by
  refine List.Perm.eq_of_pairwise (le := (· ≥ ·)) ?_ (sortDesc_sorted _) (sortDesc_sorted _) ?_
  · intro a b _ _ h1 h2; exact le_antisymm h2 h1
  · refine (sortDesc_perm _).trans (List.Perm.trans ?_ (sortDesc_perm _).symm)
    rw [List.ofFn_eq_map, List.ofFn_eq_map, ← List.map_map]
    refine List.Perm.map s ?_
    rw [List.perm_ext_iff_of_nodup ((List.nodup_finRange K).map σ.injective) (List.nodup_finRange K)]
    intro k
    simp only [List.mem_map, List.mem_finRange, true_and, iff_true]
    exact ⟨σ.symm k, by simp⟩

/-- Inserting is monotone on decreasing lists. -/
theorem orderedInsert_mono {α : Type} [LinearOrder α] (l1 l2 : List α) (h : List.Forall₂ (· ≤ ·) l1 l2)
    (h1 : l1.Pairwise (· ≥ ·)) (h2 : l2.Pairwise (· ≥ ·)) (a b : α) (hab : a ≤ b) :
    List.Forall₂ (· ≤ ·) (l1.orderedInsert (· ≥ ·) a) (l2.orderedInsert (· ≥ ·) b) := by
  induction h generalizing a b with
  | nil => exact List.Forall₂.cons hab List.Forall₂.nil
  | @cons x y l1 l2 hxy hl ih =>
    obtain ⟨hx, h1'⟩ := List.pairwise_cons.mp h1
    obtain ⟨hy, h2'⟩ := List.pairwise_cons.mp h2
    have hins : ∀ (z : α) (l : List α), (∀ w ∈ l, z ≥ w) → l.orderedInsert (· ≥ ·) z = z :: l := by
      intro z l hz
      cases l with
      | nil => rfl
      | cons w l => rw [List.orderedInsert_cons, if_pos (hz w (by simp))]
    rw [List.orderedInsert_cons, List.orderedInsert_cons]
    split_ifs with ha hb hb
    · exact List.Forall₂.cons hab (List.Forall₂.cons hxy hl)
    · refine List.Forall₂.cons (hab.trans (not_le.mp hb).le) ?_
      have := ih h1' h2' x b (le_trans ha hab)
      rwa [hins x l1 hx] at this
    · refine List.Forall₂.cons (hxy.trans hb) ?_
      have := ih h1' h2' a y (((not_le.mp ha).le).trans hxy)
      rwa [hins y l2 hy] at this
    · exact List.Forall₂.cons hxy (ih h1' h2' a b hab)

theorem insertionSort_mono {α : Type} [LinearOrder α] (l1 l2 : List α) (h : List.Forall₂ (· ≤ ·) l1 l2) :
    List.Forall₂ (· ≤ ·) (l1.insertionSort (· ≥ ·)) (l2.insertionSort (· ≥ ·)) := by
  have : Std.Total (fun (a b : α) => a ≥ b) := ⟨fun a b => le_total b a⟩
  induction h with
  | nil => exact List.Forall₂.nil
  | cons hxy _ ih =>
    exact orderedInsert_mono _ _ ih (List.pairwise_insertionSort _ _) (List.pairwise_insertionSort _ _) _ _ hxy

omit [Field F] in
theorem sortDesc_mono (s t : Fin K → F) (h : ∀ k, s k ≤ t k) : List.Forall₂ (· ≤ ·) (sortDesc s) (sortDesc t) := by
  apply insertionSort_mono
  rw [List.ofFn_eq_map, List.ofFn_eq_map, List.forall₂_map_left_iff, List.forall₂_map_right_iff]
  exact List.forall₂_same.mpr (fun k _ => h k)

variable [IsStrictOrderedRing F]

theorem foldl_ema_bounds (a lo hi : F) (ha0 : 0 ≤ a) (ha1 : a ≤ 1) (l : List F) (x : F) (hx : lo ≤ x ∧ x ≤ hi)
    (hl : ∀ y ∈ l, lo ≤ y ∧ y ≤ hi) :
    lo ≤ l.foldl (fun acc si => a * si + (1 - a) * acc) x ∧ l.foldl (fun acc si => a * si + (1 - a) * acc) x ≤ hi := by
  induction l generalizing x with
  | nil => exact hx
  | cons y l ih =>
    rw [List.foldl_cons]
    refine ih _ ?_ (fun z hz => hl z (List.mem_cons_of_mem _ hz))
    obtain ⟨hy1, hy2⟩ := hl y List.mem_cons_self
    have h1a : 0 ≤ 1 - a := by linarith
    constructor
    · have := mul_le_mul_of_nonneg_left hy1 ha0
      have := mul_le_mul_of_nonneg_left hx.1 h1a
      linarith
    · have := mul_le_mul_of_nonneg_left hy2 ha0
      have := mul_le_mul_of_nonneg_left hx.2 h1a
      linarith

theorem foldl_ema_mono (a : F) (ha0 : 0 ≤ a) (ha1 : a ≤ 1) (l1 l2 : List F) (h : List.Forall₂ (· ≤ ·) l1 l2) (x y : F)
    (hxy : x ≤ y) : l1.foldl (fun acc si => a * si + (1 - a) * acc) x ≤
      l2.foldl (fun acc si => a * si + (1 - a) * acc) y := by
  induction h generalizing x y with
  | nil => exact hxy
  | cons hz _ ih =>
    rw [List.foldl_cons, List.foldl_cons]
    apply ih
    have := mul_le_mul_of_nonneg_left hz ha0
    have := mul_le_mul_of_nonneg_left hxy (by linarith : 0 ≤ 1 - a)
    linarith

omit [Field F] [IsStrictOrderedRing F] in
theorem sortDesc_length (s : Fin K → F) : (sortDesc s).length = K := by
  rw [(sortDesc_perm s).length_eq, List.length_ofFn]

omit [Field F] [IsStrictOrderedRing F] in
theorem mem_sortDesc (s : Fin K → F) (x : F) : x ∈ sortDesc s ↔ ∃ k, s k = x := by
  rw [(sortDesc_perm s).mem_iff, List.mem_ofFn]

end Cleanlab.Multilabel
