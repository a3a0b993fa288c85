import Verif.Np.Basic

/-! # Lemmas about the numpy operations -/

namespace Np

theorem rint_intCast (z : ℤ) : rint (z : ℚ) = z := by
  unfold rint
  simp

theorem rint_zero : rint 0 = 0 := by simpa using rint_intCast 0

theorem sub_rint_le (x : ℚ) : x - rint x ≤ 1 / 2 := by
  have h1 := Int.floor_le x
  have h2 := Int.lt_floor_add_one x
  unfold rint
  split_ifs <;> push_cast <;> linarith

theorem rint_sub_le (x : ℚ) : rint x - x ≤ 1 / 2 := by
  have h1 := Int.floor_le x
  have h2 := Int.lt_floor_add_one x
  unfold rint
  split_ifs <;> push_cast <;> linarith

theorem abs_sub_rint_le (x : ℚ) : |x - rint x| ≤ 1 / 2 := by
  rw [abs_le]
  constructor
  · linarith [rint_sub_le x]
  · exact sub_rint_le x

theorem rint_nonneg {x : ℚ} (hx : 0 ≤ x) : 0 ≤ rint x := by
  have h := Int.floor_nonneg.mpr hx
  unfold rint
  split_ifs <;> omega

theorem rint_mono {x y : ℚ} (h : x ≤ y) : rint x ≤ rint y := by
  have hf := Int.floor_le_floor h
  rcases hf.lt_or_eq with hlt | heq
  · have h1 : rint x ≤ ⌊x⌋ + 1 := by unfold rint; split_ifs <;> omega
    have h2 : ⌊y⌋ ≤ rint y := by unfold rint; split_ifs <;> omega
    omega
  · unfold rint
    rw [heq]
    split_ifs <;> first | omega | (exfalso; linarith)

variable {α : Type} [LinearOrder α]

theorem argmaxFrom_max {ι : Type} (f : ι → α) (l : List ι) (b : ι) :
    f b ≤ f (argmaxFrom f b l) ∧ ∀ i ∈ l, f i ≤ f (argmaxFrom f b l) := by
  induction l generalizing b with
  | nil => simp [argmaxFrom]
  | cons a l ih =>
    unfold argmaxFrom
    split_ifs with h
    · obtain ⟨h1, h2⟩ := ih a
      refine ⟨(le_of_lt h).trans h1, ?_⟩
      intro i hi
      rcases List.mem_cons.mp hi with rfl | hi
      · exact h1
      · exact h2 i hi
    · obtain ⟨h1, h2⟩ := ih b
      refine ⟨h1, ?_⟩
      intro i hi
      rcases List.mem_cons.mp hi with rfl | hi
      · exact (not_lt.mp h).trans h1
      · exact h2 i hi

theorem argmaxFrom_mem {ι : Type} (f : ι → α) (l : List ι) (b : ι) :
    argmaxFrom f b l = b ∨ argmaxFrom f b l ∈ l := by
  induction l generalizing b with
  | nil => simp [argmaxFrom]
  | cons a l ih =>
    unfold argmaxFrom
    split_ifs with h
    · rcases ih a with h1 | h1
      · right; rw [h1]; simp
      · right; exact List.mem_cons_of_mem _ h1
    · rcases ih b with h1 | h1
      · left; exact h1
      · right; exact List.mem_cons_of_mem _ h1

/-- The result is `b`, or it is strictly better than `b` and everything before it in the list. -/
theorem argmaxFrom_first {ι : Type} [DecidableEq ι] (f : ι → α) (l : List ι) (b : ι) :
    argmaxFrom f b l = b ∨
      (f b < f (argmaxFrom f b l) ∧ ∃ l1 l2, l = l1 ++ argmaxFrom f b l :: l2 ∧
        ∀ i ∈ l1, f i < f (argmaxFrom f b l)) := by
  induction l generalizing b with
  | nil => simp [argmaxFrom]
  | cons a l ih =>
    unfold argmaxFrom
    split_ifs with h
    · right
      rcases ih a with h1 | ⟨h1, l1, l2, h2, h3⟩
      · rw [h1]
        exact ⟨h, [], l, rfl, by simp⟩
      · refine ⟨h.trans h1, a :: l1, l2, by rw [List.cons_append, ← h2], ?_⟩
        intro i hi
        rcases List.mem_cons.mp hi with rfl | hi
        · exact h1
        · exact h3 i hi
    · rcases ih b with h1 | ⟨h1, l1, l2, h2, h3⟩
      · left; exact h1
      · right
        refine ⟨h1, a :: l1, l2, by rw [List.cons_append, ← h2], ?_⟩
        intro i hi
        rcases List.mem_cons.mp hi with rfl | hi
        · exact lt_of_le_of_lt (not_lt.mp h) h1
        · exact h3 i hi

theorem le_argmax {n : ℕ} [NeZero n] (f : Fin n → α) (i : Fin n) : f i ≤ f (argmax f) :=
  (argmaxFrom_max f (List.finRange n) 0).2 i (List.mem_finRange i)

theorem lt_argmax {n : ℕ} [NeZero n] (f : Fin n → α) (i : Fin n) (hi : i < argmax f) :
    f i < f (argmax f) := by
  rcases argmaxFrom_first f (List.finRange n) 0 with h | ⟨_, l1, l2, h2, h3⟩
  · exfalso
    have : argmax f = 0 := h
    rw [this] at hi
    exact absurd hi (by simp)
  · change f i < f (argmaxFrom f 0 (List.finRange n))
    apply h3
    have hi' : i < argmaxFrom f 0 (List.finRange n) := hi
    have hmem : i ∈ List.finRange n := List.mem_finRange i
    have hs : (List.finRange n).Pairwise (· < ·) := List.pairwise_lt_finRange _
    generalize hm : argmaxFrom f 0 (List.finRange n) = m at *
    rw [h2] at hmem hs
    rw [List.mem_append, List.mem_cons] at hmem
    rcases hmem with h | h | h
    · exact h
    · exact absurd hi' (by rw [h]; exact lt_irrefl _)
    · have := (List.pairwise_cons.mp (List.pairwise_append.mp hs).2.1).1 i h
      exact absurd (this.trans hi') (lt_irrefl _)

/-- `argmax` is characterised by maximality and being first. -/
theorem argmax_eq_iff {n : ℕ} [NeZero n] (f : Fin n → α) (k : Fin n) :
    argmax f = k ↔ (∀ i, f i ≤ f k) ∧ ∀ i < k, f i < f k := by
  constructor
  · rintro rfl
    exact ⟨le_argmax f, lt_argmax f⟩
  · rintro ⟨h1, h2⟩
    rcases lt_trichotomy (argmax f) k with h | h | h
    · exact absurd (h2 _ h) (not_lt.mpr (le_argmax f k))
    · exact h
    · exact absurd (lt_argmax f k h) (not_lt.mpr (h1 _))

theorem argmin_le {n : ℕ} [NeZero n] (f : Fin n → α) (i : Fin n) : f (argmin f) ≤ f i :=
  le_argmax (fun i => OrderDual.toDual (f i)) i

theorem argmin_lt {n : ℕ} [NeZero n] (f : Fin n → α) (i : Fin n) (hi : i < argmin f) :
    f (argmin f) < f i :=
  lt_argmax (fun i => OrderDual.toDual (f i)) i hi

theorem ArgSort.mem_indices (A : ArgSort α) {n : ℕ} (v : Fin n → α) (i : Fin n) :
    i ∈ A.indices v := by
  unfold ArgSort.indices
  rw [List.mem_map]
  exact ⟨(A.perm v).symm i, List.mem_finRange _, by simp⟩

theorem ArgSort.nodup_indices (A : ArgSort α) {n : ℕ} (v : Fin n → α) : (A.indices v).Nodup :=
  (List.nodup_finRange n).map (A.perm v).injective

@[simp] theorem ArgSort.length_indices (A : ArgSort α) {n : ℕ} (v : Fin n → α) :
    (A.indices v).length = n := by simp [ArgSort.indices]

theorem ArgSort.perm_indices (A : ArgSort α) {n : ℕ} (v : Fin n → α) :
    (A.indices v).Perm (List.finRange n) :=
  (List.perm_ext_iff_of_nodup (A.nodup_indices v) (List.nodup_finRange n)).mpr
    (fun i => by simp [A.mem_indices v i])

theorem ArgSort.pairwise_indices (A : ArgSort α) {n : ℕ} (v : Fin n → α) :
    (A.indices v).Pairwise (fun i j => v i ≤ v j) := by
  unfold ArgSort.indices
  rw [List.pairwise_map]
  exact (List.pairwise_lt_finRange n).imp (fun h => A.sorted v (le_of_lt h))

end Np
