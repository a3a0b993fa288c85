import Verif.Lemmas.Multilabel
import Mathlib.Algebra.Order.Chebyshev

/-!
# C23, C25, C61: multi-label scores and one-hot conversion
-/

namespace Cleanlab.Props

open Np Cleanlab.Util Cleanlab.Count Cleanlab.Rank Cleanlab.Multilabel

variable {n K : ℕ} {F : Type} [Field F] [LinearOrder F] [IsStrictOrderedRing F]

/-! ## C23 -/

omit [IsStrictOrderedRing F] in
theorem ema_some (a : F) (s : Fin K → F) (ha0 : 0 ≤ a) (ha1 : a ≤ 1) : ema (some a) s =
    match sortDesc s with
    | [] => .error "index 0 is out of bounds"
    | x :: xs => .ok (xs.foldl (fun acc si => a * si + (1 - a) * acc) x) := by
  unfold ema
  simp only
  rw [if_pos ⟨ha0, ha1⟩]
  cases sortDesc s <;> rfl

/-- **C23**: with `alpha` in `[0, 1]` the exponential moving average of a non-empty row exists and lies between
two scores of the row. -/
theorem C23_ema_between [NeZero K] (a : F) (ha0 : 0 ≤ a) (ha1 : a ≤ 1) (s : Fin K → F) :
    ∃ v, ema (some a) s = .ok v ∧ (∃ k, s k ≤ v) ∧ ∃ k, v ≤ s k := by
  rw [ema_some a s ha0 ha1]
  cases h : sortDesc s with
  | nil => have := sortDesc_length s; rw [h] at this; exact absurd this.symm (NeZero.ne K)
  | cons x xs =>
    have hmem : ∀ y ∈ x :: xs, ∃ k, s k = y := by intro y hy; rw [← h] at hy; exact (mem_sortDesc s y).mp hy
    obtain ⟨lo, -, hlo⟩ := Finset.exists_min_image (Finset.univ : Finset (Fin K)) s ⟨0, Finset.mem_univ _⟩
    obtain ⟨hi, -, hhi⟩ := Finset.exists_max_image (Finset.univ : Finset (Fin K)) s ⟨0, Finset.mem_univ _⟩
    have hb : ∀ y ∈ x :: xs, s lo ≤ y ∧ y ≤ s hi := by
      intro y hy
      obtain ⟨k, rfl⟩ := hmem y hy
      exact ⟨hlo k (Finset.mem_univ _), hhi k (Finset.mem_univ _)⟩
    have := foldl_ema_bounds a (s lo) (s hi) ha0 ha1 xs x (hb x (by simp)) (fun y hy => hb y (by simp [hy]))
    exact ⟨_, rfl, ⟨lo, this.1⟩, hi, this.2⟩

/-- **C23**: the default `alpha` is admissible, and any other one is rejected. -/
theorem C23_ema_alpha [NeZero K] (s : Fin K → F) :
    ema none s = ema (some (2 / ((K : F) + 1))) s ∧ 0 ≤ 2 / ((K : F) + 1) ∧ 2 / ((K : F) + 1) ≤ 1 ∧
      ∀ a, (∃ v, ema (some a) s = .ok v) ↔ 0 ≤ a ∧ a ≤ 1 := by
  have hK : (1 : F) ≤ K := by exact_mod_cast Nat.one_le_iff_ne_zero.mpr (NeZero.ne K)
  refine ⟨rfl, by positivity, ?_, fun a => ⟨?_, fun h => ?_⟩⟩
  · rw [div_le_one (by linarith)]; linarith
  · rintro ⟨v, hv⟩
    unfold ema at hv
    simp only at hv
    split_ifs at hv with h
    exact h
  · obtain ⟨v, hv, -⟩ := C23_ema_between a h.1 h.2 s
    exact ⟨v, hv⟩

omit [IsStrictOrderedRing F] in
/-- **C23**: the order of the classes does not matter. -/
theorem C23_ema_class_order (alpha : Option F) (s : Fin K → F) (σ : Equiv.Perm (Fin K)) :
    ema alpha (s ∘ σ) = ema alpha s := by
  unfold ema
  rw [sortDesc_comp]

/-- **C23**: raising scores of classes never lowers the average. -/
theorem C23_ema_monotone (a : F) (ha0 : 0 ≤ a) (ha1 : a ≤ 1) (s t : Fin K → F) (h : ∀ k, s k ≤ t k) (v w : F)
    (hv : ema (some a) s = .ok v) (hw : ema (some a) t = .ok w) : v ≤ w := by
  rw [ema_some a _ ha0 ha1] at hv hw
  have hm := sortDesc_mono s t h
  cases h1 : sortDesc s with
  | nil => rw [h1] at hv; cases hv
  | cons x xs =>
    cases h2 : sortDesc t with
    | nil => rw [h2] at hw; cases hw
    | cons y ys =>
      rw [h1] at hv hm
      rw [h2] at hw hm
      cases hv
      cases hw
      obtain ⟨hxy, hl⟩ := List.forall₂_cons.mp hm
      exact foldl_ema_mono a ha0 ha1 xs ys hl x y hxy

/-- **C23**: `alpha = 1` gives the smallest score, `alpha = 0` the largest. -/
theorem C23_ema_extremes [NeZero K] (s : Fin K → F) :
    (∃ k, ema (some 1) s = .ok (s k) ∧ ∀ j, s k ≤ s j) ∧ ∃ k, ema (some 0) s = .ok (s k) ∧ ∀ j, s j ≤ s k := by
  have hs := sortDesc_sorted s
  have hmem := mem_sortDesc s
  rw [ema_some 1 s zero_le_one le_rfl, ema_some 0 s le_rfl zero_le_one]
  cases h : sortDesc s with
  | nil => have := sortDesc_length s; rw [h] at this; exact absurd this.symm (NeZero.ne K)
  | cons x xs =>
    rw [h] at hs hmem
    have h1 : ∀ (l : List F) (x : F), (x :: l).Pairwise (· ≥ ·) →
        l.foldl (fun acc si => 1 * si + (1 - 1) * acc) x ∈ x :: l ∧
        ∀ y ∈ x :: l, l.foldl (fun acc si => 1 * si + (1 - 1) * acc) x ≤ y := by
      intro l
      induction l with
      | nil => intro x _; simp
      | cons z l ih =>
        intro x hx
        obtain ⟨hx1, hx2⟩ := List.pairwise_cons.mp hx
        have he : (1 : F) * z + (1 - 1) * x = z := by ring
        rw [List.foldl_cons, he]
        obtain ⟨i1, i2⟩ := ih z hx2
        refine ⟨List.mem_cons_of_mem _ i1, fun y hy => ?_⟩
        rcases List.mem_cons.mp hy with rfl | hy
        · exact (i2 z (by simp)).trans (hx1 z (by simp))
        · exact i2 y hy
    have h0 : ∀ (l : List F) (x : F), l.foldl (fun acc si => 0 * si + (1 - 0) * acc) x = x := by
      intro l
      induction l with
      | nil => intro x; rfl
      | cons z l ih =>
        intro x
        rw [List.foldl_cons, ih]; ring
    constructor
    · obtain ⟨i1, i2⟩ := h1 xs x hs
      obtain ⟨k, hk⟩ := (hmem _).mp i1
      exact ⟨k, by rw [hk], fun j => by rw [hk]; exact i2 _ ((hmem _).mpr ⟨j, rfl⟩)⟩
    · obtain ⟨k, hk⟩ := (hmem x).mp (by simp)
      refine ⟨k, by simp only; rw [h0, hk], fun j => ?_⟩
      rw [hk]
      rcases List.mem_cons.mp ((hmem (s j)).mpr ⟨j, rfl⟩) with h | h
      · exact h.le
      · exact (List.pairwise_cons.mp hs).1 _ h

example : (ema (some (4 / 5)) (![1/2, 1, 1/4] : Fin 3 → ℚ)).toOption = some (8 / 25) := by decide +kernel

theorem softmax_isWeight [NeZero K] (x : Fin K → ℝ) (T : ℝ) :
    (∀ k, 0 < softmax x T k) ∧ ∑ k, softmax x T k = 1 := by
  have hpos : 0 < ∑ j, Real.exp (x j / max T (1 / 1000000) - x (argmax fun k => x k / max T (1 / 1000000)) / max T (1 / 1000000)) :=
    Finset.sum_pos (fun _ _ => Real.exp_pos _) ⟨0, Finset.mem_univ _⟩
  unfold softmax
  refine ⟨fun k => div_pos (Real.exp_pos _) hpos, ?_⟩
  simp only
  rw [← Finset.sum_div, div_self hpos.ne']

/-- **C23**: `softmin` lies between two scores of the row and never exceeds their mean; for every temperature. -/
theorem C23_softmin_between [NeZero K] (s : Fin K → ℝ) (T : ℝ) :
    (∃ k, s k ≤ softmin s T) ∧ softmin s T ≤ (∑ k, s k) / K ∧ ∃ k, softmin s T ≤ s k := by
  obtain ⟨lo, -, hlo⟩ := Finset.exists_min_image (Finset.univ : Finset (Fin K)) s ⟨0, Finset.mem_univ _⟩
  obtain ⟨hi, -, hhi⟩ := Finset.exists_max_image (Finset.univ : Finset (Fin K)) s ⟨0, Finset.mem_univ _⟩
  obtain ⟨hw, hsum⟩ := softmax_isWeight (fun k => 1 - s k) T
  have hK : (0 : ℝ) < K := by exact_mod_cast Nat.pos_of_ne_zero (NeZero.ne K)
  refine ⟨⟨lo, ?_⟩, ?_, hi, ?_⟩
  · calc s lo = ∑ k, s lo * softmax (fun k => 1 - s k) T k := by rw [← Finset.mul_sum, hsum, mul_one]
      _ ≤ softmin s T := Finset.sum_le_sum (fun k _ => mul_le_mul_of_nonneg_right (hlo k (Finset.mem_univ _)) (hw k).le)
  · have hanti : Antivary s (softmax (fun k => 1 - s k) T) := by
      intro i j hij
      by_contra hlt
      push Not at hlt
      apply absurd hij (not_lt.mpr _)
      unfold softmax
      simp only
      apply div_le_div_of_nonneg_right _ (Finset.sum_nonneg (fun _ _ => (Real.exp_pos _).le))
      apply Real.exp_le_exp.mpr
      have : (0 : ℝ) ≤ max T (1 / 1000000) := le_max_of_le_right (by norm_num)
      have := div_le_div_of_nonneg_right (by linarith : 1 - s j ≤ 1 - s i) this
      linarith
    have := hanti.card_mul_sum_le_sum_mul_sum
    rw [hsum, mul_one, Fintype.card_fin] at this
    rw [le_div_iff₀ hK, mul_comm]
    exact this
  · calc softmin s T ≤ ∑ k, s hi * softmax (fun k => 1 - s k) T k :=
          Finset.sum_le_sum (fun k _ => mul_le_mul_of_nonneg_right (hhi k (Finset.mem_univ _)) (hw k).le)
      _ = s hi := by rw [← Finset.mul_sum, hsum, mul_one]

theorem argmax_comp_value [NeZero K] {α : Type} [LinearOrder α] (x : Fin K → α) (σ : Equiv.Perm (Fin K)) :
    (x ∘ σ) (argmax (x ∘ σ)) = x (argmax x) := by
  apply le_antisymm
  · exact le_argmax x _
  · have := le_argmax (x ∘ σ) (σ.symm (argmax x))
    simpa using this

/-- **C23**: the order of the classes does not matter for `softmin` either. -/
theorem C23_softmin_class_order [NeZero K] (s : Fin K → ℝ) (T : ℝ) (σ : Equiv.Perm (Fin K)) :
    softmin (s ∘ σ) T = softmin s T := by
  have h : ∀ k, softmax (fun k => 1 - (s ∘ σ) k) T k = softmax (fun k => 1 - s k) T (σ k) := by
    intro k
    unfold softmax
    simp only
    have := argmax_comp_value (fun k => (1 - s k) / max T (1 / 1000000)) σ
    simp only [Function.comp_def] at this ⊢
    rw [this, ← Equiv.sum_comp σ (fun j => Real.exp ((1 - s j) / max T (1 / 1000000) -
      (1 - s (argmax fun k => (1 - s k) / max T (1 / 1000000))) / max T (1 / 1000000)))]
  unfold softmin
  simp only [h]
  exact Equiv.sum_comp σ (fun k => s k * softmax (fun k => 1 - s k) T k)

/-- A non-trivial instance: the row `(0, 1)` at any temperature has a `softmin` of at most `1/2`. -/
example : softmin ![0, 1] (1 / 10) ≤ 1 / 2 := by
  have := (C23_softmin_between (![0, 1] : Fin 2 → ℝ) (1 / 10)).2.1
  simpa using this

/-! ## C25 -/

/-- **C25**: integer labels, converted to one-hot and back, become for every example the strictly increasing list
of exactly its labels below `K`. -/
theorem C25_int_onehot_int (labels : List (List ℕ)) (K : ℕ) :
    List.Forall₂ (fun row out => (∀ k, k ∈ out ↔ k ∈ row ∧ k < K) ∧ out.Pairwise (· < ·)) labels
      (onehot2int (int2onehot labels K)) := by
  unfold onehot2int int2onehot
  rw [List.map_map, List.forall₂_map_right_iff]
  refine List.forall₂_same.mpr (fun row _ => ⟨fun k => ?_, ?_⟩)
  · simp only [Function.comp, List.mem_map, List.mem_filter, List.mem_finRange, true_and, decide_eq_true_eq]
    constructor
    · rintro ⟨j, hj, rfl⟩; exact ⟨hj, j.isLt⟩
    · rintro ⟨h1, h2⟩; exact ⟨⟨k, h2⟩, h1, rfl⟩
  · simp only [Function.comp, List.pairwise_map]
    exact (List.pairwise_lt_finRange K).filter _

/-- **C25**: one-hot labels survive the conversion to integer lists and back. -/
theorem C25_onehot_int_onehot (y : List (Fin K → Bool)) : int2onehot (onehot2int y) K = y := by
  unfold onehot2int int2onehot
  rw [List.map_map]
  conv_rhs => rw [← List.map_id y]
  refine List.map_congr_left (fun row _ => ?_)
  funext k
  simp only [Function.comp, List.mem_map, List.mem_filter, List.mem_finRange, true_and, id]
  have : (∃ a, row a = true ∧ a.val = k.val) ↔ row k = true := by
    constructor
    · rintro ⟨a, ha, hk⟩; rw [← Fin.ext hk]; exact ha
    · intro h; exact ⟨k, h, rfl⟩
  simp only [this]
  cases row k <;> rfl

/-- **C25**: integer labels that are sorted, distinct and below `K` survive the round trip unchanged. -/
theorem C25_int_onehot_int_sorted (labels : List (List ℕ)) (K : ℕ)
    (h : ∀ row ∈ labels, row.Pairwise (· < ·) ∧ ∀ k ∈ row, k < K) :
    onehot2int (int2onehot labels K) = labels := by
  have key := C25_int_onehot_int labels K
  generalize onehot2int (int2onehot labels K) = out at key
  induction key with
  | nil => rfl
  | @cons row o l1 l2 hro _ ih =>
    rw [ih (fun r hr => h r (List.mem_cons_of_mem _ hr))]
    congr 1
    obtain ⟨hs, hlt⟩ := h row List.mem_cons_self
    refine List.Perm.eq_of_pairwise (le := (· < ·)) ?_ hro.2 hs ?_
    · intro a b _ _ h1 h2; exact absurd (h1.trans h2) (lt_irrefl a)
    · rw [List.perm_ext_iff_of_nodup (hro.2.imp (fun h => h.ne)) (hs.imp (fun h => h.ne))]
      intro k
      rw [hro.1]
      exact ⟨fun h => h.1, fun h => ⟨h, hlt k h⟩⟩

example : onehot2int (int2onehot [[2, 0, 2], [], [1, 7]] 3) = [[0, 2], [], [1]] := by decide +kernel

/-! ## C61 -/

/-- The probability that the model assigns to the given decision about class `k`. -/
def givenProb (y : Fin n → Fin K → Bool) (P : Fin n → Fin K → F) (i : Fin n) (k : Fin K) : F :=
  if y i k then P i k else 1 - P i k

omit [IsStrictOrderedRing F] in
theorem classScores_selfConf (y : Fin n → Fin K → Bool) (P : Fin n → Fin K → F) :
    classScores selfConf y P = .ok (fun k i => givenProb y P i k) := by
  unfold classScores
  rw [collect_ok_iff]
  intro k
  unfold selfConf labelQualityScores
  simp only
  congr 1
  funext i
  unfold selfConfidence stackComplement binaryLabels givenProb
  cases y i k <;> simp

/-- **C61**, what holds: when the label matrix contains both a given and a missing label and there are at least two
classes, every example gets a score in `[0, 1]`, and the score is `1` if the model is sure of every given
decision. Missing: other label matrices, see `C61_not_total`. -/
theorem C61_scores_partial (y : Fin n → Fin K → Bool) (P : Fin n → Fin K → F)
    (hP : ∀ i k, 0 ≤ P i k ∧ P i k ≤ 1) (hK : 1 < K) (h1 : ∃ i k, y i k = true) (h0 : ∃ i k, y i k = false) :
    ∃ s, scorer selfConf y P = .ok s ∧ (∀ i, 0 ≤ s i ∧ s i ≤ 1) ∧
      ∀ i, (∀ k, givenProb y P i k = 1) → s i = 1 := by
  have : NeZero K := ⟨by omega⟩
  have hg : ∀ i k, 0 ≤ givenProb y P i k ∧ givenProb y P i k ≤ 1 := by
    intro i k
    unfold givenProb
    obtain ⟨ha, hb⟩ := hP i k
    split_ifs
    · exact ⟨ha, hb⟩
    · exact ⟨by linarith, by linarith⟩
  have ha0 : (0 : F) ≤ 4 / 5 := by norm_num
  have ha1 : (4 / 5 : F) ≤ 1 := by norm_num
  choose s hs hlo hhi using fun i => C23_ema_between (4 / 5 : F) ha0 ha1 (givenProb y P i)
  refine ⟨s, ?_, fun i => ?_, fun i hi => ?_⟩
  · unfold scorer
    rw [if_pos (by unfold isMultilabel; simp [hK, h1, h0]), classScores_selfConf]
    exact (collect_ok_iff _ _).mpr hs
  · obtain ⟨a, ha⟩ := hlo i
    obtain ⟨b, hb⟩ := hhi i
    exact ⟨(hg i a).1.trans ha, hb.trans (hg i b).2⟩
  · obtain ⟨a, ha⟩ := hlo i
    obtain ⟨b, hb⟩ := hhi i
    rw [hi] at ha hb
    exact le_antisymm hb ha

example : ∃ s, scorer selfConf (![![true, false], ![true, true]] : Fin 2 → Fin 2 → Bool) (![![1, 0], ![1, 1/2]]) =
    .ok s ∧ s 0 = 1 ∧ s 1 = (3 / 5 : ℚ) := by
  refine ⟨![1, 3/5], ?_, rfl, rfl⟩
  unfold scorer
  rw [if_pos (by decide +kernel), classScores_selfConf]
  exact (collect_ok_iff _ _).mpr (by decide +kernel)

omit [IsStrictOrderedRing F] in
/-- **C61** is not total: a data set in which every example has all classes (or none) is refused. -/
theorem C61_not_total (y : Fin n → Fin K → Bool) (P : Fin n → Fin K → F)
    (h : (∀ i k, y i k = true) ∨ ∀ i k, y i k = false) : ∃ e, scorer selfConf y P = .error e := by
  refine ⟨"Labels must be in multi-label format.", ?_⟩
  unfold scorer
  rw [if_neg]
  unfold isMultilabel
  rcases h with h | h <;> simp [h]

end Cleanlab.Props
