import Verif.Props.ExactErrors
import Verif.Props.CertainModules

/-!
# C156, C157: whether cleaning once is enough

`find_label_issues` on what remains after removing the flagged examples, with the same options and predicted probabilities.
-/

namespace Cleanlab.Props

open Np Cleanlab.Util Cleanlab.Count Cleanlab.Spec Cleanlab.Filter Cleanlab.Rank

variable {n m K : ℕ}

/-- `e` enumerates the examples that the mask does not flag. -/
structure Rest (mask : Fin n → Bool) (e : Fin m → Fin n) : Prop where
  inj : Function.Injective e
  range : ∀ i, (∃ r, e r = i) ↔ mask i = false

theorem Rest.unflagged {mask : Fin n → Bool} {e : Fin m → Fin n} (h : Rest mask e) (r : Fin m) : mask (e r) = false :=
  (h.range _).mp ⟨r, rfl⟩

/-- Flagged by `confident_learning`: another class is clearly more probable than the given one, and some other class reaches its
threshold. -/
theorem confident_flag_iff (A : ArgSort ℚ) [NeZero K] (labels : Fin n → Fin K) (P : Fin n → Fin K → ℚ) (args : Args K)
    (hf : args.filterBy = .confidentLearning) (hn : args.numToRemove = none) :
    ∃ mask, findLabelIssues A labels P args = .ok mask ∧ ∀ i, mask i = true ↔
      reduceIssues labels P i = false ∧ ∃ j, j ≠ labels i ∧ Reaches P (getConfidentThresholds labels P) i j := by
  refine ⟨_, findLabelIssues_of_raw A labels P args (by rw [hf]; decide) (Or.inl hn) _ (by unfold rawMask; rw [hf]), fun i => ?_⟩
  set thr := getConfidentThresholds labels P
  simp only [Bool.and_eq_true, decide_eq_true_eq, Bool.not_eq_true', offDiagonalIndices, confidentRows, List.mem_filter,
    List.mem_finRange, true_and, atLeastOneConfident_iff]
  rw [and_comm, and_congr_right_iff]
  intro hr
  obtain ⟨j0, hj0, hle⟩ := reduceIssues_false_iff labels P i hr
  have hne : argmax (P i) ≠ labels i := by
    intro he
    have := le_argmax (P i) j0
    rw [he] at this
    linarith
  constructor
  · rintro ⟨⟨b, hb⟩, hg⟩
    by_contra hc
    push Not at hc
    have hall : ∀ k, Reaches P thr i k → k = labels i := fun k hk => by
      by_contra hkl
      exact hc k hkl hk
    have hbl := hall b hb
    subst hbl
    exact hg (trueLabelGuess_of_unique P thr i _ hb hall)
  · rintro ⟨j, hj, hrj⟩
    refine ⟨⟨j, hrj⟩, ?_⟩
    by_cases hu : ∀ k, Reaches P thr i k → k = j
    · rw [trueLabelGuess_of_unique P thr i j hrj hu]; exact hj
    · push Not at hu
      obtain ⟨k, hk, hkj⟩ := hu
      rw [trueLabelGuess_of_two P thr i k j hkj hk hrj]
      exact hne

section Thresholds

variable {mask : Fin n → Bool} {e : Fin m → Fin n}

theorem sum_rest (h : Rest mask e) (labels : Fin n → Fin K) (k : Fin K) (f : Fin n → ℚ) :
    ∑ r ∈ Finset.univ.filter (fun r => labels (e r) = k), f (e r) =
      ∑ i ∈ Finset.univ.filter (fun i => labels i = k ∧ mask i = false), f i := by
  have : Finset.univ.filter (fun i => labels i = k ∧ mask i = false) =
      (Finset.univ.filter (fun r => labels (e r) = k)).image e := by
    ext i
    simp only [Finset.mem_filter, Finset.mem_univ, true_and, Finset.mem_image]
    constructor
    · rintro ⟨h1, h2⟩
      obtain ⟨r, rfl⟩ := (h.range i).mpr h2
      exact ⟨r, h1, rfl⟩
    · rintro ⟨r, h1, rfl⟩
      exact ⟨h1, h.unflagged r⟩
  rw [this, Finset.sum_image (fun a _ b _ hab => h.inj hab)]

theorem numGiven_rest (h : Rest mask e) (labels : Fin n → Fin K) (k : Fin K) :
    numGiven (fun r => labels (e r)) k = numKept labels mask k := by
  have := sum_rest h labels k (fun _ => 1)
  simp only [Finset.sum_const, nsmul_eq_mul, mul_one] at this
  unfold numGiven numKept
  exact_mod_cast this

/-- If the flagged examples of a class are at most average, the average of the rest is no lower. -/
theorem mean_rest (h : Rest mask e) (labels : Fin n → Fin K) (P : Fin n → Fin K → ℚ) (k : Fin K)
    (hle : ∀ i, mask i = true → labels i = k → P i k ≤ meanSelfConfidence labels P k) (r : Fin m) (hr : labels (e r) = k) :
    meanSelfConfidence labels P k ≤ meanSelfConfidence (fun r => labels (e r)) (fun r => P (e r)) k := by
  have hN' : (0 : ℚ) < numGiven (fun r => labels (e r)) k := by
    have : 0 < numGiven (fun r => labels (e r)) k :=
      Finset.card_pos.mpr ⟨r, Finset.mem_filter.mpr ⟨Finset.mem_univ _, hr⟩⟩
    exact_mod_cast this
  have hN : (0 : ℚ) < numGiven labels k := by
    have : 0 < numGiven labels k := Finset.card_pos.mpr ⟨e r, Finset.mem_filter.mpr ⟨Finset.mem_univ _, hr⟩⟩
    exact_mod_cast this
  set μ := meanSelfConfidence labels P k with hμ
  have hS : ∑ i ∈ Finset.univ.filter (fun i => labels i = k), P i k = μ * numGiven labels k := by
    rw [hμ]; unfold meanSelfConfidence; rw [div_mul_cancel₀ _ hN.ne']
  have hsplit : ∑ i ∈ Finset.univ.filter (fun i => labels i = k), P i k =
      ∑ i ∈ Finset.univ.filter (fun i => labels i = k ∧ mask i = false), P i k +
      ∑ i ∈ Finset.univ.filter (fun i => labels i = k ∧ mask i = true), P i k := by
    rw [← Finset.sum_filter_add_sum_filter_not (Finset.univ.filter (fun i => labels i = k)) (fun i => mask i = false),
      Finset.filter_filter, Finset.filter_filter]
    simp
  have hF : ∑ i ∈ Finset.univ.filter (fun i => labels i = k ∧ mask i = true), P i k ≤ μ * numFlagged labels mask k := by
    unfold numFlagged
    rw [mul_comm, ← nsmul_eq_mul]
    exact Finset.sum_le_card_nsmul _ _ _ (fun i hi => by
      obtain ⟨h1, h2⟩ := (Finset.mem_filter.mp hi).2
      exact hle i h2 h1)
  have hcard : (numFlagged labels mask k : ℚ) + numGiven (fun r => labels (e r)) k = numGiven labels k := by
    rw [numGiven_rest h]
    have := card_split labels mask k
    unfold numFlagged numKept
    exact_mod_cast this
  unfold meanSelfConfidence
  rw [le_div_iff₀ hN', sum_rest h labels k (fun i => P i k)]
  have : μ * (numGiven (fun r => labels (e r)) k : ℚ) = μ * numGiven labels k - μ * numFlagged labels mask k := by
    rw [← hcard]; ring
  linarith

/-- … and so is its threshold. -/
theorem threshold_rest (h : Rest mask e) (labels : Fin n → Fin K) (P : Fin n → Fin K → ℚ) (hP : ∀ i k, P i k ≤ 1) (k : Fin K)
    (hle : ∀ i, mask i = true → labels i = k → P i k ≤ meanSelfConfidence labels P k) :
    getConfidentThresholds labels P k ≤ getConfidentThresholds (fun r => labels (e r)) (fun r => P (e r)) k := by
  unfold getConfidentThresholds
  apply max_le_max _ le_rfl
  by_cases h1 : ∃ r, labels (e r) = k
  · obtain ⟨r, hr⟩ := h1
    rw [if_pos ((mem_ofFn_iff _ _).mpr ⟨e r, hr⟩), if_pos ((mem_ofFn_iff _ _).mpr ⟨r, hr⟩), classMean_eq, classMean_eq]
    exact mean_rest h labels P k hle r hr
  · rw [if_neg (show k ∉ List.ofFn (fun r => labels (e r)) from fun hm => h1 ((mem_ofFn_iff _ _).mp hm))]
    split_ifs with h2
    · rw [classMean_eq]
      unfold meanSelfConfidence
      obtain ⟨i, hi⟩ := (mem_ofFn_iff _ _).mp h2
      have hN : (0 : ℚ) < numGiven labels k := by
        have : 0 < numGiven labels k := Finset.card_pos.mpr ⟨i, Finset.mem_filter.mpr ⟨Finset.mem_univ _, hi⟩⟩
        exact_mod_cast this
      rw [div_le_iff₀ hN]
      have : ∑ i ∈ Finset.univ.filter (fun i => labels i = k), P i k ≤ (numGiven labels k) • (1 : ℚ) :=
        Finset.sum_le_card_nsmul _ _ _ (fun i _ => hP i k)
      rw [nsmul_eq_mul, mul_one] at this
      linarith
    · exact le_rfl

end Thresholds

/-- **C156, `predicted_neq_given`.** After removing the flagged examples nothing is flagged. -/
theorem C156_predicted (A : ArgSort ℚ) [NeZero K] (labels : Fin n → Fin K) (P : Fin n → Fin K → ℚ) (args : Args K)
    (hf : args.filterBy = .predictedNeqGiven) (hn : args.numToRemove = none) (mask : Fin n → Bool)
    (hm : findLabelIssues A labels P args = .ok mask) (e : Fin m → Fin n) (he : Rest mask e) :
    findLabelIssues A (fun r => labels (e r)) (fun r => P (e r)) args = .ok (fun _ => false) := by
  have h0 := fun {n' : ℕ} (labels : Fin n' → Fin K) (P : Fin n' → Fin K → ℚ) =>
    findLabelIssues_of_raw A labels P args (by rw [hf]; decide) (Or.inl hn) _ (by unfold rawMask; rw [hf])
  rw [h0] at hm ⊢
  congr 1
  funext r
  have := he.unflagged r
  rw [← Except.ok.inj hm] at this
  exact this

/-- **C157 (partial), `confident_learning`.** If every flagged example is at most average in its class — the probability of its given label is
at most the mean of these probabilities over the examples with this label — then after removing the flagged examples nothing is
flagged. -/
theorem C157_confident_partial (A : ArgSort ℚ) [NeZero K] (labels : Fin n → Fin K) (P : Fin n → Fin K → ℚ) (hP : ∀ i k, P i k ≤ 1)
    (args : Args K) (hf : args.filterBy = .confidentLearning) (hn : args.numToRemove = none) (mask : Fin n → Bool)
    (hm : findLabelIssues A labels P args = .ok mask)
    (havg : ∀ i, mask i = true → P i (labels i) ≤ meanSelfConfidence labels P (labels i))
    (e : Fin m → Fin n) (he : Rest mask e) :
    findLabelIssues A (fun r => labels (e r)) (fun r => P (e r)) args = .ok (fun _ => false) := by
  obtain ⟨m1, h1, hi1⟩ := confident_flag_iff A labels P args hf hn
  obtain ⟨m2, h2, hi2⟩ := confident_flag_iff A (fun r => labels (e r)) (fun r => P (e r)) args hf hn
  rw [h1] at hm
  obtain rfl := Except.ok.inj hm
  rw [h2]
  congr 1
  funext r
  rw [Bool.eq_false_iff]
  intro hr
  obtain ⟨ha, j, hj, hrj⟩ := (hi2 r).mp hr
  have hu := he.unflagged r
  rw [Bool.eq_false_iff, ne_eq, hi1] at hu
  apply hu
  refine ⟨ha, j, hj, ?_⟩
  have := threshold_rest he labels P hP j (fun i hmi hl => by subst hl; exact havg i hmi)
  unfold Reaches at hrj ⊢
  dsimp only at hrj
  linarith

section TwoClasses

theorem sum_two {j k : Fin 2} (h : j ≠ k) (f : Fin 2 → ℚ) : ∑ b, f b = f k + f j := by
  rw [Fin.sum_univ_two]
  fin_cases j <;> fin_cases k <;> first | exact absurd rfl h | (simp; try ring)

theorem other_unique {a b k : Fin 2} (ha : a ≠ k) (hb : b ≠ k) : a = b := by
  fin_cases a <;> fin_cases b <;> fin_cases k <;> simp_all

variable {labels : Fin n → Fin 2} {P : Fin n → Fin 2 → ℚ}

/-- For two classes: the given label is not the prediction if it is less probable than one half. -/
theorem wrong_half (hP : ∀ i, IsDistribution (P i)) {i : Fin n} {j : Fin 2} (hj : j ≠ labels i)
    (h : reduceIssues labels P i = false) : 1 / 2 < P i j ∧ P i (labels i) < 1 / 2 := by
  obtain ⟨j', hj', hle⟩ := reduceIssues_false_iff labels P i h
  rw [other_unique hj' hj] at hle
  have := (hP i).2
  rw [sum_two hj] at this
  constructor <;> linarith

theorem wrong_mono (hP : ∀ i, IsDistribution (P i)) {i s : Fin n} (hl : labels s = labels i) {j : Fin 2} (hj : j ≠ labels i)
    (hle : P i j ≤ P s j) (h : reduceIssues labels P i = false) : reduceIssues labels P s = false := by
  rw [Bool.eq_false_iff] at h ⊢
  intro hs
  apply h
  rw [reduceIssues_iff] at hs ⊢
  have hi := (hP i).2
  have hs' := (hP s).2
  rw [sum_two hj] at hi
  rw [sum_two (hl ▸ hj : j ≠ labels s), hl] at hs'
  rw [hl] at hs
  have key : ∀ b, b = labels i ∨ b = j := fun b => by
    by_cases hb : b = labels i
    · exact Or.inl hb
    · exact Or.inr (other_unique hb hj)
  constructor
  · intro b
    have := hs.1 b
    dsimp only at this ⊢
    rcases key b with rfl | rfl
    · exact le_rfl
    · rw [if_neg hj, if_pos rfl] at this ⊢; linarith
  · intro b hb
    have := hs.2 b hb
    dsimp only at this ⊢
    rcases key b with rfl | rfl
    · exact absurd hb (lt_irrefl _)
    · rw [if_neg hj, if_pos rfl] at this ⊢; linarith

variable {mask : Fin n → Bool} {e : Fin m → Fin n}

/-- For two classes the threshold of a class above one half does not go down. -/
theorem threshold_two (hP : ∀ i, IsDistribution (P i)) (he : Rest mask e)
    (hw : ∀ i, mask i = true → reduceIssues labels P i = false) (j : Fin 2) (hj : 1 / 2 < getConfidentThresholds labels P j) :
    getConfidentThresholds labels P j ≤ getConfidentThresholds (fun r => labels (e r)) (fun r => P (e r)) j := by
  have h1 : ∀ i k, P i k ≤ 1 := fun i k => by
    rw [← (hP i).2]
    exact Finset.single_le_sum (fun b _ => (hP i).1 b) (Finset.mem_univ k)
  refine threshold_rest he labels P h1 j (fun i hmi hl => ?_)
  have hne : ∃ b, b ≠ labels i := ⟨1 - labels i, by generalize labels i = l; revert l; decide⟩
  obtain ⟨b, hb⟩ := hne
  have h2 := (wrong_half hP hb (hw i hmi)).2
  rw [hl] at h2
  unfold getConfidentThresholds at hj
  rw [if_pos ((mem_ofFn_iff _ _).mpr ⟨i, hl⟩), classMean_eq] at hj
  rcases lt_max_iff.mp hj with h3 | h3
  · linarith
  · unfold thresholdsLowerBound at h3; norm_num at h3

/-- **C156, `confident_learning` for two classes.** After removing the flagged examples nothing is flagged. -/
theorem C156_two_confident (A : ArgSort ℚ) (hP : ∀ i, IsDistribution (P i)) (args : Args 2)
    (hf : args.filterBy = .confidentLearning) (hn : args.numToRemove = none) (hm : findLabelIssues A labels P args = .ok mask)
    (he : Rest mask e) :
    findLabelIssues A (fun r => labels (e r)) (fun r => P (e r)) args = .ok (fun _ => false) := by
  obtain ⟨m1, h1, hi1⟩ := confident_flag_iff A labels P args hf hn
  obtain ⟨m2, h2, hi2⟩ := confident_flag_iff A (fun r => labels (e r)) (fun r => P (e r)) args hf hn
  rw [h1] at hm
  obtain rfl := Except.ok.inj hm
  rw [h2]
  congr 1
  funext r
  rw [Bool.eq_false_iff]
  intro hr
  obtain ⟨ha, j, hj, hrj⟩ := (hi2 r).mp hr
  have hu := he.unflagged r
  rw [Bool.eq_false_iff, ne_eq, hi1] at hu
  apply hu
  refine ⟨ha, j, hj, ?_⟩
  have hhalf := (wrong_half (i := e r) hP hj ha).1
  by_cases ht : 1 / 2 < getConfidentThresholds labels P j
  · have := threshold_two hP he (fun i hi => ((hi1 i).mp hi).1) j ht
    unfold Reaches at hrj ⊢
    dsimp only at hrj
    linarith
  · unfold Reaches
    linarith

/-- A rounded entry is less than one away. -/
theorem roundRows_gt (A : ArgSort ℚ) {a b : ℕ} (x : Fin a → Fin b → ℚ) (k : Fin a) (i : Fin b) :
    x k i - 1 < roundRows A x k i := by
  have h1 := sub_rint_le (x k i)
  rcases (roundRows_spec A x k).2 i with h | ⟨h, h2⟩ | ⟨h, h2⟩ <;> rw [h] <;> push_cast <;> linarith

/-- Number of confident examples of a class that are taken for the other class. -/
def takenFor (labels : Fin n → Fin 2) (P : Fin n → Fin 2 → ℚ) (k j : Fin 2) : ℕ :=
  (Finset.univ.filter (fun i => labels i = k ∧ (∃ b, Reaches P (getConfidentThresholds labels P) i b) ∧
    trueLabelGuess P (getConfidentThresholds labels P) i = j)).card

theorem takenFor_add {j k : Fin 2} (h : j ≠ k) : takenFor labels P k k + takenFor labels P k j ≤ numGiven labels k := by
  unfold takenFor numGiven
  rw [← Finset.card_union_of_disjoint]
  · apply Finset.card_le_card
    intro i hi
    simp only [Finset.mem_union, Finset.mem_filter, Finset.mem_univ, true_and] at hi ⊢
    rcases hi with hi | hi <;> exact hi.1
  · rw [Finset.disjoint_filter]
    rintro i - ⟨-, -, h1⟩ ⟨-, -, h2⟩
    exact h (h2.symm.trans h1)

theorem raw_takenFor (k b : Fin 2) : confidentJointRaw labels P (getConfidentThresholds labels P) k b =
    if k = b then max (takenFor labels P k b) 1 else takenFor labels P k b := by
  unfold confidentJointRaw
  dsimp only
  rw [confidentJointRaw_count]
  rfl

/-- The calibrated joint of two classes, in the row of a class with several examples. -/
theorem joint_two (A : ArgSort ℚ) {j k : Fin 2} (h : j ≠ k) (h1 : 1 < numGiven labels k) :
    ∃ a b : ℤ, computeConfidentJoint A labels P (getConfidentThresholds labels P) true k k = a ∧
      computeConfidentJoint A labels P (getConfidentThresholds labels P) true k j = b ∧ 0 ≤ a ∧ 0 ≤ b ∧
      a + b = numGiven labels k ∧ min (takenFor labels P k j : ℤ) (numGiven labels k - 1) ≤ b ∧
      (takenFor labels P k j = 0 → b = 0) := by
  refine ⟨_, _, rfl, rfl, ?_⟩
  unfold computeConfidentJoint
  rw [if_pos rfl]
  unfold calibrateConfidentJoint
  set raw : Fin 2 → Fin 2 → ℚ := fun a b => (confidentJointRaw labels P (getConfidentThresholds labels P) a b : ℚ) with hraw
  set x := calibrateTotal raw labels with hx
  have hrow : ∀ a, tinyValue ≤ ∑ b, raw a b ∨ numGiven labels a = 0 := fun a => Or.inl (raw_row_tiny labels P _ a)
  have hxe : ∀ b, x k b = raw k b / (raw k k + raw k j) * numGiven labels k := by
    intro b
    rw [hx, calibrateTotal_eq raw labels hrow]
    unfold calibrateRows
    rw [labelCounts_eq, sum_two h]
    have : (1 : ℚ) ≤ raw k k := by rw [hraw]; dsimp only; exact_mod_cast confidentJointRaw_diag_pos labels P _ k
    have h0 : 0 ≤ raw k j := by rw [hraw]; positivity
    rw [clipTiny_of_one_le (by linarith)]
  have hkk : raw k k = max (takenFor labels P k k : ℚ) 1 := by rw [hraw]; dsimp only; rw [raw_takenFor, if_pos rfl]; push_cast; rfl
  have hkj : raw k j = takenFor labels P k j := by rw [hraw]; dsimp only; rw [raw_takenFor, if_neg h.symm]
  have hadd := takenFor_add (labels := labels) (P := P) h
  set c := takenFor labels P k k
  set t := takenFor labels P k j
  set N := numGiven labels k
  have hs1 : (1 : ℚ) ≤ raw k k := by rw [hkk]; exact le_max_right _ _
  have ht0 : (0 : ℚ) ≤ t := Nat.cast_nonneg _
  have hspos : 0 < raw k k + raw k j := by rw [hkj]; linarith
  have hN : (1 : ℚ) < N := by exact_mod_cast h1
  have hnn : ∀ b, b = k ∨ b = j → 0 ≤ x k b := by
    intro b hb
    rw [hxe]
    apply mul_nonneg (div_nonneg _ hspos.le) (by linarith)
    rcases hb with rfl | rfl
    · linarith
    · rw [hkj]; exact ht0
  have hsum : roundRows A x k k + roundRows A x k j = N := by
    have h2 := (roundRows_spec A x k).1
    have h3 : ∑ i, x k i = ((N : ℤ) : ℚ) := by
      rw [hx, Finset.sum_congr rfl (fun b _ => calibrateTotal_eq raw labels hrow k b), sum_calibrateRows raw labels k (hrow k)]
      simp [N]
    rw [h3, rint_intCast] at h2
    have h4 : (∑ i, ((roundRows A x k i : ℤ) : ℚ)) = N := by exact_mod_cast h2
    rw [sum_two h] at h4
    exact_mod_cast h4
  refine ⟨roundRows_nonneg A x k k (hnn k (Or.inl rfl)), roundRows_nonneg A x k j (hnn j (Or.inr rfl)), hsum, ?_, ?_⟩
  · have hgt := roundRows_gt A x k j
    rw [hxe, hkj] at hgt
    by_cases hle : raw k k + raw k j ≤ N
    · apply (min_le_left _ _).trans
      have h5 : (t : ℚ) ≤ t / (raw k k + raw k j) * N := by
        rw [div_mul_eq_mul_div, le_div_iff₀ hspos]
        exact mul_le_mul_of_nonneg_left hle ht0
      rw [hkj] at h5
      have h6 : ((t : ℤ) : ℚ) - 1 < roundRows A x k j := by push_cast; linarith
      have h7 : (t : ℤ) - 1 < roundRows A x k j := by exact_mod_cast h6
      omega
    · apply (min_le_right _ _).trans
      have hc0 : c = 0 := by
        by_contra hc
        apply hle
        rw [hkk, hkj, max_eq_left (by exact_mod_cast Nat.one_le_iff_ne_zero.mpr hc)]
        exact_mod_cast hadd
      have hk1 : raw k k = 1 := by rw [hkk, hc0]; simp
      have htN : t = N := by
        by_contra hne
        apply hle
        rw [hk1, hkj]
        have : 1 + t ≤ N := by omega
        exact_mod_cast this
      rw [hk1, htN] at hgt
      have h5 : (N : ℚ) - 1 < (N : ℚ) / (1 + N) * N := by
        rw [div_mul_eq_mul_div, lt_div_iff₀ (by linarith)]
        nlinarith
      have h6 : ((N : ℤ) : ℚ) - 2 < roundRows A x k j := by push_cast; linarith
      have h7 : (N : ℤ) - 2 < roundRows A x k j := by exact_mod_cast h6
      omega
  · intro ht
    apply roundRows_intCast A x k j 0
    rw [hxe, hkj, ht]
    simp

/-- The matrix of removals for two classes with the default arguments. -/
theorem removal_two (A : ArgSort ℚ) {j k : Fin 2} (h : j ≠ k) (h1 : 1 < numGiven labels k) (args : Args 2)
    (hj : args.confidentJoint = none) :
    ∃ q : ℕ, keepAtLeastN A (fun j k => Filter.usedJoint A labels P args k j) 1 1 j k = q ∧
      (numGiven labels k : ℤ) - keepAtLeastN A (fun j k => Filter.usedJoint A labels P args k j) 1 1 k k = q ∧
      min (takenFor labels P k j) (numGiven labels k - 1) ≤ q ∧ (takenFor labels P k j = 0 → q = 0) := by
  obtain ⟨a, b, ha, hb, ha0, hb0, hab, hmin, hz⟩ := joint_two (P := P) A h h1
  have hu : ∀ l, Filter.usedJoint A labels P args k l =
      ((computeConfidentJoint A labels P (getConfidentThresholds labels P) true k l : ℤ) : ℚ) := by
    intro l; unfold Filter.usedJoint; rw [hj]
  have hred : ∀ l, keepAtLeastN A (fun j k => Filter.usedJoint A labels P args k j) 1 1 l k =
      trunc (keepDiagonal (fun j k => Filter.usedJoint A labels P args k j) 1 l k) := by
    intro l
    rw [keepAtLeastN_eq]
    unfold reducePruneCounts reducePruneCountsExact
    dsimp only
    simp only [mul_one, ite_self, sub_self, Finset.sum_const_zero, add_zero]
    split_ifs with hl
    · rw [hl]
    · rfl
  have hkk : keepDiagonal (fun j k => Filter.usedJoint A labels P args k j) 1 k k = ((max a 1 : ℤ) : ℚ) := by
    unfold keepDiagonal
    dsimp only
    rw [if_pos rfl, hu, ha]
    push_cast; rfl
  have hkj : keepDiagonal (fun j k => Filter.usedJoint A labels P args k j) 1 j k = (((numGiven labels k : ℤ) - max a 1 : ℤ) : ℚ) := by
    unfold keepDiagonal
    dsimp only
    rw [if_neg h, hu, hu, ha, hb]
    by_cases h2 : 1 ≤ a
    · have h3 : (1 : ℚ) ≤ a := by exact_mod_cast h2
      rw [Nat.cast_one, max_eq_left h3, sub_self, zero_div, sub_zero, if_neg (not_lt.mpr (by exact_mod_cast hb0)), max_eq_left h2]
      congr 1
      omega
    · have h3 : a = 0 := by omega
      subst h3
      have h4 : b = numGiven labels k := by omega
      have hr : numNoiseRates (fun j k => Filter.usedJoint A labels P args k j) k = 1 := by
        unfold numNoiseRates
        dsimp only
        apply max_eq_right
        have : (List.finRange 2).countP (fun l => Filter.usedJoint A labels P args k l ≠ 0) ≤ 1 := by
          rw [countP_finRange]
          refine (Finset.card_le_card (t := {j}) ?_).trans (by simp)
          intro l hl
          simp only [Finset.mem_filter, Finset.mem_univ, true_and, decide_eq_true_eq] at hl
          rw [Finset.mem_singleton]
          by_contra hlj
          apply hl
          have : l = k := by
            by_contra hlk
            exact hlj (other_unique hlk h)
          rw [this, hu, ha]
          simp
        have : ((List.finRange 2).countP (fun l => Filter.usedJoint A labels P args k l ≠ 0) : ℚ) ≤ 1 := by exact_mod_cast this
        linarith
      rw [hr, h4]
      have : (1 : ℚ) < numGiven labels k := by exact_mod_cast h1
      push_cast
      rw [if_neg (by norm_num; linarith)]
      norm_num
  rw [hred, hred, hkk, hkj, trunc_intCast, trunc_intCast]
  refine ⟨((numGiven labels k : ℤ) - max a 1).toNat, by omega, by omega, by omega, fun h0 => ?_⟩
  have := hz h0
  omega

/-- The first positions of an argsort contain a set of positions that come first, unless they are all. -/
theorem take_two (A : ArgSort ℚ) {c : ℕ} (v : Fin c → ℚ) (p : Fin c → Prop) [DecidablePred p]
    (h : ∀ r s, p r → ¬ p s → v r < v s) (q : ℕ) (hq : min (Finset.univ.filter p).card (c - 1) ≤ q) :
    ((∃ s, ¬ p s) → ∀ r, p r → r ∈ (A.indices v).take q) ∧
      ((∀ s, p s) → (Finset.univ.filter (fun r => r ∉ (A.indices v).take q)).card ≤ 1) := by
  constructor
  · rintro ⟨s, hs⟩ r hr
    have hlt : (Finset.univ.filter p).card < c := by
      have : Finset.univ.filter p ⊂ Finset.univ := by
        rw [Finset.ssubset_univ_iff]
        intro he
        have hmem := Finset.mem_univ s
        rw [← he] at hmem
        exact hs (Finset.mem_filter.mp hmem).2
      simpa using Finset.card_lt_card this
    exact mem_take_mono _ (by omega) r ((take_indices_iff A v p h r).mpr hr)
  · intro hall
    have hcard : (Finset.univ.filter p).card = c := by
      rw [Finset.filter_true_of_mem (fun s _ => hall s)]; simp
    have h1 := card_take_indices A v q
    have h2 := Finset.card_filter_add_card_filter_not (s := (Finset.univ : Finset (Fin c))) (fun r => r ∈ (A.indices v).take q)
    rw [Finset.card_univ, Fintype.card_fin] at h2
    omega

/-- Clearly mispredicted, and confidently so. -/
def Confused (labels : Fin n → Fin 2) (P : Fin n → Fin 2 → ℚ) (j : Fin 2) (i : Fin n) : Prop :=
  reduceIssues labels P i = false ∧ Reaches P (getConfidentThresholds labels P) i j

instance (labels : Fin n → Fin 2) (P : Fin n → Fin 2 → ℚ) (j : Fin 2) : DecidablePred (Confused labels P j) :=
  fun i => by unfold Confused Reaches; infer_instance

/-- Being confused only depends on the probability of the other class. -/
theorem Confused.mono (hP : ∀ i, IsDistribution (P i)) {i s : Fin n} (hl : labels s = labels i) {j : Fin 2} (hj : j ≠ labels i)
    (hle : P i j ≤ P s j) (h : Confused labels P j i) : Confused labels P j s := by
  refine ⟨wrong_mono hP hl hj hle h.1, ?_⟩
  have := h.2
  unfold Reaches at this ⊢
  linarith

theorem Confused.taken {i : Fin n} {j : Fin 2} (hj : j ≠ labels i) (h : Confused labels P j i) :
    trueLabelGuess P (getConfidentThresholds labels P) i = j := by
  obtain ⟨j0, hj0, hle⟩ := reduceIssues_false_iff labels P i h.1
  rw [other_unique hj0 hj] at hle
  by_cases hu : ∀ b, Reaches P (getConfidentThresholds labels P) i b → b = j
  · exact trueLabelGuess_of_unique P _ i j h.2 hu
  · push Not at hu
    obtain ⟨b, hb, hbj⟩ := hu
    rw [trueLabelGuess_of_two P _ i b j hbj hb h.2]
    apply other_unique _ hj
    intro he
    have := le_argmax (P i) j
    rw [he] at this
    linarith

/-- What the two pruning filters flag for two classes with the default arguments. -/
theorem prune_two (A : ArgSort ℚ) (hP : ∀ i, IsDistribution (P i)) (args : Args 2)
    (hf : args.filterBy = .pruneByNoiseRate ∨ args.filterBy = .pruneByClass) (hn : args.numToRemove = none)
    (hj : args.confidentJoint = none) (hfrac : args.fracNoise = 1) (hmin : args.minExamples = 1) :
    ∃ raw : Fin n → Bool, findLabelIssues A labels P args = .ok (fun i => raw i && !(reduceIssues labels P i)) ∧
      (∀ i, numGiven labels (labels i) ≤ 1 → raw i = false) ∧
      ∀ j k, j ≠ k → 1 < numGiven labels k →
        (takenFor labels P k j = 0 → ∀ i, labels i = k → raw i = false) ∧
        ((∃ i, labels i = k ∧ ¬ Confused labels P j i) → ∀ i, labels i = k → Confused labels P j i → raw i = true) ∧
        ((∀ i, labels i = k → Confused labels P j i) →
          (Finset.univ.filter (fun i => labels i = k ∧ raw i = false)).card ≤ 1) := by
  have hC : ∀ j k, j ≠ k → (Finset.univ.filter (fun i => labels i = k ∧ Confused labels P j i)).card ≤ takenFor labels P k j := by
    intro j k hjk
    apply Finset.card_le_card
    intro i hi
    simp only [Finset.mem_filter, Finset.mem_univ, true_and] at hi ⊢
    exact ⟨hi.1, ⟨j, hi.2.2⟩, Confused.taken (hi.1 ▸ hjk) hi.2⟩
  have hlt : ∀ j k, j ≠ k → ∀ i s, labels i = k → labels s = k → Confused labels P j i → ¬ Confused labels P j s →
      P s j < P i j ∧ P i k < P s k := by
    intro j k hjk i s hi hs h1 h2
    have h3 : P s j < P i j := by
      by_contra hc
      exact h2 (h1.mono hP (hs.trans hi.symm) (hi ▸ hjk) (not_lt.mp hc))
    have h4 := (hP i).2
    have h5 := (hP s).2
    rw [sum_two hjk] at h4 h5
    exact ⟨h3, by linarith⟩
  -- both masks take the first `q` of an order in which the confused ones come first
  have main : ∀ raw : Fin n → Bool, ∀ v : (k : Fin 2) → Fin 2 → Fin (classIdx labels k).length → ℚ,
      (∀ j k, j ≠ k → 1 < numGiven labels k → ∃ q : ℕ, min (takenFor labels P k j) (numGiven labels k - 1) ≤ q ∧
        (takenFor labels P k j = 0 → q = 0) ∧
        ∀ r, raw ((classIdx labels k).get r) = true ↔ r ∈ (A.indices (v k j)).take q) →
      (∀ j k, j ≠ k → ∀ r s, Confused labels P j ((classIdx labels k).get r) → ¬ Confused labels P j ((classIdx labels k).get s) →
        v k j r < v k j s) →
      ∀ j k, j ≠ k → 1 < numGiven labels k →
        (takenFor labels P k j = 0 → ∀ i, labels i = k → raw i = false) ∧
        ((∃ i, labels i = k ∧ ¬ Confused labels P j i) → ∀ i, labels i = k → Confused labels P j i → raw i = true) ∧
        ((∀ i, labels i = k → Confused labels P j i) →
          (Finset.univ.filter (fun i => labels i = k ∧ raw i = false)).card ≤ 1) := by
    intro raw v hraw hv j k hjk h1
    obtain ⟨q, hq, hq0, hr⟩ := hraw j k hjk h1
    have ht := take_two A (v k j) (fun r => Confused labels P j ((classIdx labels k).get r)) (hv j k hjk) q (by
      rw [card_classIdx labels k (Confused labels P j), length_classIdx]
      exact le_trans (min_le_min_right _ (hC j k hjk)) hq)
    refine ⟨?_, ?_, ?_⟩
    · intro h0 i hi
      obtain ⟨r, rfl⟩ := exists_get_of labels i k hi
      rw [Bool.eq_false_iff, ne_eq, hr r, hq0 h0]
      simp
    · rintro ⟨s, hs, hcs⟩ i hi hci
      obtain ⟨r, rfl⟩ := exists_get_of labels i k hi
      obtain ⟨t, rfl⟩ := exists_get_of labels s k hs
      exact (hr r).mpr (ht.1 ⟨t, hcs⟩ r hci)
    · intro hall
      have := ht.2 (fun s => hall _ ((mem_classIdx _ _ _).mp (List.get_mem _ _)))
      rw [← card_classIdx labels k (fun i => raw i = false)]
      refine le_trans (Finset.card_le_card ?_) this
      intro r h2
      simp only [Finset.mem_filter, Finset.mem_univ, true_and] at h2 ⊢
      rw [← hr r, h2]
      simp
  set pcm := keepAtLeastN A (fun j k => Filter.usedJoint A labels P args k j) 1 1 with hpcm
  have hget : ∀ k (r : Fin (classIdx labels k).length), labels ((classIdx labels k).get r) = k :=
    fun k r => (mem_classIdx _ _ _).mp (List.get_mem _ _)
  rcases hf with hf | hf
  · have hraw : rawMask A labels P args = .ok (maskByCount A labels P 1 pcm) := by
      unfold rawMask
      simp only [hf, hn, hfrac, hmin]
      rfl
    refine ⟨_, findLabelIssues_of_raw A labels P args (by rw [hf]; decide) (Or.inl hn) _ hraw, ?_, ?_⟩
    · intro i hi
      obtain ⟨r, hr⟩ := exists_get labels i
      have := maskByCount_get A labels P 1 pcm (labels i) r
      rw [hr] at this
      rw [Bool.eq_false_iff, ne_eq, this]
      exact fun h => absurd h.1 (by omega)
    · refine main _ (fun k j r => -(classProbs labels P k r j - classProbs labels P k r k)) ?_ ?_
      · intro j k hjk h1
        obtain ⟨q, h2, -, h3, h4⟩ := removal_two (P := P) A hjk h1 args hj
        refine ⟨q, h3, h4, fun r => ?_⟩
        rw [maskByCount_get]
        constructor
        · rintro ⟨-, -, j', hj', hpos, hm⟩
          obtain rfl := other_unique hj'.symm hjk
          rw [hpcm, h2, Int.toNat_natCast] at hm
          exact hm
        · intro hm
          refine ⟨h1, h1, j, hjk.symm, ?_, by rw [hpcm, h2, Int.toNat_natCast]; exact hm⟩
          rw [hpcm, h2]
          have : q ≠ 0 := by rintro rfl; simp at hm
          omega
      · intro j k hjk r s h1 h2
        have := hlt j k hjk _ _ (hget k r) (hget k s) h1 h2
        unfold classProbs
        linarith [this.1, this.2]
  · have hraw : rawMask A labels P args = .ok (maskByClass A labels P 1 pcm) := by
      unfold rawMask
      simp only [hf, hn, hfrac, hmin]
      rfl
    refine ⟨_, findLabelIssues_of_raw A labels P args (by rw [hf]; decide) (Or.inl hn) _ hraw, ?_, ?_⟩
    · intro i hi
      obtain ⟨r, hr⟩ := exists_get labels i
      have := maskByClass_get A labels P 1 pcm (labels i) r
      rw [hr] at this
      rw [Bool.eq_false_iff, ne_eq, this]
      exact fun h => absurd h.1 (by omega)
    · refine main _ (fun k _ r => classProbs labels P k r k) ?_ ?_
      · intro j k hjk h1
        obtain ⟨q, -, h2, h3, h4⟩ := removal_two (P := P) A hjk h1 args hj
        refine ⟨q, h3, h4, fun r => ?_⟩
        rw [maskByClass_get, h2, Int.toNat_natCast]
        exact ⟨fun h => h.2.2, fun h => ⟨h1, h1, h⟩⟩
      · intro j k hjk r s h1 h2
        exact (hlt j k hjk _ _ (hget k r) (hget k s) h1 h2).2

/-- **C156, pruning for two classes.** With the default arguments, the filters `prune_by_noise_rate` (the default) and
`prune_by_class` find nothing more after the flagged examples have been removed. -/
theorem C156_two_prune (A : ArgSort ℚ) (hP : ∀ i, IsDistribution (P i)) (args : Args 2)
    (hf : args.filterBy = .pruneByNoiseRate ∨ args.filterBy = .pruneByClass) (hn : args.numToRemove = none)
    (hj : args.confidentJoint = none) (hfrac : args.fracNoise = 1) (hmin : args.minExamples = 1)
    (hm : findLabelIssues A labels P args = .ok mask) (he : Rest mask e) :
    findLabelIssues A (fun r => labels (e r)) (fun r => P (e r)) args = .ok (fun _ => false) := by
  obtain ⟨raw, h1, hshort, hraw⟩ := prune_two (labels := labels) A hP args hf hn hj hfrac hmin
  obtain ⟨raw', h1', hshort', hraw'⟩ := prune_two (labels := fun r => labels (e r)) (P := fun r => P (e r)) A (fun r => hP (e r))
    args hf hn hj hfrac hmin
  rw [h1] at hm
  have hmask : ∀ i, mask i = (raw i && !(reduceIssues labels P i)) := fun i => by rw [← Except.ok.inj hm]
  rw [h1']
  congr 1
  funext r
  rw [Bool.eq_false_iff]
  intro hr
  simp only [Bool.and_eq_true, Bool.not_eq_true'] at hr
  obtain ⟨hr1, hr2⟩ := hr
  have hr2 : reduceIssues labels P (e r) = false := hr2
  obtain ⟨j, hjk⟩ : ∃ j, j ≠ labels (e r) := ⟨1 - labels (e r), by generalize labels (e r) = l; revert l; decide⟩
  set k := labels (e r) with hk
  have hN' : 1 < numGiven (fun r => labels (e r)) k := by
    by_contra hc
    have := hshort' r (not_lt.mp hc)
    rw [this] at hr1
    exact absurd hr1 (by simp)
  have hN : 1 < numGiven labels k := by
    refine lt_of_lt_of_le hN' ?_
    rw [numGiven_rest he]
    have := card_split labels mask k
    unfold numKept
    omega
  obtain ⟨-, hall, hone⟩ := hraw j k hjk hN
  have hunraw : raw (e r) = false := by
    have := he.unflagged r
    rw [hmask, hr2] at this
    simpa using this
  by_cases hconf : ∀ i, labels i = k → Confused labels P j i
  · have h2 := hone hconf
    rw [numGiven_rest he] at hN'
    unfold numKept at hN'
    refine absurd (le_trans (Finset.card_le_card ?_) h2) (not_le.mpr hN')
    intro i hi
    simp only [Finset.mem_filter, Finset.mem_univ, true_and] at hi ⊢
    refine ⟨hi.1, ?_⟩
    have h3 := hi.2
    rw [hmask, (hconf i hi.1).1] at h3
    simpa using h3
  · push Not at hconf
    have hall := hall hconf
    have hnot : ¬ Reaches P (getConfidentThresholds labels P) (e r) j := by
      intro hreach
      have := hall (e r) rfl ⟨hr2, hreach⟩
      rw [hunraw] at this
      exact absurd this (by simp)
    have hhalf := (wrong_half hP hjk hr2).1
    have ht : 1 / 2 < getConfidentThresholds labels P j := by
      unfold Reaches at hnot
      linarith
    have hthr := threshold_two hP he (fun i hi => by
      rw [hmask] at hi
      simp only [Bool.and_eq_true, Bool.not_eq_true'] at hi
      exact hi.2) j ht
    have hzero : takenFor (fun r => labels (e r)) (fun r => P (e r)) k j = 0 := by
      unfold takenFor
      rw [Finset.card_eq_zero, Finset.filter_eq_empty_iff]
      rintro s - ⟨hs, ⟨b, hb⟩, hg⟩
      have hreach : Reaches (fun r => P (e r)) (getConfidentThresholds (fun r => labels (e r)) (fun r => P (e r))) s j := by
        by_cases hbj : b = j
        · exact hbj ▸ hb
        · by_contra hnj
          rw [trueLabelGuess_of_unique (fun r => P (e r)) _ s b hb (fun l hl => by
            by_contra hlb
            have : l = j := by
              by_contra hlj
              exact hlb (other_unique hlj hbj)
            exact hnj (this ▸ hl))] at hg
          exact hbj hg
      have hge : P (e r) j ≤ P (e s) j ∧ Reaches P (getConfidentThresholds labels P) (e s) j := by
        unfold Reaches at hreach hnot ⊢
        dsimp only at hreach
        constructor <;> linarith
      have hw := wrong_mono (labels := labels) hP (i := e r) (s := e s) hs hjk hge.1 hr2
      have h5 := hall (e s) hs ⟨hw, hge.2⟩
      have h6 := he.unflagged s
      rw [hmask, h5, hw] at h6
      exact absurd h6 (by simp)
    have := (hraw' j k hjk hN').1 hzero r rfl
    rw [this] at hr1
    exact absurd hr1 (by simp)

end TwoClasses

/-- After the flagged examples have been removed, position `r` of what remains is flagged by a second call: `e` lists what remains. -/
def FoundAgain [NeZero K] (labels : Fin n → Fin K) (P : Fin n → Fin K → ℚ) (args : Args K) (e : Fin m → Fin n) (r : Fin m) : Prop :=
  (∀ i, IsDistribution (P i)) ∧ ∃ mask mask', findLabelIssues (stableSort ℚ) labels P args = .ok mask ∧ Rest mask e ∧
    findLabelIssues (stableSort ℚ) (fun r => labels (e r)) (fun r => P (e r)) args = .ok mask' ∧ mask' r = true

theorem isDistribution_of {v : Fin K → ℚ} (h : (∀ j, 0 ≤ v j) ∧ ∑ j, v j = 1) : IsDistribution v := h

/-- The matrix of removals if the calibrated confident joint consists of integers. -/
theorem removal_of (A : ArgSort ℚ) [NeZero K] (labels : Fin n → Fin K) (P : Fin n → Fin K → ℚ) (thr : Fin K → ℚ)
    (hthr : ∀ k, getConfidentThresholds labels P k = thr k) (R : Fin K → Fin K → ℕ)
    (hR : ∀ a b, confidentJointRaw labels P thr a b = R a b) (M C : Fin K → Fin K → ℤ)
    (hM : ∀ a b, calibrateTotal (fun a b => (R a b : ℚ)) labels a b = M a b)
    (hC : ∀ j k, reducePruneCounts (keepDiagonal (fun j k => (M k j : ℚ)) 1) 1 j k = C j k) (f : FilterBy) :
    keepAtLeastN A (fun j k => Filter.usedJoint A labels P { filterBy := f } k j) 1 1 = C := by
  have hthr' : getConfidentThresholds labels P = thr := funext hthr
  have hu : ∀ a b, Filter.usedJoint A labels P { filterBy := f } a b = (M a b : ℚ) := by
    intro a b
    unfold Filter.usedJoint computeConfidentJoint
    dsimp only
    rw [if_pos rfl, hthr']
    congr 1
    unfold calibrateConfidentJoint
    apply roundRows_intCast
    rw [show (fun a b => (confidentJointRaw labels P thr a b : ℚ)) = fun a b => (R a b : ℚ) from by funext a b; rw [hR]]
    exact hM a b
  funext j k
  rw [keepAtLeastN_eq, show (fun j k => Filter.usedJoint A labels P { filterBy := f } k j) = fun j k => (M k j : ℚ) from by
    funext j k; exact hu k j]
  exact hC j k

section Refuted

def defaultLabels : Fin 5 → Fin 3 := ![2, 1, 1, 0, 1]

def defaultProbs : Fin 5 → Fin 3 → ℚ :=
  ![![3/5, 1/5, 1/5], ![3/5, 3/10, 1/10], ![7/10, 1/10, 1/5], ![9/10, 0, 1/10], ![2/5, 3/10, 3/10]]

def defaultRest : Fin 4 → Fin 5 := ![0, 1, 3, 4]

/-- **C157, refuted for the default filter.** Three classes, five examples: one removal from class 1
towards class 0 and one towards class 2 are counted, and both fall on the third example. Without it one removal towards class 0
is still counted, and now it falls on the second example. -/
theorem C157_not_default : FoundAgain defaultLabels defaultProbs { filterBy := .pruneByNoiseRate } defaultRest 1 := by
  have h1c := removal_of (stableSort ℚ) defaultLabels defaultProbs ![9/10, 7/30, 1/5] (by decide +kernel) ![![1, 0, 0], ![1, 1, 1], ![0, 0, 1]] (by decide +kernel)
    ![![1, 0, 0], ![1, 1, 1], ![0, 0, 1]] ![![1, 1, 0], ![0, 1, 0], ![0, 1, 1]] (by decide +kernel) (by decide +kernel) .pruneByNoiseRate
  have h1r : rawMask (stableSort ℚ) defaultLabels defaultProbs { filterBy := .pruneByNoiseRate } = .ok (fun i => maskByCount (stableSort ℚ) defaultLabels defaultProbs 1 (![![1, 1, 0], ![0, 1, 0], ![0, 1, 1]]) i) := by
    rw [← h1c]
    rfl
  have h1 := findLabelIssues_of_raw (stableSort ℚ) defaultLabels defaultProbs { filterBy := .pruneByNoiseRate } ⟨by decide, by decide⟩ (Or.inl rfl) _ h1r
  have h2c := removal_of (stableSort ℚ) (fun r => defaultLabels (defaultRest r)) (fun r => defaultProbs (defaultRest r)) ![9/10, 3/10, 1/5] (by decide +kernel) ![![1, 0, 0], ![1, 1, 0], ![0, 0, 1]] (by decide +kernel)
    ![![1, 0, 0], ![1, 1, 0], ![0, 0, 1]] ![![1, 1, 0], ![0, 1, 0], ![0, 0, 1]] (by decide +kernel) (by decide +kernel) .pruneByNoiseRate
  have h2r : rawMask (stableSort ℚ) (fun r => defaultLabels (defaultRest r)) (fun r => defaultProbs (defaultRest r)) { filterBy := .pruneByNoiseRate } = .ok (fun i => maskByCount (stableSort ℚ) (fun r => defaultLabels (defaultRest r)) (fun r => defaultProbs (defaultRest r)) 1 (![![1, 1, 0], ![0, 1, 0], ![0, 0, 1]]) i) := by
    rw [← h2c]
    rfl
  have h2 := findLabelIssues_of_raw (stableSort ℚ) (fun r => defaultLabels (defaultRest r)) (fun r => defaultProbs (defaultRest r)) { filterBy := .pruneByNoiseRate } ⟨by decide, by decide⟩ (Or.inl rfl) _ h2r
  exact ⟨fun i => isDistribution_of (by revert i; decide +kernel), _, _, h1, ⟨by decide, by decide +kernel⟩, h2, by decide +kernel⟩

def by_classLabels : Fin 6 → Fin 3 := ![2, 2, 2, 0, 2, 1]

def by_classProbs : Fin 6 → Fin 3 → ℚ :=
  ![![1/2, 0, 1/2], ![9/10, 1/10, 0], ![9/10, 1/10, 0], ![1, 0, 0], ![3/5, 3/10, 1/10], ![3/5, 3/10, 1/10]]

def by_classRest : Fin 4 → Fin 6 := ![0, 3, 4, 5]

/-- **C157, refuted for `prune_by_class`.** Of the examples given 2, one counts towards class 1 and one as correct, so
half of them are removed, and these are others: the second and the third. The second call counts the same and flags the fifth. -/
theorem C157_not_by_class : FoundAgain by_classLabels by_classProbs { filterBy := .pruneByClass } by_classRest 2 := by
  have h1c := removal_of (stableSort ℚ) by_classLabels by_classProbs ![1, 3/10, 3/20] (by decide +kernel) ![![1, 0, 0], ![0, 1, 0], ![0, 1, 1]] (by decide +kernel)
    ![![1, 0, 0], ![0, 1, 0], ![0, 2, 2]] ![![1, 0, 0], ![0, 1, 2], ![0, 0, 2]] (by decide +kernel) (by decide +kernel) .pruneByClass
  have h1r : rawMask (stableSort ℚ) by_classLabels by_classProbs { filterBy := .pruneByClass } = .ok (fun i => maskByClass (stableSort ℚ) by_classLabels by_classProbs 1 (![![1, 0, 0], ![0, 1, 2], ![0, 0, 2]]) i) := by
    rw [← h1c]
    rfl
  have h1 := findLabelIssues_of_raw (stableSort ℚ) by_classLabels by_classProbs { filterBy := .pruneByClass } ⟨by decide, by decide⟩ (Or.inl rfl) _ h1r
  have h2c := removal_of (stableSort ℚ) (fun r => by_classLabels (by_classRest r)) (fun r => by_classProbs (by_classRest r)) ![1, 3/10, 3/10] (by decide +kernel) ![![1, 0, 0], ![0, 1, 0], ![0, 1, 1]] (by decide +kernel)
    ![![1, 0, 0], ![0, 1, 0], ![0, 1, 1]] ![![1, 0, 0], ![0, 1, 1], ![0, 0, 1]] (by decide +kernel) (by decide +kernel) .pruneByClass
  have h2r : rawMask (stableSort ℚ) (fun r => by_classLabels (by_classRest r)) (fun r => by_classProbs (by_classRest r)) { filterBy := .pruneByClass } = .ok (fun i => maskByClass (stableSort ℚ) (fun r => by_classLabels (by_classRest r)) (fun r => by_classProbs (by_classRest r)) 1 (![![1, 0, 0], ![0, 1, 1], ![0, 0, 1]]) i) := by
    rw [← h2c]
    rfl
  have h2 := findLabelIssues_of_raw (stableSort ℚ) (fun r => by_classLabels (by_classRest r)) (fun r => by_classProbs (by_classRest r)) { filterBy := .pruneByClass } ⟨by decide, by decide⟩ (Or.inl rfl) _ h2r
  exact ⟨fun i => isDistribution_of (by revert i; decide +kernel), _, _, h1, ⟨by decide, by decide +kernel⟩, h2, by decide +kernel⟩

def bothLabels : Fin 5 → Fin 3 := ![1, 1, 1, 2, 0]

def bothProbs : Fin 5 → Fin 3 → ℚ :=
  ![![3/5, 1/10, 3/10], ![3/5, 3/10, 1/10], ![2/5, 1/2, 1/10], ![9/10, 0, 1/10], ![1, 0, 0]]

def bothRest : Fin 4 → Fin 5 := ![1, 2, 3, 4]

/-- **C157, refuted for `both`.** The first call flags the first example, the second call the second one. -/
theorem C157_not_both : FoundAgain bothLabels bothProbs { filterBy := .both } bothRest 0 := by
  have h1c := removal_of (stableSort ℚ) bothLabels bothProbs ![1, 3/10, 1/10] (by decide +kernel) ![![1, 0, 0], ![1, 1, 1], ![0, 0, 1]] (by decide +kernel)
    ![![1, 0, 0], ![1, 1, 1], ![0, 0, 1]] ![![1, 1, 0], ![0, 1, 0], ![0, 1, 1]] (by decide +kernel) (by decide +kernel) .both
  have h1r : rawMask (stableSort ℚ) bothLabels bothProbs { filterBy := .both } = .ok (fun i => maskByCount (stableSort ℚ) bothLabels bothProbs 1 (![![1, 1, 0], ![0, 1, 0], ![0, 1, 1]]) i && maskByClass (stableSort ℚ) bothLabels bothProbs 1 (![![1, 1, 0], ![0, 1, 0], ![0, 1, 1]]) i) := by
    rw [← h1c]
    rfl
  have h1 := findLabelIssues_of_raw (stableSort ℚ) bothLabels bothProbs { filterBy := .both } ⟨by decide, by decide⟩ (Or.inl rfl) _ h1r
  have h2c := removal_of (stableSort ℚ) (fun r => bothLabels (bothRest r)) (fun r => bothProbs (bothRest r)) ![1, 2/5, 1/10] (by decide +kernel) ![![1, 0, 0], ![0, 1, 1], ![0, 0, 1]] (by decide +kernel)
    ![![1, 0, 0], ![0, 1, 1], ![0, 0, 1]] ![![1, 0, 0], ![0, 1, 0], ![0, 1, 1]] (by decide +kernel) (by decide +kernel) .both
  have h2r : rawMask (stableSort ℚ) (fun r => bothLabels (bothRest r)) (fun r => bothProbs (bothRest r)) { filterBy := .both } = .ok (fun i => maskByCount (stableSort ℚ) (fun r => bothLabels (bothRest r)) (fun r => bothProbs (bothRest r)) 1 (![![1, 0, 0], ![0, 1, 0], ![0, 1, 1]]) i && maskByClass (stableSort ℚ) (fun r => bothLabels (bothRest r)) (fun r => bothProbs (bothRest r)) 1 (![![1, 0, 0], ![0, 1, 0], ![0, 1, 1]]) i) := by
    rw [← h2c]
    rfl
  have h2 := findLabelIssues_of_raw (stableSort ℚ) (fun r => bothLabels (bothRest r)) (fun r => bothProbs (bothRest r)) { filterBy := .both } ⟨by decide, by decide⟩ (Or.inl rfl) _ h2r
  exact ⟨fun i => isDistribution_of (by revert i; decide +kernel), _, _, h1, ⟨by decide, by decide +kernel⟩, h2, by decide +kernel⟩

def confidentLabels : Fin 3 → Fin 3 := ![2, 2, 1]

def confidentProbs : Fin 3 → Fin 3 → ℚ :=
  ![![1, 0, 0], ![2/5, 3/10, 3/10], ![4/5, 1/10, 1/10]]

def confidentRest : Fin 2 → Fin 3 := ![0, 2]

/-- **C157, refuted for `confident_learning` and three classes.** The first call flags the second example, which had the highest probability of class 2 among
the examples of this class. Without it the threshold of class 2 falls, and the second call flags the third example. -/
theorem C157_not_confident : FoundAgain confidentLabels confidentProbs { filterBy := .confidentLearning } confidentRest 1 := by
  refine ⟨fun i => isDistribution_of (by revert i; decide +kernel), fun i => decide (i ∉ List.ofFn confidentRest), ?_⟩
  obtain ⟨mask, hm⟩ := exists_ok_of_toBool (x := findLabelIssues (stableSort ℚ) confidentLabels confidentProbs { filterBy := .confidentLearning }) (by decide +kernel)
  obtain ⟨mask', hm'⟩ := exists_ok_of_toBool (x := findLabelIssues (stableSort ℚ) (fun r => confidentLabels (confidentRest r)) (fun r => confidentProbs (confidentRest r)) { filterBy := .confidentLearning }) (by decide +kernel)
  have h1 : (findLabelIssues (stableSort ℚ) confidentLabels confidentProbs { filterBy := .confidentLearning }).toOption.map List.ofFn =
      some (List.ofFn (fun i => decide (i ∉ List.ofFn confidentRest))) := by decide +kernel
  have h2 : (findLabelIssues (stableSort ℚ) (fun r => confidentLabels (confidentRest r)) (fun r => confidentProbs (confidentRest r)) { filterBy := .confidentLearning }).toOption.map (fun m => m 1) =
      some true := by decide +kernel
  rw [hm] at h1
  rw [hm'] at h2
  have h3 := List.ofFn_injective (Option.some.inj h1)
  exact ⟨mask', by rw [hm, h3], ⟨by decide, by decide⟩, hm', Option.some.inj h2⟩

def self_confidenceLabels : Fin 4 → Fin 2 := ![1, 1, 0, 0]

def self_confidenceProbs : Fin 4 → Fin 2 → ℚ :=
  ![![3/5, 2/5], ![1/2, 1/2], ![1, 0], ![2/5, 3/5]]

def self_confidenceRest : Fin 3 → Fin 4 := ![1, 2, 3]

/-- **C157, refuted for `low_self_confidence` and two classes.** The first call flags one example, the first one, the second call flags the fourth. -/
theorem C157_not_self_confidence : FoundAgain self_confidenceLabels self_confidenceProbs { filterBy := .lowSelfConfidence } self_confidenceRest 2 := by
  refine ⟨fun i => isDistribution_of (by revert i; decide +kernel), fun i => decide (i ∉ List.ofFn self_confidenceRest), ?_⟩
  obtain ⟨mask, hm⟩ := exists_ok_of_toBool (x := findLabelIssues (stableSort ℚ) self_confidenceLabels self_confidenceProbs { filterBy := .lowSelfConfidence }) (by decide +kernel)
  obtain ⟨mask', hm'⟩ := exists_ok_of_toBool (x := findLabelIssues (stableSort ℚ) (fun r => self_confidenceLabels (self_confidenceRest r)) (fun r => self_confidenceProbs (self_confidenceRest r)) { filterBy := .lowSelfConfidence }) (by decide +kernel)
  have h1 : (findLabelIssues (stableSort ℚ) self_confidenceLabels self_confidenceProbs { filterBy := .lowSelfConfidence }).toOption.map List.ofFn =
      some (List.ofFn (fun i => decide (i ∉ List.ofFn self_confidenceRest))) := by decide +kernel
  have h2 : (findLabelIssues (stableSort ℚ) (fun r => self_confidenceLabels (self_confidenceRest r)) (fun r => self_confidenceProbs (self_confidenceRest r)) { filterBy := .lowSelfConfidence }).toOption.map (fun m => m 2) =
      some true := by decide +kernel
  rw [hm] at h1
  rw [hm'] at h2
  have h3 := List.ofFn_injective (Option.some.inj h1)
  exact ⟨mask', by rw [hm, h3], ⟨by decide, by decide⟩, hm', Option.some.inj h2⟩

def normalized_marginLabels : Fin 4 → Fin 2 := ![0, 0, 1, 1]

def normalized_marginProbs : Fin 4 → Fin 2 → ℚ :=
  ![![3/5, 2/5], ![2/5, 3/5], ![1/10, 9/10], ![3/5, 2/5]]

def normalized_marginRest : Fin 3 → Fin 4 := ![0, 2, 3]

/-- **C157, refuted for `low_normalized_margin` and two classes.** The first call flags the second example, the second call the fourth. -/
theorem C157_not_normalized_margin : FoundAgain normalized_marginLabels normalized_marginProbs { filterBy := .lowNormalizedMargin } normalized_marginRest 2 := by
  refine ⟨fun i => isDistribution_of (by revert i; decide +kernel), fun i => decide (i ∉ List.ofFn normalized_marginRest), ?_⟩
  obtain ⟨mask, hm⟩ := exists_ok_of_toBool (x := findLabelIssues (stableSort ℚ) normalized_marginLabels normalized_marginProbs { filterBy := .lowNormalizedMargin }) (by decide +kernel)
  obtain ⟨mask', hm'⟩ := exists_ok_of_toBool (x := findLabelIssues (stableSort ℚ) (fun r => normalized_marginLabels (normalized_marginRest r)) (fun r => normalized_marginProbs (normalized_marginRest r)) { filterBy := .lowNormalizedMargin }) (by decide +kernel)
  have h1 : (findLabelIssues (stableSort ℚ) normalized_marginLabels normalized_marginProbs { filterBy := .lowNormalizedMargin }).toOption.map List.ofFn =
      some (List.ofFn (fun i => decide (i ∉ List.ofFn normalized_marginRest))) := by decide +kernel
  have h2 : (findLabelIssues (stableSort ℚ) (fun r => normalized_marginLabels (normalized_marginRest r)) (fun r => normalized_marginProbs (normalized_marginRest r)) { filterBy := .lowNormalizedMargin }).toOption.map (fun m => m 2) =
      some true := by decide +kernel
  rw [hm] at h1
  rw [hm'] at h2
  have h3 := List.ofFn_injective (Option.some.inj h1)
  exact ⟨mask', by rw [hm, h3], ⟨by decide, by decide⟩, hm', Option.some.inj h2⟩

end Refuted

def onceLabels : Fin 6 → Fin 2 := ![0, 0, 0, 1, 1, 1]

def onceProbs : Fin 6 → Fin 2 → ℚ := ![![9 / 10, 1 / 10], ![4 / 5, 1 / 5], ![1 / 10, 9 / 10], ![3 / 10, 7 / 10], ![2 / 5, 3 / 5], ![1, 0]]

def onceRest : Fin 4 → Fin 6 := ![0, 1, 3, 4]

theorem once_dist : ∀ i, IsDistribution (onceProbs i) := fun i => isDistribution_of (by revert i; decide +kernel)

/-- Two classes, six examples: `confident_learning` flags the third and the last, and then nothing more. -/
example : ∃ mask, findLabelIssues (stableSort ℚ) onceLabels onceProbs { filterBy := .confidentLearning } = .ok mask ∧ mask 2 = true ∧
    mask 5 = true ∧ Rest mask onceRest ∧ findLabelIssues (stableSort ℚ) (fun r => onceLabels (onceRest r)) (fun r => onceProbs (onceRest r))
      { filterBy := .confidentLearning } = .ok (fun _ => false) := by
  have h := findLabelIssues_of_raw (stableSort ℚ) onceLabels onceProbs { filterBy := .confidentLearning } ⟨by decide, by decide⟩
    (Or.inl rfl) _ rfl
  refine ⟨_, h, by decide +kernel, by decide +kernel, ?_⟩
  refine (fun hr => And.intro hr (C156_two_confident _ once_dist _ rfl rfl h hr)) ?_
  exact ⟨by decide, by decide +kernel⟩

/-- The same with the default filter. -/
example : ∃ mask, findLabelIssues (stableSort ℚ) onceLabels onceProbs { filterBy := .pruneByNoiseRate } = .ok mask ∧ mask 2 = true ∧
    mask 5 = true ∧ Rest mask onceRest ∧ findLabelIssues (stableSort ℚ) (fun r => onceLabels (onceRest r)) (fun r => onceProbs (onceRest r))
      { filterBy := .pruneByNoiseRate } = .ok (fun _ => false) := by
  have hc := removal_of (stableSort ℚ) onceLabels onceProbs ![3 / 5, 13 / 30] (by decide +kernel) ![![2, 1], ![1, 2]] (by decide +kernel)
    ![![2, 1], ![1, 2]] ![![2, 1], ![1, 2]] (by decide +kernel) (by decide +kernel) .pruneByNoiseRate
  have hraw : rawMask (stableSort ℚ) onceLabels onceProbs { filterBy := .pruneByNoiseRate } =
      .ok (fun i => maskByCount (stableSort ℚ) onceLabels onceProbs 1 ![![2, 1], ![1, 2]] i) := by
    rw [← hc]
    rfl
  have h := findLabelIssues_of_raw (stableSort ℚ) onceLabels onceProbs { filterBy := .pruneByNoiseRate } ⟨by decide, by decide⟩
    (Or.inl rfl) _ hraw
  refine ⟨_, h, by decide +kernel, by decide +kernel, ?_⟩
  refine (fun hr => And.intro hr (C156_two_prune _ once_dist _ (Or.inl rfl) rfl rfl rfl rfl h hr)) ?_
  exact ⟨by decide, by decide +kernel⟩

def onceLabels3 : Fin 5 → Fin 3 := ![0, 0, 1, 2, 2]

def onceProbs3 : Fin 5 → Fin 3 → ℚ :=
  ![![9 / 10, 1 / 10, 0], ![1 / 10, 4 / 5, 1 / 10], ![1 / 5, 7 / 10, 1 / 10], ![0, 1 / 5, 4 / 5], ![1, 0, 0]]

def onceRest3 : Fin 3 → Fin 5 := ![0, 2, 3]

/-- Three classes: both flagged examples are below average, nothing more is flagged. -/
example : ∃ mask, findLabelIssues (stableSort ℚ) onceLabels3 onceProbs3 { filterBy := .confidentLearning } = .ok mask ∧ mask 1 = true ∧
    mask 4 = true ∧ Rest mask onceRest3 ∧ findLabelIssues (stableSort ℚ) (fun r => onceLabels3 (onceRest3 r)) (fun r => onceProbs3 (onceRest3 r))
      { filterBy := .confidentLearning } = .ok (fun _ => false) := by
  have h := findLabelIssues_of_raw (stableSort ℚ) onceLabels3 onceProbs3 { filterBy := .confidentLearning } ⟨by decide, by decide⟩
    (Or.inl rfl) _ rfl
  refine ⟨_, h, by decide +kernel, by decide +kernel, ?_⟩
  refine (fun hr => And.intro hr (C157_confident_partial _ _ _ (by decide +kernel) _ rfl rfl _ h (by decide +kernel) _ hr)) ?_
  exact ⟨by decide, by decide +kernel⟩

end Cleanlab.Props
