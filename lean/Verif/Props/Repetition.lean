import Verif.Props.ExampleOrder

/-!
# C132: repeating the data does not matter

A data set in which every example occurs `m` times, in any order, is `labels ∘ σ`, `P ∘ σ` for a map `σ` of the positions
that reaches every position of the original `m` times.
-/

namespace Cleanlab.Props

open Np Cleanlab.Util Cleanlab.Count Cleanlab.Rank Cleanlab.Filter Cleanlab.Spec Cleanlab.Validation

variable {N n K m : ℕ}

/-- `σ` reaches every position `m` times, and `m` is not 0. -/
def Repeats (m : ℕ) (σ : Fin N → Fin n) : Prop :=
  0 < m ∧ ∀ i, (Finset.univ.filter (fun j => σ j = i)).card = m

/-- Everything twice, one copy behind the other. -/
example : Repeats 2 (![0, 1, 2, 0, 1, 2] : Fin 6 → Fin 3) := by unfold Repeats; decide +kernel

namespace Repeats

variable {σ : Fin N → Fin n}

theorem surj (h : Repeats m σ) (i : Fin n) : ∃ j, σ j = i := by
  have h1 := h.2 i
  have h2 : 0 < (Finset.univ.filter (fun j => σ j = i)).card := by rw [h1]; exact h.1
  obtain ⟨j, hj⟩ := Finset.card_pos.mp h2
  exact ⟨j, (Finset.mem_filter.mp hj).2⟩

theorem sum {α : Type} [AddCommMonoid α] (h : Repeats m σ) (f : Fin n → α) : ∑ j, f (σ j) = m • ∑ i, f i := by
  rw [← Finset.sum_fiberwise (s := Finset.univ) (g := σ) (f := fun j => f (σ j)), ← Finset.sum_nsmul]
  refine Finset.sum_congr rfl (fun i _ => ?_)
  rw [Finset.sum_congr rfl (g := fun _ => f i) (fun j hj => by rw [(Finset.mem_filter.mp hj).2]), Finset.sum_const, h.2 i]

theorem card (h : Repeats m σ) (p : Fin n → Prop) [DecidablePred p] :
    (Finset.univ.filter (fun j => p (σ j))).card = m * (Finset.univ.filter p).card := by
  rw [Finset.card_filter, Finset.card_filter, h.sum (fun i => if p i then 1 else 0), smul_eq_mul]

theorem total (h : Repeats m σ) : N = m * n := by
  have := h.card (fun _ => True)
  simpa using this

end Repeats

/-! ### Thresholds, counts and scores -/

section
variable {σ : Fin N → Fin n}

theorem numGiven_repeat (h : Repeats m σ) (labels : Fin n → Fin K) (k : Fin K) :
    numGiven (fun j => labels (σ j)) k = m * numGiven labels k := h.card (fun i => labels i = k)

/-- **C132.** The confident thresholds are the ones of the data without repetitions. -/
theorem C132_thresholds (h : Repeats m σ) (labels : Fin n → Fin K) (P : Fin n → Fin K → ℚ) :
    getConfidentThresholds (fun j => labels (σ j)) (fun j => P (σ j)) = getConfidentThresholds labels P := by
  funext k
  have hm : (m : ℚ) ≠ 0 := by exact_mod_cast h.1.ne'
  have hc : classMean (fun j => labels (σ j)) (fun j => P (σ j)) k = classMean labels P k := by
    rw [classMean_eq, classMean_eq]
    unfold meanSelfConfidence
    rw [numGiven_repeat h, Finset.sum_filter, Finset.sum_filter, h.sum (fun i => if labels i = k then P i k else 0),
      nsmul_eq_mul, Nat.cast_mul, mul_div_mul_left _ _ hm]
  have hk : k ∈ List.ofFn (fun j => labels (σ j)) ↔ k ∈ List.ofFn labels := by
    rw [mem_ofFn_iff, mem_ofFn_iff]
    exact ⟨fun ⟨j, hj⟩ => ⟨σ j, hj⟩, fun ⟨i, hi⟩ => by obtain ⟨j, rfl⟩ := h.surj i; exact ⟨j, hi⟩⟩
  unfold getConfidentThresholds
  rw [hc]
  simp only [hk]

example : getConfidentThresholds (![0, 1, 1, 0, 1, 1] : Fin 6 → Fin 2)
    ![![3 / 4, 1 / 4], ![1 / 2, 1 / 2], ![1 / 4, 3 / 4], ![3 / 4, 1 / 4], ![1 / 2, 1 / 2], ![1 / 4, 3 / 4]] 1 = 5 / 8 := by
  decide +kernel

variable {F : Type} [Field F] [LinearOrder F]

/-- **C132.** Every copy of an example has the label quality score of the example. -/
theorem C132_scores (h : Repeats m σ) (mth : Method) (labels : Fin n → Fin K) (P : Fin n → Fin K → F) :
    labelQualityScores mth (fun j => labels (σ j)) (fun j => P (σ j)) =
      (labelQualityScores mth labels P).map (fun s j => s (σ j)) := by
  unfold labelQualityScores
  cases mth with
  | selfConfidence => rfl
  | normalizedMargin =>
    dsimp only
    by_cases hs : ∀ i, (normalizedMargin labels P i).isSome
    · have hs' : ∀ j, (normalizedMargin (fun j => labels (σ j)) (fun j => P (σ j)) j).isSome := fun j => hs (σ j)
      rw [dif_pos hs, dif_pos hs']
      rfl
    · have hs' : ¬ ∀ j, (normalizedMargin (fun j => labels (σ j)) (fun j => P (σ j)) j).isSome := by
        intro h'
        refine hs (fun i => ?_)
        obtain ⟨j, rfl⟩ := h.surj i
        exact h' j
      rw [dif_neg hs, dif_neg hs']
      rfl

variable [NeZero K]

omit F [Field F] [LinearOrder F] in
theorem offDiagonal_repeat (labels : Fin n → Fin K) (P : Fin n → Fin K → ℚ) (thr : Fin K → ℚ) (j : Fin N) :
    j ∈ offDiagonalIndices (fun j => labels (σ j)) (fun j => P (σ j)) thr ↔ σ j ∈ offDiagonalIndices labels P thr := by
  unfold offDiagonalIndices confidentRows
  simp only [List.mem_filter, List.mem_finRange, true_and]
  rfl

omit F [Field F] [LinearOrder F] in
/-- **C132.** The estimated number of label issues is multiplied by the number of copies. -/
theorem C132_num_issues (h : Repeats m σ) (A A' : ArgSort ℚ) (labels : Fin n → Fin K) (P : Fin n → Fin K → ℚ)
    (cj : Option (Fin K → Fin K → ℚ)) (num : ℤ) (hn : numLabelIssues A labels P cj .offDiagonal = .ok num) :
    numLabelIssues A' (fun j => labels (σ j)) (fun j => P (σ j)) cj .offDiagonal = .ok (m * num) := by
  unfold numLabelIssues at hn ⊢
  dsimp only at hn ⊢
  obtain rfl := Except.ok.inj hn
  congr 1
  rw [C132_thresholds h, countP_finRange, countP_finRange]
  have := h.card (fun i => (decide (i ∈ offDiagonalIndices labels P (getConfidentThresholds labels P)) &&
      !(reduceIssues labels P i)) = true)
  rw [← Nat.cast_mul, ← this]
  congr 2
  ext j
  simp only [offDiagonal_repeat]
  rfl

/-! ### Flags -/

omit F [Field F] [LinearOrder F] [NeZero K] in
theorem mem_take_of_card_le {α : Type} [LinearOrder α] (A : ArgSort α) {c : ℕ} (v : Fin c → α) (t : ℕ) (r : Fin c)
    (h : (Finset.univ.filter (fun s => v s ≤ v r)).card ≤ t) : r ∈ (A.indices v).take t := by
  by_contra hr
  have hsub : Finset.univ.filter (fun s => s ∈ (A.indices v).take t) ⊂ Finset.univ.filter (fun s => v s ≤ v r) := by
    refine (Finset.ssubset_iff_of_subset (fun s hs => ?_)).mpr ⟨r, by simp, by simpa using hr⟩
    simpa using take_indices_le A v t s r (by simpa using hs) hr
  have h1 := Finset.card_lt_card hsub
  have h2 := card_take_indices A v t
  have h3 : (Finset.univ.filter (fun s => v s ≤ v r)).card ≤ c := by
    simpa using Finset.card_le_univ (Finset.univ.filter (fun s => v s ≤ v r))
  omega

omit F [Field F] [LinearOrder F] [NeZero K] in
theorem not_mem_take_of_card_lt {α : Type} [LinearOrder α] (A : ArgSort α) {c : ℕ} (v : Fin c → α) (t : ℕ) (r : Fin c)
    (h : t ≤ (Finset.univ.filter (fun s => v s < v r)).card) : r ∉ (A.indices v).take t := by
  intro hr
  have hsub : Finset.univ.filter (fun s => v s < v r) ⊂ Finset.univ.filter (fun s => s ∈ (A.indices v).take t) := by
    refine (Finset.ssubset_iff_of_subset (fun s hs => ?_)).mpr ⟨r, by simpa using hr, by simp⟩
    by_contra hn
    have h1 := take_indices_le A v t r s hr (by simpa using hn)
    exact absurd (by simpa using hs : v s < v r) (not_lt.mpr h1)
  have h1 := Finset.card_lt_card hsub
  have h2 := card_take_indices A v t
  omega

omit F [Field F] [LinearOrder F] [NeZero K] in
/-- The lowest `m * t` of the repeated values are the copies of the lowest `t`. -/
theorem take_repeat {α : Type} [LinearOrder α] (h : Repeats m σ) (A A' : ArgSort α) (v : Fin n → α)
    (hv : Function.Injective v) (t : ℕ) (j : Fin N) :
    j ∈ (A'.indices (fun j => v (σ j))).take (m * t) ↔ σ j ∈ (A.indices v).take t := by
  rw [mem_take_indices_iff A v t (σ j) (fun s hs e => hs (hv e))]
  have hlt := h.card (fun i => v i < v (σ j))
  have hle := h.card (fun i => v i ≤ v (σ j))
  have hone : (Finset.univ.filter (fun i => v i ≤ v (σ j))).card = (Finset.univ.filter (fun i => v i < v (σ j))).card + 1 := by
    have : Finset.univ.filter (fun i => v i ≤ v (σ j)) = insert (σ j) (Finset.univ.filter (fun i => v i < v (σ j))) := by
      ext i
      simp only [Finset.mem_filter, Finset.mem_univ, true_and, Finset.mem_insert]
      rw [le_iff_lt_or_eq, or_comm]
      exact or_congr_left hv.eq_iff
    rw [this, Finset.card_insert_of_notMem (by simp)]
  constructor
  · intro hj
    by_contra hc
    refine not_mem_take_of_card_lt A' (fun j => v (σ j)) (m * t) j ?_ hj
    rw [hlt]
    exact Nat.mul_le_mul_left _ (not_lt.mp hc)
  · intro hc
    refine mem_take_of_card_le A' (fun j => v (σ j)) (m * t) j ?_
    rw [hle, hone]
    exact Nat.mul_le_mul_left _ hc

omit F [Field F] [LinearOrder F] in
theorem lowScore_repeat (h : Repeats m σ) (A A' : ArgSort ℚ) (labels : Fin n → Fin K) (P : Fin n → Fin K → ℚ)
    (mth : Method) (hi : ∀ s, labelQualityScores mth labels P = .ok s → Function.Injective s) :
    (do let idx ← lowScoreIndices A' (fun j => labels (σ j)) (fun j => P (σ j)) mth
        return fun j => decide (j ∈ idx) : Except String (Fin N → Bool)) =
      (do let idx ← lowScoreIndices A labels P mth
          return fun i => decide (i ∈ idx) : Except String (Fin n → Bool)).map (fun mask j => mask (σ j)) := by
  unfold lowScoreIndices
  rw [C132_scores h]
  cases hs : labelQualityScores mth labels P with
  | error e => rfl
  | ok s =>
    have hinj := hi s hs
    cases hn : numLabelIssues A labels P none .offDiagonal with
    | error e => unfold numLabelIssues at hn; cases hn
    | ok num =>
      dsimp only [Except.map, bind, Except.bind, pure, Except.pure]
      rw [C132_num_issues h A A' labels P none num hn]
      dsimp only
      congr 1
      funext j
      rw [decide_eq_decide]
      have hnn : (m * num : ℤ).toNat = m * num.toNat := by
        have h0 : 0 ≤ num := by
          unfold numLabelIssues at hn
          dsimp only at hn
          have := Except.ok.inj hn
          omega
        obtain ⟨q, rfl⟩ := Int.eq_ofNat_of_zero_le h0
        rw [← Nat.cast_mul, Int.toNat_natCast, Int.toNat_natCast]
      rw [hnn]
      exact take_repeat h A A' s hinj num.toNat j

/-- The filters whose flags do not come from rounded counts. -/
def WithoutCounts (by_ : FilterBy) : Prop :=
  by_ = .confidentLearning ∨ by_ = .predictedNeqGiven ∨ by_ = .lowSelfConfidence ∨ by_ = .lowNormalizedMargin

omit F [Field F] [LinearOrder F] in
/-- **C132 (partial).** `find_label_issues` flags exactly the copies of the examples it flags without repetitions, with the
filters that do not use rounded counts, as long as the scores of the two lowest-score filters differ. -/
theorem C132_find_partial (h : Repeats m σ) (A A' : ArgSort ℚ) (labels : Fin n → Fin K) (P : Fin n → Fin K → ℚ)
    (args : Args K) (hw : WithoutCounts args.filterBy) (ht : NoTies args.filterBy labels P) (mask : Fin n → Bool) :
    findChecked A' (fun j => labels (σ j)) (fun j => P (σ j)) args = .ok (fun j => mask (σ j)) ↔
      findChecked A labels P args = .ok mask := by
  have hraw : rawMask A' (fun j => labels (σ j)) (fun j => P (σ j)) args =
      (rawMask A labels P args).map (fun mask j => mask (σ j)) := by
    unfold rawMask
    unfold NoTies at ht
    rcases hw with hf | hf | hf | hf <;> rw [hf] at ht ⊢ <;> dsimp only at ht ⊢
    · rw [C132_thresholds h]
      dsimp only [Except.map]
      congr 1
      funext j
      rw [decide_eq_decide, offDiagonal_repeat]
    · rfl
    · exact lowScore_repeat h A A' labels P _ ht
    · exact lowScore_repeat h A A' labels P _ ht
  have hfind : findLabelIssues A' (fun j => labels (σ j)) (fun j => P (σ j)) args =
      (findLabelIssues A labels P args).map (fun mask j => mask (σ j)) := by
    unfold findLabelIssues
    rw [hraw]
    split_ifs
    · rfl
    · cases rawMask A labels P args <;> rfl
    · cases rawMask A labels P args <;> rfl
  have h1 : InRange (fun j => P (σ j)) ↔ InRange P :=
    ⟨fun hh i => by obtain ⟨j, rfl⟩ := h.surj i; exact hh j, fun hh j => hh (σ j)⟩
  have h2 : (∃ i j, labels (σ i) ≠ labels (σ j)) ↔ ∃ i j, labels i ≠ labels j := by
    refine ⟨fun ⟨i, j, hh⟩ => ⟨σ i, σ j, hh⟩, fun ⟨i, j, hh⟩ => ?_⟩
    obtain ⟨a, rfl⟩ := h.surj i
    obtain ⟨b, rfl⟩ := h.surj j
    exact ⟨a, b, hh⟩
  have h3 : (∀ j, (labels (σ j) : ℕ) = 0) ↔ ∀ i, (labels i : ℕ) = 0 :=
    ⟨fun hh i => by obtain ⟨j, rfl⟩ := h.surj i; exact hh j, fun hh j => hh (σ j)⟩
  have hN : (0 < N) ↔ 0 < n := by
    rw [h.total]
    exact ⟨fun hh => Nat.pos_of_mul_pos_left hh, fun hh => Nat.mul_pos h.1 hh⟩
  rw [C115_find_iff, C115_find_iff, hN, h1, h2, h3, hfind]
  have hr : (findLabelIssues A labels P args).map (fun mask j => mask (σ j)) = .ok (fun j => mask (σ j)) ↔
      findLabelIssues A labels P args = .ok mask := by
    cases findLabelIssues A labels P args with
    | error e => simp [Except.map]
    | ok mk =>
      simp only [Except.map, Except.ok.injEq]
      constructor
      · intro e
        funext i
        obtain ⟨j, rfl⟩ := h.surj i
        exact congrFun e j
      · rintro rfl; rfl
  rw [hr]

end

/-! ### Counts -/

section
variable {σ : Fin N → Fin n} [NeZero K]

/-- Every class that occurs has an example that is counted as being of that class. -/
def EveryClassCounted (labels : Fin n → Fin K) (P : Fin n → Fin K → ℚ) : Prop :=
  ∀ i, ∃ i', labels i' = labels i ∧ (∃ k, Reaches P (getConfidentThresholds labels P) i' k) ∧
    trueLabelGuess P (getConfidentThresholds labels P) i' = labels i

theorem raw_repeat (h : Repeats m σ) (labels : Fin n → Fin K) (P : Fin n → Fin K → ℚ) (thr : Fin K → ℚ) (a b : Fin K)
    (hab : a ≠ b ∨ ∃ i, labels i = a ∧ (∃ k, Reaches P thr i k) ∧ trueLabelGuess P thr i = a) :
    confidentJointRaw (fun j => labels (σ j)) (fun j => P (σ j)) thr a b = m * confidentJointRaw labels P thr a b := by
  have hc := h.card (fun i => labels i = a ∧ (∃ k, Reaches P thr i k) ∧ trueLabelGuess P thr i = b)
  have h1 := confidentJointRaw_count labels P thr a b
  have h2 := confidentJointRaw_count (fun j => labels (σ j)) (fun j => P (σ j)) thr a b
  have h2' : (Finset.univ.filter (fun j => labels (σ j) = a ∧ (∃ k, Reaches (fun j => P (σ j)) thr j k) ∧
      trueLabelGuess (fun j => P (σ j)) thr j = b)).card = (Finset.univ.filter (fun j => labels (σ j) = a ∧
        (∃ k, Reaches P thr (σ j) k) ∧ trueLabelGuess P thr (σ j) = b)).card := rfl
  rw [h2', hc, ← h1] at h2
  unfold confidentJointRaw
  dsimp only
  rw [h2]
  by_cases hd : a = b
  · rw [if_pos hd, if_pos hd]
    rcases hab with hab | ⟨i, hi⟩
    · exact absurd hd hab
    · have hpos : 1 ≤ Count.confusionMatrix ((confidentRows P thr).map (trueLabelGuess P thr))
          ((confidentRows P thr).map labels) b a := by
        rw [h1]
        exact Finset.card_pos.mpr ⟨i, by simpa [← hd] using hi⟩
      rw [max_eq_left hpos, max_eq_left (le_trans hpos (Nat.le_mul_of_pos_left _ h.1))]
  · rw [if_neg hd, if_neg hd]

/-- **C132.** The uncalibrated confident joint of the repeated data is `m` times the one of the data, except for a class none
of whose examples are counted as that class: its diagonal entry is 1 both times. -/
theorem C132_raw_joint (h : Repeats m σ) (A A' : ArgSort ℚ) (labels : Fin n → Fin K) (P : Fin n → Fin K → ℚ)
    (hc : EveryClassCounted labels P) (a b : Fin K) (hab : a ≠ b ∨ ∃ i, labels i = a) :
    computeConfidentJoint A' (fun j => labels (σ j)) (fun j => P (σ j))
        (getConfidentThresholds (fun j => labels (σ j)) (fun j => P (σ j))) false a b =
      m * computeConfidentJoint A labels P (getConfidentThresholds labels P) false a b := by
  rw [C132_thresholds h]
  unfold computeConfidentJoint
  rw [if_neg (by simp), if_neg (by simp)]
  have := raw_repeat h labels P (getConfidentThresholds labels P) a b (by
    rcases hab with hab | ⟨i, rfl⟩
    · exact Or.inl hab
    · exact Or.inr (hc i))
  exact_mod_cast this

theorem calibrated_repeat (h : Repeats m σ) (labels : Fin n → Fin K) (P : Fin n → Fin K → ℚ)
    (hc : EveryClassCounted labels P) (a b : Fin K) :
    calibrateTotal (fun a b => (confidentJointRaw (fun j => labels (σ j)) (fun j => P (σ j))
        (getConfidentThresholds labels P) a b : ℚ)) (fun j => labels (σ j)) a b =
      m * calibrateTotal (fun a b => (confidentJointRaw labels P (getConfidentThresholds labels P) a b : ℚ)) labels a b := by
  have hm : (m : ℚ) ≠ 0 := by exact_mod_cast h.1.ne'
  rw [calibrateTotal_eq _ _ (fun a => Or.inl (raw_row_tiny _ _ _ a)),
    calibrateTotal_eq _ _ (fun a => Or.inl (raw_row_tiny _ _ _ a))]
  unfold calibrateRows
  rw [labelCounts_eq, labelCounts_eq, numGiven_repeat h]
  by_cases h0 : numGiven labels a = 0
  · simp [h0]
  have hex : ∃ i, labels i = a := by
    obtain ⟨i, hi⟩ := Finset.card_pos.mp (Nat.pos_of_ne_zero h0)
    exact ⟨i, (Finset.mem_filter.mp hi).2⟩
  have hr : ∀ b, (confidentJointRaw (fun j => labels (σ j)) (fun j => P (σ j)) (getConfidentThresholds labels P) a b : ℚ) =
      m * confidentJointRaw labels P (getConfidentThresholds labels P) a b := by
    intro b
    have := raw_repeat h labels P (getConfidentThresholds labels P) a b (by
      obtain ⟨i, rfl⟩ := hex
      exact Or.inr (hc i))
    rw [this, Nat.cast_mul]
  have hs := raw_row_tiny labels P (getConfidentThresholds labels P) a
  have hs' := raw_row_tiny (fun j => labels (σ j)) (fun j => P (σ j)) (getConfidentThresholds labels P) a
  have e1 := max_eq_left hs
  have e2 := max_eq_left hs'
  unfold clipTiny
  rw [e1, e2]
  simp only [hr]
  rw [← Finset.mul_sum, mul_div_mul_left _ _ hm, Nat.cast_mul]
  ring

/-- **C132 (partial).** The calibrated confident joint is multiplied by the number of copies and the estimated joint
distribution stays the same when every class is counted and no count has to be rounded. -/
theorem C132_joint_partial (h : Repeats m σ) (A A' : ArgSort ℚ) (labels : Fin n → Fin K) (P : Fin n → Fin K → ℚ)
    (hc : EveryClassCounted labels P) (C : Fin K → Fin K → ℤ)
    (hC : ∀ a b, calibrateTotal (fun a b => (confidentJointRaw labels P (getConfidentThresholds labels P) a b : ℚ)) labels a b
      = C a b) :
    computeConfidentJoint A labels P (getConfidentThresholds labels P) true = C ∧
    computeConfidentJoint A' (fun j => labels (σ j)) (fun j => P (σ j))
      (getConfidentThresholds (fun j => labels (σ j)) (fun j => P (σ j))) true = fun a b => m * C a b := by
  constructor
  · funext a b
    unfold computeConfidentJoint calibrateConfidentJoint
    rw [if_pos rfl]
    exact roundRows_intCast A _ a b _ (hC a b)
  · funext a b
    unfold computeConfidentJoint calibrateConfidentJoint
    rw [if_pos rfl, C132_thresholds h]
    refine roundRows_intCast A' _ a b _ ?_
    rw [calibrated_repeat h labels P hc, hC]
    push_cast
    ring

/-- **C132 (partial).** The same for the estimated joint distribution. -/
theorem C132_estimate_partial (h : Repeats m σ) (A A' : ArgSort ℚ) (labels : Fin n → Fin K) (P : Fin n → Fin K → ℚ)
    (hn : 0 < n) (hc : EveryClassCounted labels P) (C : Fin K → Fin K → ℤ)
    (hC : ∀ a b, calibrateTotal (fun a b => (confidentJointRaw labels P (getConfidentThresholds labels P) a b : ℚ)) labels a b
      = C a b) :
    estimateJoint A' (fun j => labels (σ j)) (fun j => P (σ j)) = estimateJoint A labels P := by
  obtain ⟨h1, h2⟩ := C132_joint_partial h A A' labels P hc C hC
  have hm : (m : ℚ) ≠ 0 := by exact_mod_cast h.1.ne'
  have htot : ∑ a, ∑ b, C a b = (n : ℤ) := by
    have hs := fun a => (calibrate_spec A (fun a b => (confidentJointRaw labels P (getConfidentThresholds labels P) a b : ℚ))
      labels (fun a => Or.inl (raw_row_tiny _ _ _ a)) (fun a b => by positivity) a).1
    unfold computeConfidentJoint at h1
    rw [if_pos rfl] at h1
    rw [h1] at hs
    rw [Finset.sum_congr rfl (fun a _ => hs a), ← Nat.cast_sum, sum_numGiven]
  funext a b
  unfold estimateJoint
  dsimp only
  rw [h1, h2]
  have ht' : (∑ a, ∑ b, (m : ℤ) * C a b) = m * n := by
    simp only [← Finset.mul_sum]
    rw [htot]
  rw [ht', htot]
  have hn1 : (1 : ℚ) ≤ n := by exact_mod_cast hn
  have hm1 : (1 : ℚ) ≤ m := by exact_mod_cast h.1
  have hmn : (1 : ℚ) ≤ m * n := by nlinarith
  push_cast
  rw [clipTiny_of_one_le hn1, clipTiny_of_one_le hmn, mul_div_mul_left _ _ hm]

end

/-! ### Where repeating matters -/

/-- Three examples of class 0: one sure, one predicted to be of class 1, one of which the model is not sure; one of class
1. -/
def halfLabels : Fin 4 → Fin 2 := ![0, 0, 0, 1]

def halfProbs : Fin 4 → Fin 2 → ℚ := ![![9 / 10, 1 / 10], ![1 / 5, 4 / 5], ![2 / 5, 3 / 5], ![1 / 5, 4 / 5]]

/-- The data twice. -/
def twice : Fin 8 → Fin 4 := ![0, 1, 2, 3, 0, 1, 2, 3]

theorem twice_repeats : Repeats 2 twice := by unfold Repeats twice; decide +kernel

theorem half_raw : (fun a b => confidentJointRaw halfLabels halfProbs (getConfidentThresholds halfLabels halfProbs) a b) =
    ![![1, 1], ![0, 1]] := by
  have ht : getConfidentThresholds halfLabels halfProbs = ![1 / 2, 4 / 5] := by
    funext k; revert k; decide +kernel
  rw [ht]
  funext a b; revert a b; decide +kernel

theorem half_counted : EveryClassCounted halfLabels halfProbs := by
  have ht : getConfidentThresholds halfLabels halfProbs = ![1 / 2, 4 / 5] := by
    funext k; revert k; decide +kernel
  unfold EveryClassCounted
  rw [ht]
  decide +kernel

theorem half_joint (A : ArgSort ℚ) :
    (computeConfidentJoint A halfLabels halfProbs (getConfidentThresholds halfLabels halfProbs) true 0 0 = 1 ∨
      computeConfidentJoint A halfLabels halfProbs (getConfidentThresholds halfLabels halfProbs) true 0 0 = 2) ∧
    computeConfidentJoint A (fun j => halfLabels (twice j)) (fun j => halfProbs (twice j))
      (getConfidentThresholds (fun j => halfLabels (twice j)) (fun j => halfProbs (twice j))) true = ![![3, 3], ![0, 2]] := by
  have hraw := half_raw
  have hrawQ : (fun a b => (confidentJointRaw halfLabels halfProbs (getConfidentThresholds halfLabels halfProbs) a b : ℚ)) =
      ![![1, 1], ![0, 1]] := by
    funext a b
    have := congrFun (congrFun hraw a) b
    rw [this]
    revert a b
    decide +kernel
  have hcal : ∀ a b, calibrateTotal (![![1, 1], ![0, 1]] : Fin 2 → Fin 2 → ℚ) halfLabels a b =
      (![![3 / 2, 3 / 2], ![0, 1]] : Fin 2 → Fin 2 → ℚ) a b := by decide +kernel
  constructor
  · unfold computeConfidentJoint calibrateConfidentJoint
    rw [if_pos rfl, hrawQ]
    have h := (roundRows_spec A (calibrateTotal ![![1, 1], ![0, 1]] halfLabels) 0).2 0
    rw [hcal 0 0] at h
    have hr : rint ((![![3 / 2, 3 / 2], ![0, 1]] : Fin 2 → Fin 2 → ℚ) 0 0) = 2 := by decide +kernel
    rw [hr] at h
    rcases h with h | ⟨_, h⟩ | ⟨h, _⟩
    · exact Or.inr h
    · exfalso; revert h; decide +kernel
    · exact Or.inl h
  · funext a b
    unfold computeConfidentJoint calibrateConfidentJoint
    rw [if_pos rfl, C132_thresholds twice_repeats]
    refine roundRows_intCast A _ a b _ ?_
    rw [calibrated_repeat twice_repeats halfLabels halfProbs half_counted, hrawQ, hcal]
    revert a b
    decide +kernel

/-- **C132 fails for the estimated joint distribution.** One of the three examples of class 0 is left out of the count, the
other two are divided evenly; three examples cannot be, six can. -/
theorem C132_not_joint (A A' : ArgSort ℚ) :
    estimateJoint A' (fun j => halfLabels (twice j)) (fun j => halfProbs (twice j)) 0 0 = 3 / 8 ∧
    (estimateJoint A halfLabels halfProbs 0 0 = 1 / 4 ∨ estimateJoint A halfLabels halfProbs 0 0 = 1 / 2) := by
  constructor
  · unfold estimateJoint
    dsimp only
    rw [(half_joint A').2]
    decide +kernel
  · have hs := fun a => (calibrate_spec A (fun a b => (confidentJointRaw halfLabels halfProbs
      (getConfidentThresholds halfLabels halfProbs) a b : ℚ)) halfLabels (fun a => Or.inl (raw_row_tiny _ _ _ a))
      (fun a b => by positivity) a).1
    have htot : ∑ a, ∑ b, computeConfidentJoint A halfLabels halfProbs (getConfidentThresholds halfLabels halfProbs) true a b
        = 4 := by
      unfold computeConfidentJoint
      rw [if_pos rfl, Finset.sum_congr rfl (fun a _ => hs a), ← Nat.cast_sum, sum_numGiven]
      rfl
    have hc : clipTiny ((4 : ℤ) : ℚ) = 4 := by decide +kernel
    unfold estimateJoint
    dsimp only
    rw [htot, hc]
    rcases (half_joint A).1 with h | h <;> rw [h]
    · exact Or.inl (by norm_num)
    · exact Or.inr (by norm_num)

theorem maskByClass_order (A : ArgSort ℚ) (labels : Fin n → Fin K) (P : Fin n → Fin K → ℚ) (minN : ℕ)
    (pcm : Fin K → Fin K → ℤ) (i i' : Fin n) (hl : labels i' = labels i) (hp : P i' (labels i) < P i (labels i))
    (h : maskByClass A labels P minN pcm i = true) : maskByClass A labels P minN pcm i' = true := by
  obtain ⟨r, hr⟩ := exists_get labels i
  obtain ⟨r', hr'⟩ := exists_get_of labels i' (labels i) hl
  generalize hk : labels i = k at *
  by_cases hlen : (classIdx labels k).length > 1
  swap
  · unfold maskByClass at h
    rw [combineMasks_short labels _ i (hk ▸ hlen)] at h
    cases h
  subst hr hr'
  unfold maskByClass at h ⊢
  rw [combineMasks_get labels _ k _ hlen] at h ⊢
  unfold pruneByClass at h ⊢
  by_cases h1 : (classIdx labels k).length > minN
  swap
  · rw [if_neg h1] at h; cases h
  rw [if_pos h1] at h ⊢
  dsimp only at h ⊢
  by_cases h2 : ((classIdx labels k).length : ℤ) - pcm k k ≥ 1
  swap
  · rw [if_neg h2] at h; cases h
  rw [if_pos h2] at h ⊢
  rw [decide_eq_true_eq] at h ⊢
  by_contra hn
  exact absurd (take_indices_le A _ _ r r' h hn) (not_le.mpr hp)

/-- **C132 fails for the flags.** With `prune_by_class` three of the six copies in class 0 are flagged: of two copies of one
example one is flagged and the other is not. -/
theorem C132_not_copies (A : ArgSort ℚ) : ∃ mask : Fin 8 → Bool,
    findLabelIssues A (fun j => halfLabels (twice j)) (fun j => halfProbs (twice j)) { filterBy := .pruneByClass } = .ok mask ∧
    mask 2 ≠ mask 6 ∧ twice 2 = twice 6 := by
  have hj := (half_joint A).2
  have hpcm : keepAtLeastN A (fun j k => ((![![3, 3], ![0, 2]] : Fin 2 → Fin 2 → ℤ) k j : ℚ)) 1 1 = ![![3, 0], ![3, 2]] := by
    funext j k
    rw [keepAtLeastN_eq]
    revert j k
    decide +kernel
  have hraw : rawMask A (fun j => halfLabels (twice j)) (fun j => halfProbs (twice j)) { filterBy := .pruneByClass } =
      .ok (maskByClass A (fun j => halfLabels (twice j)) (fun j => halfProbs (twice j)) 1 ![![3, 0], ![3, 2]]) := by
    unfold rawMask Filter.usedJoint
    dsimp only
    rw [pruneCountMatrix_none, hj, hpcm]
    rfl
  refine ⟨_, findLabelIssues_of_raw A _ _ _ ⟨by simp, by simp⟩ (Or.inl rfl) _ hraw, ?_, rfl⟩
  have hcount := numFlagged_maskByClass A (fun j => halfLabels (twice j)) (fun j => halfProbs (twice j)) 1
    ![![3, 0], ![3, 2]] 0
  have hord := maskByClass_order A (fun j => halfLabels (twice j)) (fun j => halfProbs (twice j)) 1 ![![3, 0], ![3, 2]]
  have hr2 : reduceIssues (fun j => halfLabels (twice j)) (fun j => halfProbs (twice j)) 2 = false := by decide +kernel
  have hr6 : reduceIssues (fun j => halfLabels (twice j)) (fun j => halfProbs (twice j)) 6 = false := by decide +kernel
  rw [hr2, hr6]
  have hg : numGiven (fun j => halfLabels (twice j)) 0 = 6 := by decide +kernel
  rw [hg] at hcount
  generalize maskByClass A (fun j => halfLabels (twice j)) (fun j => halfProbs (twice j)) 1 ![![3, 0], ![3, 2]] = f at *
  have h02 := hord 0 2 (by decide +kernel) (by decide +kernel)
  have h06 := hord 0 6 (by decide +kernel) (by decide +kernel)
  have h01 := hord 0 1 (by decide +kernel) (by decide +kernel)
  have h42 := hord 4 2 (by decide +kernel) (by decide +kernel)
  have h46 := hord 4 6 (by decide +kernel) (by decide +kernel)
  have h41 := hord 4 1 (by decide +kernel) (by decide +kernel)
  have h45 := hord 4 5 (by decide +kernel) (by decide +kernel)
  have h05 := hord 0 5 (by decide +kernel) (by decide +kernel)
  have h21 := hord 2 1 (by decide +kernel) (by decide +kernel)
  have h25 := hord 2 5 (by decide +kernel) (by decide +kernel)
  have h61 := hord 6 1 (by decide +kernel) (by decide +kernel)
  have h65 := hord 6 5 (by decide +kernel) (by decide +kernel)
  clear hord
  unfold numFlagged at hcount
  rw [Finset.card_filter, Fin.sum_univ_eight] at hcount
  have hl : halfLabels (twice 0) = 0 ∧ halfLabels (twice 1) = 0 ∧ halfLabels (twice 2) = 0 ∧ halfLabels (twice 3) ≠ 0 ∧
      halfLabels (twice 4) = 0 ∧ halfLabels (twice 5) = 0 ∧ halfLabels (twice 6) = 0 ∧ halfLabels (twice 7) ≠ 0 := by
    decide +kernel
  obtain ⟨l0, l1, l2, l3, l4, l5, l6, l7⟩ := hl
  simp only [l0, l1, l2, l3, l4, l5, l6, l7, true_and, false_and, if_false] at hcount
  revert h02 h06 h01 h42 h46 h41 h45 h05 h21 h25 h61 h65 hcount
  generalize f 0 = f0
  generalize f 1 = f1
  generalize f 2 = f2
  generalize f 4 = f4
  generalize f 5 = f5
  generalize f 6 = f6
  revert f0 f1 f2 f4 f5 f6
  decide +kernel

/-- In data every count of which is a whole number repeating changes nothing. -/
example : EveryClassCounted (![0, 1, 1] : Fin 3 → Fin 2) ![![9 / 10, 1 / 10], ![1 / 10, 9 / 10], ![1 / 10, 9 / 10]] ∧
    ∀ a b, calibrateTotal (fun a b => (confidentJointRaw (![0, 1, 1] : Fin 3 → Fin 2)
      ![![9 / 10, 1 / 10], ![1 / 10, 9 / 10], ![1 / 10, 9 / 10]] (getConfidentThresholds (![0, 1, 1] : Fin 3 → Fin 2)
        ![![9 / 10, 1 / 10], ![1 / 10, 9 / 10], ![1 / 10, 9 / 10]]) a b : ℚ)) ![0, 1, 1] a b =
      ((![![1, 0], ![0, 2]] : Fin 2 → Fin 2 → ℤ) a b : ℚ) := by
  have ht : getConfidentThresholds (![0, 1, 1] : Fin 3 → Fin 2)
      ![![9 / 10, 1 / 10], ![1 / 10, 9 / 10], ![1 / 10, 9 / 10]] = ![9 / 10, 9 / 10] := by
    funext k; revert k; decide +kernel
  constructor
  · unfold EveryClassCounted
    rw [ht]
    decide +kernel
  · rw [ht]
    have hr : (fun a b => (confidentJointRaw (![0, 1, 1] : Fin 3 → Fin 2)
        ![![9 / 10, 1 / 10], ![1 / 10, 9 / 10], ![1 / 10, 9 / 10]] ![9 / 10, 9 / 10] a b : ℚ)) = ![![1, 0], ![0, 2]] := by
      funext a b; revert a b; decide +kernel
    rw [hr]
    decide +kernel

end Cleanlab.Props
