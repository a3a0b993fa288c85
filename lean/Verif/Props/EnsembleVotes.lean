import Verif.Props.Rank
import Mathlib.Tactic.FinCases

/-!
# C206, C207: what the members of an ensemble agree on, and what one better member changes
-/

namespace Cleanlab.Props

open Np Cleanlab.Count Cleanlab.Rank Cleanlab.Spec

variable {n K M : ℕ}

/-- The weights that custom weighting is meant for. -/
def Sensible : Weighting M → Prop
  | .custom w => (∀ m, 0 ≤ w m) ∧ ∃ m, 0 < w m
  | _ => True

theorem search_weights (logLoss : (Fin n → Fin K) → (Fin n → Fin K → ℝ) → ℝ) (labels : Fin n → Fin K)
    (Ps : Fin M → Fin n → Fin K → ℝ) (hM : 0 < M) (ts : List ℝ) :
    ∀ (s : Option (ℝ × (Fin M → ℝ))), (∀ b w, s = some (b, w) → (∀ m, 0 ≤ w m) ∧ ∑ m, w m = 1) →
      ∀ b w, ts.foldl (searchStep logLoss labels Ps) s = some (b, w) → (∀ m, 0 ≤ w m) ∧ ∑ m, w m = 1 := by
  induction ts with
  | nil => intro s hs b w h; exact hs b w h
  | cons t ts ih =>
    intro s hs b w h
    rw [List.foldl_cons] at h
    refine ih _ ?_ b w h
    intro b w hbw
    have hw := temperatureWeights_spec logLoss labels Ps hM t
    unfold searchStep at hbw
    cases s with
    | none =>
      simp only [Option.some.injEq, Prod.mk.injEq] at hbw
      rw [← hbw.2]; exact hw
    | some p =>
      simp only at hbw
      split_ifs at hbw
      · simp only [Option.some.injEq, Prod.mk.injEq] at hbw
        rw [← hbw.2]; exact hw
      · exact hs b w hbw

/-- The scores of an ensemble are the scores of its members with non-negative weights, not all of them 0. -/
theorem ensemble_weights [NeZero K] (logLoss : (Fin n → Fin K) → (Fin n → Fin K → ℝ) → ℝ)
    (score : (Fin n → Fin K → ℝ) → Fin n → ℝ) (labels : Fin n → Fin K) (Ps : Fin M → Fin n → Fin K → ℝ) (wt : Weighting M)
    (hwt : Sensible wt) (r : Fin n → ℝ) (h : ensembleScores logLoss score labels Ps wt = .ok r) :
    ∃ w : Fin M → ℝ, (∀ m, 0 ≤ w m) ∧ (∃ m, 0 < w m) ∧ ∀ i, r i = ∑ m, score (Ps m) i * w m := by
  have hpos : ∀ w : Fin M → ℝ, (∀ m, 0 ≤ w m) → ∑ m, w m = 1 → ∃ m, 0 < w m := by
    intro w h0 h1
    by_contra hne
    push Not at hne
    have : ∑ m, w m = 0 := Finset.sum_eq_zero (fun m _ => le_antisymm (hne m) (h0 m))
    linarith
  unfold ensembleScores at h
  by_cases hM : M = 0
  · rw [if_pos hM] at h; cases h
  have hM' : 0 < M := Nat.pos_of_ne_zero hM
  by_cases hc : ∃ m, checkReal false labels (Ps m) ≠ .ok ()
  · rw [if_neg hM, if_pos hc] at h; cases h
  rw [if_neg hM, if_neg hc] at h
  cases wt with
  | uniform =>
    have hMr : (0 : ℝ) < M := by exact_mod_cast hM'
    refine ⟨fun _ => 1 / M, fun _ => (one_div_pos.mpr hMr).le, ⟨⟨0, hM'⟩, one_div_pos.mpr hMr⟩, fun i => ?_⟩
    rw [← Except.ok.inj h, ← Finset.sum_mul, mul_one_div]
  | accuracy =>
    simp only at h
    have hnn : ∀ m, 0 ≤ accuracy labels (Ps m) := fun m => by unfold accuracy; positivity
    split_ifs at h with hz
    have hs : 0 ≤ ∑ m, accuracy labels (Ps m) := Finset.sum_nonneg (fun m _ => hnn m)
    have hw : ∀ m, 0 ≤ accuracy labels (Ps m) / ∑ m', accuracy labels (Ps m') := fun m => div_nonneg (hnn m) hs
    refine ⟨_, hw, hpos _ hw (by rw [← Finset.sum_div, div_self hz]), fun i => ?_⟩
    rw [← Except.ok.inj h]
  | logLossSearch ts =>
    simp only at h
    split_ifs at h with hcl
    split at h
    · cases h
    · rename_i b w hbw
      have hw := search_weights logLoss labels Ps hM' ts none (by simp) b w hbw
      exact ⟨w, hw.1, hpos w hw.1 hw.2, fun i => by rw [← Except.ok.inj h]⟩
  | custom w => exact ⟨w, hwt.1, hwt.2, fun i => by rw [← Except.ok.inj h]⟩

/-- **C206.** Whatever the score and the weighting: if no member of the ensemble rates example `i` higher than example
`j`, the ensemble does not either. -/
theorem C206_order [NeZero K] (logLoss : (Fin n → Fin K) → (Fin n → Fin K → ℝ) → ℝ)
    (score : (Fin n → Fin K → ℝ) → Fin n → ℝ) (labels : Fin n → Fin K) (Ps : Fin M → Fin n → Fin K → ℝ) (wt : Weighting M)
    (hwt : Sensible wt) (r : Fin n → ℝ) (h : ensembleScores logLoss score labels Ps wt = .ok r) (i j : Fin n)
    (hij : ∀ m, score (Ps m) i ≤ score (Ps m) j) : r i ≤ r j := by
  obtain ⟨w, hw, -, e⟩ := ensemble_weights logLoss score labels Ps wt hwt r h
  rw [e i, e j]
  exact Finset.sum_le_sum (fun m _ => mul_le_mul_of_nonneg_right (hij m) (hw m))

/-- **C206.** If all members rate `i` lower than `j`, so does the ensemble. -/
theorem C206_strict [NeZero K] (logLoss : (Fin n → Fin K) → (Fin n → Fin K → ℝ) → ℝ)
    (score : (Fin n → Fin K → ℝ) → Fin n → ℝ) (labels : Fin n → Fin K) (Ps : Fin M → Fin n → Fin K → ℝ) (wt : Weighting M)
    (hwt : Sensible wt) (r : Fin n → ℝ) (h : ensembleScores logLoss score labels Ps wt = .ok r) (i j : Fin n)
    (hij : ∀ m, score (Ps m) i < score (Ps m) j) : r i < r j := by
  obtain ⟨w, hw, ⟨m, hm⟩, e⟩ := ensemble_weights logLoss score labels Ps wt hwt r h
  rw [e i, e j]
  exact Finset.sum_lt_sum (fun m _ => mul_le_mul_of_nonneg_right (hij m).le (hw m))
    ⟨m, Finset.mem_univ _, mul_lt_mul_of_pos_right (hij m) hm⟩

/-- **C206.** Consequently an example that every member rates lowest is rated lowest by the ensemble, and comes first in
the ranking unless the ensemble rates others the same. -/
theorem C206_lowest [NeZero K] (logLoss : (Fin n → Fin K) → (Fin n → Fin K → ℝ) → ℝ)
    (score : (Fin n → Fin K → ℝ) → Fin n → ℝ) (labels : Fin n → Fin K) (Ps : Fin M → Fin n → Fin K → ℝ) (wt : Weighting M)
    (hwt : Sensible wt) (r : Fin n → ℝ) (h : ensembleScores logLoss score labels Ps wt = .ok r) (i : Fin n)
    (hi : ∀ m j, score (Ps m) i ≤ score (Ps m) j) : ∀ j, r i ≤ r j :=
  fun j => C206_order logLoss score labels Ps wt hwt r h i j (fun m => hi m j)

/-! ## C207 -/

/-- Two examples with the labels 0 and 1. -/
def twoLabels : Fin 2 → Fin 2 := ![0, 1]

/-- The first member predicts the first label with 9/10 and is wrong about the second. -/
noncomputable def firstMember : Fin 2 → Fin 2 → ℝ := ![![9 / 10, 1 / 10], ![9 / 10, 1 / 10]]

/-- The second member is wrong about the second label and gives the first one the probability `x`. -/
noncomputable def secondMember (x : ℝ) : Fin 2 → Fin 2 → ℝ := ![![x, 1 - x], ![9 / 10, 1 / 10]]

theorem accuracy_two (P : Fin 2 → Fin 2 → ℝ) (h2 : P 1 1 < P 1 0) :
    accuracy twoLabels P = if P 0 1 ≤ P 0 0 then 1 / 2 else 0 := by
  have e1 : argmax (P 1) ≠ 1 := by
    intro h
    have := ((argmax_eq_iff _ _).mp h).1 0
    linarith
  have e0 : argmax (P 0) = 0 ↔ P 0 1 ≤ P 0 0 := by
    rw [argmax_eq_iff]
    constructor
    · intro h; exact h.1 1
    · intro h
      refine ⟨fun i => ?_, fun i hi => absurd hi (by simp)⟩
      fin_cases i
      · exact le_rfl
      · exact h
  unfold accuracy twoLabels
  rw [List.finRange_succ_last]
  split_ifs with h
  · have := e0.mpr h
    simp [List.finRange_succ_last, this, e1]
  · have : argmax (P 0) ≠ 0 := fun e => h (e0.mp e)
    simp [List.finRange_succ_last, this, e1]

/-- **C207 is violated** by the default weights, those by accuracy: the second member raises the probability of the first
label from 2/5 to 3/5, and the score of the example falls from 9/10 to 3/4. -/
theorem C207_not_accuracy (logLoss : (Fin 2 → Fin 2) → (Fin 2 → Fin 2 → ℝ) → ℝ) :
    ∃ r r' : Fin 2 → ℝ,
      ensembleScores logLoss (selfConfidence twoLabels) twoLabels ![firstMember, secondMember (2 / 5)] .accuracy = .ok r ∧
      ensembleScores logLoss (selfConfidence twoLabels) twoLabels ![firstMember, secondMember (3 / 5)] .accuracy = .ok r' ∧
      selfConfidence twoLabels (secondMember (2 / 5)) 0 < selfConfidence twoLabels (secondMember (3 / 5)) 0 ∧
      r' 0 < r 0 := by
  have hacc : ∀ x : ℝ, 0 ≤ x → x ≤ 1 → ∀ m, Accepted twoLabels ((![firstMember, secondMember x] : Fin 2 → Fin 2 → Fin 2 → ℝ) m) := by
    intro x h0 h1 m
    refine ⟨⟨0, 1, by decide⟩, ?_⟩
    intro i k
    fin_cases m <;> fin_cases i <;> fin_cases k <;> simp [firstMember, secondMember] <;>
      constructor <;> linarith
  have e1 : accuracy twoLabels firstMember = 1 / 2 := by
    rw [accuracy_two _ (by norm_num [firstMember]), if_pos (by norm_num [firstMember])]
  have e2 : accuracy twoLabels (secondMember (2 / 5)) = 0 := by
    rw [accuracy_two _ (by norm_num [secondMember]), if_neg (by norm_num [secondMember])]
  have e3 : accuracy twoLabels (secondMember (3 / 5)) = 1 / 2 := by
    rw [accuracy_two _ (by norm_num [secondMember]), if_pos (by norm_num [secondMember])]
  refine ⟨fun i => selfConfidence twoLabels firstMember i, fun i => (selfConfidence twoLabels firstMember i + selfConfidence twoLabels (secondMember (3 / 5)) i) / 2, ?_, ?_, ?_, ?_⟩
  · unfold ensembleScores
    rw [if_neg (by norm_num), if_neg (not_checkReal _ _ (hacc _ (by norm_num) (by norm_num)))]
    simp only [Fin.sum_univ_two, Matrix.cons_val_zero, Matrix.cons_val_one, e1, e2]
    rw [if_neg (by norm_num)]
    congr 1
    funext i
    ring
  · unfold ensembleScores
    rw [if_neg (by norm_num), if_neg (not_checkReal _ _ (hacc _ (by norm_num) (by norm_num)))]
    simp only [Fin.sum_univ_two, Matrix.cons_val_zero, Matrix.cons_val_one, e1, e3]
    rw [if_neg (by norm_num)]
    congr 1
    funext i
    ring
  · norm_num [selfConfidence, secondMember, twoLabels]
  · norm_num [selfConfidence, firstMember, secondMember, twoLabels]

/-- Both members rate the second example lower, and so does the ensemble. -/
example (logLoss : (Fin 2 → Fin 2) → (Fin 2 → Fin 2 → ℝ) → ℝ) (r : Fin 2 → ℝ)
    (h : ensembleScores logLoss (selfConfidence twoLabels) twoLabels ![firstMember, secondMember (3 / 5)] .accuracy = .ok r) :
    r 1 < r 0 :=
  C206_strict logLoss _ _ _ .accuracy trivial r h 1 0 (by
    intro m
    fin_cases m <;> norm_num [selfConfidence, firstMember, secondMember, twoLabels])

/-- Weights that do not depend on the predictions. -/
def Fixed : Weighting M → Prop
  | .uniform => True
  | .custom w => ∀ m, 0 ≤ w m
  | _ => False

/-- The part of **C207** that holds: with uniform or custom weights, whatever the score, if no member rates an example
lower, the ensemble does not either. -/
theorem C207_fixed_partial [NeZero K] (logLoss : (Fin n → Fin K) → (Fin n → Fin K → ℝ) → ℝ)
    (score : (Fin n → Fin K → ℝ) → Fin n → ℝ) (labels : Fin n → Fin K) (Ps Qs : Fin M → Fin n → Fin K → ℝ)
    (wt : Weighting M) (hwt : Fixed wt) (r r' : Fin n → ℝ) (h : ensembleScores logLoss score labels Ps wt = .ok r)
    (h' : ensembleScores logLoss score labels Qs wt = .ok r') (i : Fin n)
    (hi : ∀ m, score (Ps m) i ≤ score (Qs m) i) : r i ≤ r' i := by
  unfold ensembleScores at h h'
  by_cases hM : M = 0
  · rw [if_pos hM] at h; cases h
  by_cases hc : ∃ m, checkReal false labels (Ps m) ≠ .ok ()
  · rw [if_neg hM, if_pos hc] at h; cases h
  by_cases hc' : ∃ m, checkReal false labels (Qs m) ≠ .ok ()
  · rw [if_neg hM, if_pos hc'] at h'; cases h'
  rw [if_neg hM, if_neg hc] at h
  rw [if_neg hM, if_neg hc'] at h'
  cases wt with
  | uniform =>
    rw [← Except.ok.inj h, ← Except.ok.inj h']
    exact div_le_div_of_nonneg_right (Finset.sum_le_sum (fun m _ => hi m)) (Nat.cast_nonneg _)
  | custom w =>
    rw [← Except.ok.inj h, ← Except.ok.inj h']
    exact Finset.sum_le_sum (fun m _ => mul_le_mul_of_nonneg_right (hi m) (hwt m))
  | accuracy => exact hwt.elim
  | logLossSearch ts => exact hwt.elim

/-- The part of **C207** that holds for weights by accuracy: the same if no member's accuracy changes. -/
theorem C207_accuracy_partial [NeZero K] (logLoss : (Fin n → Fin K) → (Fin n → Fin K → ℝ) → ℝ)
    (score : (Fin n → Fin K → ℝ) → Fin n → ℝ) (labels : Fin n → Fin K) (Ps Qs : Fin M → Fin n → Fin K → ℝ)
    (ha : ∀ m i, IsPrediction (Qs m i) (labels i) ↔ IsPrediction (Ps m i) (labels i)) (r r' : Fin n → ℝ)
    (h : ensembleScores logLoss score labels Ps .accuracy = .ok r)
    (h' : ensembleScores logLoss score labels Qs .accuracy = .ok r') (i : Fin n)
    (hi : ∀ m, score (Ps m) i ≤ score (Qs m) i) : r i ≤ r' i := by
  have e : ∀ m, accuracy labels (Qs m) = accuracy labels (Ps m) := by
    intro m
    unfold accuracy
    congr 2
    refine List.countP_congr (fun i _ => ?_)
    simp only [decide_eq_true_eq]
    exact ((argmax_eq_iff _ _).trans (ha m i)).trans (argmax_eq_iff _ _).symm
  unfold ensembleScores at h h'
  by_cases hM : M = 0
  · rw [if_pos hM] at h; cases h
  by_cases hc : ∃ m, checkReal false labels (Ps m) ≠ .ok ()
  · rw [if_neg hM, if_pos hc] at h; cases h
  by_cases hc' : ∃ m, checkReal false labels (Qs m) ≠ .ok ()
  · rw [if_neg hM, if_pos hc'] at h'; cases h'
  rw [if_neg hM, if_neg hc] at h
  rw [if_neg hM, if_neg hc'] at h'
  simp only [e] at h h'
  split_ifs at h h' with hz
  rw [← Except.ok.inj h, ← Except.ok.inj h']
  have hnn : ∀ m, 0 ≤ accuracy labels (Ps m) := fun m => by unfold accuracy; positivity
  exact Finset.sum_le_sum (fun m _ => mul_le_mul_of_nonneg_right (hi m)
    (div_nonneg (hnn m) (Finset.sum_nonneg (fun m _ => hnn m))))

end Cleanlab.Props
