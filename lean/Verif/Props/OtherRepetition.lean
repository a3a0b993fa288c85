import Verif.Props.AnnotatorRepetition
import Verif.Props.OodNumbering
import Verif.Props.MoreExamples

/-!
# C246: repeating the data does not matter to out-of-distribution scores of predictions and to the class imbalance check
-/

namespace Cleanlab.Props

open Np Cleanlab.Count Cleanlab.Rank Cleanlab.Spec Cleanlab.Outlier Cleanlab.Checks

variable {n N K t : ℕ}

/-! ### Out-of-distribution scores -/

theorem realThresholds_repeat {σ : Fin N → Fin n} (h : Repeats t σ) (labels : Fin n → Fin K) (P : Fin n → Fin K → ℝ) :
    realThresholds (fun j => labels (σ j)) (fun j => P (σ j)) = realThresholds labels P := by
  funext k
  have ht : (t : ℝ) ≠ 0 := by exact_mod_cast h.1.ne'
  have hs : (∑ j with labels (σ j) = k, P (σ j) k) = t * ∑ i with labels i = k, P i k := by
    rw [Finset.sum_filter, Finset.sum_filter, h.sum (fun i => if labels i = k then P i k else 0), nsmul_eq_mul]
  rw [realThresholds_eq_sum, realThresholds_eq_sum, h.card (fun i => labels i = k), hs, Nat.cast_mul,
    mul_div_mul_left _ _ ht]
  simp only [Nat.mul_eq_zero, h.1.ne', false_or]

theorem checkReal_repeat {σ : Fin N → Fin n} (h : Repeats t σ) (labels : Fin n → Fin K) (P : Fin n → Fin K → ℝ) :
    checkReal false (fun j => labels (σ j)) (fun j => P (σ j)) = checkReal false labels P := by
  have h0 : N = 0 ↔ n = 0 := by rw [h.total]; simp [h.1.ne']
  have h1 : (∀ i j, labels (σ i) = labels (σ j)) ↔ ∀ i j, labels i = labels j :=
    ⟨fun hs i j => by obtain ⟨a, rfl⟩ := h.surj i; obtain ⟨b, rfl⟩ := h.surj j; exact hs a b, fun hs _ _ => hs _ _⟩
  have h2 : (∃ j k, P (σ j) k < -(1 / 10 ^ 6) ∨ P (σ j) k > 1 + 1 / 10 ^ 6) ↔
      ∃ i k, P i k < -(1 / 10 ^ 6) ∨ P i k > 1 + 1 / 10 ^ 6 :=
    ⟨fun ⟨j, k, hs⟩ => ⟨σ j, k, hs⟩, fun ⟨i, k, hs⟩ => by obtain ⟨j, rfl⟩ := h.surj i; exact ⟨j, k, hs⟩⟩
  unfold checkReal
  exact if_congr h0 rfl (if_congr (and_congr Iff.rfl h1) rfl (if_congr h2 rfl rfl))

theorem normalizedEntropy_repeat {σ : Fin N → Fin n} (h : Repeats t σ) (P : Fin n → Fin K → ℝ) :
    normalizedEntropy (fun j => P (σ j)) = (normalizedEntropy P).map (fun s j => s (σ j)) := by
  have hiff : (∃ j k, P (σ j) k < 0 ∨ P (σ j) k > 1) ↔ ∃ i k, P i k < 0 ∨ P i k > 1 :=
    ⟨fun ⟨j, k, hs⟩ => ⟨σ j, k, hs⟩, fun ⟨i, k, hs⟩ => by obtain ⟨j, rfl⟩ := h.surj i; exact ⟨j, k, hs⟩⟩
  unfold normalizedEntropy
  by_cases h1 : ∃ i k, P i k < 0 ∨ P i k > 1
  · rw [if_pos (hiff.mpr h1), if_pos h1]; rfl
  · rw [if_neg (fun h => h1 (hiff.mp h)), if_neg h1]
    by_cases h2 : K ≤ 1
    · rw [if_pos h2, if_pos h2]; rfl
    · rw [if_neg h2, if_neg h2]; rfl

/-- **C246.** Every copy of an example gets the out-of-distribution score of the example, for every method and setting, and the
stored thresholds are the same; the repeated data are refused exactly if the data are. -/
theorem C246_scores [NeZero K] (A : ArgSort ℝ) (method : OodMethod) (adjust : Bool) (M : ℕ) (gamma : ℝ)
    {σ : Fin N → Fin n} (h : Repeats t σ) (labels : Option (Fin n → Fin K)) (thresholds : Option (Fin K → ℝ))
    (P : Fin n → Fin K → ℝ) :
    oodPredictionScores A method adjust M gamma (labels.map (fun l j => l (σ j))) thresholds (fun j => P (σ j)) =
      (oodPredictionScores A method adjust M gamma labels thresholds P).map (fun r => (fun j => r.1 (σ j), r.2)) := by
  have main : ∀ (Q : Fin n → Fin K → ℝ) (thr : Option (Fin K → ℝ)),
      (match method with
        | .entropy => do
          let s ← normalizedEntropy (fun j => Q (σ j))
          return (fun i => 1 - s i, thr)
        | .leastConfidence => return (fun j => Q (σ j) (argmax (Q (σ j))), thr)
        | .gen => if M = 0 then Except.error "division by zero"
          else return (fun j => genScore A M gamma (Q (σ j)), thr) :
        Except String ((Fin N → ℝ) × Option (Fin K → ℝ))) =
      (match method with
        | .entropy => do
          let s ← normalizedEntropy Q
          return (fun i => 1 - s i, thr)
        | .leastConfidence => return (fun i => Q i (argmax (Q i)), thr)
        | .gen => if M = 0 then Except.error "division by zero"
          else return (fun i => genScore A M gamma (Q i), thr) :
        Except String ((Fin n → ℝ) × Option (Fin K → ℝ))).map (fun r => (fun j => r.1 (σ j), r.2)) := by
    intro Q thr
    cases method with
    | entropy =>
      dsimp only
      rw [normalizedEntropy_repeat h]
      cases normalizedEntropy Q <;> rfl
    | leastConfidence => rfl
    | gen =>
      dsimp only
      by_cases hM : M = 0
      · rw [if_pos hM, if_pos hM]; rfl
      · rw [if_neg hM, if_neg hM]; rfl
  unfold oodPredictionScores
  cases adjust with
  | false =>
    have := main P thresholds
    cases method <;> exact this
  | true =>
    cases thresholds with
    | some thr =>
      have := main (subtractConfidentThresholds P thr) (some thr)
      cases method <;> exact this
    | none =>
      cases labels with
      | none => rfl
      | some l =>
        simp only [Option.map_some, if_true, checkReal_repeat h, realThresholds_repeat h]
        cases checkReal false l P with
        | error m => rfl
        | ok u =>
          have := main (subtractConfidentThresholds P (realThresholds l P)) (some (realThresholds l P))
          cases method <;> exact this

/-- Two predictions, each twice. -/
example (A : ArgSort ℝ) : (oodPredictionScores A .leastConfidence false 100 (1 / 10) none none
    (fun j => (![![1, 0], ![0, 1]] : Fin 2 → Fin 2 → ℝ) ((![0, 1, 1, 0] : Fin 4 → Fin 2) j))).isOk = true := by
  have h := C246_scores A .leastConfidence false 100 (1 / 10) (σ := (![0, 1, 1, 0] : Fin 4 → Fin 2)) (t := 2)
    (by unfold Repeats; decide +kernel) none none ![![1, 0], ![0, 1]]
  dsimp only [Option.map] at h
  rw [h]
  rfl

/-! ### Class imbalance -/

/-- **C246.** The class imbalance check names the same class as the rarest, with the same share, and gives every copy of an
example its flag and its score; it fails for the repeated data exactly if it fails for the data. -/
theorem C246_imbalance {σ : Fin N → Fin n} (h : Repeats t σ) (labels : Fin n → ℕ) (K : ℕ) (threshold : ℚ) :
    match imbalanceFindIssues (List.ofFn labels) K threshold,
      imbalanceFindIssues (List.ofFn (fun j => labels (σ j))) K threshold with
    | .ok r, .ok r' => r'.rarest = r.rarest ∧ r'.summary = r.summary ∧
        ∀ j : Fin N, r'.isIssue[(j : ℕ)]? = r.isIssue[(σ j : ℕ)]? ∧ r'.scores[(j : ℕ)]? = r.scores[(σ j : ℕ)]?
    | .error e, .error e' => e = e'
    | _, _ => False := by
  have hperm : (List.ofFn (fun j => labels (σ j))).Perm (List.replicate t (List.ofFn labels)).flatten := by
    have h1 := (map_repeat_perm h).map labels
    rwa [List.map_map, List.map_flatten, List.map_replicate, ← List.ofFn_eq_map, ← List.ofFn_eq_map] at h1
  have hcount : ∀ c, (List.ofFn (fun j => labels (σ j))).count c = t * (List.ofFn labels).count c := fun c => by
    rw [hperm.count_eq, List.count_flatten, List.map_replicate, List.sum_replicate, smul_eq_mul]
  have hprob : (fun c => ((List.ofFn (fun j => labels (σ j))).count c : ℚ) / (List.ofFn (fun j => labels (σ j))).length) =
      fun c => ((List.ofFn labels).count c : ℚ) / (List.ofFn labels).length := by
    funext c
    have hl : (List.ofFn (fun j => labels (σ j))).length = t * (List.ofFn labels).length := by
      rw [List.length_ofFn, List.length_ofFn, h.total]
    rw [hcount, hl, ratio_repeat h.1]
  have hmem : ∀ c, c ∈ List.ofFn (fun j => labels (σ j)) ↔ c ∈ List.ofFn labels := by
    intro c
    rw [List.mem_ofFn, List.mem_ofFn]
    exact ⟨fun ⟨j, hj⟩ => ⟨σ j, hj⟩, fun ⟨i, hi⟩ => by obtain ⟨j, rfl⟩ := h.surj i; exact ⟨j, hi⟩⟩
  have hmax : (List.ofFn (fun j => labels (σ j))).max? = (List.ofFn labels).max? := by
    cases hm : (List.ofFn labels).max? with
    | none =>
      rw [List.max?_eq_none_iff] at hm ⊢
      exact List.eq_nil_iff_forall_not_mem.mpr (fun c hc => by rw [hmem, hm] at hc; cases hc)
    | some m =>
      rw [List.max?_eq_some_iff] at hm ⊢
      exact ⟨(hmem m).mpr hm.1, fun c hc => hm.2 c ((hmem c).mp hc)⟩
  have hbins : bins (List.ofFn (fun j => labels (σ j))) = bins (List.ofFn labels) := by
    unfold bins
    rw [hmax]
  have hp : ∀ c, ((List.ofFn (fun j => labels (σ j))).count c : ℚ) / (List.ofFn (fun j => labels (σ j))).length =
    ((List.ofFn labels).count c : ℚ) / (List.ofFn labels).length := fun c => congrFun hprob c
  have harg : (bins (List.ofFn (fun j => labels (σ j)))).argmin
      (fun c => ((List.ofFn (fun j => labels (σ j))).count c : ℚ) / (List.ofFn (fun j => labels (σ j))).length) =
      (bins (List.ofFn labels)).argmin (fun c => ((List.ofFn labels).count c : ℚ) / (List.ofFn labels).length) := by
    rw [hprob, hbins]
  cases ha : (bins (List.ofFn labels)).argmin (fun c => ((List.ofFn labels).count c : ℚ) / (List.ofFn labels).length) with
  | none =>
    rw [ha] at harg
    have e1 : imbalanceFindIssues (List.ofFn labels) K threshold =
        .error "attempt to get argmin of an empty sequence" := by
      unfold imbalanceFindIssues; dsimp only; rw [ha]
    have e2 : imbalanceFindIssues (List.ofFn (fun j => labels (σ j))) K threshold =
        .error "attempt to get argmin of an empty sequence" := by
      unfold imbalanceFindIssues; dsimp only; rw [harg]
    rw [e1, e2]
  | some rare =>
    rw [ha] at harg
    obtain ⟨f, g, s, hfg⟩ : ∃ (f : ℕ → Bool) (g : ℕ → ℚ) (s : ℚ),
        imbalanceFindIssues (List.ofFn labels) K threshold =
          .ok ⟨(List.ofFn labels).map f, (List.ofFn labels).map g, s, rare⟩ ∧
        imbalanceFindIssues (List.ofFn (fun j => labels (σ j))) K threshold =
          .ok ⟨(List.ofFn (fun j => labels (σ j))).map f, (List.ofFn (fun j => labels (σ j))).map g, s, rare⟩ := by
      refine ⟨fun l => decide ((l : ℤ) = if decide (((List.ofFn labels).count rare : ℚ) / (List.ofFn labels).length <
          threshold * (1 / K)) = true then (rare : ℤ) else -1),
        fun l => if l = rare then ((List.ofFn labels).count rare : ℚ) / (List.ofFn labels).length else 1,
        ((List.ofFn labels).count rare : ℚ) / (List.ofFn labels).length, ?_, ?_⟩
      · unfold imbalanceFindIssues; dsimp only; rw [ha]
      · unfold imbalanceFindIssues; dsimp only; rw [harg]; simp only [hp]
    rw [hfg.1, hfg.2]
    refine ⟨rfl, rfl, fun j => ⟨?_, ?_⟩⟩
    · simp
    · simp

/-- Four examples, each twice: class 1 is the rarest. -/
example : (imbalanceFindIssues (List.ofFn (fun j : Fin 8 => (![0, 0, 1, 0] : Fin 4 → ℕ) (![0, 1, 2, 3, 0, 1, 2, 3] j))) 2
    (3 / 5)).toOption.map (fun r => (r.rarest, r.isIssue, r.summary)) =
      some (1, [false, false, true, false, false, false, true, false], 1 / 4) := by
  decide +kernel

end Cleanlab.Props
