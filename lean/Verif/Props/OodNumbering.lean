import Verif.Props.OutlierPred

/-!
# C232, C233: what the out-of-distribution scores of predictions do not depend on
-/

namespace Cleanlab.Props

open Np Cleanlab.Count Cleanlab.Rank Cleanlab.Spec Cleanlab.Outlier

variable {n K : ℕ}

/-- The predictions with the examples in the order `f` and class `k` numbered `e k`. -/
def renamedRows (f : Equiv.Perm (Fin n)) (e : Equiv.Perm (Fin K)) (P : Fin n → Fin K → ℝ) : Fin n → Fin K → ℝ :=
  fun i k => P (f i) (e.symm k)

/-- The labels with the examples in the order `f` and class `k` numbered `e k`. -/
def renamedLabels (f : Equiv.Perm (Fin n)) (e : Equiv.Perm (Fin K)) (labels : Fin n → Fin K) : Fin n → Fin K :=
  fun i => e (labels (f i))

theorem realThresholds_eq_sum (labels : Fin n → Fin K) (P : Fin n → Fin K → ℝ) (k : Fin K) :
    realThresholds labels P k = max (if (Finset.univ.filter (fun i => labels i = k)).card = 0 then 2
      else (∑ i with labels i = k, P i k) / ((Finset.univ.filter (fun i => labels i = k)).card : ℝ)) (2 / 1000000) := rfl

theorem realThresholds_renamed (f : Equiv.Perm (Fin n)) (e : Equiv.Perm (Fin K)) (labels : Fin n → Fin K)
    (P : Fin n → Fin K → ℝ) :
    realThresholds (renamedLabels f e labels) (renamedRows f e P) = fun k => realThresholds labels P (e.symm k) := by
  funext k
  have hmem : ∀ i, renamedLabels f e labels i = k ↔ labels (f i) = e.symm k := fun i => by
    unfold renamedLabels; exact (Equiv.eq_symm_apply e).symm
  have hcard : (Finset.univ.filter (fun i => renamedLabels f e labels i = k)).card =
      (Finset.univ.filter (fun i => labels i = e.symm k)).card :=
    Finset.card_bij (fun i _ => f i) (fun i hi => by simpa [hmem] using hi) (fun i _ j _ h => f.injective h)
      (fun j hj => ⟨f.symm j, by simpa [hmem] using hj, by simp⟩)
  have hsum : (∑ i with renamedLabels f e labels i = k, renamedRows f e P i k) =
      ∑ i with labels i = e.symm k, P i (e.symm k) :=
    Finset.sum_bij (fun i _ => f i) (fun i hi => by simpa [hmem] using hi) (fun i _ j _ h => f.injective h)
      (fun j hj => ⟨f.symm j, by simpa [hmem] using hj, by simp⟩) (fun i _ => rfl)
  rw [realThresholds_eq_sum, realThresholds_eq_sum, hcard, hsum]

theorem max_renamed [NeZero K] (e : Equiv.Perm (Fin K)) (t : Fin K → ℝ) :
    (fun k => t (e.symm k)) (argmax (fun k => t (e.symm k))) = t (argmax t) := by
  refine le_antisymm (le_argmax t _) ?_
  have := le_argmax (fun k => t (e.symm k)) (e (argmax t))
  simpa using this

theorem adjusted_renamed [NeZero K] (f : Equiv.Perm (Fin n)) (e : Equiv.Perm (Fin K)) (P : Fin n → Fin K → ℝ)
    (t : Fin K → ℝ) : subtractConfidentThresholds (renamedRows f e P) (fun k => t (e.symm k)) =
      renamedRows f e (subtractConfidentThresholds P t) := by
  funext i k
  have hm := max_renamed e t
  have hs : (∑ k', (renamedRows f e P i k' - t (e.symm k') + t (argmax t))) =
      ∑ k', (P (f i) k' - t k' + t (argmax t)) :=
    Equiv.sum_comp e.symm (fun k' => P (f i) k' - t k' + t (argmax t))
  unfold subtractConfidentThresholds
  dsimp only at hm ⊢
  rw [hm, hs]
  rfl

theorem rowEntropy_renamed (e : Equiv.Perm (Fin K)) (p : Fin K → ℝ) :
    rowEntropy (fun k => p (e.symm k)) = rowEntropy p := by
  unfold rowEntropy
  rw [Equiv.sum_comp e.symm (fun k => p k * Real.log (p k))]

theorem normalizedEntropy_renamed (f : Equiv.Perm (Fin n)) (e : Equiv.Perm (Fin K)) (P : Fin n → Fin K → ℝ) :
    normalizedEntropy (renamedRows f e P) = (normalizedEntropy P).map (fun s i => s (f i)) := by
  have hiff : (∃ i k, renamedRows f e P i k < 0 ∨ renamedRows f e P i k > 1) ↔ ∃ i k, P i k < 0 ∨ P i k > 1 :=
    ⟨fun ⟨i, k, h⟩ => ⟨f i, e.symm k, h⟩, fun ⟨i, k, h⟩ => ⟨f.symm i, e k, by simpa [renamedRows] using h⟩⟩
  unfold normalizedEntropy
  by_cases h1 : ∃ i k, P i k < 0 ∨ P i k > 1
  · rw [if_pos (hiff.mpr h1), if_pos h1]; rfl
  · rw [if_neg (fun h => h1 (hiff.mp h)), if_neg h1]
    by_cases h2 : K ≤ 1
    · rw [if_pos h2, if_pos h2]; rfl
    · rw [if_neg h2, if_neg h2]
      simp only [Except.map]
      congr 1
      funext i
      exact rowEntropy_renamed e (P (f i))

theorem checkReal_renamed (f : Equiv.Perm (Fin n)) (e : Equiv.Perm (Fin K)) (labels : Fin n → Fin K)
    (P : Fin n → Fin K → ℝ) :
    checkReal false (renamedLabels f e labels) (renamedRows f e P) = checkReal false labels P := by
  have h1 : (∀ i j, renamedLabels f e labels i = renamedLabels f e labels j) ↔ ∀ i j, labels i = labels j :=
    ⟨fun h i j => by simpa [renamedLabels] using h (f.symm i) (f.symm j), fun h i j => congrArg e (h _ _)⟩
  have h2 : (∃ i k, renamedRows f e P i k < -(1 / 10 ^ 6) ∨ renamedRows f e P i k > 1 + 1 / 10 ^ 6) ↔
      ∃ i k, P i k < -(1 / 10 ^ 6) ∨ P i k > 1 + 1 / 10 ^ 6 :=
    ⟨fun ⟨i, k, h⟩ => ⟨f i, e.symm k, h⟩, fun ⟨i, k, h⟩ => ⟨f.symm i, e k, by simpa [renamedRows] using h⟩⟩
  unfold checkReal
  exact if_congr Iff.rfl rfl (if_congr (and_congr Iff.rfl h1) rfl (if_congr h2 rfl rfl))

theorem genScore_renamed (A A' : ArgSort ℝ) (M : ℕ) (gamma : ℝ) (e : Equiv.Perm (Fin K)) (p : Fin K → ℝ) :
    genScore A M gamma (fun k => p (e.symm k)) = genScore A' M gamma p := by
  have hs : softmaxRow (fun k => p (e.symm k)) = fun k => softmaxRow p (e.symm k) := by
    funext k
    unfold softmaxRow
    rw [Equiv.sum_comp e.symm (fun k => Real.exp (p k))]
  have hp : (List.ofFn (fun k => softmaxRow p (e.symm k))).Perm (List.ofFn (softmaxRow p)) :=
    Equiv.Perm.ofFn_comp_perm e.symm (softmaxRow p)
  have heq : sortOn A id (List.ofFn (fun k => softmaxRow p (e.symm k))) = sortOn A' id (List.ofFn (softmaxRow p)) := by
    have h1 : (sortOn A id (List.ofFn (fun k => softmaxRow p (e.symm k)))).Pairwise (fun x y => x ≤ y) :=
      sortOn_sorted A id _
    have h2 : (sortOn A' id (List.ofFn (softmaxRow p))).Pairwise (fun x y => x ≤ y) := sortOn_sorted A' id _
    exact List.Perm.eq_of_pairwise' h1 h2 (((sortOn_perm A id _).trans hp).trans (sortOn_perm A' id _).symm)
  unfold genScore
  rw [hs, heq]

/-- **C232.** If the examples are given in another order `f` and class `k` gets the number `e k` (in the labels, the
columns of the predicted probabilities and given thresholds alike), then for every method, setting and sorting
algorithm the out-of-distribution scores are the same: each example keeps its score, each class its threshold, and a
refused call is refused with the same message. -/
theorem C232_renamed [NeZero K] (A A' : ArgSort ℝ) (method : OodMethod) (adjust : Bool) (M : ℕ) (gamma : ℝ)
    (f : Equiv.Perm (Fin n)) (e : Equiv.Perm (Fin K)) (labels : Option (Fin n → Fin K))
    (thresholds : Option (Fin K → ℝ)) (P : Fin n → Fin K → ℝ) :
    oodPredictionScores A' method adjust M gamma (labels.map (renamedLabels f e))
        (thresholds.map (fun t k => t (e.symm k))) (renamedRows f e P) =
      (oodPredictionScores A method adjust M gamma labels thresholds P).map
        (fun r => (fun i => r.1 (f i), r.2.map (fun t k => t (e.symm k)))) := by
  have main : ∀ (Q : Fin n → Fin K → ℝ) (thr : Option (Fin K → ℝ)),
      (match method with
        | .entropy => do
          let s ← normalizedEntropy (renamedRows f e Q)
          return (fun i => 1 - s i, thr.map (fun t k => t (e.symm k)))
        | .leastConfidence => return (fun i => renamedRows f e Q i (argmax (renamedRows f e Q i)),
            thr.map (fun t k => t (e.symm k)))
        | .gen => if M = 0 then Except.error "division by zero"
          else return (fun i => genScore A' M gamma (renamedRows f e Q i), thr.map (fun t k => t (e.symm k))) :
        Except String ((Fin n → ℝ) × Option (Fin K → ℝ))) =
      (match method with
        | .entropy => do
          let s ← normalizedEntropy Q
          return (fun i => 1 - s i, thr)
        | .leastConfidence => return (fun i => Q i (argmax (Q i)), thr)
        | .gen => if M = 0 then Except.error "division by zero"
          else return (fun i => genScore A M gamma (Q i), thr) :
        Except String ((Fin n → ℝ) × Option (Fin K → ℝ))).map
        (fun r => (fun i => r.1 (f i), r.2.map (fun t k => t (e.symm k)))) := by
    intro Q thr
    cases method with
    | entropy =>
      dsimp only
      rw [normalizedEntropy_renamed]
      cases normalizedEntropy Q <;> rfl
    | leastConfidence =>
      have : (fun i => renamedRows f e Q i (argmax (renamedRows f e Q i))) = fun i => Q (f i) (argmax (Q (f i))) :=
        funext fun i => max_renamed e (Q (f i))
      dsimp only
      rw [this]
      rfl
    | gen =>
      dsimp only
      by_cases hM : M = 0
      · rw [if_pos hM, if_pos hM]; rfl
      · rw [if_neg hM, if_neg hM]
        have : (fun i => genScore A' M gamma (renamedRows f e Q i)) = fun i => genScore A M gamma (Q (f i)) :=
          funext fun i => genScore_renamed A' A M gamma e (Q (f i))
        rw [this]
        rfl
  unfold oodPredictionScores
  cases adjust with
  | false =>
    have := main P thresholds
    cases method <;> exact this
  | true =>
    cases thresholds with
    | some t =>
      have := main (subtractConfidentThresholds P t) (some t)
      rw [← adjusted_renamed] at this
      cases method <;> exact this
    | none =>
      cases labels with
      | none => rfl
      | some l =>
        simp only [Option.map_some, Option.map_none, if_true, checkReal_renamed]
        cases checkReal false l P with
        | error m => rfl
        | ok u =>
          have := main (subtractConfidentThresholds P (realThresholds l P)) (some (realThresholds l P))
          rw [← adjusted_renamed] at this
          simp only [Option.map_some] at this
          rw [← realThresholds_renamed] at this
          cases method <;> exact this

/-- The renaming is not trivial: swapping the two classes of two examples changes both arguments. -/
example : renamedLabels (1 : Equiv.Perm (Fin 2)) (Equiv.swap (0 : Fin 2) 1) ![0, 1] = ![1, 0] ∧
    renamedRows (1 : Equiv.Perm (Fin 2)) (Equiv.swap (0 : Fin 2) 1) (fun _ k => if k = 0 then 1/4 else 3/4) 0 0 = 3/4 := by
  refine ⟨by decide, ?_⟩
  simp [renamedRows]

theorem normalizedEntropy_part {m : ℕ} (g : Fin m → Fin n) (P : Fin n → Fin K → ℝ) (s : Fin n → ℝ)
    (h : normalizedEntropy P = .ok s) : normalizedEntropy (fun i => P (g i)) = .ok (fun i => s (g i)) := by
  unfold normalizedEntropy at h ⊢
  split_ifs at h with h1 h2
  rw [if_neg (fun ⟨i, k, hik⟩ => h1 ⟨g i, k, hik⟩), if_neg h2, ← Except.ok.inj h]

/-- The probabilities that a scoring call without labels works with. -/
noncomputable def scoredProbs [NeZero K] (adjust : Bool) (thr : Option (Fin K → ℝ)) (P : Fin n → Fin K → ℝ) :
    Fin n → Fin K → ℝ :=
  match adjust, thr with
  | true, some t => subtractConfidentThresholds P t
  | _, _ => P

theorem scoredProbs_part [NeZero K] {m : ℕ} (g : Fin m → Fin n) (adjust : Bool) (thr : Option (Fin K → ℝ))
    (P : Fin n → Fin K → ℝ) : scoredProbs adjust thr (fun i => P (g i)) = fun i => scoredProbs adjust thr P (g i) := by
  cases adjust <;> cases thr <;> rfl

theorem score_call [NeZero K] (A : ArgSort ℝ) (method : OodMethod) (adjust : Bool) (M : ℕ) (gamma : ℝ)
    (thr : Option (Fin K → ℝ)) (hthr : adjust = true → thr ≠ none) (P : Fin n → Fin K → ℝ) :
    oodPredictionScores A method adjust M gamma none thr P =
      (match method with
        | .entropy => (normalizedEntropy (scoredProbs adjust thr P)).map (fun s => (fun i => 1 - s i, thr))
        | .leastConfidence => .ok (fun i => scoredProbs adjust thr P i (argmax (scoredProbs adjust thr P i)), thr)
        | .gen => if M = 0 then .error "division by zero"
          else .ok (fun i => genScore A M gamma (scoredProbs adjust thr P i), thr)) := by
  cases adjust with
  | false =>
    cases method with
    | entropy =>
      show (normalizedEntropy P >>= fun s => pure (fun i => 1 - s i, thr)) = (normalizedEntropy P).map _
      cases normalizedEntropy P <;> rfl
    | leastConfidence => rfl
    | gen => rfl
  | true =>
    cases thr with
    | none => exact absurd rfl (hthr rfl)
    | some t =>
      cases method with
      | entropy =>
        show (normalizedEntropy (subtractConfidentThresholds P t) >>= fun s => pure (fun i => 1 - s i, some t)) =
          (normalizedEntropy (subtractConfidentThresholds P t)).map _
        cases normalizedEntropy (subtractConfidentThresholds P t) <;> rfl
      | leastConfidence => rfl
      | gen => rfl

/-- **C233.** After fitting (the thresholds are stored, or no adjustment is made), the examples of any selection `g` of
the new data, in any order and with any repetitions, get the scores they get in all of the new data. -/
theorem C233_part [NeZero K] {m : ℕ} (A : ArgSort ℝ) (method : OodMethod) (adjust : Bool) (M : ℕ) (gamma : ℝ)
    (thr : Option (Fin K → ℝ)) (hthr : adjust = true → thr ≠ none) (P : Fin n → Fin K → ℝ) (g : Fin m → Fin n)
    (s : Fin n → ℝ) (t : Option (Fin K → ℝ)) (h : oodPredictionScores A method adjust M gamma none thr P = .ok (s, t)) :
    oodPredictionScores A method adjust M gamma none thr (fun i => P (g i)) = .ok (fun i => s (g i), t) := by
  rw [score_call A method adjust M gamma thr hthr] at h ⊢
  rw [scoredProbs_part]
  cases method with
  | entropy =>
    dsimp only at h ⊢
    cases hn : normalizedEntropy (scoredProbs adjust thr P) with
    | error e => rw [hn] at h; cases h
    | ok r =>
      rw [hn] at h
      rw [normalizedEntropy_part g _ r hn]
      have := Prod.mk.inj (Except.ok.inj h)
      rw [← this.1, ← this.2]
      rfl
  | leastConfidence =>
    have := Prod.mk.inj (Except.ok.inj h)
    rw [← this.1, ← this.2]
  | gen =>
    dsimp only at h ⊢
    split_ifs at h ⊢ with hM
    have := Prod.mk.inj (Except.ok.inj h)
    rw [← this.1, ← this.2]

/-- **C233, refusals.** All of the new data are scored exactly if each example would be scored alone. -/
theorem C233_accepted [NeZero K] (A : ArgSort ℝ) (method : OodMethod) (adjust : Bool) (M : ℕ) (gamma : ℝ)
    (thr : Option (Fin K → ℝ)) (hthr : adjust = true → thr ≠ none) (P : Fin n → Fin K → ℝ) (hn : 0 < n) :
    (∃ r, oodPredictionScores A method adjust M gamma none thr P = .ok r) ↔
      ∀ i, ∃ r, oodPredictionScores (n := 1) A method adjust M gamma none thr (fun _ => P i) = .ok r := by
  constructor
  · rintro ⟨⟨s, t⟩, h⟩ i
    exact ⟨_, C233_part A method adjust M gamma thr hthr P (fun _ => i) s t h⟩
  · intro h
    have hone : ∀ i : Fin n, scoredProbs (n := 1) adjust thr (fun _ => P i) = fun _ => scoredProbs adjust thr P i :=
      fun i => scoredProbs_part (m := 1) (fun _ => i) adjust thr P
    simp only [score_call A method adjust M gamma thr hthr, hone] at h ⊢
    cases method with
    | leastConfidence => exact ⟨_, rfl⟩
    | gen =>
      obtain ⟨r, hr⟩ := h ⟨0, hn⟩
      dsimp only at hr ⊢
      split_ifs at hr ⊢ with hM
      exact ⟨_, rfl⟩
    | entropy =>
      dsimp only at h ⊢
      have key : ∀ i, (∀ k, ¬ (scoredProbs adjust thr P i k < 0 ∨ scoredProbs adjust thr P i k > 1)) ∧ ¬ K ≤ 1 := by
        intro i
        obtain ⟨r, hr⟩ := h i
        unfold normalizedEntropy at hr
        split_ifs at hr with h1 h2
        · cases hr
        · cases hr
        · exact ⟨fun k hk => h1 ⟨0, k, hk⟩, h2⟩
      unfold normalizedEntropy
      rw [if_neg (fun ⟨i, k, hik⟩ => (key i).1 k hik), if_neg (key ⟨0, hn⟩).2]
      exact ⟨_, rfl⟩

/-- Two examples of two classes are scored, with stored thresholds, by the method `least_confidence`. -/
example (A : ArgSort ℝ) : ∃ r, oodPredictionScores (n := 2) (K := 2) A .leastConfidence true 100 (1/10) none
    (some (fun _ => 1/2)) (fun _ k => if k = 0 then 1/4 else 3/4) = .ok r := ⟨_, rfl⟩

end Cleanlab.Props
