import Verif.Model.RankReal
import Verif.Props.Repetition
import Mathlib.Tactic.FinCases

/-!
# C187: which models form an ensemble, and how often, but not in which order

`get_label_quality_ensemble_scores` with the models of an ensemble in another order, repeated, all alike, or useless.
-/

namespace Cleanlab.Props

open Np Cleanlab.Util Cleanlab.Rank

variable {n K M N r : ℕ}

/-- The weighting schemes that `cleanlab` computes itself. -/
def Computed : Weighting M → Weighting N → Prop
  | .uniform, .uniform => True
  | .accuracy, .accuracy => True
  | .logLossSearch ts, .logLossSearch ts' => ts = ts'
  | _, _ => False

theorem temperatureWeights_repeat {σ : Fin N → Fin M} (h : Repeats r σ) (logLoss : (Fin n → Fin K) → (Fin n → Fin K → ℝ) → ℝ)
    (labels : Fin n → Fin K) (Ps : Fin M → Fin n → Fin K → ℝ) (t : ℝ) (j : Fin N) :
    temperatureWeights logLoss labels (fun j => Ps (σ j)) t j = temperatureWeights logLoss labels Ps t (σ j) / r := by
  unfold temperatureWeights
  dsimp only
  rw [h.sum (fun m => Real.exp (-t * logLoss labels (clipRows (Ps m)))), nsmul_eq_mul, div_div, mul_comm (r : ℝ)]

theorem sum_repeat_weighted {σ : Fin N → Fin M} (h : Repeats r σ) (f w : Fin M → ℝ) :
    ∑ j, f (σ j) * (w (σ j) / r) = ∑ m, f m * w m := by
  have hr : (r : ℝ) ≠ 0 := by exact_mod_cast h.1.ne'
  rw [h.sum (fun m => f m * (w m / r)), nsmul_eq_mul, Finset.mul_sum]
  refine Finset.sum_congr rfl fun m _ => ?_
  field_simp

/-- The state of the search for the repeated models: each has its share of the weight. -/
noncomputable def spread (σ : Fin N → Fin M) (r : ℕ) (x : ℝ × (Fin M → ℝ)) : ℝ × (Fin N → ℝ) := (x.1, fun j => x.2 (σ j) / (r : ℝ))

theorem searchStep_repeat {σ : Fin N → Fin M} (h : Repeats r σ) (logLoss : (Fin n → Fin K) → (Fin n → Fin K → ℝ) → ℝ)
    (labels : Fin n → Fin K) (Ps : Fin M → Fin n → Fin K → ℝ) (s : Option (ℝ × (Fin M → ℝ))) (t : ℝ) :
    searchStep logLoss labels (fun j => Ps (σ j)) (s.map (spread σ r)) t =
      (searchStep logLoss labels Ps s t).map (spread σ r) := by
  have hw : temperatureWeights logLoss labels (fun j => Ps (σ j)) t =
      fun j => temperatureWeights logLoss labels Ps t (σ j) / r := funext fun j => temperatureWeights_repeat h logLoss labels Ps t j
  have hl : (fun i k => ∑ j, temperatureWeights logLoss labels Ps t (σ j) / r * Ps (σ j) i k) =
      fun i k => ∑ m, temperatureWeights logLoss labels Ps t m * Ps m i k := by
    funext i k
    have := sum_repeat_weighted h (fun m => Ps m i k) (temperatureWeights logLoss labels Ps t)
    simp only [mul_comm] at this ⊢
    exact this
  unfold searchStep
  dsimp only
  rw [hw, hl]
  cases s with
  | none => rfl
  | some x =>
    obtain ⟨best, w0⟩ := x
    simp only [Option.map_some, spread]
    split_ifs <;> rfl

theorem search_repeat {σ : Fin N → Fin M} (h : Repeats r σ) (logLoss : (Fin n → Fin K) → (Fin n → Fin K → ℝ) → ℝ)
    (labels : Fin n → Fin K) (Ps : Fin M → Fin n → Fin K → ℝ) : ∀ (ts : List ℝ) (s : Option (ℝ × (Fin M → ℝ))),
    ts.foldl (searchStep logLoss labels (fun j => Ps (σ j))) (s.map (spread σ r)) =
      (ts.foldl (searchStep logLoss labels Ps) s).map (spread σ r)
  | [], _ => rfl
  | t :: ts, s => by
    rw [List.foldl_cons, List.foldl_cons, searchStep_repeat h, search_repeat h logLoss labels Ps ts]

/-- **C187.** Scores, or the refusal of the input, do not change if every model is taken `r` times, in any order. With `r = 1`
this is another order of the models. -/
theorem C187_repeated [NeZero K] {σ : Fin N → Fin M} (h : Repeats r σ) (logLoss : (Fin n → Fin K) → (Fin n → Fin K → ℝ) → ℝ)
    (score : (Fin n → Fin K → ℝ) → Fin n → ℝ) (labels : Fin n → Fin K) (Ps : Fin M → Fin n → Fin K → ℝ) (wt : Weighting M)
    (wt' : Weighting N) (hw : Computed wt wt') :
    ensembleScores logLoss score labels (fun j => Ps (σ j)) wt' = ensembleScores logLoss score labels Ps wt := by
  have hr : (r : ℝ) ≠ 0 := by exact_mod_cast h.1.ne'
  have hN : (N : ℝ) = r * M := by exact_mod_cast h.total
  have h0 : N = 0 ↔ M = 0 := by
    rw [h.total, Nat.mul_eq_zero]
    exact ⟨fun hc => hc.resolve_left h.1.ne', Or.inr⟩
  have hc : (∃ j, checkReal false labels (Ps (σ j)) ≠ .ok ()) ↔ ∃ m, checkReal false labels (Ps m) ≠ .ok () :=
    ⟨fun ⟨j, hj⟩ => ⟨σ j, hj⟩, fun ⟨m, hm⟩ => by obtain ⟨j, rfl⟩ := h.surj m; exact ⟨j, hm⟩⟩
  have hacc : ∑ j, accuracy labels (Ps (σ j)) = r * ∑ m, accuracy labels (Ps m) := by
    rw [h.sum (fun m => accuracy labels (Ps m)), nsmul_eq_mul]
  unfold ensembleScores
  by_cases hM : M = 0
  · rw [if_pos hM, if_pos (h0.mpr hM)]
  rw [if_neg hM, if_neg (fun e => hM (h0.mp e))]
  by_cases hbad : ∃ m, checkReal false labels (Ps m) ≠ .ok ()
  · rw [if_pos hbad, if_pos (hc.mpr hbad)]
  rw [if_neg hbad, if_neg (fun e => hbad (hc.mp e))]
  cases wt with
  | uniform =>
    cases wt' <;> simp only [Computed] at hw
    dsimp only
    congr 1
    funext i
    rw [h.sum (fun m => score (Ps m) i), nsmul_eq_mul, hN, mul_div_mul_left _ _ hr]
  | accuracy =>
    cases wt' <;> simp only [Computed] at hw
    dsimp only
    by_cases hz : ∑ m, accuracy labels (Ps m) = 0
    · rw [if_pos hz, if_pos (by rw [hacc, hz, mul_zero])]
    · rw [if_neg hz, if_neg (by rw [hacc]; exact mul_ne_zero hr hz)]
      congr 1
      funext i
      rw [← sum_repeat_weighted h (fun m => score (Ps m) i) (fun m => accuracy labels (Ps m) / ∑ m', accuracy labels (Ps m'))]
      refine Finset.sum_congr rfl fun j _ => ?_
      rw [hacc, div_div, mul_comm (r : ℝ)]
  | logLossSearch ts =>
    cases wt' with
    | logLossSearch ts' =>
      simp only [Computed] at hw
      subst hw
      dsimp only
      have hs := search_repeat h logLoss labels Ps ts none
      rw [Option.map_none] at hs
      rw [hs]
      split_ifs with hmiss
      · rfl
      · cases ts.foldl (searchStep logLoss labels Ps) none with
        | none => rfl
        | some x =>
          dsimp only [Option.map_some]
          congr 1
          funext i
          exact sum_repeat_weighted h (fun m => score (Ps m) i) x.2
    | _ => simp only [Computed] at hw
  | custom w => cases wt' <;> simp only [Computed] at hw

theorem repeats_perm (σ : Equiv.Perm (Fin M)) : Repeats 1 (fun j => σ j) := by
  refine ⟨one_pos, fun i => ?_⟩
  rw [Finset.card_eq_one]
  refine ⟨σ.symm i, ?_⟩
  ext j
  simp [Equiv.eq_symm_apply]

/-- **C187.** The order of the models does not matter; weights given by the caller are reordered with them. -/
theorem C187_order [NeZero K] (σ : Equiv.Perm (Fin M)) (logLoss : (Fin n → Fin K) → (Fin n → Fin K → ℝ) → ℝ)
    (score : (Fin n → Fin K → ℝ) → Fin n → ℝ) (labels : Fin n → Fin K) (Ps : Fin M → Fin n → Fin K → ℝ) :
    (∀ wt, Computed wt wt →
      ensembleScores logLoss score labels (fun j => Ps (σ j)) wt = ensembleScores logLoss score labels Ps wt) ∧
    ∀ w : Fin M → ℝ, ensembleScores logLoss score labels (fun j => Ps (σ j)) (.custom (fun j => w (σ j))) =
      ensembleScores logLoss score labels Ps (.custom w) := by
  refine ⟨fun wt hw => C187_repeated (repeats_perm σ) logLoss score labels Ps wt wt hw, fun w => ?_⟩
  have hc : (∃ j, checkReal false labels (Ps (σ j)) ≠ .ok ()) ↔ ∃ m, checkReal false labels (Ps m) ≠ .ok () :=
    ⟨fun ⟨j, hj⟩ => ⟨σ j, hj⟩, fun ⟨m, hm⟩ => ⟨σ.symm m, by rw [Equiv.apply_symm_apply]; exact hm⟩⟩
  unfold ensembleScores
  dsimp only
  by_cases hM : M = 0
  · rw [if_pos hM, if_pos hM]
  rw [if_neg hM, if_neg hM]
  by_cases hbad : ∃ m, checkReal false labels (Ps m) ≠ .ok ()
  · rw [if_pos hbad, if_pos (hc.mpr hbad)]
  rw [if_neg hbad, if_neg (fun e => hbad (hc.mp e))]
  congr 1
  funext i
  exact Equiv.sum_comp σ (fun m => score (Ps m) i * w m)

/-- **C187.** An ensemble of one model has the scores of this model if there is a result at all. -/
theorem C187_single [NeZero K] (logLoss : (Fin n → Fin K) → (Fin n → Fin K → ℝ) → ℝ)
    (score : (Fin n → Fin K → ℝ) → Fin n → ℝ) (labels : Fin n → Fin K) (P : Fin n → Fin K → ℝ) (wt : Weighting 1)
    (hw : ∀ w, wt = .custom w → w 0 = 1) (s : Fin n → ℝ)
    (h : ensembleScores logLoss score labels (fun _ => P) wt = .ok s) : s = score P := by
  unfold ensembleScores at h
  rw [if_neg one_ne_zero] at h
  by_cases hbad : ∃ m : Fin 1, checkReal false labels ((fun _ : Fin 1 => P) m) ≠ .ok ()
  · rw [if_pos hbad] at h; cases h
  rw [if_neg hbad] at h
  cases wt with
  | uniform =>
    rw [← Except.ok.inj h]
    funext i
    simp
  | accuracy =>
    dsimp only at h
    split_ifs at h with hz
    rw [← Except.ok.inj h]
    funext i
    rw [Fin.sum_univ_one] at hz ⊢
    rw [Fin.sum_univ_one, div_self hz, mul_one]
  | logLossSearch ts =>
    dsimp only at h
    split_ifs at h with hmiss
    have key : ∀ (ts : List ℝ) (st : Option (ℝ × (Fin 1 → ℝ))), (∀ x, st = some x → x.2 0 = 1) →
        ∀ x, ts.foldl (searchStep logLoss labels (fun _ => P)) st = some x → x.2 0 = 1 := by
      intro ts
      induction ts with
      | nil => intro st hst x hx; exact hst x hx
      | cons t ts ih =>
        intro st hst
        rw [List.foldl_cons]
        refine ih _ fun x hx => ?_
        have hone : temperatureWeights logLoss labels (fun _ : Fin 1 => P) t 0 = 1 := by
          unfold temperatureWeights
          dsimp only
          rw [Fin.sum_univ_one]
          exact div_self (Real.exp_pos _).ne'
        unfold searchStep at hx
        cases st with
        | none =>
          dsimp only at hx
          rw [← Option.some.inj hx]
          exact hone
        | some y =>
          obtain ⟨b, w0⟩ := y
          dsimp only at hx
          split_ifs at hx
          · rw [← Option.some.inj hx]; exact hone
          · exact hst x hx
    cases hf : ts.foldl (searchStep logLoss labels (fun _ => P)) none with
    | none => rw [hf] at h; cases h
    | some x =>
      rw [hf] at h
      dsimp only at h
      rw [← Except.ok.inj h]
      funext i
      rw [Fin.sum_univ_one, key ts none (fun x hx => by cases hx) x hf, mul_one]
  | custom w =>
    rw [← Except.ok.inj h]
    funext i
    rw [Fin.sum_univ_one, hw w rfl, mul_one]

/-- **C187.** So has an ensemble of several equal models. -/
theorem C187_copies [NeZero K] [NeZero M] (logLoss : (Fin n → Fin K) → (Fin n → Fin K → ℝ) → ℝ)
    (score : (Fin n → Fin K → ℝ) → Fin n → ℝ) (labels : Fin n → Fin K) (P : Fin n → Fin K → ℝ) (wt : Weighting M)
    (hw : ∀ w, wt = .custom w → ∑ m, w m = 1) (s : Fin n → ℝ)
    (h : ensembleScores logLoss score labels (fun _ => P) wt = .ok s) : s = score P := by
  have hrep : Repeats M (fun _ : Fin M => (0 : Fin 1)) :=
    ⟨Nat.pos_of_ne_zero (NeZero.ne M), fun i => by simp [Fin.eq_zero i]⟩
  have key : ∀ wt1 : Weighting 1, Computed wt1 wt → (∀ w, wt1 ≠ .custom w) → s = score P := fun wt1 h1 h2 =>
    C187_single logLoss score labels P wt1 (fun w e => absurd e (h2 w)) s
      ((C187_repeated hrep logLoss score labels (fun _ => P) wt1 wt h1).symm.trans h)
  cases wt with
  | uniform => exact key .uniform trivial (by simp)
  | accuracy => exact key .accuracy trivial (by simp)
  | logLossSearch ts => exact key (.logLossSearch ts) rfl (by simp)
  | custom w =>
    unfold ensembleScores at h
    rw [if_neg (NeZero.ne M)] at h
    by_cases hbad : ∃ m : Fin M, checkReal false labels ((fun _ : Fin M => P) m) ≠ .ok ()
    · rw [if_pos hbad] at h; cases h
    rw [if_neg hbad] at h
    rw [← Except.ok.inj h]
    funext i
    rw [← Finset.mul_sum, hw w rfl, mul_one]

/-- **C187.** With weights by accuracy, the default, a model that predicts no label has no influence. -/
theorem C187_useless [NeZero K] [NeZero M] (logLoss : (Fin n → Fin K) → (Fin n → Fin K → ℝ) → ℝ)
    (score : (Fin n → Fin K → ℝ) → Fin n → ℝ) (labels : Fin n → Fin K) (Ps : Fin M → Fin n → Fin K → ℝ) (Q : Fin n → Fin K → ℝ)
    (hQ : ∀ i, argmax (Q i) ≠ labels i) (hc : checkReal false labels Q = .ok ()) :
    ensembleScores logLoss score labels (Fin.snoc (α := fun _ => Fin n → Fin K → ℝ) Ps Q) .accuracy =
      ensembleScores logLoss score labels Ps .accuracy := by
  have h0 : accuracy labels Q = 0 := by
    unfold accuracy
    rw [List.countP_eq_zero.mpr (by simpa using hQ), Nat.cast_zero, zero_div]
  have hbad : (∃ m, checkReal false labels (Fin.snoc (α := fun _ => Fin n → Fin K → ℝ) Ps Q m) ≠ .ok ()) ↔
      ∃ m, checkReal false labels (Ps m) ≠ .ok () := by
    rw [Fin.exists_fin_succ']
    simp only [Fin.snoc_castSucc, Fin.snoc_last, hc, ne_eq, not_true_eq_false, or_false]
  have hsum : ∑ m, accuracy labels (Fin.snoc (α := fun _ => Fin n → Fin K → ℝ) Ps Q m) = ∑ m, accuracy labels (Ps m) := by
    rw [Fin.sum_univ_castSucc]
    simp only [Fin.snoc_castSucc, Fin.snoc_last, h0, add_zero]
  unfold ensembleScores
  rw [if_neg (Nat.succ_ne_zero M), if_neg (NeZero.ne M)]
  by_cases hb : ∃ m, checkReal false labels (Ps m) ≠ .ok ()
  · rw [if_pos hb, if_pos (hbad.mpr hb)]
  rw [if_neg hb, if_neg (fun e => hb (hbad.mp e))]
  dsimp only
  rw [hsum]
  split_ifs with hz
  · rfl
  · congr 1
    funext i
    rw [Fin.sum_univ_castSucc]
    simp only [Fin.snoc_castSucc, Fin.snoc_last, h0, zero_div, mul_zero, add_zero]

/-- Two examples, one model that predicts both labels and one that predicts neither. By accuracy only the first counts; with
uniform weights both do, in either order. -/
example (logLoss : (Fin 2 → Fin 2) → (Fin 2 → Fin 2 → ℝ) → ℝ) :
    let labels : Fin 2 → Fin 2 := ![0, 1]
    let P : Fin 2 → Fin 2 → ℝ := ![![1, 0], ![0, 1]]
    let Q : Fin 2 → Fin 2 → ℝ := ![![0, 1], ![1, 0]]
    ensembleScores logLoss (fun P i => P i (labels i)) labels ![P, Q] .uniform = .ok ![1 / 2, 1 / 2] ∧
    ensembleScores logLoss (fun P i => P i (labels i)) labels ![Q, P] .uniform = .ok ![1 / 2, 1 / 2] := by
  intro labels P Q
  have hbad : ∀ R : Fin 2 → Fin 2 → Fin 2 → ℝ, (∀ m i k, R m i k = 0 ∨ R m i k = 1) →
      ¬ ∃ m, checkReal false labels (R m) ≠ .ok () := by
    rintro R hR ⟨m, hm⟩
    apply hm
    unfold checkReal
    rw [if_neg two_ne_zero, if_neg (fun h => absurd (h.2 0 1) (by decide)), if_neg]
    rintro ⟨i, k, h⟩
    rcases hR m i k with e | e <;> rw [e] at h <;> norm_num at h
  have h1 : ensembleScores logLoss (fun P i => P i (labels i)) labels ![P, Q] .uniform = .ok ![1 / 2, 1 / 2] := by
    unfold ensembleScores
    rw [if_neg two_ne_zero, if_neg (hbad _ (by intro m i k; fin_cases m <;> fin_cases i <;> fin_cases k <;> simp [P, Q]))]
    dsimp only
    congr 1
    funext i
    fin_cases i <;> simp [Fin.sum_univ_two, P, Q, labels]
  refine ⟨h1, ?_⟩
  have h2 := (C187_order (Equiv.swap (0 : Fin 2) 1) logLoss (fun P i => P i (labels i)) labels ![P, Q]).1 .uniform trivial
  rw [h1] at h2
  rw [← h2]
  congr 1
  funext j
  fin_cases j <;> rfl

/-- All models three times. -/
example : Repeats 3 (![0, 1, 0, 1, 0, 1] : Fin 6 → Fin 2) := by unfold Repeats; decide +kernel

end Cleanlab.Props
