import Verif.Model.OutlierPred
import Verif.Props.Rank

/-!
# C71: out-of-distribution scores from predicted probabilities
-/

namespace Cleanlab.Props

open Np Cleanlab.Count Cleanlab.Rank Cleanlab.Spec Cleanlab.Outlier

variable {n K : ℕ}

theorem normalizedEntropy_ok (hK : 2 ≤ K) (P : Fin n → Fin K → ℝ) (hP : ∀ i, IsDistribution (P i)) :
    normalizedEntropy P = .ok (fun i => rowEntropy (P i)) := by
  unfold normalizedEntropy
  rw [if_neg, if_neg (by omega)]
  rintro ⟨i, k, h | h⟩
  · exact absurd ((hP i).1 k) (not_le.mpr h)
  · exact absurd (isDistribution_le_one (hP i) k) (not_le.mpr h)

theorem softmaxRow_range (p : Fin K → ℝ) (k : Fin K) : 0 ≤ softmaxRow p k ∧ softmaxRow p k ≤ 1 := by
  have hle : Real.exp (p k) ≤ ∑ j, Real.exp (p j) :=
    Finset.single_le_sum (f := fun j => Real.exp (p j)) (fun j _ => (Real.exp_pos _).le) (Finset.mem_univ k)
  have hpos : 0 < ∑ j, Real.exp (p j) := lt_of_lt_of_le (Real.exp_pos _) hle
  exact ⟨div_nonneg (Real.exp_pos _).le hpos.le, (div_le_one hpos).mpr hle⟩

theorem genScore_range (A : ArgSort ℝ) (M : ℕ) (hM : 0 < M) (gamma : ℝ) (hg : 0 ≤ gamma) (p : Fin K → ℝ) :
    0 ≤ genScore A M gamma p ∧ genScore A M gamma p ≤ 1 := by
  unfold genScore
  simp only
  generalize hl : (sortOn A id (List.ofFn (softmaxRow p))).drop (K - M) = l
  have hlen : l.length ≤ M := by
    rw [← hl, List.length_drop, length_sortOn, List.length_ofFn]
    omega
  have hmem : ∀ q ∈ l, 0 ≤ q ∧ q ≤ 1 := by
    intro q hq
    rw [← hl] at hq
    have := (mem_sortOn A id _ q).mp (List.mem_of_mem_drop hq)
    obtain ⟨k, rfl⟩ := (List.mem_ofFn' _ _).mp this
    exact softmaxRow_range p k
  have hterm : ∀ q ∈ l, 0 ≤ q ^ gamma * (1 - q) ^ gamma ∧ q ^ gamma * (1 - q) ^ gamma ≤ 1 := by
    intro q hq
    obtain ⟨h0, h1⟩ := hmem q hq
    have a0 := Real.rpow_nonneg h0 gamma
    have b0 := Real.rpow_nonneg (sub_nonneg.mpr h1) gamma
    have a1 := Real.rpow_le_one h0 h1 hg
    have b1 := Real.rpow_le_one (sub_nonneg.mpr h1) (by linarith) hg
    exact ⟨mul_nonneg a0 b0, mul_le_one₀ a1 b0 b1⟩
  have hsum : 0 ≤ (l.map (fun q => q ^ gamma * (1 - q) ^ gamma)).sum ∧
      (l.map (fun q => q ^ gamma * (1 - q) ^ gamma)).sum ≤ (l.length : ℝ) := by
    clear hl hlen hmem
    induction l with
    | nil => simp
    | cons q l ih =>
      have h1 := hterm q (by simp)
      have h2 := ih (fun q hq => hterm q (by simp [hq]))
      simp only [List.map_cons, List.sum_cons, List.length_cons]
      push_cast
      constructor <;> linarith [h1.1, h1.2, h2.1, h2.2]
  have hM' : (0 : ℝ) < M := by exact_mod_cast hM
  have hlen' : (l.length : ℝ) ≤ M := by exact_mod_cast hlen
  have h1 : (l.map (fun q => q ^ gamma * (1 - q) ^ gamma)).sum / (M : ℝ) ≤ 1 := by
    rw [div_le_one hM']; linarith [hsum.2]
  have h2 := div_nonneg hsum.1 hM'.le
  constructor <;> linarith

/-- The probabilities the scores are computed from. -/
noncomputable def usedProbs [NeZero K] (adjust : Bool) (labels : Option (Fin n → Fin K))
    (thresholds : Option (Fin K → ℝ)) (P : Fin n → Fin K → ℝ) : Fin n → Fin K → ℝ :=
  match adjust, thresholds, labels with
  | true, some t, _ => subtractConfidentThresholds P t
  | true, none, some l => subtractConfidentThresholds P (realThresholds l P)
  | _, _, _ => P

theorem usedProbs_isDistribution [NeZero K] (adjust : Bool) (labels : Option (Fin n → Fin K))
    (thresholds : Option (Fin K → ℝ)) (P : Fin n → Fin K → ℝ) (hP : ∀ i, IsDistribution (P i)) (i : Fin n) :
    IsDistribution (usedProbs adjust labels thresholds P i) := by
  cases adjust <;> cases thresholds <;> cases labels <;>
    first
      | exact hP i
      | exact C14_adjusted_is_distribution P _ hP i

/-- **C71, range (partial).** For predicted distributions over at least two classes, every method scores every example in
`[0, 1]`, with or without adjustment, whatever thresholds are stored. Missing: without stored thresholds the labels must
not all be the same, see below. -/
theorem C71_range_partial [NeZero K] (A : ArgSort ℝ) (hK : 2 ≤ K) (method : OodMethod) (adjust : Bool) (M : ℕ) (hM : 0 < M)
    (gamma : ℝ) (hg : 0 ≤ gamma) (labels : Option (Fin n → Fin K)) (thresholds : Option (Fin K → ℝ))
    (P : Fin n → Fin K → ℝ) (hP : ∀ i, IsDistribution (P i))
    (hadj : adjust = true → thresholds.isSome ∨ ∃ l, labels = some l ∧ ∃ i j, l i ≠ l j) :
    ∃ s t, oodPredictionScores A method adjust M gamma labels thresholds P = .ok (s, t) ∧
      ∀ i, 0 ≤ s i ∧ s i ≤ 1 := by
  have hQ := usedProbs_isDistribution adjust labels thresholds P hP
  have main : ∀ thr, (oodPredictionScores A method adjust M gamma labels thresholds P =
      (match method with
        | .entropy => do
          let e ← normalizedEntropy (usedProbs adjust labels thresholds P)
          return (fun i => 1 - e i, thr)
        | .leastConfidence => return (fun i => usedProbs adjust labels thresholds P i
            (argmax (usedProbs adjust labels thresholds P i)), thr)
        | .gen => if M = 0 then Except.error "division by zero"
            else return (fun i => genScore A M gamma (usedProbs adjust labels thresholds P i), thr))) →
      ∃ s t, oodPredictionScores A method adjust M gamma labels thresholds P = .ok (s, t) ∧
        ∀ i, 0 ≤ s i ∧ s i ≤ 1 := by
    intro thr h
    rw [h]
    cases method with
    | entropy =>
      refine ⟨_, _, by simp only [normalizedEntropy_ok hK _ hQ]; rfl, fun i => ?_⟩
      have := C14_normalized_entropy_range hK _ (hQ i)
      constructor <;> linarith [this.1, this.2]
    | leastConfidence => exact ⟨_, _, rfl, fun i => ⟨(hQ i).1 _, isDistribution_le_one (hQ i) _⟩⟩
    | gen =>
      refine ⟨_, _, by simp only [if_neg hM.ne']; rfl, fun i => genScore_range A M hM gamma hg _⟩
  cases adjust with
  | false => exact main thresholds (by cases method <;> cases thresholds <;> rfl)
  | true =>
    cases thresholds with
    | some t => exact main (some t) (by cases method <;> rfl)
    | none =>
      cases labels with
      | some l =>
        obtain ⟨l', hl', hij⟩ := (hadj rfl).resolve_left (by simp)
        cases hl'
        have hc : checkReal false l P = .ok () := (checkReal_accepted l P).mpr ⟨hij, fun i k =>
          ⟨le_trans (by norm_num) ((hP i).1 k), (isDistribution_le_one (hP i) k).trans (by norm_num)⟩⟩
        refine main (some (realThresholds l P)) ?_
        unfold oodPredictionScores
        simp only [if_true, hc]
        cases method <;> rfl
      | none => simp at hadj

/-- **C71.** The thresholds that a successful adjusted call computes from the labels: the mean probability of the class over
the examples labelled with it, at least 2 millionths, and 2 for a class without examples. -/
theorem C71_thresholds [NeZero K] (A : ArgSort ℝ) (method : OodMethod) (M : ℕ) (gamma : ℝ) (l : Fin n → Fin K)
    (P : Fin n → Fin K → ℝ) (s : Fin n → ℝ) (thr : Option (Fin K → ℝ))
    (h : oodPredictionScores A method true M gamma (some l) none P = .ok (s, thr)) :
    ∃ t, thr = some t ∧ ∀ k, ((∀ i, l i ≠ k) → t k = 2) ∧
      ((∃ i, l i = k) → t k = max ((∑ i with l i = k, P i k) / ((Finset.univ.filter (fun i => l i = k)).card : ℝ))
        (2 / 1000000)) := by
  have hthr : thr = some (realThresholds l P) := by
    unfold oodPredictionScores at h
    simp only [if_true] at h
    cases hc : checkReal false l P with
    | error e => rw [hc] at h; cases h
    | ok u =>
      rw [hc] at h
      simp only [Except.map, bind, Except.bind, pure, Except.pure] at h
      cases method with
      | entropy =>
        dsimp only at h
        split at h
        · cases h
        · exact (Prod.mk.inj (Except.ok.inj h)).2.symm
      | leastConfidence => exact (Prod.mk.inj (Except.ok.inj h)).2.symm
      | gen =>
        dsimp only at h
        split at h
        · cases h
        · exact (Prod.mk.inj (Except.ok.inj h)).2.symm
  have hlen : ∀ k, ((List.finRange n).filter (fun i => decide (l i = k))).length =
      (Finset.univ.filter (fun i => l i = k)).card := fun k => rfl
  have hsum : ∀ k, (((List.finRange n).filter (fun i => decide (l i = k))).map (fun i => P i k)).sum =
      ∑ i with l i = k, P i k := fun k => rfl
  refine ⟨_, hthr, fun k => ⟨fun hk => ?_, fun ⟨i, hi⟩ => ?_⟩⟩
  · unfold realThresholds
    simp only [hlen]
    rw [if_pos (by rw [Finset.card_eq_zero, Finset.filter_eq_empty_iff]; exact fun i _ => hk i)]
    norm_num
  · unfold realThresholds
    simp only [hlen, hsum]
    rw [if_neg (Finset.card_ne_zero.mpr ⟨i, by simp [hi]⟩)]

/-- **C71 fails** if all labels are the same: fitting with the default adjustment raises, for every method. -/
theorem C71_not_one_class [NeZero K] (A : ArgSort ℝ) (method : OodMethod) (M : ℕ) (gamma : ℝ) (l : Fin n → Fin K)
    (hl : ∀ i j, l i = l j) (P : Fin n → Fin K → ℝ) :
    ∃ e, oodPredictionScores A method true M gamma (some l) none P = .error e := by
  cases hc : checkReal false l P with
  | ok u =>
    obtain ⟨⟨i, j, hij⟩, -⟩ := (checkReal_accepted l P).mp hc
    exact absurd (hl i j) hij
  | error e =>
    refine ⟨e, ?_⟩
    unfold oodPredictionScores
    simp only [if_true, hc]
    rfl

/-- **C71, certainty.** Without adjustment, `entropy` and `least_confidence` give the highest score 1 exactly to
the examples some class is predicted for with probability 1. -/
theorem C71_certain_iff [NeZero K] (A : ArgSort ℝ) (hK : 2 ≤ K) (method : OodMethod)
    (hm : method = .entropy ∨ method = .leastConfidence) (M : ℕ) (gamma : ℝ) (P : Fin n → Fin K → ℝ)
    (hP : ∀ i, IsDistribution (P i)) (s : Fin n → ℝ) (t : Option (Fin K → ℝ))
    (h : oodPredictionScores A method false M gamma none none P = .ok (s, t)) (i : Fin n) :
    s i = 1 ↔ ∃ k, P i k = 1 := by
  rcases hm with rfl | rfl
  · have h' : oodPredictionScores A .entropy false M gamma none none P =
        (do let e ← normalizedEntropy P; return (fun i => 1 - e i, none)) := rfl
    rw [h', normalizedEntropy_ok hK P hP] at h
    cases h
    show 1 - rowEntropy (P i) = 1 ↔ _
    have h1 : (1 - rowEntropy (P i) = 1) ↔ rowEntropy (P i) = 0 := by constructor <;> intro h <;> linarith
    rw [h1]
    exact rowEntropy_eq_zero_iff hK (P i) (hP i)
  · cases h
    constructor
    · intro h; exact ⟨_, h⟩
    · rintro ⟨k, hk⟩
      exact le_antisymm (isDistribution_le_one (hP i) _) (hk ▸ le_argmax (P i) k)

/-- **C71, ignorance.** The uniform prediction gets the lowest `entropy` score, 0. -/
theorem C71_uniform_is_zero [NeZero K] (A : ArgSort ℝ) (hK : 2 ≤ K) (M : ℕ) (gamma : ℝ) (P : Fin n → Fin K → ℝ)
    (hP : ∀ i, IsDistribution (P i)) (s : Fin n → ℝ) (t : Option (Fin K → ℝ))
    (h : oodPredictionScores A .entropy false M gamma none none P = .ok (s, t)) (i : Fin n)
    (hu : ∀ k, P i k = 1 / K) : s i = 0 := by
  have h' : oodPredictionScores A .entropy false M gamma none none P =
      (do let e ← normalizedEntropy P; return (fun i => 1 - e i, none)) := rfl
  rw [h', normalizedEntropy_ok hK P hP] at h
  cases h
  show 1 - rowEntropy (P i) = 0
  have hlog : 0 < Real.log K := Real.log_pos (by exact_mod_cast hK)
  have hK0 : (K : ℝ) ≠ 0 := by exact_mod_cast (by omega : K ≠ 0)
  unfold rowEntropy
  simp only [hu, one_div, Real.log_inv, Finset.sum_const, Finset.card_univ, Fintype.card_fin, nsmul_eq_mul]
  field_simp
  ring

/-- **C71, missing labels.** Adjusting without labels and without stored thresholds is refused. -/
theorem C71_adjust_needs_labels [NeZero K] (A : ArgSort ℝ) (method : OodMethod) (M : ℕ) (gamma : ℝ)
    (P : Fin n → Fin K → ℝ) : ∃ e, oodPredictionScores A method true M gamma none none P = .error e :=
  ⟨_, rfl⟩

example : ∀ i, IsDistribution ((fun _ k => if k = 0 then 1/4 else 3/4 : Fin 2 → Fin 2 → ℝ) i) := by
  intro i
  constructor
  · intro k; fin_cases k <;> norm_num
  · norm_num [Fin.sum_univ_two]

/-- **C71, GEN.** The GEN score of an example uses the `M` classes with the largest predicted probabilities (all classes if
`M` is larger): it is 1 minus the sum of their uncertainties `(q (1 - q))^γ` over `M`, where `q` is the softmax of the
predicted probabilities. -/
theorem C71_gen (A : ArgSort ℝ) (M : ℕ) (gamma : ℝ) (p : Fin K → ℝ) :
    ∃ S : Finset (Fin K), S.card = min M K ∧ (∀ k ∈ S, ∀ l, l ∉ S → p l ≤ p k) ∧
      genScore A M gamma p = 1 - (∑ k ∈ S, softmaxRow p k ^ gamma * (1 - softmaxRow p k) ^ gamma) / M := by
  classical
  set l := List.ofFn (softmaxRow p) with hl
  have hlen : l.length = K := by simp [hl]
  set idx := (A.indices (fun r => id (l.get r))).map (Fin.cast hlen) with hidx
  have hnd : idx.Nodup := (A.nodup_indices _).map (Fin.cast_injective hlen)
  have hil : idx.length = K := by rw [hidx, List.length_map, A.length_indices, hlen]
  have hmem : ∀ k, k ∈ idx := by
    intro k
    rw [hidx, List.mem_map]
    exact ⟨Fin.cast hlen.symm k, A.mem_indices _ _, by simp⟩
  have hget : ∀ r, l.get r = softmaxRow p (Fin.cast hlen r) := by
    intro r
    simp only [hl, List.get_eq_getElem, List.getElem_ofFn]
    rfl
  have hsort : sortOn A id l = idx.map (softmaxRow p) := by
    unfold sortOn
    rw [hidx, List.map_map]
    exact List.map_congr_left (fun r _ => hget r)
  have hpw : idx.Pairwise (fun a b => softmaxRow p a ≤ softmaxRow p b) := by
    have := sortOn_sorted A id l
    rw [hsort, List.pairwise_map] at this
    exact this
  have hmono : ∀ a b, softmaxRow p a ≤ softmaxRow p b → p a ≤ p b := by
    intro a b h
    unfold softmaxRow at h
    have hpos : 0 < ∑ j, Real.exp (p j) := Finset.sum_pos (fun j _ => Real.exp_pos _) ⟨a, Finset.mem_univ a⟩
    rw [div_le_div_iff_of_pos_right hpos, Real.exp_le_exp] at h
    exact h
  refine ⟨(idx.drop (K - M)).toFinset, ?_, ?_, ?_⟩
  · rw [List.toFinset_card_of_nodup (hnd.sublist (List.drop_sublist _ _)), List.length_drop, hil]
    omega
  · intro k hk j hj
    rw [List.mem_toFinset] at hk hj
    have hj' : j ∈ idx.take (K - M) := by
      have := hmem j
      rw [← List.take_append_drop (K - M) idx, List.mem_append] at this
      exact this.resolve_right hj
    rw [← List.take_append_drop (K - M) idx, List.pairwise_append] at hpw
    exact hmono _ _ (hpw.2.2 j hj' k hk)
  · unfold genScore
    simp only
    rw [← hl, hsort, ← List.map_drop, List.map_map,
      List.sum_toFinset _ (hnd.sublist (List.drop_sublist _ _))]
    rfl

end Cleanlab.Props
