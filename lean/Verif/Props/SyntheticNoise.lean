import Verif.Props.ExactErrors
import Verif.Props.NoisyLabels

/-!
# C155: an oracle solves every benchmark with synthetic label noise

`generate_noisy_labels` followed by the estimators and filters, with predictions certain of the true classes.
-/

namespace Cleanlab.Props

open Np Cleanlab.Util Cleanlab.Count Cleanlab.Latent Cleanlab.Spec Cleanlab.CrossVal Cleanlab.Filter

variable {n K : ℕ}

/-- The labels are flipped as often as the noise matrix says, rounded down. -/
structure Flipped (y : Fin n → Fin K) (noise : Fin K → Fin K → ℚ) (labels : Fin n → Fin K) : Prop where
  dist : ∀ k, IsDistribution (fun j => noise j k)
  keeps : ∀ k, 0 < noise k k
  all : Function.Surjective y
  count : ∀ j k, j ≠ k → (numPairs labels y j k : ℤ) = ⌊noise j k * (numGiven y k : ℚ)⌋

/-- What `generate_noisy_labels` returns is flipped like this, for every random choice. -/
theorem generated_flipped (y : Fin n → Fin K) (noise : Fin K → Fin K → ℚ)
    (choose : Fin K → List (Fin n) → ℕ → List (Fin n)) (hc : ∀ k, IsChoice (choose k))
    (hy : Function.Surjective y) (hd : ∀ k, IsDistribution (fun j => noise j k)) (hk : ∀ k, 0 < noise k k) :
    ∃ labels, Noise.generateNoisyLabels y noise choose = .ok labels ∧ Flipped y noise labels := by
  obtain ⟨labels, h1, h2⟩ := C52_flip_counts y noise choose hc hy (fun j k => (hd k).1 j) (fun k => (hd k).2)
  refine ⟨labels, h1, hd, hk, hy, fun j k hjk => ?_⟩
  have := h2 j k hjk
  unfold numPairs numGiven
  rw [← this]
  congr 2
  ext i
  simp [and_comm]

namespace Flipped

variable {y labels : Fin n → Fin K} {noise : Fin K → Fin K → ℚ}

theorem total_pos (h : Flipped y noise labels) (k : Fin K) : (1 : ℚ) ≤ numGiven y k := by
  obtain ⟨i, hi⟩ := h.all k
  have : 0 < numGiven y k := Finset.card_pos.mpr ⟨i, Finset.mem_filter.mpr ⟨Finset.mem_univ _, hi⟩⟩
  exact_mod_cast this

/-- Off the diagonal the counts are rounded down. -/
theorem off (h : Flipped y noise labels) (j k : Fin K) (hjk : j ≠ k) :
    (numPairs labels y j k : ℚ) ≤ noise j k * numGiven y k ∧ noise j k * numGiven y k < (numPairs labels y j k : ℚ) + 1 := by
  have e : (numPairs labels y j k : ℚ) = ((⌊noise j k * (numGiven y k : ℚ)⌋ : ℤ) : ℚ) := by
    rw [← h.count j k hjk]; push_cast; rfl
  rw [e]
  exact ⟨Int.floor_le _, Int.lt_floor_add_one _⟩

/-- On the diagonal they are what remains. -/
theorem diag (h : Flipped y noise labels) (k : Fin K) :
    noise k k * numGiven y k ≤ (numPairs labels y k k : ℚ) ∧
      (numPairs labels y k k : ℚ) ≤ noise k k * numGiven y k + (K - 1 : ℕ) := by
  have h1 : ∑ j, (numPairs labels y j k : ℚ) = numGiven y k := by
    have := sum_numPairs_left labels y k
    exact_mod_cast this
  have h2 : ∑ j, noise j k * numGiven y k = numGiven y k := by
    rw [← Finset.sum_mul, (h.dist k).2, one_mul]
  rw [← Finset.add_sum_erase _ _ (Finset.mem_univ k)] at h1 h2
  have h3 : ∑ j ∈ Finset.univ.erase k, (numPairs labels y j k : ℚ) ≤ ∑ j ∈ Finset.univ.erase k, noise j k * numGiven y k :=
    Finset.sum_le_sum (fun j hj => (h.off j k (Finset.ne_of_mem_erase hj)).1)
  have h4 : ∑ j ∈ Finset.univ.erase k, noise j k * numGiven y k ≤
      ∑ j ∈ Finset.univ.erase k, ((numPairs labels y j k : ℚ) + 1) :=
    Finset.sum_le_sum (fun j hj => (h.off j k (Finset.ne_of_mem_erase hj)).2.le)
  rw [Finset.sum_add_distrib] at h4
  have h5 : ∑ j ∈ Finset.univ.erase k, (1 : ℚ) = ((K - 1 : ℕ) : ℚ) := by
    rw [Finset.sum_const, Finset.card_erase_of_mem (Finset.mem_univ k), Finset.card_univ, Fintype.card_fin]
    simp
  constructor <;> linarith

theorem correct (h : Flipped y noise labels) (k : Fin K) : ∃ i, labels i = k ∧ y i = k := by
  have h1 := (h.diag k).1
  have h2 : 0 < noise k k * (numGiven y k : ℚ) := mul_pos (h.keeps k) (by linarith [h.total_pos k])
  have h3 : (0 : ℚ) < numPairs labels y k k := by linarith
  have h4 : 0 < numPairs labels y k k := by exact_mod_cast h3
  obtain ⟨i, hi⟩ := Finset.card_pos.mp h4
  exact ⟨i, (Finset.mem_filter.mp hi).2⟩

theorem separated (h : Flipped y noise labels) (hK : 2 ≤ K) : Separated labels y (certain y) :=
  C151_certain labels y hK h.correct

/-- The number of wrong labels. -/
theorem errors (h : Flipped y noise labels) :
    (numErrors labels y : ℤ) = ∑ k, ∑ j ∈ Finset.univ.erase k, ⌊noise j k * (numGiven y k : ℚ)⌋ := by
  have e : numErrors labels y = ∑ k, ∑ j ∈ Finset.univ.erase k, numPairs labels y j k := by
    unfold numErrors numPairs
    have : ∀ k : Fin K, ∑ j ∈ Finset.univ.erase k, (Finset.univ.filter (fun i => labels i = j ∧ y i = k)).card =
        (Finset.univ.filter (fun i => labels i ≠ y i ∧ y i = k)).card := by
      intro k
      rw [Finset.card_eq_sum_card_fiberwise (f := labels) (t := Finset.univ.erase k)]
      · refine Finset.sum_congr rfl (fun j hj => ?_)
        congr 1
        ext i
        simp only [Finset.mem_filter, Finset.mem_univ, true_and]
        have := Finset.ne_of_mem_erase hj
        constructor
        · rintro ⟨rfl, rfl⟩; exact ⟨⟨this, rfl⟩, rfl⟩
        · rintro ⟨⟨-, h2⟩, h3⟩; exact ⟨h3, h2⟩
      · intro i hi
        simp only [Finset.coe_filter, Finset.mem_univ, true_and, Set.mem_ofPred_eq] at hi
        simp only [Finset.coe_erase, Finset.coe_univ, Set.mem_sdiff, Set.mem_univ, Set.mem_singleton_iff, true_and]
        rw [← hi.2]
        exact hi.1
    simp only [this]
    rw [Finset.card_eq_sum_card_fiberwise (f := y) (t := Finset.univ)]
    · refine Finset.sum_congr rfl (fun k _ => ?_)
      congr 1
      ext i
      simp
    · intro i _; simp
  rw [e]
  push_cast
  refine Finset.sum_congr rfl (fun k _ => Finset.sum_congr rfl (fun j hj => ?_))
  exact h.count j k (Finset.ne_of_mem_erase hj)

end Flipped

variable (A : ArgSort ℚ) [NeZero K] (y : Fin n → Fin K) (noise : Fin K → Fin K → ℚ)
  (choose : Fin K → List (Fin n) → ℕ → List (Fin n))

/-- **C155.** Whatever the noise matrix (its columns are distributions and every class keeps some labels) and the random choices:
with predictions certain of the true classes every filter with its default options flags exactly the flipped labels, as many as
the noise matrix asked for, and the label health of the data set is the fraction of labels kept. -/
theorem C155_found (hK : 2 ≤ K) (hc : ∀ k, IsChoice (choose k)) (hy : Function.Surjective y)
    (hd : ∀ k, IsDistribution (fun j => noise j k)) (hk : ∀ k, 0 < noise k k) (filter : FilterBy) :
    ∃ labels, Noise.generateNoisyLabels y noise choose = .ok labels ∧
      findChecked A labels (certain y) { filterBy := filter } = .ok (fun i => decide (labels i ≠ y i)) ∧
      numChecked A labels (certain y) none .offDiagonal =
        .ok (∑ k, ∑ j ∈ Finset.univ.erase k, ⌊noise j k * (numGiven y k : ℚ)⌋) ∧
      Dataset.overallHealth A { labels := some labels, predProbs := some (certain y) } =
        .ok (((Finset.univ.filter (fun i => labels i = y i)).card : ℚ) / n) := by
  obtain ⟨labels, h1, h⟩ := generated_flipped y noise choose hc hy hd hk
  have hs := h.separated hK
  refine ⟨labels, h1, ?_, ?_, C151_health A hs⟩
  · rw [(C151_accepted A hs _ none .offDiagonal).1]
    refine C151_certain_all A labels y hK h.correct _ rfl rfl (fun cj hcj => ?_) (fun k => ?_)
    · cases hcj
    · obtain ⟨i, hi⟩ := h.correct k
      exact Finset.card_pos.mpr ⟨i, Finset.mem_filter.mpr ⟨Finset.mem_univ _, hi⟩⟩
  · rw [(C151_accepted A hs { filterBy := filter } none .offDiagonal).2, (C151_count A hs none).1, h.errors]

/-- **C155, noise rates.** For at most 10000 examples the estimated prior is the true one, and the estimated noise matrix differs from
the one asked for only by rounding: off the diagonal by less than one example of the class, downwards. -/
theorem C155_noise (hK : 2 ≤ K) (hn : n ≤ 10000) (hc : ∀ k, IsChoice (choose k)) (hy : Function.Surjective y)
    (hd : ∀ k, IsDistribution (fun j => noise j k)) (hk : ∀ k, 0 < noise k k) (converge : Bool) :
    ∃ labels est inv cj, Noise.generateNoisyLabels y noise choose = .ok labels ∧
      fromProbabilities A labels (certain y) none converge .cnt = .ok ((fun k => (numGiven y k : ℚ) / n, est, inv), cj) ∧
      (∀ j k, j ≠ k → est j k ≤ noise j k ∧ noise j k < est j k + 1 / numGiven y k) ∧
      (∀ k, noise k k ≤ est k k ∧ est k k ≤ noise k k + (K - 1 : ℕ) / numGiven y k) := by
  obtain ⟨labels, h1, h⟩ := generated_flipped y noise choose hc hy hd hk
  obtain ⟨cj, h2⟩ := C151_noise A (h.separated hK) hn converge
  refine ⟨labels, _, _, cj, h1, h2, fun j k hjk => ?_, fun k => ?_⟩
  · have h3 := h.off j k hjk
    have h4 : (0 : ℚ) < numGiven y k := by linarith [h.total_pos k]
    rw [← add_div, div_le_iff₀ h4, lt_div_iff₀ h4]
    exact h3
  · have h3 := h.diag k
    have h4 : (0 : ℚ) < numGiven y k := by linarith [h.total_pos k]
    rw [le_div_iff₀ h4, div_le_iff₀ h4, add_mul, div_mul_cancel₀ _ h4.ne']
    exact h3

/-- **C155, exact rates.** If the noise matrix asks for whole numbers of examples, it is estimated exactly. -/
theorem C155_exact (hK : 2 ≤ K) (hn : n ≤ 10000) (hc : ∀ k, IsChoice (choose k)) (hy : Function.Surjective y)
    (hd : ∀ k, IsDistribution (fun j => noise j k)) (hk : ∀ k, 0 < noise k k)
    (hw : ∀ j k, ∃ m : ℤ, noise j k * (numGiven y k : ℚ) = m) (converge : Bool) :
    ∃ labels inv cj, Noise.generateNoisyLabels y noise choose = .ok labels ∧
      fromProbabilities A labels (certain y) none converge .cnt = .ok ((fun k => (numGiven y k : ℚ) / n, noise, inv), cj) := by
  obtain ⟨labels, h1, h⟩ := generated_flipped y noise choose hc hy hd hk
  obtain ⟨cj, h2⟩ := C151_noise A (h.separated hK) hn converge
  have hoff : ∀ j k, j ≠ k → (numPairs labels y j k : ℚ) = noise j k * numGiven y k := by
    intro j k hjk
    obtain ⟨m, hm⟩ := hw j k
    have := h.count j k hjk
    rw [hm, Int.floor_intCast] at this
    rw [hm, ← this]
    push_cast
    rfl
  have hdiag : ∀ k, (numPairs labels y k k : ℚ) = noise k k * numGiven y k := by
    intro k
    have e1 : ∑ j, (numPairs labels y j k : ℚ) = numGiven y k := by
      have := sum_numPairs_left labels y k
      exact_mod_cast this
    have e2 : ∑ j, noise j k * numGiven y k = numGiven y k := by
      rw [← Finset.sum_mul, (h.dist k).2, one_mul]
    rw [← Finset.add_sum_erase _ _ (Finset.mem_univ k)] at e1 e2
    rw [Finset.sum_congr rfl (fun j hj => hoff j k (Finset.ne_of_mem_erase hj))] at e1
    linarith
  have he : (fun s k => (numPairs labels y s k : ℚ) / numGiven y k) = noise := by
    funext j k
    have h4 : (0 : ℚ) < numGiven y k := by linarith [h.total_pos k]
    rw [div_eq_iff h4.ne']
    by_cases hjk : j = k
    · subst hjk; exact hdiag j
    · exact hoff j k hjk
  rw [he] at h2
  exact ⟨labels, _, cj, h1, h2⟩

/-- Five examples, 40 % of class 0 should become 1 and half of class 1 should become 0: both flipped labels are found. -/
example (A : ArgSort ℚ) (filter : FilterBy) :
    ∃ labels, Noise.generateNoisyLabels (n := 5) (K := 2) ![0, 0, 0, 1, 1] ![![3/5, 1/2], ![2/5, 1/2]] (fun _ l m => l.take m) =
      .ok labels ∧ findChecked A labels (certain ![0, 0, 0, 1, 1]) { filterBy := filter } =
        .ok (fun i => decide (labels i ≠ (![0, 0, 0, 1, 1] : Fin 5 → Fin 2) i)) ∧ labels 0 = 1 ∧ labels 3 = 0 := by
  obtain ⟨labels, h1, h2, -⟩ := C155_found A (![0, 0, 0, 1, 1] : Fin 5 → Fin 2) ![![3/5, 1/2], ![2/5, 1/2]] (fun _ l m => l.take m)
    (by norm_num) (fun _ => isChoice_take) (by decide +kernel) (fun k => ⟨by revert k; decide +kernel, by revert k; decide +kernel⟩)
    (by decide +kernel) filter
  refine ⟨labels, h1, h2, ?_⟩
  have h3 : (Noise.generateNoisyLabels (n := 5) (K := 2) ![0, 0, 0, 1, 1] ![![3/5, 1/2], ![2/5, 1/2]]
    (fun _ l m => l.take m)).toOption = some ![1, 0, 0, 0, 1] := by decide +kernel
  rw [h1] at h3
  rw [Option.some.inj h3]
  decide

/-- Half of the four examples of class 1: the noise matrix asks for whole numbers. -/
example : ∀ j k, ∃ m : ℤ, (![![3/4, 1/2], ![1/4, 1/2]] : Fin 2 → Fin 2 → ℚ) j k *
    (numGiven (![0, 0, 0, 0, 1, 1, 1, 1] : Fin 8 → Fin 2) k : ℚ) = m := by
  have e : ∀ k, numGiven (![0, 0, 0, 0, 1, 1, 1, 1] : Fin 8 → Fin 2) k = 4 := by decide +kernel
  intro j k
  rw [e]
  fin_cases j <;> fin_cases k
  · exact ⟨3, by norm_num⟩
  · exact ⟨2, by norm_num⟩
  · exact ⟨1, by norm_num⟩
  · exact ⟨2, by norm_num⟩

end Cleanlab.Props
