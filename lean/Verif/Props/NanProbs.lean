import Verif.Model.NanProbs
import Verif.Lemmas.Count
import Mathlib.Tactic.NormNum

/-!
# C144: missing values among predicted probabilities
-/

namespace Cleanlab.Props

open Np Cleanlab.Count

variable {n K : ℕ}

/-- An example counts as confidently of class `k`. -/
def NanCountedAs [NeZero K] (labels : Fin n → Fin K) (P : Fin n → Fin K → Option ℚ) (i : Fin n) (k : Fin K) : Prop :=
  (∃ c, NanProbs.predProbsBool P (NanProbs.thresholds labels P) i c = true) ∧
    NanProbs.trueLabelGuess P (NanProbs.thresholds labels P) i = k

/-- The same values without `nan`. -/
def present (P : Fin n → Fin K → ℚ) : Fin n → Fin K → Option ℚ := fun i k => some (P i k)

theorem argmax_nanLast [NeZero K] (v : Fin K → ℚ) : argmax (fun k => NanProbs.nanLast (some (v k))) = argmax v := by
  rw [argmax_eq_iff]
  refine ⟨fun j => ?_, fun j hj => ?_⟩
  · exact WithTop.coe_le_coe.mpr (le_argmax v j)
  · exact WithTop.coe_lt_coe.mpr (lt_argmax v j hj)

theorem nan_numConfidentBins_pos (P : Fin n → Fin K → Option ℚ) (thr : Fin K → Option ℚ) (i : Fin n) :
    0 < NanProbs.numConfidentBins P thr i ↔ ∃ c, NanProbs.predProbsBool P thr i c = true := by
  unfold NanProbs.numConfidentBins
  rw [List.countP_pos_iff]
  simp

/-- Without missing values the thresholds and the confident joint are those of the other properties. -/
theorem C144_agrees [NeZero K] (labels : Fin n → Fin K) (P : Fin n → Fin K → ℚ) :
    (∀ k, NanProbs.thresholds labels (present P) k = some (getConfidentThresholds labels P k)) ∧
    (∀ a b, NanProbs.confidentJointRaw labels (present P) (NanProbs.thresholds labels (present P)) a b =
      confidentJointRaw labels P (getConfidentThresholds labels P) a b) := by
  have ht : ∀ k, NanProbs.thresholds labels (present P) k = some (getConfidentThresholds labels P k) := by
    intro k
    unfold NanProbs.thresholds getConfidentThresholds
    by_cases hk : k ∈ List.ofFn labels
    · rw [if_pos hk, if_pos hk]
      unfold NanProbs.mean classMean
      rw [if_pos (by simp [present])]
      have : (((List.finRange n).filter (fun i => labels i = k)).map (fun i => present P i k)).filterMap id =
          ((List.finRange n).filter (fun i => labels i = k)).map (fun i => P i k) := by
        rw [List.filterMap_map]
        exact congrFun (List.filterMap_eq_map' (f := fun i => P i k)) _
      rw [this, List.length_map]
      dsimp only
      rw [List.length_map]
      rfl
    · rw [if_neg hk, if_neg hk]
      rfl
  refine ⟨ht, fun a b => ?_⟩
  have ht' : NanProbs.thresholds labels (present P) = fun k => some (getConfidentThresholds labels P k) := funext ht
  have hb : ∀ i k, NanProbs.predProbsBool (present P) (NanProbs.thresholds labels (present P)) i k =
      predProbsBool P (getConfidentThresholds labels P) i k := by
    intro i k
    rw [ht']
    rfl
  have hn : ∀ i, NanProbs.numConfidentBins (present P) (NanProbs.thresholds labels (present P)) i =
      numConfidentBins P (getConfidentThresholds labels P) i := by
    intro i
    unfold NanProbs.numConfidentBins numConfidentBins
    exact List.countP_congr (fun k _ => by rw [hb])
  have hg : NanProbs.trueLabelGuess (present P) (NanProbs.thresholds labels (present P)) =
      trueLabelGuess P (getConfidentThresholds labels P) := by
    funext i
    unfold NanProbs.trueLabelGuess trueLabelGuess
    rw [hn]
    simp only [hb]
    have := argmax_nanLast (P i)
    unfold present
    rw [this]
  have hr : NanProbs.confidentRows (present P) (NanProbs.thresholds labels (present P)) =
      confidentRows P (getConfidentThresholds labels P) := by
    unfold NanProbs.confidentRows confidentRows atLeastOneConfident
    exact List.filter_congr (fun i _ => by rw [hn])
  unfold NanProbs.confidentJointRaw confidentJointRaw
  rw [hg, hr]

/-- Missing values that are not in the column of the given label change nothing for the other examples: the thresholds are
the same, and every other example counts for the same class as before. -/
theorem C144_other_examples_partial [NeZero K] (labels : Fin n → Fin K) (P Q : Fin n → Fin K → Option ℚ)
    (hown : ∀ i, P i (labels i) = Q i (labels i)) :
    NanProbs.thresholds labels P = NanProbs.thresholds labels Q ∧
    ∀ i, P i = Q i → ∀ k, NanCountedAs labels P i k ↔ NanCountedAs labels Q i k := by
  have ht : NanProbs.thresholds labels P = NanProbs.thresholds labels Q := by
    funext k
    unfold NanProbs.thresholds
    have : ((List.finRange n).filter (fun i => labels i = k)).map (fun i => P i k) =
        ((List.finRange n).filter (fun i => labels i = k)).map (fun i => Q i k) := by
      refine List.map_congr_left fun i hi => ?_
      have hk : labels i = k := by simpa using (List.mem_filter.mp hi).2
      rw [← hk]
      exact hown i
    rw [this]
  refine ⟨ht, fun i hi k => ?_⟩
  unfold NanCountedAs
  rw [ht]
  have hb : NanProbs.predProbsBool P (NanProbs.thresholds labels Q) i =
      NanProbs.predProbsBool Q (NanProbs.thresholds labels Q) i := by
    funext c
    unfold NanProbs.predProbsBool
    rw [hi]
  have hg : NanProbs.trueLabelGuess P (NanProbs.thresholds labels Q) i =
      NanProbs.trueLabelGuess Q (NanProbs.thresholds labels Q) i := by
    unfold NanProbs.trueLabelGuess NanProbs.numConfidentBins
    rw [hb, hi]
  rw [hb, hg]

theorem thresholds_nan (labels : Fin n → Fin K) (P : Fin n → Fin K → Option ℚ) (i : Fin n) (h : P i (labels i) = none) :
    NanProbs.thresholds labels P (labels i) = none := by
  unfold NanProbs.thresholds
  rw [if_pos ((mem_ofFn_iff labels _).mpr ⟨i, rfl⟩)]
  unfold NanProbs.mean
  rw [if_neg]
  · rfl
  · rw [List.all_eq_true]
    intro hall
    have := hall none (List.mem_map.mpr ⟨i, by simp, h⟩)
    cases this

theorem predProbsBool_nan (labels : Fin n → Fin K) (P : Fin n → Fin K → Option ℚ) (i j : Fin n)
    (h : P i (labels i) = none) :
    NanProbs.predProbsBool P (NanProbs.thresholds labels P) j (labels i) = false := by
  unfold NanProbs.predProbsBool
  rw [thresholds_nan labels P i h]
  cases P j (labels i) <;> rfl

/-- One missing value in the column of its own label is enough, in data of any size: no example at all reaches the class any
more. An example can only count for it if it is confidently of two other classes. -/
theorem C144_not_only_its_example [NeZero K] (labels : Fin n → Fin K) (P : Fin n → Fin K → Option ℚ) (i : Fin n)
    (h : P i (labels i) = none) (j : Fin n) (hj : NanCountedAs labels P j (labels i)) :
    ∃ a b, a ≠ b ∧ a ≠ labels i ∧ b ≠ labels i ∧
      NanProbs.predProbsBool P (NanProbs.thresholds labels P) j a = true ∧
      NanProbs.predProbsBool P (NanProbs.thresholds labels P) j b = true := by
  obtain ⟨⟨c, hc⟩, hg⟩ := hj
  have hne : ∀ c, NanProbs.predProbsBool P (NanProbs.thresholds labels P) j c = true → c ≠ labels i := by
    rintro c hc rfl
    rw [predProbsBool_nan labels P i j h] at hc
    cases hc
  unfold NanProbs.trueLabelGuess at hg
  by_cases h1 : NanProbs.numConfidentBins P (NanProbs.thresholds labels P) j > 1
  · unfold NanProbs.numConfidentBins at h1
    rw [countP_finRange] at h1
    obtain ⟨a, ha, b, hb, hab⟩ := Finset.one_lt_card.mp h1
    have ha := (Finset.mem_filter.mp ha).2
    have hb := (Finset.mem_filter.mp hb).2
    exact ⟨a, b, hab, hne a ha, hne b hb, ha, hb⟩
  · rw [if_neg h1, argmax_eq_iff] at hg
    exfalso
    have := hg.1 c
    rw [hc, predProbsBool_nan labels P i j h] at this
    norm_num at this

/-- With two classes no label error of the other class towards this class is found any more, however clear: the entry of the
confident joint is 0. -/
theorem C144_not_two_classes (labels : Fin n → Fin 2) (P : Fin n → Fin 2 → Option ℚ) (i : Fin n)
    (h : P i (labels i) = none) (a : Fin 2) (ha : a ≠ labels i) :
    NanProbs.confidentJointRaw labels P (NanProbs.thresholds labels P) a (labels i) = 0 := by
  unfold NanProbs.confidentJointRaw
  dsimp only
  rw [if_neg ha]
  unfold confusionMatrix
  rw [List.count_eq_zero]
  intro hm
  rw [List.zip_map', List.mem_map] at hm
  obtain ⟨j, hj, he⟩ := hm
  rw [Prod.mk.injEq] at he
  unfold NanProbs.confidentRows at hj
  rw [List.mem_filter, decide_eq_true_eq] at hj
  obtain ⟨a', b', hab, ha', hb', _⟩ := C144_not_only_its_example labels P i h j
    ⟨(nan_numConfidentBins_pos P _ j).mp hj.2, he.1⟩
  exact (by decide : ∀ a b c : Fin 2, a ≠ b → a ≠ c → b ≠ c → False) a' b' (labels i) hab ha' hb'

/-- An example without a value for its label has no score and is listed after every example that has one: a user who looks at
the worst examples first never sees it before those. -/
theorem C144_not_listed_first (A : ArgSort (WithTop ℚ)) (labels : Fin n → Fin K) (P : Fin n → Fin K → Option ℚ)
    (i j : Fin n) (hi : P i (labels i) = none) (x : ℚ) (hj : P j (labels j) = some x) (p q : ℕ)
    (hp : (NanProbs.ranking A (NanProbs.selfConfidence labels P))[p]? = some i)
    (hq : (NanProbs.ranking A (NanProbs.selfConfidence labels P))[q]? = some j) : q < p := by
  by_contra hcon
  have hpw := A.pairwise_indices (fun i => NanProbs.nanLast (NanProbs.selfConfidence labels P i))
  unfold NanProbs.ranking at hp hq
  obtain ⟨hp1, hp2⟩ := List.getElem?_eq_some_iff.mp hp
  obtain ⟨hq1, hq2⟩ := List.getElem?_eq_some_iff.mp hq
  have hij : i ≠ j := by
    rintro rfl
    rw [hi] at hj
    cases hj
  have hpq : p ≠ q := by
    rintro rfl
    exact hij (hp2.symm.trans hq2)
  have := List.pairwise_iff_getElem.mp hpw p q hp1 hq1 (by omega)
  rw [hp2, hq2] at this
  unfold NanProbs.selfConfidence at this
  rw [hi, hj] at this
  exact absurd this (by simp [NanProbs.nanLast])

/-- Three examples of each of two classes and a clear label error, example 2: it is counted; and with one missing value in
another example it is not. -/
def nanLabels : Fin 6 → Fin 2 := ![0, 0, 0, 1, 1, 1]

/-- The probabilities of the example. -/
def nanProbs : Fin 6 → Fin 2 → Option ℚ :=
  ![![some (9 / 10), some (1 / 10)], ![some (9 / 10), some (1 / 10)], ![some (1 / 10), some (9 / 10)],
    ![some (1 / 10), some (9 / 10)], ![some (1 / 10), some (9 / 10)], ![some (1 / 10), some (9 / 10)]]

example : NanProbs.confidentJointRaw nanLabels nanProbs (NanProbs.thresholds nanLabels nanProbs) 0 1 = 1 ∧
    NanProbs.confidentJointRaw nanLabels (Function.update nanProbs 5 ![none, none])
      (NanProbs.thresholds nanLabels (Function.update nanProbs 5 ![none, none])) 0 1 = 0 := by
  decide +kernel

end Cleanlab.Props
