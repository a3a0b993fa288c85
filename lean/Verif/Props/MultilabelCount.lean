import Verif.Model.MultilabelCount
import Verif.Props.Count
import Verif.Props.MultilabelFilter
import Verif.Props.ValueCounts
import Mathlib.Tactic.FinCases

/-!
# C101: counting for multi-label data, C102: custom thresholds
-/

namespace Cleanlab.Props

open Np Cleanlab.Util Cleanlab.Count Cleanlab.Filter Cleanlab.Multilabel Cleanlab.MultilabelCount Cleanlab.Spec

variable {n K : ℕ}

/-- The number of examples that have class `k`. -/
def numWith (labels : List (List ℕ)) (k : ℕ) : ℕ := (Finset.univ.filter (fun i => k ∈ labels.get i)).card

/-- The number of examples that do not have class `k`. -/
def numWithout (labels : List (List ℕ)) (k : ℕ) : ℕ := (Finset.univ.filter (fun i => k ∉ labels.get i)).card

theorem numWith_add (labels : List (List ℕ)) (k : ℕ) : numWith labels k + numWithout labels k = labels.length := by
  unfold numWith numWithout
  rw [Finset.card_filter_add_card_filter_not, Finset.card_univ, Fintype.card_fin]

theorem binary_eq_one (labels : List (List ℕ)) (k : Fin K) (i : Fin labels.length) :
    binaryLabels (onehot labels K) k i = 1 ↔ (k : ℕ) ∈ labels.get i := by
  unfold binaryLabels onehot
  by_cases h : (k : ℕ) ∈ labels.get i <;> simp

theorem binary_eq_zero (labels : List (List ℕ)) (k : Fin K) (i : Fin labels.length) :
    binaryLabels (onehot labels K) k i = 0 ↔ (k : ℕ) ∉ labels.get i := by
  unfold binaryLabels onehot
  by_cases h : (k : ℕ) ∈ labels.get i <;> simp

theorem numGiven_one (labels : List (List ℕ)) (k : Fin K) :
    numGiven (binaryLabels (onehot labels K) k) 1 = numWith labels k := by
  unfold numGiven numWith
  simp only [binary_eq_one]

theorem numGiven_zero (labels : List (List ℕ)) (k : Fin K) :
    numGiven (binaryLabels (onehot labels K) k) 0 = numWithout labels k := by
  unfold numGiven numWithout
  simp only [binary_eq_zero]

/-- **C101**: the calibrated joint of each class has non-negative entries; the first row sums to the number of examples
without the class, the second to the number of examples with it; all entries sum to the number of examples. -/
theorem C101_calibrated (A : ArgSort ℚ) (labels : List (List ℕ)) (P : Fin labels.length → Fin K → ℚ) (k : Fin K) :
    (∀ a b, 0 ≤ jointMultilabel A labels P true k a b) ∧
      (∑ b, jointMultilabel A labels P true k 0 b = (numWithout labels k : ℤ)) ∧
      (∑ b, jointMultilabel A labels P true k 1 b = (numWith labels k : ℤ)) ∧
      ∑ a, ∑ b, jointMultilabel A labels P true k a b = (labels.length : ℤ) := by
  obtain ⟨h1, h2, h3⟩ := C01_calibrated_confident_joint A (binaryLabels (onehot labels K) k) (stackComplement P k)
    (getConfidentThresholds (binaryLabels (onehot labels K) k) (stackComplement P k))
  exact ⟨h1, by rw [← numGiven_zero]; exact h2 0, by rw [← numGiven_one]; exact h2 1, h3⟩

/-- **C101**, thresholds: for a class that some examples have and some do not, the mean probability of the class over the
examples with it, and the mean of the complementary probability over those without it (at least `2e-6`). -/
theorem C101_thresholds (labels : List (List ℕ)) (P : Fin labels.length → Fin K → ℚ) (k : Fin K)
    (h1 : ∃ i : Fin labels.length, (k : ℕ) ∈ labels.get i) (h0 : ∃ i : Fin labels.length, (k : ℕ) ∉ labels.get i) :
    thresholdsMultilabel labels P k 1 =
        max ((∑ i ∈ Finset.univ.filter (fun i => (k : ℕ) ∈ labels.get i), P i k) / numWith labels k) (2 / 1000000) ∧
      thresholdsMultilabel labels P k 0 =
        max ((∑ i ∈ Finset.univ.filter (fun i => (k : ℕ) ∉ labels.get i), (1 - P i k)) / numWithout labels k)
          (2 / 1000000) := by
  unfold thresholdsMultilabel
  constructor
  · rw [C04_threshold_present _ _ _ (by obtain ⟨i, hi⟩ := h1; exact ⟨i, (binary_eq_one labels k i).mpr hi⟩)]
    unfold meanSelfConfidence
    rw [numGiven_one]
    simp only [binary_eq_one]
    rfl
  · rw [C04_threshold_present _ _ _ (by obtain ⟨i, hi⟩ := h0; exact ⟨i, (binary_eq_zero labels k i).mpr hi⟩)]
    unfold meanSelfConfidence
    rw [numGiven_zero]
    simp only [binary_eq_zero]
    rfl

/-- A class is found for an example: its probability reaches the threshold, and it is above 1/2 or the complementary
probability does not reach the other threshold. -/
def Belongs (t0 t1 p : ℚ) : Prop := t1 ≤ p + 1 / 1000000 ∧ (1 / 2 < p ∨ ¬ t0 ≤ 1 - p + 1 / 1000000)

/-- A class is found missing for an example. -/
def NotBelongs (t0 t1 p : ℚ) : Prop := t0 ≤ 1 - p + 1 / 1000000 ∧ (p ≤ 1 / 2 ∨ ¬ t1 ≤ p + 1 / 1000000)

instance (t0 t1 p : ℚ) : Decidable (Belongs t0 t1 p) := by unfold Belongs; infer_instance
instance (t0 t1 p : ℚ) : Decidable (NotBelongs t0 t1 p) := by unfold NotBelongs; infer_instance

theorem assigned_one (P : Fin n → Fin K → ℚ) (k : Fin K) (thr : Fin 2 → ℚ) (i : Fin n) :
    ((Reaches (stackComplement P k) thr i 1 ∧ ∀ c, Reaches (stackComplement P k) thr i c → c = 1) ∨
      ((∃ c l, c ≠ l ∧ Reaches (stackComplement P k) thr i c ∧ Reaches (stackComplement P k) thr i l) ∧
        IsPrediction (stackComplement P k i) 1)) ↔ Belongs (thr 0) (thr 1) (P i k) := by
  have e1 : Reaches (stackComplement P k) thr i 1 ↔ thr 1 ≤ P i k + 1 / 1000000 := Iff.rfl
  have e0 : Reaches (stackComplement P k) thr i 0 ↔ thr 0 ≤ 1 - P i k + 1 / 1000000 := Iff.rfl
  have hp : IsPrediction (stackComplement P k i) 1 ↔ 1 / 2 < P i k := by
    unfold IsPrediction stackComplement
    simp only [Fin.forall_fin_two]
    simp
    constructor
    · rintro ⟨h, h'⟩; linarith
    · intro h; exact ⟨by linarith, by linarith⟩
  have hex : (∃ c l, c ≠ l ∧ Reaches (stackComplement P k) thr i c ∧ Reaches (stackComplement P k) thr i l) ↔
      Reaches (stackComplement P k) thr i 0 ∧ Reaches (stackComplement P k) thr i 1 := by
    constructor
    · rintro ⟨c, l, h, hc, hl⟩
      fin_cases c <;> fin_cases l
      · exact absurd rfl h
      · exact ⟨hc, hl⟩
      · exact ⟨hl, hc⟩
      · exact absurd rfl h
    · rintro ⟨h0, h1⟩; exact ⟨0, 1, by decide, h0, h1⟩
  have hall : (∀ c, Reaches (stackComplement P k) thr i c → c = 1) ↔ ¬ Reaches (stackComplement P k) thr i 0 := by
    rw [Fin.forall_fin_two]; simp
  rw [hex, hall, hp, e1, e0]
  unfold Belongs
  tauto

theorem assigned_zero (P : Fin n → Fin K → ℚ) (k : Fin K) (thr : Fin 2 → ℚ) (i : Fin n) :
    ((Reaches (stackComplement P k) thr i 0 ∧ ∀ c, Reaches (stackComplement P k) thr i c → c = 0) ∨
      ((∃ c l, c ≠ l ∧ Reaches (stackComplement P k) thr i c ∧ Reaches (stackComplement P k) thr i l) ∧
        IsPrediction (stackComplement P k i) 0)) ↔ NotBelongs (thr 0) (thr 1) (P i k) := by
  have e1 : Reaches (stackComplement P k) thr i 1 ↔ thr 1 ≤ P i k + 1 / 1000000 := Iff.rfl
  have e0 : Reaches (stackComplement P k) thr i 0 ↔ thr 0 ≤ 1 - P i k + 1 / 1000000 := Iff.rfl
  have hp : IsPrediction (stackComplement P k i) 0 ↔ P i k ≤ 1 / 2 := by
    unfold IsPrediction stackComplement
    simp only [Fin.forall_fin_two]
    simp
    constructor
    · intro h; linarith
    · intro h; linarith
  have hex : (∃ c l, c ≠ l ∧ Reaches (stackComplement P k) thr i c ∧ Reaches (stackComplement P k) thr i l) ↔
      Reaches (stackComplement P k) thr i 0 ∧ Reaches (stackComplement P k) thr i 1 := by
    constructor
    · rintro ⟨c, l, h, hc, hl⟩
      fin_cases c <;> fin_cases l
      · exact absurd rfl h
      · exact ⟨hc, hl⟩
      · exact ⟨hl, hc⟩
      · exact absurd rfl h
    · rintro ⟨h0, h1⟩; exact ⟨0, 1, by decide, h0, h1⟩
  have hall : (∀ c, Reaches (stackComplement P k) thr i c → c = 0) ↔ ¬ Reaches (stackComplement P k) thr i 1 := by
    rw [Fin.forall_fin_two]; simp
  rw [hex, hall, hp, e1, e0]
  unfold NotBelongs
  tauto

/-- **C101**, the counts before calibration: entry `(1, 0)` of class `k` is the number of examples with the class in which
it is found missing, entry `(0, 1)` the number of examples without the class in which it is found; the entries on the
diagonal count the examples without the class in which it is found missing and those with the class in which it is
found, at least 1. -/
theorem C101_counts (A : ArgSort ℚ) (labels : List (List ℕ)) (P : Fin labels.length → Fin K → ℚ) (k : Fin K) :
    let t := thresholdsMultilabel labels P k
    jointMultilabel A labels P false k 1 0 =
        (Finset.univ.filter (fun i => (k : ℕ) ∈ labels.get i ∧ NotBelongs (t 0) (t 1) (P i k))).card ∧
      jointMultilabel A labels P false k 0 1 =
        (Finset.univ.filter (fun i => (k : ℕ) ∉ labels.get i ∧ Belongs (t 0) (t 1) (P i k))).card ∧
      jointMultilabel A labels P false k 1 1 =
        (max 1 (Finset.univ.filter (fun i => (k : ℕ) ∈ labels.get i ∧ Belongs (t 0) (t 1) (P i k))).card : ℕ) ∧
      jointMultilabel A labels P false k 0 0 =
        (max 1 (Finset.univ.filter (fun i => (k : ℕ) ∉ labels.get i ∧ NotBelongs (t 0) (t 1) (P i k))).card : ℕ) := by
  classical
  intro t
  have h := fun a b => C03_confident_joint_counts_partial (binaryLabels (onehot labels K) k) (stackComplement P k) t a b
    (Classical.decPred _)
  have e : ∀ a b, jointMultilabel A labels P false k a b =
      (confidentJointRaw (binaryLabels (onehot labels K) k) (stackComplement P k) t a b : ℤ) := fun a b => rfl
  refine ⟨?_, ?_, ?_, ?_⟩
  · rw [e, h 1 0, if_neg (by decide)]
    congr 2
    ext i
    simp only [Finset.mem_filter, Finset.mem_univ, true_and, binary_eq_one, assigned_zero]
  · rw [e, h 0 1, if_neg (by decide)]
    congr 2
    ext i
    simp only [Finset.mem_filter, Finset.mem_univ, true_and, binary_eq_zero, assigned_one]
  · rw [e, h 1 1, if_pos rfl]
    congr 3
    ext i
    simp only [Finset.mem_filter, Finset.mem_univ, true_and, binary_eq_one, assigned_one]
  · rw [e, h 0 0, if_pos rfl]
    congr 3
    ext i
    simp only [Finset.mem_filter, Finset.mem_univ, true_and, binary_eq_zero, assigned_zero]

/-- Data for the examples: two examples with class 0, one of which should not have it, and one without. -/
def mcLabels : List (List ℕ) := [[0], [0], [0], []]

def mcProbs : Fin mcLabels.length → Fin 1 → ℚ := ![![9 / 10], ![9 / 10], ![1 / 10], ![1 / 10]]

theorem mc_joint (A : ArgSort ℚ) (a b : Fin 2) : jointMultilabel A mcLabels mcProbs false 0 a b =
    (confidentJointRaw (binaryLabels (onehot mcLabels 1) 0) (stackComplement mcProbs 0)
      (thresholdsMultilabel mcLabels mcProbs 0) a b : ℤ) := rfl

example (A : ArgSort ℚ) : jointMultilabel A mcLabels mcProbs false 0 1 0 = 1 ∧
    jointMultilabel A mcLabels mcProbs false 0 1 1 = 2 ∧ jointMultilabel A mcLabels mcProbs false 0 0 0 = 1 ∧
    jointMultilabel A mcLabels mcProbs false 0 0 1 = 0 := by
  simp only [mc_joint]
  decide +kernel

/-- **C101 is violated.** The documentation says that entry `(c, 0, 0)` is the number of examples with class `c` in which
`c` is found, but it is the number of those without it in which it is found missing. -/
theorem C101_not_documented_order : ∃ (labels : List (List ℕ)) (P : Fin labels.length → Fin 1 → ℚ), ∀ A : ArgSort ℚ,
    jointMultilabel A labels P false 0 0 0 ≠
      (Finset.univ.filter (fun i => (0 : ℕ) ∈ labels.get i ∧
        Belongs (thresholdsMultilabel labels P 0 0) (thresholdsMultilabel labels P 0 1) (P i 0))).card := by
  refine ⟨mcLabels, mcProbs, fun A => ?_⟩
  rw [mc_joint]
  decide +kernel

/-- **C101**, indices: the examples listed for class `k` are exactly those counted off the diagonal, in ascending order. -/
theorem C101_indices (labels : List (List ℕ)) (P : Fin labels.length → Fin K → ℚ) (k : Fin K) :
    (offDiagonalMultilabel labels P k).Pairwise (· < ·) ∧
      ∀ i, i ∈ offDiagonalMultilabel labels P k ↔
        ((k : ℕ) ∈ labels.get i ∧ NotBelongs (thresholdsMultilabel labels P k 0) (thresholdsMultilabel labels P k 1) (P i k)) ∨
        ((k : ℕ) ∉ labels.get i ∧ Belongs (thresholdsMultilabel labels P k 0) (thresholdsMultilabel labels P k 1) (P i k)) := by
  obtain ⟨h1, h2⟩ := C03_off_diagonal_indices (binaryLabels (onehot labels K) k) (stackComplement P k)
    (thresholdsMultilabel labels P k)
  refine ⟨h1, fun i => (h2 i).trans ?_⟩
  constructor
  · rintro ⟨b, hb, h⟩
    fin_cases b
    · refine Or.inl ⟨?_, (assigned_zero P k _ i).mp h⟩
      by_contra hc
      exact hb ((binary_eq_zero labels k i).mpr hc).symm
    · refine Or.inr ⟨?_, (assigned_one P k _ i).mp h⟩
      intro hc
      exact hb ((binary_eq_one labels k i).mpr hc).symm
  · rintro (⟨hk, h⟩ | ⟨hk, h⟩)
    · exact ⟨0, by rw [(binary_eq_one labels k i).mpr hk]; decide, (assigned_zero P k _ i).mpr h⟩
    · exact ⟨1, by rw [(binary_eq_zero labels k i).mpr hk]; decide, (assigned_one P k _ i).mpr h⟩

example : (offDiagonalMultilabel mcLabels mcProbs 0).map Fin.val = [2] := by decide +kernel

/-- **C101**, the joint distribution: for each class, a distribution on the pairs (given, found) whose first marginal is
the fraction of examples without and with the class. -/
theorem C101_joint (A : ArgSort ℚ) (labels : List (List ℕ)) (P : Fin labels.length → Fin K → ℚ) (hne : labels ≠ []) :
    ∃ J, estimateJointMultilabel A labels P none = .ok J ∧ ∀ k,
      (∀ a b, 0 ≤ J k a b) ∧ ∑ b, J k 0 b = (numWithout labels k : ℚ) / labels.length ∧
        ∑ b, J k 1 b = (numWith labels k : ℚ) / labels.length ∧ ∑ a, ∑ b, J k a b = 1 := by
  have hn : 0 < labels.length := List.length_pos_iff.mpr hne
  refine ⟨fun k => estimateJoint A (binaryLabels (onehot labels K) k) (stackComplement P k), ?_, fun k => ?_⟩
  · unfold estimateJointMultilabel
    refine (collect_ok_iff _ _).mpr fun k => ?_
    dsimp only
    rw [List.getElem?_ofFn, dif_pos k.2]
    dsimp only
    congr 1
    funext a b
    unfold estimateJointFrom estimateJoint
    have := C05_calibration_idempotent A (binaryLabels (onehot labels K) k) (stackComplement P k)
      (getConfidentThresholds (binaryLabels (onehot labels K) k) (stackComplement P k))
    unfold jointMultilabel
    rw [this]
  · obtain ⟨h1, h2, h3⟩ := C05_estimate_joint A (binaryLabels (onehot labels K) k) (stackComplement P k) hn
    exact ⟨h1, by rw [← numGiven_zero]; exact h2 0, by rw [← numGiven_one]; exact h2 1, h3⟩

/-- **C101**, the same for a given confident joint with a matrix for every class, whose rows are not zero. -/
theorem C101_joint_given (A : ArgSort ℚ) (labels : List (List ℕ)) (P : Fin labels.length → Fin K → ℚ) (hne : labels ≠ [])
    (cj : List (Fin 2 → Fin 2 → ℚ)) (hlen : K ≤ cj.length) (hnn : ∀ m ∈ cj, ∀ a b, 0 ≤ m a b)
    (hrow : ∀ m ∈ cj, ∀ a, (1 : ℚ) / 10 ^ 100 ≤ ∑ b, m a b) :
    ∃ J, estimateJointMultilabel A labels P (some cj) = .ok J ∧ ∀ k,
      (∀ a b, 0 ≤ J k a b) ∧ ∑ b, J k 0 b = (numWithout labels k : ℚ) / labels.length ∧
        ∑ b, J k 1 b = (numWith labels k : ℚ) / labels.length ∧ ∑ a, ∑ b, J k a b = 1 := by
  have hn : 0 < labels.length := List.length_pos_iff.mpr hne
  have hlt : ∀ k : Fin K, (k : ℕ) < cj.length := fun k => lt_of_lt_of_le k.2 hlen
  refine ⟨fun k => estimateJointFrom A (cj[(k : ℕ)]'(hlt k)) (binaryLabels (onehot labels K) k), ?_, fun k => ?_⟩
  · unfold estimateJointMultilabel
    refine (collect_ok_iff _ _).mpr fun k => ?_
    dsimp only
    rw [List.getElem?_eq_getElem (hlt k)]
  · obtain ⟨h1, h2, h3⟩ := C05_estimate_joint_user_partial A (cj[(k : ℕ)]'(hlt k)) (binaryLabels (onehot labels K) k) hn
      (hnn _ (List.getElem_mem _)) (fun a _ => hrow _ (List.getElem_mem _) a)
    exact ⟨h1, by rw [← numGiven_zero]; exact h2 0, by rw [← numGiven_one]; exact h2 1, h3⟩

/-- **C101**: a given confident joint with too few matrices is refused. -/
theorem C101_joint_short (A : ArgSort ℚ) (labels : List (List ℕ)) (P : Fin labels.length → Fin K → ℚ)
    (cj : List (Fin 2 → Fin 2 → ℚ)) (hlen : cj.length < K) :
    ∃ e, estimateJointMultilabel A labels P (some cj) = .error e := by
  cases h : estimateJointMultilabel A labels P (some cj) with
  | error e => exact ⟨e, rfl⟩
  | ok J =>
    unfold estimateJointMultilabel at h
    have := (collect_ok_iff _ _).mp h ⟨cj.length, hlen⟩
    simp at this

/-- The labels of `C101_joint_given` with a joint of ones. -/
example (A : ArgSort ℚ) : ∃ J, estimateJointMultilabel A mcLabels mcProbs (some [fun _ _ => 1]) = .ok J ∧
    ∑ b, J 0 1 b = 3 / 4 := by
  obtain ⟨J, hJ, h⟩ := C101_joint_given A mcLabels mcProbs (by decide) [fun _ _ => 1] (by decide) (by simp)
    (by intro m hm a; simp at hm; subst hm; simp; norm_num)
  refine ⟨J, hJ, ?_⟩
  rw [(h 0).2.2.1]
  have : numWith mcLabels (0 : Fin 1) = 3 := by decide +kernel
  rw [this]
  rfl

/-! ## Calibrating a given joint -/

theorem mem_flatten_iff (labels : List (List ℕ)) (a : ℕ) : a ∈ npUnique labels.flatten ↔ ∃ i, a ∈ labels.get i := by
  rw [mem_npUnique, List.mem_flatten]
  constructor
  · rintro ⟨l, hl, ha⟩
    obtain ⟨i, hi⟩ := List.get_of_mem hl
    exact ⟨i, by rw [hi]; exact ha⟩
  · rintro ⟨i, ha⟩
    exact ⟨_, List.get_mem _ _, ha⟩

/-- With classes below `K` that all occur, the number of classes is right. -/
theorem numClasses_eq (labels : List (List ℕ)) (K : ℕ) (hK : ∀ l ∈ labels, ∀ a ∈ l, a < K)
    (hocc : ∀ k, k < K → ∃ i : Fin labels.length, k ∈ labels.get i) : numClasses labels = K := by
  have hp : (npUnique labels.flatten).Perm (List.range K) := by
    rw [List.perm_ext_iff_of_nodup (nodup_npUnique _) List.nodup_range]
    intro a
    rw [mem_flatten_iff, List.mem_range]
    exact ⟨fun ⟨i, hi⟩ => hK _ (List.get_mem _ _) a hi, hocc a⟩
  rw [numClasses, hp.length_eq, List.length_range]

/-- **C101**, partial: if all classes occur, `calibrate_confident_joint` gives a matrix for every class, with the row sums of
the labels. Missing: labels in which a class does not occur, see `C101_not_calibrate`. -/
theorem C101_calibrate_partial (A : ArgSort ℚ) (labels : List (List ℕ)) (cj : List (Fin 2 → Fin 2 → ℚ))
    (hK : ∀ l ∈ labels, ∀ a ∈ l, a < cj.length)
    (hocc : ∀ k, k < cj.length → ∃ i : Fin labels.length, k ∈ labels.get i) (hnn : ∀ m ∈ cj, ∀ a b, 0 ≤ m a b)
    (hrow : ∀ m ∈ cj, ∀ a, (1 : ℚ) / 10 ^ 100 ≤ ∑ b, m a b) :
    (calibrateMultilabel A cj labels).length = cj.length ∧
      ∀ k, k < cj.length → ∃ m, (calibrateMultilabel A cj labels)[k]? = some (some m) ∧ (∀ a b, 0 ≤ m a b) ∧
        ∑ b, m 0 b = (numWithout labels k : ℤ) ∧ ∑ b, m 1 b = (numWith labels k : ℤ) := by
  have hc := numClasses_eq labels cj.length hK hocc
  refine ⟨by simp [calibrateMultilabel, hc], fun k hk => ?_⟩
  have hk' : k < numClasses labels := by omega
  obtain ⟨h1, h2⟩ := C01_calibrate_user_joint A cj[k] (binaryLabels (onehot labels (numClasses labels)) ⟨k, hk'⟩)
    (hnn _ (List.getElem_mem _)) (fun a _ => hrow _ (List.getElem_mem _) a)
  refine ⟨_, ?_, h1, ?_, ?_⟩
  · unfold calibrateMultilabel
    rw [List.getElem?_ofFn, dif_pos hk']
    dsimp only
    rw [List.getElem?_eq_getElem hk]
    rfl
  · rw [h2 0, numGiven_zero]
  · rw [h2 1, numGiven_one]

example (A : ArgSort ℚ) : (calibrateMultilabel A [fun _ _ => 1, fun _ _ => 1] [[0], [1], []]).length = 2 :=
  (C101_calibrate_partial A [[0], [1], []] [fun _ _ => 1, fun _ _ => 1] (by decide) (by decide)
    (by intro m hm a b; simp at hm; subst hm; norm_num) (by intro m hm a; simp at hm; subst hm; simp; norm_num)).1

/-- **C101 is violated.** If one of the classes does not occur among valid labels, `calibrate_confident_joint` returns fewer
matrices than it is given, and so loses the largest classes. -/
theorem C101_not_calibrate (A : ArgSort ℚ) (labels : List (List ℕ)) (cj : List (Fin 2 → Fin 2 → ℚ))
    (hK : ∀ l ∈ labels, ∀ a ∈ l, a < cj.length) (k : ℕ) (hk : k < cj.length)
    (hno : ∀ i : Fin labels.length, k ∉ labels.get i) : (calibrateMultilabel A cj labels).length < cj.length := by
  unfold calibrateMultilabel
  rw [List.length_ofFn, numClasses]
  have hs : (npUnique labels.flatten).Subperm ((List.range cj.length).erase k) := by
    refine List.subperm_of_subset (nodup_npUnique _) fun a ha => ?_
    obtain ⟨i, hi⟩ := (mem_flatten_iff labels a).mp ha
    rw [(List.nodup_range).mem_erase_iff, List.mem_range]
    exact ⟨fun h => hno i (h ▸ hi), hK _ (List.get_mem _ _) a hi⟩
  have := hs.length_le
  rw [List.length_erase_of_mem (List.mem_range.mpr hk), List.length_range] at this
  omega

/-- Labels with the classes 0 and 2 only. -/
example (A : ArgSort ℚ) : (calibrateMultilabel A [fun _ _ => 1, fun _ _ => 1, fun _ _ => 1] [[0], [2], [0, 2]]).length < 3 :=
  C101_not_calibrate A [[0], [2], [0, 2]] [fun _ _ => 1, fun _ _ => 1, fun _ _ => 1] (by decide) 1 (by decide) (by decide)

/-! ## The number of issues -/

/-- **C101**, the number of label issues: the number of examples with a class in which the filter for one class flags
them. -/
theorem C101_num_issues (A A' : ArgSort ℚ) (labels : List (List ℕ)) (P : Fin labels.length → Fin K → ℚ)
    (cj : Option (Fin K → Fin 2 → Fin 2 → ℚ)) (m : EstimationMethod) (per : Fin K → Fin labels.length → Bool)
    (hper : ∀ k, findChecked A (binaryLabels (onehot labels K) k) (stackComplement P k)
      { filterBy := .confidentLearning, confidentJoint := cj.map (fun c => c k) } = .ok (per k)) :
    numLabelIssuesMultilabel A A' labels P cj m =
      .ok ((Finset.univ.filter (fun i => ∃ k, per k i = true)).card : ℤ) := by
  obtain ⟨mask, hm, hi⟩ := unionMask_iff A (onehot labels K) P { filterBy := .confidentLearning, confidentJoint := cj } per
    (fun k => hper k)
  unfold numLabelIssuesMultilabel multilabelIssues
  rw [if_neg (show ¬ (isLow ({ filterBy := .confidentLearning, confidentJoint := cj } : MLArgs K) = true) by
    unfold isLow; simp), hm]
  dsimp only [bind, Except.bind, pure, Except.pure]
  rw [countP_finRange]
  simp only [hi]

/-- **C101 is violated.** The estimation method is ignored for multi-label data: names that do not exist are accepted, and
`off_diagonal_custom` without a joint, too, where single-label data is refused. -/
theorem C101_not_method (A A' : ArgSort ℚ) (labels : List (List ℕ)) (P : Fin labels.length → Fin K → ℚ)
    (cj : Option (Fin K → Fin 2 → Fin 2 → ℚ)) (m m' : EstimationMethod) :
    numLabelIssuesMultilabel A A' labels P cj m = numLabelIssuesMultilabel A A' labels P cj m' ∧
      (∀ (l : Fin 2 → Fin 2) (Q : Fin 2 → Fin 2 → ℚ) (s : String), (∃ e, numLabelIssues A l Q none (.other s) = .error e) ∧
        ∃ e, numLabelIssues A l Q none .offDiagonalCustom = .error e) :=
  ⟨rfl, fun _ _ _ => ⟨⟨_, rfl⟩, ⟨_, rfl⟩⟩⟩

/-- The data above have one issue, whatever the method is called. -/
example : numLabelIssuesMultilabel (stableSort ℚ) (stableSort ℚ) mcLabels mcProbs none (.other "no such method") = .ok 1 := by
  rw [C101_num_issues (stableSort ℚ) (stableSort ℚ) mcLabels mcProbs none _ (fun _ i => decide (i.val = 2))
    (fun k => ok_of_toOption (by revert k; decide +kernel))]
  congr 1

/-! ## C102 -/

theorem rawFrom_const [NeZero K] (labels : Fin n → Fin K) (P : Fin n → Fin K → ℚ) (thr : Fin K → ℚ) :
    rawFrom labels P (fun _ => thr) = confidentJointRaw labels P thr := rfl

/-- **C102**: one threshold for each of at least two classes, in a vector: the confident joint with these thresholds. -/
theorem C102_vector [NeZero K] (labels : Fin n → Fin K) (P : Fin n → Fin K → ℚ) (thr : Fin K → ℚ) :
    jointWithThresholds labels P (.vec (List.ofFn thr)) = .ok (confidentJointRaw labels P thr) := by
  unfold jointWithThresholds broadcast
  dsimp only
  rw [dif_pos (List.length_ofFn)]
  dsimp only [bind, Except.bind, pure, Except.pure]
  rw [← rawFrom_const]
  congr 2
  funext i k
  simp

/-- **C102 is violated.** Thresholds in a column, which the documentation allows, raise unless there are as many examples as
classes. -/
theorem C102_not_column [NeZero K] (labels : Fin n → Fin K) (P : Fin n → Fin K → ℚ) (thr : Fin K → ℚ) (hK : 2 ≤ K)
    (hn : n ≠ K) : ∃ e, jointWithThresholds labels P (.col (List.ofFn thr)) = .error e := by
  unfold jointWithThresholds broadcast
  dsimp only
  rw [dif_neg (by rw [List.length_ofFn]; omega), dif_neg (by rw [List.length_ofFn]; omega)]
  exact ⟨_, rfl⟩

/-- **C102 is violated.** With as many examples as classes, a column of thresholds is silently taken for one threshold per
example. -/
theorem C102_not_column_square : ∃ (labels : Fin 2 → Fin 2) (P : Fin 2 → Fin 2 → ℚ) (thr : Fin 2 → ℚ)
    (J : Fin 2 → Fin 2 → ℕ), RowStochastic P ∧ jointWithThresholds labels P (.col (List.ofFn thr)) = .ok J ∧
      confidentJointRaw labels P thr 0 1 = 1 ∧ J 0 1 = 0 := by
  refine ⟨![0, 1], ![![2 / 5, 3 / 5], ![1 / 10, 9 / 10]], ![9 / 10, 1 / 2],
    rawFrom ![0, 1] ![![2 / 5, 3 / 5], ![1 / 10, 9 / 10]] (fun i _ => ![9 / 10, 1 / 2] i), ?_, ?_, ?_, ?_⟩
  · unfold RowStochastic; decide +kernel
  · unfold jointWithThresholds broadcast
    dsimp only
    rw [dif_pos (List.length_ofFn)]
    dsimp only [bind, Except.bind, pure, Except.pure]
    congr 2
    funext i k
    rw [List.getElem_ofFn]
  · decide +kernel
  · decide +kernel

/-- **C102 is violated.** Multi-label data with at least three classes: one threshold per class raises. -/
theorem C102_not_multilabel (labels : List (List ℕ)) (P : Fin labels.length → Fin K → ℚ) (thr : Fin K → ℚ) (hK : 3 ≤ K) :
    ∃ e, jointMultilabelWithThresholds labels P (.vec (List.ofFn thr)) = .error e := by
  cases h : jointMultilabelWithThresholds labels P (.vec (List.ofFn thr)) with
  | error e => exact ⟨e, rfl⟩
  | ok J =>
    have := (collect_ok_iff _ _).mp h ⟨0, by omega⟩
    unfold jointWithThresholds broadcast at this
    dsimp only at this
    rw [dif_neg (by rw [List.length_ofFn]; omega), dif_neg (by rw [List.length_ofFn]; omega)] at this
    cases this

/-- **C102 is violated.** Multi-label data with two classes: the two thresholds are used for each class, the first for its
absence, the second for its presence. -/
theorem C102_not_multilabel_two (labels : List (List ℕ)) (P : Fin labels.length → Fin 2 → ℚ) (thr : Fin 2 → ℚ) :
    jointMultilabelWithThresholds labels P (.vec (List.ofFn thr)) = .ok (fun k =>
      confidentJointRaw (binaryLabels (onehot labels 2) k) (stackComplement P k) thr) :=
  (collect_ok_iff _ _).mpr fun _ => C102_vector _ _ thr

/-- Thresholds of 1/2 for class 0 and 9/10 for class 1: the example without class 0 whose probability of it is 3/4 is not
counted as belonging to class 0. -/
example : ∃ J, jointMultilabelWithThresholds [[], [0, 1]] (![![3 / 4, 1 / 10], ![9 / 10, 9 / 10]] : Fin 2 → Fin 2 → ℚ)
    (.vec (List.ofFn ![1 / 2, 9 / 10])) = .ok J ∧ J 0 0 1 = 0 := by
  refine ⟨_, C102_not_multilabel_two [[], [0, 1]] _ ![1 / 2, 9 / 10], ?_⟩
  decide +kernel

end Cleanlab.Props
