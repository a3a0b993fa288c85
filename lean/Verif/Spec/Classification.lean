import Verif.Np.Basic

/-!
# Specification vocabulary for single-label classification

Written with finite sets and sums only, without reference to the models.
-/

namespace Cleanlab.Spec

variable {n K : ℕ}

/-- Number of examples whose given label is `k`. -/
def numGiven (labels : Fin n → Fin K) (k : Fin K) : ℕ :=
  (Finset.univ.filter (fun i => labels i = k)).card

/-- Mean predicted probability of class `k` over the examples given label `k`. -/
def meanSelfConfidence (labels : Fin n → Fin K) (P : Fin n → Fin K → ℚ) (k : Fin K) : ℚ :=
  (∑ i ∈ Finset.univ.filter (fun i => labels i = k), P i k) / numGiven labels k

/-- Class `k` reaches its threshold for example `i`, up to the tolerance `1e-6` the code allows. -/
def Reaches (P : Fin n → Fin K → ℚ) (thr : Fin K → ℚ) (i : Fin n) (k : Fin K) : Prop :=
  thr k ≤ P i k + 1 / 1000000

instance (P : Fin n → Fin K → ℚ) (thr : Fin K → ℚ) (i : Fin n) (k : Fin K) :
    Decidable (Reaches P thr i k) := by unfold Reaches; infer_instance

/-- `k` is the (first) most probable class of row `p`. -/
def IsPrediction {α : Type} [LinearOrder α] (p : Fin K → α) (k : Fin K) : Prop :=
  (∀ j, p j ≤ p k) ∧ ∀ j < k, p j < p k

instance {α : Type} [LinearOrder α] (p : Fin K → α) (k : Fin K) : Decidable (IsPrediction p k) := by
  unfold IsPrediction; infer_instance

/-- `b` is the (first) most probable class among those reaching their threshold. -/
def MostProbableConfident (P : Fin n → Fin K → ℚ) (thr : Fin K → ℚ) (i : Fin n) (b : Fin K) : Prop :=
  Reaches P thr i b ∧ (∀ k, Reaches P thr i k → P i k ≤ P i b) ∧
    ∀ k < b, Reaches P thr i k → P i k < P i b

instance (P : Fin n → Fin K → ℚ) (thr : Fin K → ℚ) (i : Fin n) (b : Fin K) :
    Decidable (MostProbableConfident P thr i b) := by
  unfold MostProbableConfident; infer_instance

/-- A probability distribution over the classes. -/
def IsDistribution {F : Type} [Field F] [LinearOrder F] (p : Fin K → F) : Prop :=
  (∀ k, 0 ≤ p k) ∧ ∑ k, p k = 1

/-- Every row of `P` is a probability distribution. -/
def RowStochastic (P : Fin n → Fin K → ℚ) : Prop :=
  ∀ i, (∀ k, 0 ≤ P i k) ∧ ∑ k, P i k = 1

/-- Number of examples given label `k` that the mask flags. -/
def numFlagged (labels : Fin n → Fin K) (mask : Fin n → Bool) (k : Fin K) : ℕ :=
  (Finset.univ.filter (fun i => labels i = k ∧ mask i = true)).card

/-- Number of examples given label `k` that the mask leaves. -/
def numKept (labels : Fin n → Fin K) (mask : Fin n → Bool) (k : Fin K) : ℕ :=
  (Finset.univ.filter (fun i => labels i = k ∧ mask i = false)).card

end Cleanlab.Spec
