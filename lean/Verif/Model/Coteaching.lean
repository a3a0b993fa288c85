import Verif.Np.Basic
import Mathlib.Algebra.Order.Floor.Ring
import Mathlib.Data.Rat.Floor
import Mathlib.Analysis.SpecialFunctions.Pow.Real

/-!
# Model of the loss and the schedules of `cleanlab/experimental/coteaching.py`

Without class weights. The losses of the examples under each network are given.
-/

namespace Cleanlab.Coteaching

open Np

variable {n : ℕ}

/-- `num_remember = int(remember_rate * n)`, `coteaching.py:58-59`, for forget rates up to 1. -/
def numRemember (forget : ℚ) (n : ℕ) : ℕ := ⌊(1 - forget) * n⌋.toNat

/-- `ind_sorted[:num_remember]`, `coteaching.py:61-62`. -/
def remembered (A : ArgSort ℚ) (loss : Fin n → ℚ) (m : ℕ) : List (Fin n) := (A.indices loss).take m

/-- `F.cross_entropy(y[ind], t[ind])`: the mean; `nan` for no examples. -/
def crossEntropy (loss : Fin n → ℚ) (ind : List (Fin n)) : Option ℚ :=
  if ind = [] then none else some ((ind.map loss).sum / ind.length)

/-- `loss_coteaching`, `coteaching.py:23-71`: the losses for the two networks; `nan` if nothing is remembered. -/
def lossCoteaching (A : ArgSort ℚ) (loss1 loss2 : Fin n → ℚ) (forget : ℚ) : Option ℚ × Option ℚ :=
  let m := numRemember forget n
  let ind1 := remembered A loss1 m
  let ind2 := remembered A loss2 m
  ((crossEntropy loss1 ind2).map (· / m), (crossEntropy loss2 ind1).map (· / m))

/-- The learning rates of `initialize_lr_scheduler`, `coteaching.py:74-83`. -/
def alphaPlan (lr : ℚ) (epochs start : ℕ) : List ℚ :=
  (List.range epochs).map (fun i : ℕ => if start ≤ i then ((epochs : ℚ) - i) / ((epochs : ℚ) - start) * lr else lr)

/-- `np.linspace(0, stop, num)`. -/
noncomputable def linspace (stop : ℝ) (num : ℕ) : List ℝ := (List.range num).map (fun i : ℕ => (i : ℝ) * (stop / ((num : ℝ) - 1)))

/-- `forget_rate_scheduler`, `coteaching.py:93-98`: the slice has `min(num_gradual, epochs)` places. -/
noncomputable def forgetSchedule (epochs : ℕ) (forget : ℝ) (numGradual : ℕ) (exponent : ℝ) : Except String (List ℝ) :=
  if epochs < numGradual then .error "could not broadcast input array"
  else .ok (linspace (forget ^ exponent) numGradual ++ List.replicate (epochs - numGradual) forget)

end Cleanlab.Coteaching
