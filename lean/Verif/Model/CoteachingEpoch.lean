import Verif.Model.Coteaching

/-!
# Model of `train` and `evaluate` of `cleanlab/experimental/coteaching.py`

`W` is the state of a network together with its optimizer, `Ex` an example (image and label). The loss of an example, the
`accuracy` function of the caller, an optimizer step on given examples and the prediction are parameters; they are functions,
so random layers and statistics changed by a forward pass are left out, and so is the printed progress.
-/

namespace Cleanlab.Coteaching

open Np

variable {W Ex : Type}

/-- `MINIMUM_BATCH_SIZE`, `coteaching.py:19`. -/
def minimumBatchSize : ℕ := 16

/-- What `train` is given besides the data. -/
structure Setup (W Ex : Type) where
  /-- `F.cross_entropy(y, t, reduce=False)` of one example, `coteaching.py:50-55`. -/
  loss : W → Ex → ℚ
  /-- `accuracy(logits, labels, topk=(1, 5))[0]`. -/
  accuracy : W → List Ex → ℚ
  /-- `zero_grad`, `backward` and `step` for the loss of some of the examples, `coteaching.py:175-180`. -/
  step : W → List Ex → W

/-- A network in training or in evaluation mode. -/
structure Net (W : Type) where
  state : W
  training : Bool

/-- The variables of the loop, `coteaching.py:136-139`. -/
structure Progress (W : Type) where
  net1 : W
  net2 : W
  total : ℕ
  correct1 : ℚ
  correct2 : ℚ

/-- The examples `t[ind_sorted[:num_remember]]`, `coteaching.py:58-68`. -/
def selected (A : ArgSort ℚ) (S : Setup W Ex) (w : W) (forget : ℚ) (batch : List Ex) : List Ex :=
  (remembered A (fun i => S.loss w (batch.get i)) (numRemember forget batch.length)).map batch.get

/-- One round of the loop, `coteaching.py:156-180`. -/
def trainBatch (A : ArgSort ℚ) (S : Setup W Ex) (forget : ℚ) (p : Progress W) (batch : List Ex) : Progress W where
  net1 := S.step p.net1 (selected A S p.net2 forget batch)
  net2 := S.step p.net2 (selected A S p.net1 forget batch)
  total := p.total + 1
  correct1 := p.correct1 + S.accuracy p.net1 batch
  correct2 := p.correct2 + S.accuracy p.net2 batch

/-- The loop, `coteaching.py:145-180`: `i` is the number of the next batch of `m`. `forget_rate_schedule[epoch]` is read
for every batch that is not skipped. -/
def trainLoop (A : ArgSort ℚ) (S : Setup W Ex) (schedule : List ℚ) (epoch m : ℕ) :
    ℕ → List (List Ex) → Progress W → Except String (Progress W)
  | _, [], p => .ok p
  | i, b :: bs, p =>
    if i + 1 = m ∧ b.length < minimumBatchSize then trainLoop A S schedule epoch m (i + 1) bs p
    else match schedule[epoch]? with
      | none => .error "IndexError"
      | some f => trainLoop A S schedule epoch m (i + 1) bs (trainBatch A S f p b)

/-- `train`, `coteaching.py:102-199`: the networks afterwards and the two accuracies. -/
def train (A : ArgSort ℚ) (S : Setup W Ex) (schedule : List ℚ) (epoch : ℕ) (loader : List (List Ex)) (net1 net2 : Net W) :
    Except String ((Net W × Net W) × ℚ × ℚ) := do
  let p ← trainLoop A S schedule epoch loader.length 0 loader ⟨net1.state, net2.state, 0, 0, 0⟩
  if p.total = 0 then .error "ZeroDivisionError"
  else return ((⟨p.net1, true⟩, ⟨p.net2, true⟩), p.correct1 / p.total, p.correct2 / p.total)

/-- One of the two loops of `evaluate`, `coteaching.py:206-214`; `right` says if the class of the largest output is the
label. -/
def countCorrect (right : W → Ex → Bool) (w : W) (loader : List (List Ex)) : ℕ × ℕ :=
  loader.foldl (fun acc b => (acc.1 + b.countP (right w), acc.2 + b.length)) (0, 0)

/-- `evaluate`, `coteaching.py:203-229`. -/
def evaluate (right : W → Ex → Bool) (loader : List (List Ex)) (net1 net2 : Net W) :
    Except String ((Net W × Net W) × ℚ × ℚ) :=
  let c1 := countCorrect right net1.state loader
  let c2 := countCorrect right net2.state loader
  if c1.2 = 0 ∨ c2.2 = 0 then .error "ZeroDivisionError"
  else .ok ((⟨net1.state, false⟩, ⟨net2.state, false⟩), 100 * (c1.1 : ℚ) / c1.2, 100 * (c2.1 : ℚ) / c2.2)

end Cleanlab.Coteaching
