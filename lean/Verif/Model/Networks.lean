import Mathlib.Data.Rat.Defs
import Mathlib.Tactic.Ring

/-!
# Model of the networks of `cleanlab/experimental/{mnist_pytorch,cifar_cnn}.py`

The shapes of the tensors are computed layer by layer, as PyTorch does, with its refusals. Separately, `forward` is modelled with
arbitrary functions as layers, to say where random numbers enter.
-/

namespace Cleanlab.Networks

/-- The shape of a batch of images: number, channels, height, width. -/
structure Shape where
  n : ℕ
  c : ℕ
  h : ℕ
  w : ℕ
  deriving DecidableEq

/-- `nn.Conv2d(i, o, kernel_size=k, padding=p)` with stride 1. -/
def conv (i o k p : ℕ) (s : Shape) : Except String Shape :=
  if s.c ≠ i then .error "expected input to have another number of channels"
  else if s.h + 2 * p < k ∨ s.w + 2 * p < k then .error "Kernel size can't be greater than actual input size"
  else .ok ⟨s.n, o, s.h + 2 * p - k + 1, s.w + 2 * p - k + 1⟩

/-- `F.max_pool2d(x, 2)`. -/
def maxPool (s : Shape) : Except String Shape :=
  if s.h / 2 = 0 ∨ s.w / 2 = 0 then .error "Output size is too small" else .ok ⟨s.n, s.c, s.h / 2, s.w / 2⟩

/-- `F.avg_pool2d(h, kernel_size=k)`, the stride being `k` as well. -/
def avgPool (k : ℕ) (s : Shape) : Except String Shape :=
  if s.h < k ∨ s.w < k then .error "Output size is too small" else .ok ⟨s.n, s.c, (s.h - k) / k + 1, (s.w - k) / k + 1⟩

/-- `nn.BatchNorm2d(c)`. -/
def batchNorm (c : ℕ) (s : Shape) : Except String Shape :=
  if s.c ≠ c then .error "running_mean should contain another number of elements" else .ok s

/-- The rows of `SimpleNet.forward`, `mnist_pytorch.py:98-114`: `x.view(-1, 320)` makes as many rows as there are multiples of
320 values. -/
def simpleNet (s : Shape) : Except String (ℕ × ℕ) := do
  let s ← conv 1 10 5 0 s
  let s ← maxPool s
  let s ← conv 10 20 5 0 s
  let s ← maxPool s
  if (s.n * s.c * s.h * s.w) % 320 ≠ 0 then .error "shape is invalid for input of this size"
  else return (s.n * s.c * s.h * s.w / 320, 10)

/-- The rows of `CNN.forward`, `cifar_cnn.py:49-108`: `bn_c1` is not defined by `__init__`. -/
def cifarNet (inputChannel outputs : ℕ) (topBn : Bool) (s : Shape) : Except String (ℕ × ℕ) := do
  let s ← conv inputChannel 128 3 1 s
  let s ← batchNorm 128 s
  let s ← conv 128 128 3 1 s
  let s ← batchNorm 128 s
  let s ← conv 128 128 3 1 s
  let s ← batchNorm 128 s
  let s ← maxPool s
  let s ← conv 128 256 3 1 s
  let s ← batchNorm 256 s
  let s ← conv 256 256 3 1 s
  let s ← batchNorm 256 s
  let s ← conv 256 256 3 1 s
  let s ← batchNorm 256 s
  let s ← maxPool s
  let s ← conv 256 512 3 0 s
  let s ← batchNorm 512 s
  let s ← conv 512 256 3 0 s
  let s ← batchNorm 256 s
  let s ← conv 256 128 3 0 s
  let s ← batchNorm 128 s
  let s ← avgPool s.h s
  if s.n * s.c * s.h * s.w ≠ s.n * s.c then .error "shape is invalid for input of this size"
  else if s.c ≠ 128 then .error "mat1 and mat2 shapes cannot be multiplied"
  else if topBn then .error "'CNN' object has no attribute 'bn_c1'"
  else return (s.n, outputs)

/-! ### Where random numbers enter -/

/-- The layers of `SimpleNet`; `drop` and `dropFc` are the random layers when they are active. -/
structure SimpleLayers (R X : Type) where
  conv1 : X → X
  conv2 : X → X
  drop : R → X → X
  pool : X → X
  fc1 : X → X
  dropFc : R → X → X
  fc2 : X → X

/-- `SimpleNet.forward`, `mnist_pytorch.py:106-114`: `nn.Dropout2d` is active in training mode, and so is
`F.dropout(x, training=self.training)`. -/
def simpleForward {R X : Type} (l : SimpleLayers R X) (training : Bool) (r1 r2 : R) (x : X) : X :=
  let x := l.conv1 x
  let x := l.conv2 x
  let x := if training then l.drop r1 x else x
  let x := l.pool x
  let x := l.fc1 x
  let x := if training then l.dropFc r2 x else x
  l.fc2 x

/-- The layers of the CIFAR network between the two random ones; batch normalization depends on the mode. -/
structure CifarLayers (R X : Type) where
  block1 : Bool → X → X
  block2 : Bool → X → X
  block3 : Bool → X → X
  drop : R → X → X

/-- The argument `training` of `F.dropout2d(input, p=0.5, training=True, inplace=False)`, not given in `cifar_cnn.py:85`, `94`. -/
def dropout2dDefault : Bool := true

/-- `CNN.forward`, `cifar_cnn.py:73-108`. -/
def cifarForward {R X : Type} (l : CifarLayers R X) (training : Bool) (r1 r2 : R) (x : X) : X :=
  let h := l.block1 training x
  let h := if dropout2dDefault then l.drop r1 h else h
  let h := l.block2 training h
  let h := if dropout2dDefault then l.drop r2 h else h
  l.block3 training h

end Cleanlab.Networks
