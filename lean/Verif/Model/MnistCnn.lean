import Mathlib.Data.List.Basic
import Mathlib.Data.Rat.Defs

/-!
# The network for MNIST, `cleanlab/experimental/mnist_pytorch.py`

The images, the network (initial weights from the seed, one optimiser step per batch, one row of output per image) and the
order in which `SubsetRandomSampler` draws the indices of an epoch are parameters. Indices are natural numbers (negative
ones are not modelled) and the options for printing and for the GPU are left out.
-/

namespace Cleanlab.MnistCnn

/-- `loader`. -/
inductive Loader
  | train
  | test
deriving DecidableEq

/-- `dataset`. -/
inductive Source
  | mnist
  | digits
deriving DecidableEq

/-- The sizes, `mnist_pytorch.py:20-23, 210-222`. -/
def size : Source → Loader → ℕ
  | .mnist, .train => 60000
  | .mnist, .test => 10000
  | .digits, .train => 1247
  | .digits, .test => 550

/-- An image with its label and, if weights are given, the weight of the label. -/
structure Sample (Img : Type) where
  image : Img
  label : ℤ
  weight : Option ℚ
deriving DecidableEq

/-- The data sets and the network. -/
structure Env (Img Net Row : Type) where
  image : Source → Loader → ℕ → Img
  target : Source → Loader → ℕ → ℤ
  init : ℕ → Net
  step : Net → List (Sample Img) → Net
  output : Net → Img → Row
  /-- the order of the indices in an epoch -/
  shuffle : ℕ → List ℕ → List ℕ

variable {Img Net Row : Type}

/-- Arguments of the constructor, `mnist_pytorch.py:172-184`. -/
structure Args where
  batchSize : ℕ := 64
  epochs : ℕ := 6
  seed : ℕ := 1
  testBatchSize : Option ℕ := none
  dataset : Source := .mnist
  loader : Option Loader := none
deriving DecidableEq

/-- The attributes. -/
structure Cnn (Net : Type) where
  batchSize : ℕ
  epochs : ℕ
  seed : ℕ
  testBatchSize : ℕ
  dataset : Source
  loader : Option Loader
  model : Net

/-- `__init__`, `mnist_pytorch.py:172-208`. -/
def new (E : Env Img Net Row) (a : Args) : Cnn Net :=
  { batchSize := a.batchSize, epochs := a.epochs, seed := a.seed, testBatchSize := a.testBatchSize.getD (size a.dataset .test),
    dataset := a.dataset, loader := a.loader, model := E.init a.seed }

/-- `get_params`, `mnist_pytorch.py:228-238`: the keyword arguments it returns, the others at their defaults. -/
def getParams (c : Cnn Net) : Args :=
  { batchSize := c.batchSize, epochs := c.epochs, testBatchSize := some c.testBatchSize, dataset := c.dataset }

/-- `sklearn.base.clone`: the constructor with the result of `get_params`. -/
def clone (E : Env Img Net Row) (c : Cnn Net) : Cnn Net := new E (getParams c)

/-- `set_params(dataset=...)`, `mnist_pytorch.py:240-246`. -/
def setDataset (c : Cnn Net) (d : Source) : Cnn Net := { c with dataset := d }

/-- The labels by index: `sparse_labels[train_idx] = train_labels`, `mnist_pytorch.py:275-283`. For a repeated index the
last value remains. -/
def sparseLabel (idx : List ℕ) (labels : List ℤ) (i : ℕ) : ℤ :=
  ((idx.zip labels).reverse.lookup i).getD (-1)

/-- `sample_weight[np.unique(train_labels, return_index=True)[1]]`, `mnist_pytorch.py:265`, as a function of the class: the
weight of the first example of the class. It is only used if the ten classes are all present. -/
def classWeight (labels : List ℤ) (w : List ℚ) (c : ℤ) : Option ℚ := (labels.zip w).lookup c

/-- Split into batches. -/
def batches {β : Type} (b : ℕ) : ℕ → List β → List (List β)
  | 0, _ => []
  | _ + 1, [] => []
  | f + 1, x :: l => (x :: l).take b :: batches b f ((x :: l).drop b)

/-- What one epoch sees, in order, `mnist_pytorch.py:285-303`. -/
def epochData (E : Env Img Net Row) (d : Source) (loader : Loader) (idx : List ℕ) (labels : Option (List ℤ))
    (weights : Option (List ℚ)) (e : ℕ) : List (Sample Img) :=
  (E.shuffle e idx).map (fun i =>
    let y := match labels with
      | some l => sparseLabel idx l i
      | none => E.target d loader i
    { image := E.image d loader i, label := y,
      weight := match labels, weights with
        | some l, some w => classWeight l w y
        | _, _ => none })

/-- One epoch, `mnist_pytorch.py:297-308`. -/
def runEpoch (E : Env Img Net Row) (b : ℕ) (net : Net) (data : List (Sample Img)) : Net :=
  (batches b data.length data).foldl E.step net

/-- `fit`, `mnist_pytorch.py:248-318`; `loader` is the argument. `F.nll_loss` needs one weight for each of the ten classes,
and labels in `0..9`. -/
def fit (E : Env Img Net Row) (c : Cnn Net) (idx : List ℕ) (labels : Option (List ℤ)) (weights : Option (List ℚ))
    (loader : Loader) : Except String (Cnn Net) :=
  let loader := c.loader.getD loader
  if labels.any (fun l => decide (idx.length ≠ l.length)) then .error "train_idx and train_labels are the same length"
  else
    let checked : Except String Unit :=
      match weights, labels with
      | some _, none => .error "object of type 'NoneType' has no len()"
      | some w, some l =>
        if w.length ≠ l.length then .error "train_labels and sample_weight are the same length"
        else if l.dedup.length ≠ 10 then .error "weight tensor should be defined for all classes"
        else .ok ()
      | none, _ => .ok ()
    match checked with
    | .error e => .error e
    | .ok () =>
      if ∃ i ∈ idx, size c.dataset loader ≤ i then .error "index out of bounds"
      else if labels.any (fun l => decide (∃ y ∈ l, y < 0 ∨ 10 ≤ y)) then .error "Target is out of bounds"
      else
        let data := (List.range c.epochs).map (epochData E c.dataset loader idx labels weights)
        .ok { c with model := data.foldl (runEpoch E c.batchSize) c.model }

/-- Which data set is used, `mnist_pytorch.py:327-335`. -/
def chooseLoader (c : Cnn Net) (idx : Option (List ℕ)) (loader : Option Loader) : Loader :=
  match c.loader, loader with
  | some l, _ => l
  | none, some l => l
  | none, none => if idx = some (List.range (size c.dataset .test)) then .test else .train

/-- `predict_proba`, `mnist_pytorch.py:326-369`: the images are only selected if the number of indices differs from the size
of the data set. The network is applied to each image separately in evaluation mode, so batches do not matter. -/
def predictProba (E : Env Img Net Row) (c : Cnn Net) (idx : Option (List ℕ)) (loader : Option Loader) :
    Except String (List Row) :=
  let l := chooseLoader c idx loader
  let all := List.range (size c.dataset l)
  match idx with
  | none => .ok (all.map (fun i => E.output c.model (E.image c.dataset l i)))
  | some idx =>
    if idx.length ≠ size c.dataset l then
      if ∃ i ∈ idx, size c.dataset l ≤ i then .error "index out of range"
      else if idx = [] then .error "torch.cat(): expected a non-empty list of Tensors"
      else .ok (idx.map (fun i => E.output c.model (E.image c.dataset l i)))
    else .ok (all.map (fun i => E.output c.model (E.image c.dataset l i)))

end Cleanlab.MnistCnn
