import Verif.Np.Basic
import Mathlib.Data.Rat.Floor
import Mathlib.Algebra.BigOperators.Group.Finset.Basic
import Mathlib.Data.Fintype.BigOperators

/-!
# Model of `cleanlab/benchmarking/noise_generation.py`

All random draws are parameters.
-/

namespace Cleanlab.Noise

open Np

variable {n K : ℕ}

/-! ## `generate_noisy_labels` -/

/-- Number of examples of a class. -/
def classCount (y : Fin n → Fin K) (k : Fin K) : ℕ := (List.finRange n).countP (fun i => decide (y i = k))

/-- `py * len(true_labels)` in `noise_generation.py:145-148`: `value_counts` returns one entry per class that occurs;
the product with the `K` columns needs `K` entries or (by broadcasting) a single one. -/
def countsPerColumn (y : Fin n → Fin K) : Except String (Fin K → ℕ) :=
  let present := (List.finRange K).filter (fun k => decide (classCount y k ≠ 0))
  if present.length = K then .ok (classCount y)
  else if present.length = 1 then .ok (fun _ => n)
  else .error "operands could not be broadcast together"

/-- `count_joint`, `noise_generation.py:147-150`. -/
def countJoint (noise : Fin K → Fin K → ℚ) (counts : Fin K → ℕ) (j k : Fin K) : ℕ :=
  if j = k then 0 else (trunc (noise j k * (counts k : ℚ))).toNat

/-- `noise`, `noise_generation.py:156-160`: the new labels for the examples of class `k`. -/
def newLabels (joint : Fin K → Fin K → ℕ) (k : Fin K) : List (Fin K) :=
  ((List.finRange K).filter (fun j => decide (joint j k ≠ 0))).flatMap (fun j => List.replicate (joint j k) j)

/-- `labels[idx] = values`. -/
def assign (labels : Fin n → Fin K) (idx : List (Fin n)) (values : List (Fin K)) : Fin n → Fin K :=
  (idx.zip values).foldl (fun l e => Function.update l e.1 e.2) labels

/-- One pass of the loop, `noise_generation.py:154-164`; `choose l m` is `np.random.choice(l, m, replace=False)`. -/
def flipClass (y : Fin n → Fin K) (joint : Fin K → Fin K → ℕ) (choose : List (Fin n) → ℕ → List (Fin n))
    (labels : Fin n → Fin K) (k : Fin K) : Fin n → Fin K :=
  let new := newLabels joint k
  let idx := (List.finRange n).filter (fun i => decide (labels i = k) && decide (y i = k))
  if idx.length ≠ 0 ∧ new.length ≠ 0 ∧ new.length ≤ idx.length then assign labels (choose idx new.length) new
  else labels

/-- `generate_noisy_labels`, `noise_generation.py:93-172`; `choose k` is the random choice made for class `k`. -/
def generateNoisyLabels (y : Fin n → Fin K) (noise : Fin K → Fin K → ℚ)
    (choose : Fin K → List (Fin n) → ℕ → List (Fin n)) : Except String (Fin n → Fin K) := do
  let counts ← countsPerColumn y
  return (List.finRange K).foldl (fun labels k => flipClass y (countJoint noise counts) (choose k) labels k) y

/-! ## `generate_n_rand_probabilities_that_sum_to_m` -/

/-- `FLOATING_POINT_COMPARISON`, `internal/constants.py:1`. -/
def eps : ℚ := 1 / 10 ^ 6

/-- One pass of the first loop, `noise_generation.py:408-412`; `u` is `np.random.rand()`. -/
def capStep [NeZero n] (maxP u : ℚ) (r : Fin n → ℚ) : Fin n → ℚ :=
  let newMin := r (argmin r) + (r (argmax r) - maxP)
  let adj := (maxP - newMin) * u
  let r1 := Function.update r (argmin r) (newMin + adj)
  Function.update r1 (argmax r1) (maxP - adj)

/-- The first loop, `noise_generation.py:407-414`, with a bound on the number of passes (`none`: not finished);
`u t` is the `t`-th random number. -/
def capLoop [NeZero n] (maxP : ℚ) (u : ℕ → ℚ) : ℕ → ℕ → (Fin n → ℚ) → Option (Fin n → ℚ)
  | 0, _, _ => none
  | fuel + 1, t, r => if maxP + eps < r (argmax r) then capLoop maxP u fuel (t + 1) (capStep maxP (u t) r) else some r

/-- One pass of the second loop, `noise_generation.py:419-425`. -/
def raiseStep [NeZero n] (minP u : ℚ) (r : Fin n → ℚ) : Fin n → ℚ :=
  let newMax := r (argmax r) - (minP - r (argmin r))
  let adj := (newMax - minP) * u
  let r1 := Function.update r (argmax r) (newMax - adj)
  Function.update r1 (argmin r1) (minP + adj)

/-- The second loop, `noise_generation.py:418-427`. -/
def raiseLoop [NeZero n] (minP : ℚ) (u : ℕ → ℚ) : ℕ → ℕ → (Fin n → ℚ) → Option (Fin n → ℚ)
  | 0, _, _ => none
  | fuel + 1, t, r =>
    if r (argmin r) < minP - eps then raiseLoop minP u fuel (t + 1) (raiseStep minP (u t) r) else some r

/-- The outcome of a function that may raise or, within the given number of steps, not end. -/
inductive Outcome (α : Type) where
  /-- It returns. -/
  | value (a : α)
  /-- It raises. -/
  | raised (msg : String)
  /-- It is still running. -/
  | running

/-- The returned value, if any. -/
def Outcome.toOption {α : Type} : Outcome α → Option α
  | .value a => some a
  | .raised _ => none
  | .running => none

/-- `generate_n_rand_probabilities_that_sum_to_m`, `noise_generation.py:340-429`, for `n ≥ 1` (for `n = 0` it returns
an empty array); `d` is the draw from the Dirichlet distribution, `u` and `u'` are the random numbers of the two
loops. -/
def randProbs [NeZero n] (m maxP minP : ℚ) (d : Fin n → ℚ) (u u' : ℕ → ℚ) (fuel : ℕ) : Outcome (Fin n → ℚ) :=
  if maxP + eps < m / (n : ℚ) then .raised "max_prob must be greater or equal to m / n"
  else if (m + eps) / (n : ℚ) < minP then .raised "min_prob must be less or equal to m / n"
  else
    match capLoop maxP u fuel 0 (fun i => d i * m) with
    | none => .running
    | some r =>
      match raiseLoop minP u' fuel 0 r with
      | none => .running
      | some r => .value r

/-! ## `randomly_distribute_N_balls_into_K_bins` -/

/-- `while sum(arr) > N: arr[np.argmax(arr)] -= 1`, `noise_generation.py:482-483`: each pass lowers the sum by 1. -/
def lowerTo [NeZero n] (N : ℤ) (arr : Fin n → ℤ) : Fin n → ℤ :=
  (fun a : Fin n → ℤ => Function.update a (argmax a) (a (argmax a) - 1))^[(∑ i, arr i - N).toNat] arr

/-- `while sum(arr) < N: arr[np.argmin(arr)] += 1`, `noise_generation.py:484-485`. -/
def raiseTo [NeZero n] (N : ℤ) (arr : Fin n → ℤ) : Fin n → ℤ :=
  (fun a : Fin n → ℤ => Function.update a (argmin a) (a (argmin a) + 1))^[(N - ∑ i, arr i).toNat] arr

/-- `randomly_distribute_N_balls_into_K_bins`, `noise_generation.py:432-486`, for `n` bins; the outer loop
(`noise_generation.py:481`) makes one pass, as the sum is `N` after it. -/
def distributeBalls [NeZero n] (N : ℕ) (maxBalls minBalls : Option ℕ) (d : Fin n → ℚ) (u u' : ℕ → ℚ) (fuel : ℕ) :
    Outcome (Fin n → ℤ) :=
  if N = 0 then .value (fun _ => 0)
  else
    let maxB : ℕ := match maxBalls with | none => N | some b => min b N
    let minB : ℚ := match minBalls with | none => 0 | some b => min (b : ℚ) ((N : ℚ) / n)
    let N' : ℕ := if (maxB : ℚ) < (N : ℚ) / n then maxB * n else N
    if N' = 0 then .raised "float division by zero"
    else
      match randProbs 1 ((maxB : ℚ) / N') (minB / N') d u u' fuel with
      | .raised msg => .raised msg
      | .running => .running
      | .value r => .value (raiseTo N' (lowerTo N' (fun i => rint (r i * N'))))

/-! ## `noise_matrix_is_valid` and `generate_noise_matrix_from_trace` -/

/-- `noise_matrix_is_valid`, `noise_generation.py:15-90` (without the printing). -/
def noiseMatrixIsValid (noise : Fin K → Fin K → ℚ) (py : Fin K → ℚ) : Bool :=
  let ps := fun i => ∑ j, noise i j * py j
  let joint := fun i j => noise i j * py j
  if ¬ (|(∑ i, ∑ j, joint i j) - 1| < eps) then false
  else (List.finRange K).all (fun i => decide (ps i * py i < joint i i))

/-- The random draws of one attempt. -/
structure Draws (K : ℕ) where
  /-- Dirichlet draw for the diagonal. -/
  diag : Fin K → ℚ
  /-- Uniform draws for the diagonal. -/
  diagU : ℕ → ℚ
  /-- See `diagU`. -/
  diagU' : ℕ → ℚ
  /-- Draws for the numbers of zeros per column. -/
  balls : (m : ℕ) → Fin m → ℚ
  /-- See `balls`. -/
  ballsU : ℕ → ℚ
  /-- See `balls`. -/
  ballsU' : ℕ → ℚ
  /-- Draws for the rates of a column. -/
  col : Fin K → (m : ℕ) → Fin m → ℚ
  /-- See `col`. -/
  colU : Fin K → ℕ → ℚ
  /-- See `col`. -/
  colU' : Fin K → ℕ → ℚ
  /-- The rows chosen for a column (`np.random.choice(l, m, replace=False)`). -/
  choose : Fin K → List (Fin K) → ℕ → List (Fin K)

/-- The numeric arguments. -/
structure TraceArgs where
  /-- `trace`. -/
  trace : ℚ
  /-- `max_trace_prob`. -/
  maxTrace : ℚ
  /-- `min_trace_prob`. -/
  minTrace : ℚ
  /-- `max_noise_rate`. -/
  maxNoise : ℚ
  /-- `min_noise_rate`. -/
  minNoise : ℚ
  /-- `frac_zero_noise_rates`. -/
  fracZero : ℚ

/-- The columns with noise, `np.arange(K)[nm_diagonal != 1]`. -/
def noisyCols (diag : Fin K → ℚ) : List (Fin K) := (List.finRange K).filter (fun c => decide (diag c ≠ 1))

/-- `num_zero_noise_rates_per_col`, `noise_generation.py:297-313` (`K > 2`). -/
def zerosPerCol (a : TraceArgs) (D : Draws K) (diag : Fin K → ℚ) (fuel : ℕ) :
    Outcome (Fin (noisyCols diag).length → ℤ) :=
  let numCol := (noisyCols diag).length
  let numZero := (trunc ((K : ℚ) * (K - 1) * a.fracZero) - ((K : ℤ) - numCol) * ((K : ℤ) - 1)).toNat
  if h : numCol = 0 then
    if numZero = 0 then .value (fun _ => 0) else .raised "float division by zero"
  else
    haveI : NeZero numCol := ⟨h⟩
    distributeBalls numZero (some (K - 2)) (some 0) (D.balls numCol) D.ballsU D.ballsU' fuel

/-- The rates of one column, `noise_generation.py:317-326`. -/
def colRates (a : TraceArgs) (D : Draws K) (diag : Fin K → ℚ) (c : Fin K) (num : ℕ) (fuel : ℕ) : Outcome (List ℚ) :=
  if h : num = 0 then .value []
  else
    haveI : NeZero num := ⟨h⟩
    match randProbs (1 - diag c) a.maxNoise a.minNoise (D.col c num) (D.colU c) (D.colU' c) fuel with
    | .value r => .value (List.ofFn r)
    | .raised msg => .raised msg
    | .running => .running

/-- `for row in rows: noise_matrix[row][col] = noise_rates_col.pop()`, `noise_generation.py:329-333`. -/
def fillColumn (c : Fin K) (d : ℚ) (rows : List (Fin K)) (rates : List ℚ) : Fin K → ℚ :=
  (rows.zip rates.reverse).foldl (fun v e => Function.update v e.1 e.2) (fun row => if row = c then d else 0)

/-- One column, `noise_generation.py:316-333`; columns with diagonal entry 1 are left as they are. -/
def column (a : TraceArgs) (D : Draws K) (diag : Fin K → ℚ) (zeros : Fin (noisyCols diag).length → ℤ) (c : Fin K)
    (fuel : ℕ) : Outcome (Fin K → ℚ) :=
  if h : (noisyCols diag).idxOf c < (noisyCols diag).length then
    let num := ((K : ℤ) - 1 - zeros ⟨_, h⟩).toNat
    match colRates a D diag c num fuel with
    | .value rates =>
      .value (fillColumn c (diag c) (D.choose c ((List.finRange K).filter (fun r => decide (r ≠ c))) num) rates)
    | .raised msg => .raised msg
    | .running => .running
  else .value (fun row => if row = c then diag c else 0)

/-- Run a computation for each column. -/
def columns {m : ℕ} : (Fin m → Outcome (Fin K → ℚ)) → Outcome (Fin m → Fin K → ℚ) :=
  match m with
  | 0 => fun _ => .value (fun c => c.elim0)
  | _ + 1 => fun f =>
    match f 0 with
    | .raised msg => .raised msg
    | .running => .running
    | .value v =>
      match columns (fun c => f c.succ) with
      | .raised msg => .raised msg
      | .running => .running
      | .value r => .value (fun c => Fin.cases v r c)

/-- One attempt, `noise_generation.py:286-333`, for `K > 2`: the matrix as function of row and column. -/
def attempt [NeZero K] (a : TraceArgs) (D : Draws K) (fuel : ℕ) : Outcome (Fin K → Fin K → ℚ) :=
  match randProbs a.trace a.maxTrace a.minTrace D.diag D.diagU D.diagU' fuel with
  | .raised msg => .raised msg
  | .running => .running
  | .value diag =>
    match zerosPerCol a D diag fuel with
    | .raised msg => .raised msg
    | .running => .running
    | .value zeros =>
      match columns (fun c => column a D diag zeros c fuel) with
      | .raised msg => .raised msg
      | .running => .running
      | .value cols => .value (fun row c => cols c row)

/-- The loop `for z in range(max_iter)`, `noise_generation.py:285-337`; `D z` are the draws of attempt `z`. -/
def tries [NeZero K] (a : TraceArgs) (valid : Bool) (py : Option (Fin K → ℚ)) (D : ℕ → Draws K) (fuel : ℕ) :
    ℕ → ℕ → Outcome (Option (Fin K → Fin K → ℚ))
  | 0, _ => .value none
  | left + 1, z =>
    match attempt a (D z) fuel with
    | .raised msg => .raised msg
    | .running => .running
    | .value m => if valid = false ∨ ∃ p ∈ py, noiseMatrixIsValid m p = true then .value (some m) else tries a valid py D fuel left (z + 1)

/-- The case `K = 2`, `noise_generation.py:265-282`; `coin` is `np.random.rand() > 0.5`. -/
def twoClasses (a : TraceArgs) (D : Draws 2) (coin : Bool) (fuel : ℕ) : Outcome (Fin 2 → Fin 2 → ℚ) :=
  if 1 / 2 ≤ a.fracZero then
    let m : Fin 2 → Fin 2 → ℚ := ![![1, 1 - (a.trace - 1)], ![0, a.trace - 1]]
    .value (if coin then m else fun i j => m i.rev j.rev)
  else
    match randProbs (n := 2) a.trace 1 0 D.diag D.diagU D.diagU' fuel with
    | .raised msg => .raised msg
    | .running => .running
    | .value d => .value ![![d 0, 1 - d 1], ![1 - d 0, d 1]]

/-- `generate_noise_matrix_from_trace`, `noise_generation.py:175-337`; `py = none` is `None`. -/
def fromTrace (K : ℕ) (a : TraceArgs) (valid : Bool) (py : Option (Fin K → ℚ)) (maxIter : ℕ) (D : ℕ → Draws K)
    (coin : Bool) (fuel : ℕ) : Outcome (Option (Fin K → Fin K → ℚ)) :=
  if valid = true ∧ a.trace ≤ 1 then .raised "trace > 1 is necessary for a valid noise matrix to be returned"
  else if valid = true ∧ py.isNone = true ∧ 2 < K then .raised "py must be provided"
  else if h : K ≤ 1 then .raised "K must be >= 2"
  else if maxIter < 1 then .value none
  else if h2 : K = 2 then
    match twoClasses a (h2 ▸ D 0) coin fuel with
    | .raised msg => .raised msg
    | .running => .running
    | .value m => .value (some (fun i j => m (Fin.cast h2 i) (Fin.cast h2 j)))
  else
    haveI : NeZero K := ⟨by omega⟩
    tries a valid py D fuel maxIter 0

end Cleanlab.Noise
