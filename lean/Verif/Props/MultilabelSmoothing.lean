import Verif.Props.Smoothing
import Verif.Props.MultilabelScore
import Verif.Props.FilterChecked
import Verif.Props.TokenClasses
import Verif.Model.Multilabel

/-!
# C220: smoothed predictions in multi-label and token classification
-/

namespace Cleanlab.Props

open Np Cleanlab.Util Cleanlab.Count Cleanlab.Rank Cleanlab.Filter Cleanlab.Spec Cleanlab.Multilabel Cleanlab.Validation

variable {n K : ℕ}

/-- Predicted probabilities of separate yes-or-no decisions, mixed with one half. -/
def towardsHalf (ε : ℚ) (P : Fin n → Fin K → ℚ) (i : Fin n) (k : Fin K) : ℚ := (1 - ε) * P i k + ε / 2

theorem towardsHalf_range (ε : ℚ) (h0 : 0 ≤ ε) (h1 : ε < 1) (P : Fin n → Fin K → ℚ) (hP : ∀ i k, 0 ≤ P i k ∧ P i k ≤ 1)
    (i : Fin n) (k : Fin K) : 0 ≤ towardsHalf ε P i k ∧ towardsHalf ε P i k ≤ 1 := by
  unfold towardsHalf
  have a := mul_nonneg (by linarith : (0 : ℚ) ≤ 1 - ε) (hP i k).1
  have b := mul_le_mul_of_nonneg_left (hP i k).2 (by linarith : (0 : ℚ) ≤ 1 - ε)
  constructor <;> linarith

theorem stack_towardsHalf (ε : ℚ) (P : Fin n → Fin K → ℚ) (k : Fin K) :
    stackComplement (towardsHalf ε P) k = fun i b => (1 - ε) * stackComplement P k i b + ε / 2 := by
  funext i b
  unfold stackComplement towardsHalf
  fin_cases b
  · show 1 - ((1 - ε) * P i k + ε / 2) = (1 - ε) * (1 - P i k) + ε / 2
    ring
  · rfl

theorem rescaled_stack (ε : ℚ) (h0 : 0 ≤ ε) (h1 : ε < 1) (P : Fin n → Fin K → ℚ) (k : Fin K) :
    Rescaled (1 - ε) (ε / 2) (stackComplement P k) (stackComplement (towardsHalf ε P) k) :=
  ⟨fun i b => by rw [stack_towardsHalf], by linarith, by linarith⟩

theorem stack_range (P : Fin n → Fin K → ℚ) (hP : ∀ i k, 0 ≤ P i k ∧ P i k ≤ 1) (k : Fin K) (i : Fin n) (b : Fin 2) :
    0 ≤ stackComplement P k i b ∧ stackComplement P k i b ≤ 1 := by
  have := hP i k
  unfold stackComplement
  fin_cases b
  · show 0 ≤ 1 - P i k ∧ 1 - P i k ≤ 1
    constructor <;> linarith
  · exact this

/-- Validation does not depend on the probabilities as long as they lie in `[0, 1]`. -/
theorem validate_range {m : ℕ} (allowOne : Bool) (labels : Fin n → Fin m) (P Q : Fin n → Fin m → ℚ)
    (hP : ∀ i k, 0 ≤ P i k ∧ P i k ≤ 1) (hQ : ∀ i k, 0 ≤ Q i k ∧ Q i k ≤ 1) :
    Filter.validate allowOne labels Q = Filter.validate allowOne labels P := by
  have h : ∀ R : Fin n → Fin m → ℚ, (∀ i k, 0 ≤ R i k ∧ R i k ≤ 1) → outOfRange (fun i k => some (R i k)) = false := by
    intro R hR
    unfold outOfRange
    simp
    have ht : (0 : ℚ) ≤ tol := by unfold tol; norm_num
    exact fun i k => ⟨by linarith [(hR i k).1], by linarith [(hR i k).2]⟩
  unfold Filter.validate validProbs
  rw [h P hP, h Q hQ]

/-- The conditions of **C208** for every class: labels that are given or not given to some examples have a noticeable
average self-confidence, and nothing is decided by the tolerance `1e-6`. -/
structure Noticeable (ε : ℚ) (y : Fin n → Fin K → Bool) (P : Fin n → Fin K → ℚ) : Prop where
  range : ∀ i k, 0 ≤ P i k ∧ P i k ≤ 1
  mean : ∀ k b, (∃ i, binaryLabels y k i = b) →
    thresholdsLowerBound ≤ meanSelfConfidence (binaryLabels y k) (stackComplement P k) b
  discernible : ∀ k, Discernible (1 - ε) (binaryLabels y k) (stackComplement P k)

theorem stack_checked {A : ArgSort ℚ} (hA : OrderBased A) (ε : ℚ) (h0 : 0 ≤ ε) (h1 : ε < 1) (y : Fin n → Fin K → Bool)
    (P : Fin n → Fin K → ℚ) (hP : Noticeable ε y P) (k : Fin K) (args : Args 2) :
    findChecked A (binaryLabels y k) (stackComplement (towardsHalf ε P) k) args =
      findChecked A (binaryLabels y k) (stackComplement P k) args := by
  have hr := stack_range P hP.range k
  have hr' := stack_range (towardsHalf ε P) (towardsHalf_range ε h0 h1 P hP.range) k
  unfold findChecked
  rw [validate_range _ _ _ _ hr hr', validate_range _ _ _ _ hr hr',
    C208_find hA _ (rescaled_stack ε h0 h1 P k) (hP.discernible k)
      ⟨hP.mean k, by unfold thresholdsLowerBound; linarith⟩ (fun i b => (hr i b).2) (fun i b => (hr' i b).2) args]

/-- **C220**, per class: the same labels are flagged. -/
theorem C220_per_class {A : ArgSort ℚ} (hA : OrderBased A) (ε : ℚ) (h0 : 0 ≤ ε) (h1 : ε < 1) (y : Fin n → Fin K → Bool)
    (P : Fin n → Fin K → ℚ) (hP : Noticeable ε y P) (args : MLArgs K) :
    issuesPerClass A y (towardsHalf ε P) args = issuesPerClass A y P args := by
  unfold issuesPerClass
  simp only [stack_checked hA ε h0 h1 y P hP]

theorem unionMask_towards {A : ArgSort ℚ} (hA : OrderBased A) (ε : ℚ) (h0 : 0 ≤ ε) (h1 : ε < 1) (y : Fin n → Fin K → Bool)
    (P : Fin n → Fin K → ℚ) (hP : Noticeable ε y P) (args : MLArgs K) :
    unionMask A y (towardsHalf ε P) args = unionMask A y P args := by
  unfold unionMask
  rw [C220_per_class hA ε h0 h1 y P hP]

/-! ### Scores -/

theorem orderedInsert_map {c d : ℚ} (hc : 0 < c) (x : ℚ) (l : List ℚ) :
    (l.map (fun z => c * z + d)).orderedInsert (· ≥ ·) (c * x + d) = (l.orderedInsert (· ≥ ·) x).map (fun z => c * z + d) := by
  induction l with
  | nil => rfl
  | cons z l ih =>
    have h : c * x + d ≥ c * z + d ↔ x ≥ z := by
      rw [ge_iff_le, ge_iff_le, add_le_add_iff_right, mul_le_mul_iff_right₀ hc]
    rw [List.map_cons, List.orderedInsert_cons, List.orderedInsert_cons]
    by_cases hx : x ≥ z
    · rw [if_pos (h.mpr hx), if_pos hx]; rfl
    · rw [if_neg (fun h' => hx (h.mp h')), if_neg hx, ih]; rfl

theorem sortDesc_map {c d : ℚ} (hc : 0 < c) (s : Fin K → ℚ) :
    sortDesc (fun k => c * s k + d) = (sortDesc s).map (fun z => c * z + d) := by
  unfold sortDesc
  rw [show List.ofFn (fun k => c * s k + d) = (List.ofFn s).map (fun z => c * z + d) by rw [List.map_ofFn]; rfl]
  induction List.ofFn s with
  | nil => rfl
  | cons x l ih =>
    rw [List.map_cons, List.insertionSort_cons, List.insertionSort_cons, ih, orderedInsert_map hc]

theorem foldl_ema_map (a c d : ℚ) (l : List ℚ) (x : ℚ) :
    (l.map (fun z => c * z + d)).foldl (fun acc si => a * si + (1 - a) * acc) (c * x + d) =
      c * l.foldl (fun acc si => a * si + (1 - a) * acc) x + d := by
  induction l generalizing x with
  | nil => rfl
  | cons z l ih =>
    rw [List.map_cons, List.foldl_cons, List.foldl_cons, ← ih]
    congr 1
    ring

theorem ema_map (alpha : Option ℚ) {c d : ℚ} (hc : 0 < c) (s : Fin K → ℚ) :
    ema alpha (fun k => c * s k + d) = (ema alpha s).map (fun v => c * v + d) := by
  unfold ema
  rw [sortDesc_map hc]
  dsimp only
  split_ifs
  · cases sortDesc s with
    | nil => rfl
    | cons x xs =>
      simp only [List.map_cons]
      rw [foldl_ema_map]
      rfl
  · rfl

theorem collect_except_map {α β : Type} {J : ℕ} (f : Fin J → Except String α) (g : α → β) :
    collect (fun j => (f j).map g) = (collect f).map (fun v j => g (v j)) := by
  induction J with
  | zero =>
    unfold collect
    show Except.ok _ = Except.ok _
    congr 1
    funext j
    exact j.elim0
  | succ J ih =>
    unfold collect
    rw [ih]
    dsimp only
    cases f 0 with
    | error e => rfl
    | ok a =>
      cases collect (fun j : Fin J => f j.succ) with
      | error e => rfl
      | ok v =>
        show Except.ok _ = Except.ok _
        congr 1
        funext j
        refine Fin.cases ?_ (fun j => ?_) j <;> rfl

/-- **C220**, the scores: the score of every example changes by the same map, so their order stays as it is. -/
theorem C220_scores (ε : ℚ) (h1 : ε < 1) (y : Fin n → Fin K → Bool) (P : Fin n → Fin K → ℚ) :
    scorer selfConf y (towardsHalf ε P) = (scorer selfConf y P).map (fun s i => (1 - ε) * s i + ε / 2) := by
  unfold scorer
  rw [classScores_selfConf, classScores_selfConf]
  split_ifs
  · show collect (fun i => ema (some (4 / 5)) (fun k => givenProb y (towardsHalf ε P) i k)) =
      (collect (fun i => ema (some (4 / 5)) (fun k => givenProb y P i k))).map _
    rw [← collect_except_map (fun i => ema (some (4 / 5)) (fun k => givenProb y P i k)) (fun v => (1 - ε) * v + ε / 2)]
    congr 1
    funext i
    rw [← ema_map _ (by linarith : (0 : ℚ) < 1 - ε)]
    congr 1
    funext k
    unfold givenProb towardsHalf
    split_ifs
    · rfl
    · ring
  · rfl

theorem indices_map {A : ArgSort ℚ} (hA : OrderBased A) (ε : ℚ) (h1 : ε < 1) {m : ℕ} (s : Fin m → ℚ) :
    A.indices (fun i => (1 - ε) * s i + ε / 2) = A.indices s :=
  hA _ _ (fun i j => by rw [add_le_add_iff_right, mul_le_mul_iff_right₀ (by linarith : (0 : ℚ) < 1 - ε)])

theorem lowIndices_towards {A A' : ArgSort ℚ} (hA : OrderBased A) (hA' : OrderBased A') (ε : ℚ) (h0 : 0 ≤ ε) (h1 : ε < 1)
    (y : Fin n → Fin K → Bool) (P : Fin n → Fin K → ℚ) (hP : Noticeable ε y P) (args : MLArgs K) :
    lowIndices A A' y (towardsHalf ε P) args = lowIndices A A' y P args := by
  unfold lowIndices Multilabel.numErrors
  rw [unionMask_towards hA ε h0 h1 y P hP, C220_scores ε h1]
  cases unionMask A y P _ with
  | error e => rfl
  | ok mask =>
    cases scorer selfConf y P with
    | error e => rfl
    | ok s =>
      show Except.ok _ = Except.ok _
      rw [indices_map hA' ε h1]

/-- **C220.** With every filter, and whatever the other arguments, the same examples are flagged. -/
theorem C220_find {A A' : ArgSort ℚ} (hA : OrderBased A) (hA' : OrderBased A') (ε : ℚ) (h0 : 0 ≤ ε) (h1 : ε < 1)
    (y : Fin n → Fin K → Bool) (P : Fin n → Fin K → ℚ) (hP : Noticeable ε y P) (args : MLArgs K) :
    multilabelIssues A A' y (towardsHalf ε P) args = multilabelIssues A A' y P args := by
  unfold multilabelIssues
  rw [lowIndices_towards hA hA' ε h0 h1 y P hP, unionMask_towards hA ε h0 h1 y P hP]

theorem ranked_towards {A A' : ArgSort ℚ} (hA : OrderBased A) (hA' : OrderBased A') (ε : ℚ) (h0 : 0 ≤ ε) (h1 : ε < 1)
    (y : Fin n → Fin K → Bool) (P : Fin n → Fin K → ℚ) (hP : Noticeable ε y P) (args : MLArgs K) :
    issuesPerClassRanked A A' selfConf y (towardsHalf ε P) args = issuesPerClassRanked A A' selfConf y P args := by
  unfold issuesPerClassRanked
  congr 1
  funext k
  have hr := stack_range P hP.range k
  have hr' := stack_range (towardsHalf ε P) (towardsHalf_range ε h0 h1 P hP.range) k
  show findRankedChecked A A' _ _ _ (selfConfidence (binaryLabels y k) (stackComplement (towardsHalf ε P) k)) =
    findRankedChecked A A' _ _ _ (selfConfidence (binaryLabels y k) (stackComplement P k))
  unfold findRankedChecked
  rw [stack_checked hA ε h0 h1 y P hP, validate_range _ _ _ _ hr hr']
  simp only [C208_ranked hA' _ (rescaled_stack ε h0 h1 P k)]

/-- **C220.** With every filter the flagged examples are listed in the same order. -/
theorem C220_ranked {A A' : ArgSort ℚ} (hA : OrderBased A) (hA' : OrderBased A') (ε : ℚ) (h0 : 0 ≤ ε) (h1 : ε < 1)
    (y : Fin n → Fin K → Bool) (P : Fin n → Fin K → ℚ) (hP : Noticeable ε y P) (args : MLArgs K) :
    multilabelIssuesRanked A A' (fun _ => selfConf) y (towardsHalf ε P) args =
      multilabelIssuesRanked A A' (fun _ => selfConf) y P args := by
  unfold multilabelIssuesRanked
  split_ifs
  · unfold lowRanked
    rw [lowIndices_towards hA hA' ε h0 h1 y P hP]
    cases lowIndices A A' y P args with
    | error e => rfl
    | ok idx =>
      dsimp only [bind, Except.bind]
      have hs := C220_scores ε h1 (fun r => y (((List.finRange n).filter (fun i => decide (i ∈ idx))).get r))
        (fun r => P (((List.finRange n).filter (fun i => decide (i ∈ idx))).get r))
      rw [show (fun r => towardsHalf ε P (((List.finRange n).filter (fun i => decide (i ∈ idx))).get r)) =
        towardsHalf ε (fun r => P (((List.finRange n).filter (fun i => decide (i ∈ idx))).get r)) from rfl, hs]
      cases scorer selfConf _ (fun r => P (((List.finRange n).filter (fun i => decide (i ∈ idx))).get r)) with
      | error e => rfl
      | ok s =>
        dsimp only [Except.map]
        rw [indices_map hA' ε h1]
  · unfold unionRanked
    rw [ranked_towards hA hA' ε h0 h1 y P hP, C220_scores ε h1]
    cases issuesPerClassRanked A A' selfConf y P args with
    | error e => rfl
    | ok lists =>
      cases scorer selfConf y P with
      | error e => rfl
      | ok s =>
        dsimp only [bind, Except.bind, pure, Except.pure, Except.map]
        rw [indices_map hA' ε h1]

/-! ### Tokens -/

/-- The predictions for the tokens of all sentences, mixed with the uniform distribution. -/
def smoothTokens (ε : ℚ) (probs : List (List (Fin K → ℚ))) : List (List (Fin K → ℚ)) :=
  probs.map (List.map (fun p k => (1 - ε) * p k + ε / K))

/-- The same for flat data. -/
def smoothFlat (ε : ℚ) (e : Batched.Ex K) : Batched.Ex K := (e.1, fun k => (1 - ε) * e.2 k + ε / K)

theorem flattenData_smooth (ε : ℚ) (labels : List (List (Fin K))) (probs : List (List (Fin K → ℚ))) :
    Token.flattenData labels (smoothTokens ε probs) = (Token.flattenData labels probs).map (List.map (smoothFlat ε)) := by
  unfold Token.flattenData smoothTokens
  rw [← List.map_flatten, List.length_map]
  split_ifs
  · rfl
  · show Except.ok _ = Except.ok _
    rw [List.zip_map_right]
    rfl

/-- **C220** for tokens: the same tokens are flagged, in the same order by self-confidence. -/
theorem C220_tokens {A A' : ArgSort ℚ} [NeZero K] (hA : OrderBased A) (hA' : OrderBased A') (ε : ℚ) (h0 : 0 ≤ ε) (h1 : ε < 1)
    (hK : K ≤ 500000) (labels : List (List (Fin K))) (probs : List (List (Fin K → ℚ))) (data : List (Batched.Ex K))
    (hd : Token.flattenData labels probs = .ok data) (hP : ∀ i, IsDistribution (Batched.probsOf data i))
    (hm : ∀ k, (∃ i, Batched.labelsOf data i = k) →
      thresholdsLowerBound ≤ meanSelfConfidence (Batched.labelsOf data) (Batched.probsOf data) k)
    (hdis : Discernible (1 - ε) (Batched.labelsOf data) (Batched.probsOf data)) (args : Args K) :
    Token.findLabelIssues A A' (Token.methodScorer .selfConfidence) labels (smoothTokens ε probs) args =
      Token.findLabelIssues A A' (Token.methodScorer .selfConfidence) labels probs args := by
  unfold Token.findLabelIssues
  rw [flattenData_smooth, hd]
  have hK0 : (0 : ℚ) < K := by exact_mod_cast Nat.pos_of_ne_zero (NeZero.ne K)
  have hK1 : (1 : ℚ) ≤ K := by exact_mod_cast Nat.pos_of_ne_zero (NeZero.ne K)
  have hr : ∀ i k, 0 ≤ Batched.probsOf data i k ∧ Batched.probsOf data i k ≤ 1 := fun i k => by
    refine ⟨(hP i).1 k, ?_⟩
    rw [← (hP i).2]
    exact Finset.single_le_sum (fun k _ => (hP i).1 k) (Finset.mem_univ k)
  have hr' : ∀ i k, 0 ≤ (1 - ε) * Batched.probsOf data i k + ε / K ∧ (1 - ε) * Batched.probsOf data i k + ε / K ≤ 1 := fun i k => by
    have a := mul_nonneg (by linarith : (0 : ℚ) ≤ 1 - ε) (hr i k).1
    have b := mul_le_mul_of_nonneg_left (hr i k).2 (by linarith : (0 : ℚ) ≤ 1 - ε)
    have c : ε / K ≤ ε := div_le_self h0 hK1
    have d : 0 ≤ ε / K := div_nonneg h0 hK0.le
    constructor <;> linarith
  refine (flat_congr (fun n l p => (do
    let s ← scoresChecked .selfConfidence l p
    let issues ← findRankedChecked A A' l p args s
    issues.mapM (fun r => Token.lookup (labels.map List.length) r.val) : Except String (List (ℕ × ℕ))))
    (List.length_map (smoothFlat ε)) (Batched.labelsOf (data.map (smoothFlat ε))) (Batched.probsOf (data.map (smoothFlat ε)))
    (Batched.labelsOf data) (fun i k => (1 - ε) * Batched.probsOf data i k + ε / K) (fun i => ?_) (fun i => ?_)).trans ?_
  · unfold Batched.labelsOf
    rw [List.get_eq_getElem, List.getElem_map]
    rfl
  · unfold Batched.probsOf
    rw [List.get_eq_getElem, List.getElem_map]
    rfl
  · have hres : Rescaled (1 - ε) (ε / K) (Batched.probsOf data) (fun i k => (1 - ε) * Batched.probsOf data i k + ε / K) :=
      ⟨fun _ _ => rfl, by linarith, by linarith⟩
    have hfind : findChecked A (Batched.labelsOf data) (fun i k => (1 - ε) * Batched.probsOf data i k + ε / K) args =
        findChecked A (Batched.labelsOf data) (Batched.probsOf data) args := by
      unfold findChecked
      rw [validate_range _ _ _ _ hr hr', validate_range _ _ _ _ hr hr', C208_smoothing hA ε h0 h1 hK _ _ hP hm hdis]
    unfold scoresChecked findRankedChecked
    rw [validate_range _ _ _ _ hr hr', validate_range _ _ _ _ hr hr', hfind]
    show (do
      let s ← (do
        Filter.validate true (Batched.labelsOf data) (Batched.probsOf data)
        Except.ok (selfConfidence (Batched.labelsOf data) (fun i k => (1 - ε) * Batched.probsOf data i k + ε / K)))
      _) = (do
      let s ← (do
        Filter.validate true (Batched.labelsOf data) (Batched.probsOf data)
        Except.ok (selfConfidence (Batched.labelsOf data) (Batched.probsOf data)))
      _ : Except String (List (ℕ × ℕ)))
    cases Filter.validate true (Batched.labelsOf data) (Batched.probsOf data) with
    | error e => rfl
    | ok u =>
      cases findChecked A (Batched.labelsOf data) (Batched.probsOf data) args with
      | error e => rfl
      | ok mask =>
        cases Filter.validate (allZero (Batched.labelsOf data)) (Batched.labelsOf data) (Batched.probsOf data) with
        | error e => rfl
        | ok u =>
          dsimp only [bind, Except.bind, pure, Except.pure]
          rw [C208_ranked hA' _ hres]

/-! ### Example -/

/-- Labels of four examples for two classes. -/
def halvedY : Fin 4 → Fin 2 → Bool := ![![true, false], ![true, true], ![false, true], ![false, false]]

/-- Predictions that contradict the label of the last example for the second class. -/
def halvedP : Fin 4 → Fin 2 → ℚ := ![![9/10, 1/10], ![4/5, 9/10], ![1/5, 4/5], ![1/10, 19/20]]

theorem noticeable_half : Noticeable (1 / 2) halvedY halvedP where
  range := by decide +kernel
  mean := by decide +kernel
  discernible := fun k => ⟨by revert k; decide +kernel, by revert k; decide +kernel⟩

example : ((multilabelIssues (stableSort ℚ) (stableSort ℚ) halvedY halvedP { filterBy := .predictedNeqGiven }).toOption.map
    (fun mask => List.ofFn mask)) = some [false, false, false, true] := by decide +kernel

example : ((multilabelIssues (stableSort ℚ) (stableSort ℚ) halvedY (towardsHalf (1 / 2) halvedP)
    { filterBy := .predictedNeqGiven }).toOption.map (fun mask => List.ofFn mask)) = some [false, false, false, true] := by
  rw [C220_find (orderBased_stableSort ℚ) (orderBased_stableSort ℚ) (1 / 2) (by norm_num) (by norm_num) halvedY halvedP noticeable_half]
  decide +kernel

/-- Two sentences. -/
def twoTags : List (List (Fin 2)) := [[0, 0], [1, 1, 1]]

/-- Predictions that contradict the tag of the second token. -/
def twoTagProbs : List (List (Fin 2 → ℚ)) := [[![9/10, 1/10], ![1/5, 4/5]], [![1/4, 3/4], ![1/10, 9/10], ![1/4, 3/4]]]

example (args : Args 2) :
    Token.findLabelIssues (stableSort ℚ) (stableSort ℚ) (Token.methodScorer .selfConfidence) twoTags
      (smoothTokens (1 / 10) twoTagProbs) args =
    Token.findLabelIssues (stableSort ℚ) (stableSort ℚ) (Token.methodScorer .selfConfidence) twoTags twoTagProbs args :=
  C220_tokens (orderBased_stableSort ℚ) (orderBased_stableSort ℚ) (1 / 10) (by norm_num) (by norm_num) (by norm_num) twoTags
    twoTagProbs (twoTags.flatten.zip twoTagProbs.flatten) rfl (fun i => ⟨by revert i; decide +kernel, by revert i; decide +kernel⟩)
    (by decide +kernel) ⟨by decide +kernel, by decide +kernel⟩ args

example : (Token.findLabelIssues (stableSort ℚ) (stableSort ℚ) (Token.methodScorer .selfConfidence) twoTags twoTagProbs
    { filterBy := .predictedNeqGiven }).toOption = some [(0, 1)] := by decide +kernel

end Cleanlab.Props
