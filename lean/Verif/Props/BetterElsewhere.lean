import Verif.Props.BetterPrediction
import Verif.Props.MultilabelSmoothing
import Verif.Props.Token

/-!
# C227: better predictions in multi-label and token classification
-/

namespace Cleanlab.Props

open Np Cleanlab.Filter Cleanlab.Multilabel Cleanlab.Rank

variable {n K : ℕ}

/-! ### Multi-label classification -/

/-- No prediction is farther from its label. -/
def BetterBits (y : Fin n → Fin K → Bool) (P P' : Fin n → Fin K → ℚ) : Prop :=
  ∀ i k, (y i k = true → P i k ≤ P' i k) ∧ (y i k = false → P' i k ≤ P i k)

theorem BetterBits.stack {y : Fin n → Fin K → Bool} {P P' : Fin n → Fin K → ℚ} (h : BetterBits y P P') (k : Fin K) :
    Better (binaryLabels y k) (stackComplement P k) (stackComplement P' k) := by
  intro i
  have hi := h i k
  unfold binaryLabels stackComplement
  cases hy : y i k with
  | true =>
    have := hi.1 hy
    refine ⟨by simpa [hy] using this, fun b hb => ?_⟩
    fin_cases b
    · show 1 - P' i k ≤ 1 - P i k
      linarith
    · simp at hb
  | false =>
    have := hi.2 hy
    refine ⟨?_, fun b hb => ?_⟩
    · show 1 - P i k ≤ 1 - P' i k
      linarith
    · fin_cases b
      · simp at hb
      · exact this

/-- **C227.** Better predictions make no label of an example an issue. -/
theorem C227_per_class (A : ArgSort ℚ) (y : Fin n → Fin K → Bool) (P P' : Fin n → Fin K → ℚ) (h : BetterBits y P P')
    (args : MLArgs K) (hf : args.filterBy = .confidentLearning ∨ args.filterBy = .predictedNeqGiven)
    (B B' : Fin K → Fin n → Bool) (hB : issuesPerClass A y P args = .ok B) (hB' : issuesPerClass A y P' args = .ok B')
    (k : Fin K) (i : Fin n) (hi : B k i = false) : B' k i = false := by
  unfold issuesPerClass at hB hB'
  rw [collect_ok_iff] at hB hB'
  exact C138_find A _ _ _ (h.stack k) (args.binary k) hf (B k) (B' k) ((C115_find_iff _ _ _ _ _).mp (hB k)).2
    ((C115_find_iff _ _ _ _ _).mp (hB' k)).2 i hi

/-- **C227.** Better predictions make no example an issue. -/
theorem C227_examples (A A' : ArgSort ℚ) (y : Fin n → Fin K → Bool) (P P' : Fin n → Fin K → ℚ) (h : BetterBits y P P')
    (args : MLArgs K) (hf : args.filterBy = .confidentLearning ∨ args.filterBy = .predictedNeqGiven)
    (mask mask' : Fin n → Bool) (hm : multilabelIssues A A' y P args = .ok mask)
    (hm' : multilabelIssues A A' y P' args = .ok mask') (i : Fin n) (hi : mask i = false) : mask' i = false := by
  have hlow : isLow args = false := by
    unfold isLow
    rcases hf with hf | hf <;> rw [hf] <;> rfl
  unfold multilabelIssues at hm hm'
  rw [hlow] at hm hm'
  simp only [Bool.false_eq_true, if_false] at hm hm'
  unfold unionMask at hm hm'
  cases hB : issuesPerClass A y P args with
  | error e => rw [hB] at hm; cases hm
  | ok B =>
    cases hB' : issuesPerClass A y P' args with
    | error e => rw [hB'] at hm'; cases hm'
    | ok B' =>
      rw [hB] at hm
      rw [hB'] at hm'
      have hm := Except.ok.inj hm
      have hm' := Except.ok.inj hm'
      rw [← hm] at hi
      rw [← hm']
      simp only [decide_eq_false_iff_not, not_le, Nat.lt_one_iff, List.countP_eq_zero, Bool.not_eq_true] at hi ⊢
      exact fun k hk => C227_per_class A y P P' h args hf B B' hB hB' k i (hi k hk)

/-! ### Token classification -/

variable [NeZero K]

/-- Better predictions of flat data. -/
theorem better_flat {m m' : ℕ} (hmm : m' = m) (A : ArgSort ℚ) (labels : Fin m → Fin K) (P : Fin m → Fin K → ℚ)
    (labels' : Fin m' → Fin K) (P' : Fin m' → Fin K → ℚ) (hl : ∀ r, labels' r = labels (Fin.cast hmm r))
    (h : ∀ r, P (Fin.cast hmm r) (labels' r) ≤ P' r (labels' r) ∧ ∀ k, k ≠ labels' r → P' r k ≤ P (Fin.cast hmm r) k)
    (args : Args K) (hf : args.filterBy = .confidentLearning ∨ args.filterBy = .predictedNeqGiven) (mask : Fin m → Bool)
    (mask' : Fin m' → Bool) (hm : findChecked A labels P args = .ok mask) (hm' : findChecked A labels' P' args = .ok mask')
    (r : Fin m') (hr : mask' r = true) : mask (Fin.cast hmm r) = true := by
  subst hmm
  have hl : labels' = labels := funext hl
  subst hl
  by_contra hc
  have := C138_find A labels' P P' h args hf mask mask' ((C115_find_iff _ _ _ _ _).mp hm).2 ((C115_find_iff _ _ _ _ _).mp hm').2 r
    (by simpa using hc)
  rw [this] at hr
  cases hr

theorem token_mask (A A' : ArgSort ℚ) (labels : List (List (Fin K))) (probs : List (List (Fin K → ℚ))) (args : Args K)
    (hshape : labels.map List.length = probs.map List.length) (l : List (ℕ × ℕ))
    (hl : Token.findLabelIssues A A' (Token.methodScorer .selfConfidence) labels probs args = .ok l) :
    ∃ mask, findChecked A (Batched.labelsOf (labels.flatten.zip probs.flatten)) (Batched.probsOf _) args = .ok mask ∧
      ∀ i j, (i, j) ∈ l ↔ ∃ r, mask r = true ∧ ∃ row, labels[i]? = some row ∧ j < row.length ∧ r.val = tokensBefore labels i j := by
  obtain ⟨hd, hlen⟩ := flattenData_eq labels probs hshape
  have hl0 := hl
  unfold Token.findLabelIssues at hl
  simp only [hd, bind, Except.bind] at hl
  cases hs : Token.methodScorer .selfConfidence _ (Batched.labelsOf (labels.flatten.zip probs.flatten)) (Batched.probsOf _) with
  | error e => rw [hs] at hl; cases hl
  | ok s =>
    rw [hs] at hl
    dsimp only at hl
    cases hc : findRankedChecked A A' (Batched.labelsOf (labels.flatten.zip probs.flatten)) (Batched.probsOf _) args s with
    | error e => rw [hc] at hl; cases hl
    | ok idx =>
      obtain ⟨m, hm, -⟩ := findRankedChecked_mask A A' _ _ _ _ _ hc
      obtain ⟨l', hl', -, hmem, -⟩ := C31_one_to_one A A' (Token.methodScorer .selfConfidence) labels probs args hshape s hs m hm
      rw [hl0] at hl'
      cases hl'
      exact ⟨m, hm, hmem⟩

/-- **C227.** Better predictions make no token an issue. -/
theorem C227_tokens (A A' : ArgSort ℚ) (labels : List (List (Fin K))) (probs probs' : List (List (Fin K → ℚ))) (args : Args K)
    (hshape : labels.map List.length = probs.map List.length) (hshape' : labels.map List.length = probs'.map List.length)
    (hf : args.filterBy = .confidentLearning ∨ args.filterBy = .predictedNeqGiven)
    (h : ∀ i j y q q', IsToken labels probs i j y q → IsToken labels probs' i j y q' → q y ≤ q' y ∧ ∀ k, k ≠ y → q' k ≤ q k)
    (l l' : List (ℕ × ℕ)) (hl : Token.findLabelIssues A A' (Token.methodScorer .selfConfidence) labels probs args = .ok l)
    (hl' : Token.findLabelIssues A A' (Token.methodScorer .selfConfidence) labels probs' args = .ok l') :
    ∀ p ∈ l', p ∈ l := by
  rintro ⟨i, j⟩ hp
  obtain ⟨mask, hm, hmem⟩ := token_mask A A' labels probs args hshape l hl
  obtain ⟨mask', hm', hmem'⟩ := token_mask A A' labels probs' args hshape' l' hl'
  obtain ⟨-, e⟩ := flattenData_eq labels probs hshape
  obtain ⟨-, e'⟩ := flattenData_eq labels probs' hshape'
  have hmm : (labels.flatten.zip probs'.flatten).length = (labels.flatten.zip probs.flatten).length := by rw [e, e']
  have htok : ∀ r : Fin (labels.flatten.zip probs'.flatten).length, ∃ i j,
      IsToken labels probs' i j (Batched.labelsOf (labels.flatten.zip probs'.flatten) r)
        (Batched.probsOf (labels.flatten.zip probs'.flatten) r) ∧
      IsToken labels probs i j (Batched.labelsOf (labels.flatten.zip probs.flatten) (Fin.cast hmm r))
        (Batched.probsOf (labels.flatten.zip probs.flatten) (Fin.cast hmm r)) := fun r => by
    obtain ⟨i, j, row, -, h1, h2, h3⟩ := lookup_spec labels r.val (e' ▸ r.isLt)
    exact ⟨i, j, isToken_of labels probs' hshape' r i j row h1 h2 h3,
      isToken_of labels probs hshape (Fin.cast hmm r) i j row h1 h2 h3⟩
  have hlab : ∀ r : Fin (labels.flatten.zip probs'.flatten).length, Batched.labelsOf (labels.flatten.zip probs'.flatten) r =
      Batched.labelsOf (labels.flatten.zip probs.flatten) (Fin.cast hmm r) := fun r => by
    obtain ⟨i, j, ⟨⟨r1, a1, a2⟩, -⟩, ⟨⟨r2, b1, b2⟩, -⟩⟩ := htok r
    rw [a1] at b1
    cases b1
    rw [a2] at b2
    exact Option.some.inj b2
  obtain ⟨r, hr, row, h1, h2, h3⟩ := (hmem' i j).mp hp
  refine (hmem i j).mpr ⟨Fin.cast hmm r, ?_, row, h1, h2, h3⟩
  refine better_flat hmm A _ _ _ _ hlab (fun r => ?_) args hf mask mask' hm hm' r hr
  obtain ⟨i, j, t', t⟩ := htok r
  rw [← hlab] at t
  exact h i j _ _ _ t t'

/-! ### Examples -/

/-- The first prediction for the last example comes closer to its label; its second label is still the only issue. -/
example : BetterBits halvedY halvedP (fun i k => if i = 3 ∧ k = 0 then 0 else halvedP i k) ∧
    ((multilabelIssues (stableSort ℚ) (stableSort ℚ) halvedY (fun i k => if i = 3 ∧ k = 0 then 0 else halvedP i k)
      { filterBy := .predictedNeqGiven }).toOption.map (fun mask => List.ofFn mask)) = some [false, false, false, true] :=
  ⟨by unfold BetterBits; decide +kernel, by decide +kernel⟩

/-- The second token is no longer an issue once its prediction is right. -/
example : (Token.findLabelIssues (stableSort ℚ) (stableSort ℚ) (Token.methodScorer .selfConfidence) twoTags twoTagProbs
      { filterBy := .predictedNeqGiven }).toOption = some [(0, 1)] ∧
    (Token.findLabelIssues (stableSort ℚ) (stableSort ℚ) (Token.methodScorer .selfConfidence) twoTags
      [[![9/10, 1/10], ![4/5, 1/5]], [![1/4, 3/4], ![1/10, 9/10], ![1/4, 3/4]]] { filterBy := .predictedNeqGiven }).toOption = some [] :=
  ⟨by decide +kernel, by decide +kernel⟩

end Cleanlab.Props
