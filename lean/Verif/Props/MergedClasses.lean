import Verif.Props.Token
import Verif.Props.Parts
import Mathlib.Algebra.Order.BigOperators.Group.Finset

/-!
# C212, C213: merging classes

`f` names the new class of every old class. The probabilities are merged with `merge_probs`.
-/

namespace Cleanlab.Props

open Np Cleanlab.Count Cleanlab.Rank Cleanlab.Filter Cleanlab.Token Cleanlab.Spec

variable {n K K' : ℕ}

/-- The labels after merging. -/
def mergedLabels (f : Fin K → Fin K') (labels : Fin n → Fin K) : Fin n → Fin K' := fun i => f (labels i)

/-- The probabilities after merging, with the rows of `merge_probs`. -/
def mergedProbs (f : Fin K → Fin K') (P : Fin n → Fin K → ℚ) : Fin n → Fin K' → ℚ :=
  fun i => mergeRaw (P i) (fun k => some (f k))

/-- No old classes but those that become class `c` are merged. -/
def OnlyInto (f : Fin K → Fin K') (c : Fin K') : Prop := ∀ k k', f k = f k' → f k ≠ c → k = k'

instance (f : Fin K → Fin K') (c : Fin K') : Decidable (OnlyInto f c) := by unfold OnlyInto; infer_instance

theorem mergeProbs_some (p : Fin K → ℚ) (f : Fin K → Fin K') :
    mergeProbs p (fun k => some (f k)) = .ok (mergeRaw p (fun k => some (f k))) := by
  unfold mergeProbs
  simp

theorem mergeRaw_some (p : Fin K → ℚ) (f : Fin K → Fin K') (c : Fin K') :
    mergeRaw p (fun k => some (f k)) c = ∑ k, if f k = c then p k else 0 := by
  rw [mergeRaw_eq]
  simp only [Option.some.injEq]

theorem merged_ge (p : Fin K → ℚ) (hp : ∀ k, 0 ≤ p k) (f : Fin K → Fin K') (k : Fin K) :
    p k ≤ mergeRaw p (fun k => some (f k)) (f k) := by
  rw [mergeRaw_some]
  have := Finset.single_le_sum (f := fun k' => if f k' = f k then p k' else 0) (s := Finset.univ)
    (fun j _ => by split_ifs; exacts [hp j, le_rfl]) (Finset.mem_univ k)
  simpa using this

/-- A class that is not merged keeps its probability. -/
theorem merged_single (p : Fin K → ℚ) (f : Fin K → Fin K') (c : Fin K') (h : OnlyInto f c) (k : Fin K) (hk : f k ≠ c) :
    mergeRaw p (fun k => some (f k)) (f k) = p k := by
  rw [mergeRaw_some, Finset.sum_eq_single k]
  · simp
  · intro j _ hj
    rw [if_neg]
    intro e
    exact hj (h j k e (by rw [e]; exact hk))
  · simp

/-- A new class no old class is mapped to has probability 0. -/
theorem merged_unused (p : Fin K → ℚ) (f : Fin K → Fin K') (c : Fin K') (h : ∀ k, f k ≠ c) :
    mergeRaw p (fun k => some (f k)) c = 0 := by
  rw [mergeRaw_some]
  exact Finset.sum_eq_zero (fun k _ => if_neg (h k))

/-- After merging, the other classes are at most as probable as the most probable one of them was. -/
theorem merged_other_le (p : Fin K → ℚ) (f : Fin K → Fin K') (c : Fin K') (h : OnlyInto f c) (v : ℚ)
    (hv0 : 0 ≤ v) (hv : ∀ k, f k ≠ c → p k ≤ v) (c' : Fin K') (hc : c' ≠ c) : mergeRaw p (fun k => some (f k)) c' ≤ v := by
  by_cases he : ∃ k, f k = c'
  · obtain ⟨k, rfl⟩ := he
    rw [merged_single p f c h k hc]
    exact hv k hc
  · rw [merged_unused p f c' (fun k hk => he ⟨k, hk⟩)]
    exact hv0

/-- **C212.** Merging classes, whichever, never lowers the self-confidence of a label. -/
theorem C212_confidence (f : Fin K → Fin K') (labels : Fin n → Fin K) (P : Fin n → Fin K → ℚ) (hP : ∀ i k, 0 ≤ P i k)
    (i : Fin n) : selfConfidence labels P i ≤ selfConfidence (mergedLabels f labels) (mergedProbs f P) i :=
  merged_ge (P i) (hP i) f (labels i)

/-- **C212.** Merging other classes into the given one never lowers its normalized margin. -/
theorem C212_margin (f : Fin K → Fin K') (labels : Fin n → Fin K) (P : Fin n → Fin K → ℚ) (hP : ∀ i k, 0 ≤ P i k)
    (i : Fin n) (h : OnlyInto f (f (labels i))) (v v' : ℚ) (hv : normalizedMargin labels P i = some v)
    (hv' : normalizedMargin (mergedLabels f labels) (mergedProbs f P) i = some v') : v ≤ v' := by
  unfold normalizedMargin at hv hv'
  obtain ⟨m, hm, rfl⟩ := Option.map_eq_some_iff.mp hv
  obtain ⟨m', hm', rfl⟩ := Option.map_eq_some_iff.mp hv'
  obtain ⟨k, hk, hmax, rfl⟩ := (maxProbNotLabel_spec _ _ _).mp hm
  obtain ⟨k', hk', -, rfl⟩ := (maxProbNotLabel_spec _ _ _).mp hm'
  have h1 := C212_confidence f labels P hP i
  have h2 : mergedProbs f P i k' ≤ P i k :=
    merged_other_le (P i) f (f (labels i)) h (P i k) (hP i k)
      (fun j hj => hmax j (fun e => hj (by rw [e]))) k' hk'
  linarith

/-- **C212.** If the class an example looks most like is merged with the given one, the example is not flagged after merging,
whatever the options. -/
theorem C212_unflagged (A : ArgSort ℚ) [NeZero K'] (f : Fin K → Fin K') (labels : Fin n → Fin K) (P : Fin n → Fin K → ℚ)
    (hP : ∀ i k, 0 ≤ P i k) (args : Args K')
    (hf : args.filterBy ≠ .lowSelfConfidence ∧ args.filterBy ≠ .lowNormalizedMargin) (mask : Fin n → Bool)
    (hm : findChecked A (mergedLabels f labels) (mergedProbs f P) args = .ok mask) (i : Fin n)
    (h : OnlyInto f (f (labels i))) (k : Fin K) (hk : f k = f (labels i)) (hmax : ∀ j, f j ≠ f (labels i) → P i j ≤ P i k) :
    mask i = false := by
  by_contra hc
  rw [Bool.not_eq_false] at hc
  obtain ⟨j, hj, hlt⟩ := C07_flagged_has_better_class A _ _ args hf mask ((C115_find_iff _ _ _ _ _).mp hm).2 i hc
  have h1 : mergedProbs f P i j ≤ P i k := merged_other_le (P i) f _ h (P i k) (hP i k) hmax j hj
  have h2 : P i k ≤ mergedProbs f P i (f k) := merged_ge (P i) (hP i) f k
  rw [hk] at h2
  have h3 : mergedProbs f P i (mergedLabels f labels i) = mergedProbs f P i (f (labels i)) := rfl
  rw [h3] at hlt
  linarith

/-- The sentences after merging. -/
def mergedSentences (f : Fin K → Fin K') (labels : List (List (Fin K))) : List (List (Fin K')) := labels.map (List.map f)

/-- Their probabilities after merging. -/
def mergedSentenceProbs (f : Fin K → Fin K') (probs : List (List (Fin K → ℚ))) : List (List (Fin K' → ℚ)) :=
  probs.map (List.map (fun p => mergeRaw p (fun k => some (f k))))

/-- **C212 for tokens.** No token is reported whose most probable class is merged with its given class. -/
theorem C212_tokens (A : ArgSort ℚ) [NeZero K'] (f : Fin K → Fin K') (labels : List (List (Fin K)))
    (probs : List (List (Fin K → ℚ))) (hP : ∀ row ∈ probs, ∀ p ∈ row, ∀ k, 0 ≤ p k)
    (hshape : labels.map List.length = probs.map List.length) (args : Args K')
    (hf : args.filterBy ≠ .lowSelfConfidence ∧ args.filterBy ≠ .lowNormalizedMargin) (l : List (ℕ × ℕ))
    (hl : Token.findLabelIssues A A (methodScorer .selfConfidence) (mergedSentences f labels) (mergedSentenceProbs f probs)
      args = .ok l) (i j : ℕ) (y : Fin K) (p : Fin K → ℚ) (ht : IsToken labels probs i j y p) (h : OnlyInto f (f y))
    (k : Fin K) (hk : f k = f y) (hmax : ∀ j, f j ≠ f y → p j ≤ p k) : (i, j) ∉ l := by
  intro hmem
  have hs : (mergedSentences f labels).map List.length = (mergedSentenceProbs f probs).map List.length := by
    unfold mergedSentences mergedSentenceProbs
    rw [List.map_map, List.map_map]
    simpa [Function.comp_def] using hshape
  obtain ⟨y', q, ⟨⟨r1, hr1, hy1⟩, ⟨r2, hr2, hq2⟩⟩, c, hc, hlt⟩ := (C31_flagged_tokens A _ _ args hs hf l hl).1 (i, j) hmem
  obtain ⟨⟨s1, hs1, hz1⟩, ⟨s2, hs2, hz2⟩⟩ := ht
  unfold mergedSentences at hr1
  unfold mergedSentenceProbs at hr2
  rw [List.getElem?_map, hs1] at hr1
  rw [List.getElem?_map, hs2] at hr2
  obtain rfl := Option.some.inj hr1
  obtain rfl := Option.some.inj hr2
  rw [List.getElem?_map, hz1] at hy1
  rw [List.getElem?_map, hz2] at hq2
  obtain rfl := Option.some.inj hy1
  obtain rfl := Option.some.inj hq2
  have hpos : ∀ k, 0 ≤ p k := hP s2 (List.mem_of_getElem? hs2) p (List.mem_of_getElem? hz2)
  have h1 := merged_other_le p f _ h (p k) (hpos k) hmax c hc
  have h2 := merged_ge p hpos f k
  rw [hk] at h2
  linarith

/-! ### Merging other classes -/

/-- **C213, a part.** A label whose class is not merged keeps its self-confidence. -/
theorem C213_confidence_partial (f : Fin K → Fin K') (labels : Fin n → Fin K) (P : Fin n → Fin K → ℚ) (i : Fin n)
    (h : ∀ k, f k = f (labels i) → k = labels i) :
    selfConfidence (mergedLabels f labels) (mergedProbs f P) i = selfConfidence labels P i := by
  unfold selfConfidence mergedLabels mergedProbs
  rw [mergeRaw_some, Finset.sum_eq_single (labels i)]
  · simp
  · intro j _ hj
    exact if_neg (fun e => hj (h j e))
  · simp

/-- Classes 1 and 2 become one class. -/
def lastTwo : Fin 3 → Fin 2 := ![0, 1, 1]

/-- Three examples, each with its given label as the most probable class. -/
def undecidedLabels : Fin 3 → Fin 3 := ![0, 1, 2]

/-- The first example is a little more like class 0 than like each of the others. -/
def undecidedProbs : Fin 3 → Fin 3 → ℚ := ![![4/10, 3/10, 3/10], ![1/10, 8/10, 1/10], ![1/10, 1/10, 8/10]]

/-- **C213 fails.** Each of three examples has its given label as the single most probable class, and none is flagged by
`predicted_neq_given`. After the other two classes are merged, the first one is flagged, and its margin is lower. -/
theorem C213_not_fewer :
    (∀ i, IsPrediction (undecidedProbs i) (undecidedLabels i)) ∧
    (findChecked (stableSort ℚ) undecidedLabels undecidedProbs { filterBy := .predictedNeqGiven }).toOption =
      some (fun _ => false) ∧
    (findChecked (stableSort ℚ) (mergedLabels lastTwo undecidedLabels) (mergedProbs lastTwo undecidedProbs)
      { filterBy := .predictedNeqGiven }).toOption = some ![true, false, false] ∧
    normalizedMargin undecidedLabels undecidedProbs 0 = some (11/20) ∧
    normalizedMargin (mergedLabels lastTwo undecidedLabels) (mergedProbs lastTwo undecidedProbs) 0 = some (4/10) := by
  refine ⟨?_, ?_, ?_, ?_, ?_⟩ <;> decide +kernel

/-- Non-vacuity of C212: the second example, given class 2 but more like class 1, is flagged before merging 1 and 2, not after. -/
def confusedProbs : Fin 3 → Fin 3 → ℚ := ![![8/10, 1/10, 1/10], ![1/10, 6/10, 3/10], ![1/10, 7/10, 2/10]]

example : (findChecked (stableSort ℚ) ![0, 2, 1] confusedProbs { filterBy := .predictedNeqGiven }).toOption =
    some ![false, true, false] ∧
    ∃ mask, findChecked (stableSort ℚ) (mergedLabels lastTwo ![0, 2, 1]) (mergedProbs lastTwo confusedProbs)
      { filterBy := .predictedNeqGiven } = .ok mask ∧ mask 1 = false := by
  refine ⟨by decide +kernel, ?_⟩
  obtain ⟨mask, hm⟩ : ∃ mask, findChecked (stableSort ℚ) (mergedLabels lastTwo ![0, 2, 1]) (mergedProbs lastTwo confusedProbs)
      { filterBy := .predictedNeqGiven } = .ok mask :=
    ⟨fun _ => false, ok_of_toOption (by decide +kernel)⟩
  exact ⟨mask, hm, C212_unflagged (stableSort ℚ) lastTwo ![0, 2, 1] confusedProbs (by decide +kernel) _ (by decide) mask hm 1
    (by decide) 1 (by decide) (by decide +kernel)⟩

example : selfConfidence ![0, 2, 1] confusedProbs 1 < selfConfidence (mergedLabels lastTwo ![0, 2, 1])
    (mergedProbs lastTwo confusedProbs) 1 := by decide +kernel

example : (Token.findLabelIssues (stableSort ℚ) (stableSort ℚ) (methodScorer .selfConfidence) [[(0 : Fin 3)], [2, 1]]
      [[confusedProbs 0], [confusedProbs 1, confusedProbs 2]] { filterBy := .predictedNeqGiven }).toOption = some [(1, 0)] ∧
    (Token.findLabelIssues (stableSort ℚ) (stableSort ℚ) (methodScorer .selfConfidence)
      (mergedSentences lastTwo [[(0 : Fin 3)], [2, 1]])
      (mergedSentenceProbs lastTwo [[confusedProbs 0], [confusedProbs 1, confusedProbs 2]])
      { filterBy := .predictedNeqGiven }).toOption = some [] := by
  constructor <;> decide +kernel

end Cleanlab.Props
