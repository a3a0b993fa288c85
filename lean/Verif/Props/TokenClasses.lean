import Verif.Props.ClassNumberingJoint
import Verif.Props.BatchedFind
import Verif.Model.Token

/-!
# C217: token classification and the numbering of the classes
-/

namespace Cleanlab.Props

open Np Cleanlab.Util Cleanlab.Count Cleanlab.Rank Cleanlab.Filter Cleanlab.Batched Cleanlab.Spec

variable {K : ℕ}

/-- An example in the new numbering. -/
def renumberFlat (τ : Equiv.Perm (Fin K)) (e : Ex K) : Ex K := (τ e.1, renumberV τ e.2)

/-- The labels of all sentences in the new numbering. -/
def renumberSentences (τ : Equiv.Perm (Fin K)) (labels : List (List (Fin K))) : List (List (Fin K)) :=
  labels.map (List.map τ)

/-- The predicted probabilities of all tokens in the new numbering. -/
def renumberTokens (τ : Equiv.Perm (Fin K)) (probs : List (List (Fin K → ℚ))) : List (List (Fin K → ℚ)) :=
  probs.map (List.map (renumberV τ))

/-- What is computed from flat data does not depend on how the data are written down. -/
theorem flat_congr {β : Type} (F : (n : ℕ) → (Fin n → Fin K) → (Fin n → Fin K → ℚ) → β) {n m : ℕ} (h : n = m)
    (l : Fin n → Fin K) (p : Fin n → Fin K → ℚ) (l' : Fin m → Fin K) (p' : Fin m → Fin K → ℚ)
    (hl : ∀ i, l i = l' (Fin.cast h i)) (hp : ∀ i, p i = p' (Fin.cast h i)) : F n l p = F m l' p' := by
  subst h
  rw [show l = l' from funext hl, show p = p' from funext hp]

theorem flat_renumber {β : Type} (F : (n : ℕ) → (Fin n → Fin K) → (Fin n → Fin K → ℚ) → β) (τ : Equiv.Perm (Fin K))
    (data : List (Ex K)) :
    F (data.map (renumberFlat τ)).length (labelsOf (data.map (renumberFlat τ))) (probsOf (data.map (renumberFlat τ))) =
      F data.length (renumber τ (labelsOf data)) (renumberP τ (probsOf data)) := by
  refine flat_congr F (List.length_map _) _ _ _ _ (fun i => ?_) (fun i => ?_)
  · unfold labelsOf renumber
    rw [List.get_eq_getElem, List.getElem_map]
    rfl
  · unfold probsOf renumberP
    rw [List.get_eq_getElem, List.getElem_map]
    rfl

theorem flattenData_renumber (τ : Equiv.Perm (Fin K)) (labels : List (List (Fin K))) (probs : List (List (Fin K → ℚ)))
    (data : List (Ex K)) (h : Token.flattenData labels probs = .ok data) :
    Token.flattenData (renumberSentences τ labels) (renumberTokens τ probs) = .ok (data.map (renumberFlat τ)) := by
  unfold Token.flattenData renumberSentences renumberTokens at *
  rw [← List.map_flatten, ← List.map_flatten, List.length_map, List.length_map]
  split_ifs at h ⊢ with hl
  rw [← Except.ok.inj h, List.zip_map]
  rfl

theorem lengths_renumber (τ : Equiv.Perm (Fin K)) (labels : List (List (Fin K))) :
    (renumberSentences τ labels).map List.length = labels.map List.length := by
  unfold renumberSentences
  rw [List.map_map]
  refine List.map_congr_left (fun s _ => ?_)
  simp

variable [NeZero K]

omit [NeZero K] in
theorem scoresChecked_renumber {n : ℕ} (τ : Equiv.Perm (Fin K)) (m : Method) (labels : Fin n → Fin K) (P : Fin n → Fin K → ℚ)
    (hn : 0 < n) (hP : InRange P) : scoresChecked m (renumber τ labels) (renumberP τ P) = scoresChecked m labels P := by
  unfold scoresChecked
  rw [(validate_iff true labels P).mpr ⟨hn, .inl rfl, hP⟩,
    (validate_iff true (renumber τ labels) (renumberP τ P)).mpr ⟨hn, .inl rfl, inRange_renumber τ P hP⟩, C121_scores]

omit [NeZero K] in
/-- **C217**, scores: the token scores are the same in every numbering of the classes. -/
theorem C217_scores (τ : Equiv.Perm (Fin K)) (m : Method) (labels : List (List (Fin K))) (probs : List (List (Fin K → ℚ)))
    (data : List (Ex K)) (hd : Token.flattenData labels probs = .ok data) (hne : data ≠ []) (hP : InRange (probsOf data)) :
    Token.tokenScores (Token.methodScorer m) (renumberSentences τ labels) (renumberTokens τ probs) =
      Token.tokenScores (Token.methodScorer m) labels probs := by
  unfold Token.tokenScores
  rw [flattenData_renumber τ labels probs data hd, hd, lengths_renumber]
  refine (flat_renumber (fun n l p => (do
    let s ← scoresChecked m l p
    Token.nestedList (List.ofFn s) (labels.map List.length) : Except String (List (List ℚ)))) τ data).trans ?_
  rw [scoresChecked_renumber τ m _ _ (List.length_pos_of_ne_nil hne) hP]
  rfl

/-- Where the conditions of C121 for the same flagged examples hold. -/
structure SameFlags {n : ℕ} (labels : Fin n → Fin K) (P : Fin n → Fin K → ℚ) (args : Args K) : Prop where
  two : ∃ i j, labels i ≠ labels j
  range : InRange P
  millionth : NoMillionth labels P
  number : args.numToRemove = none
  joint : FiltersByJoint args.filterBy → args.confidentJoint.isSome ∨
    (OneBest P ∧ ∀ a, NoRoundingTies (unroundedJoint labels P a))

theorem findChecked_renumber {n : ℕ} (A : ArgSort ℚ) (τ : Equiv.Perm (Fin K)) (labels : Fin n → Fin K)
    (P : Fin n → Fin K → ℚ) (args : Args K) (h : SameFlags labels P args) :
    findChecked A (renumber τ labels) (renumberP τ P) (renumberArgs τ args) = findChecked A labels P args := by
  by_cases hj : FiltersByJoint args.filterBy → args.confidentJoint.isSome
  · exact C121_find_partial A τ labels P args h.two h.range h.millionth h.number hj
  · rw [Classical.not_imp] at hj
    obtain ⟨h1, h2⟩ := (h.joint hj.1).resolve_left hj.2
    exact C121_find_estimated_partial A τ labels P args h.two h.range h.millionth h1 h2 h.number

/-- **C217**, flagged tokens: `find_label_issues` returns the same list of tokens in every numbering. -/
theorem C217_tokens (A A' : ArgSort ℚ) (τ : Equiv.Perm (Fin K)) (m : Method) (labels : List (List (Fin K)))
    (probs : List (List (Fin K → ℚ))) (args : Args K) (data : List (Ex K))
    (hd : Token.flattenData labels probs = .ok data) (h : SameFlags (labelsOf data) (probsOf data) args) :
    Token.findLabelIssues A A' (Token.methodScorer m) (renumberSentences τ labels) (renumberTokens τ probs)
        (renumberArgs τ args) =
      Token.findLabelIssues A A' (Token.methodScorer m) labels probs args := by
  unfold Token.findLabelIssues
  rw [flattenData_renumber τ labels probs data hd, hd, lengths_renumber]
  refine (flat_renumber (fun n l p => (do
    let s ← scoresChecked m l p
    let issues ← findRankedChecked A A' l p (renumberArgs τ args) s
    issues.mapM (fun r => Token.lookup (labels.map List.length) r.val) : Except String (List (ℕ × ℕ)))) τ data).trans ?_
  obtain ⟨i, j, hij⟩ := h.two
  have hpos : 0 < data.length := i.pos
  rw [scoresChecked_renumber τ m _ _ hpos h.range]
  have hv : validate (allZero (renumber τ (labelsOf data))) (renumber τ (labelsOf data)) (renumberP τ (probsOf data)) = .ok () :=
    (validate_iff _ _ _).mpr ⟨hpos, .inr ⟨i, j, fun e => hij (τ.injective e)⟩, inRange_renumber τ _ h.range⟩
  have hv' : validate (allZero (labelsOf data)) (labelsOf data) (probsOf data) = .ok () :=
    (validate_iff _ _ _).mpr ⟨hpos, .inr ⟨i, j, hij⟩, h.range⟩
  have hf : ∀ s, findRankedChecked A A' (renumber τ (labelsOf data)) (renumberP τ (probsOf data)) (renumberArgs τ args) s =
      findRankedChecked A A' (labelsOf data) (probsOf data) args s := by
    intro s
    unfold findRankedChecked
    rw [findChecked_renumber A τ _ _ args h, hv, hv']
  simp only [hf]
  rfl

/-! ### The batched search -/

omit [NeZero K] in
theorem loopBatches_map {α β : Type} (f : α → β) (bs fuel : ℕ) (l : List α) :
    loopBatches bs fuel (l.map f) = (loopBatches bs fuel l).map (List.map (List.map f)) := by
  induction fuel generalizing l with
  | zero =>
    unfold loopBatches
    by_cases h : l = []
    · simp [h]
    · simp [h]
  | succ fuel ih =>
    unfold loopBatches
    by_cases h : l = []
    · simp [h]
    · rw [if_neg (by simpa using h), if_neg h, ← List.map_drop, ih, Option.map_map, Option.map_map]
      congr 1
      funext r
      simp [List.map_take]

omit [NeZero K] in
theorem thresholds_fold_renumber (τ : Equiv.Perm (Fin K)) (bs : List (List (Ex K))) (s s' : Inspector K)
    (h : s'.thr = renumberV τ s.thr ∧ s'.perClass = renumberV τ s.perClass) :
    ((bs.map (List.map (renumberFlat τ))).foldl updateThresholds s').thr = renumberV τ (bs.foldl updateThresholds s).thr := by
  induction bs generalizing s s' with
  | nil => exact h.1
  | cons b bs ih =>
    rw [List.map_cons, List.foldl_cons, List.foldl_cons]
    refine ih _ _ ?_
    have h1 : labelCounts (labelsOf (b.map (renumberFlat τ))) = renumberV τ (labelCounts (labelsOf b)) := by
      rw [flat_renumber (fun _ l _ => labelCounts l) τ b, labelCounts_renumber]
    have h2 : getConfidentThresholds (labelsOf (b.map (renumberFlat τ))) (probsOf (b.map (renumberFlat τ))) =
        renumberV τ (getConfidentThresholds (labelsOf b) (probsOf b)) := by
      rw [flat_renumber (fun _ l p => getConfidentThresholds l p) τ b, C121_thresholds]
    unfold updateThresholds
    constructor
    · funext k
      dsimp only
      rw [h1, h2, h.1, h.2]
      rfl
    · funext k
      dsimp only
      rw [h1, h.2]
      rfl

theorem offDiagonal_renumber (τ : Equiv.Perm (Fin K)) (thr : Fin K → ℚ) (e : Ex K) (h : ∃ k, ∀ j, j ≠ k → e.2 j < e.2 k) :
    IsOffDiagonal (renumberV τ thr) (renumberFlat τ e) ↔ IsOffDiagonal thr e := by
  have h1 := reaches_and_disagrees thr e
  have h2 := reaches_and_disagrees (renumberV τ thr) (renumberFlat τ e)
  have ha : argmax (renumberFlat τ e).2 = τ (argmax e.2) := argmax_renumber τ e.2 h
  have he : (reaches (renumberV τ thr) (renumberFlat τ e) && disagrees (renumberFlat τ e)) = (reaches thr e && disagrees e) := by
    unfold reaches disagrees
    rw [ha]
    simp [renumberFlat, renumberV]
  rw [h1, h2] at he
  exact decide_eq_decide.mp he

/-- **C217**, the search in batches: the same examples are found in every numbering. -/
theorem C217_batched (A : ArgSort ℚ) (τ : Equiv.Perm (Fin K)) (jobs jobs' : ℕ → Jobs) (batchSize : ℕ) (hb : 1 ≤ batchSize)
    (data : List (Ex K)) (hd : data ≠ []) (h1 : NoMillionth (labelsOf data) (probsOf data)) (h2 : OneBest (probsOf data)) :
    ∃ S : List ℕ,
      (findLabelIssuesBatchedIndices A selfConfidenceScore false jobs batchSize data).map (fun r => r.map (List.map Fin.val)) =
        some (.ok S) ∧
      (findLabelIssuesBatchedIndices A selfConfidenceScore false jobs' batchSize (data.map (renumberFlat τ))).map
        (fun r => r.map (List.map Fin.val)) = some (.ok S) := by
  obtain ⟨bs, thr, hbs, hf, hthr, h⟩ := batched_eq A selfConfidenceScore jobs batchSize data hb hd
  obtain ⟨bs', thr', hbs', hf', hthr', h'⟩ := batched_eq A selfConfidenceScore jobs' batchSize (data.map (renumberFlat τ)) hb
    (by simpa using hd)
  have hbb : bs' = bs.map (List.map (renumberFlat τ)) := by
    unfold batches at hbs hbs'
    rw [List.length_map, loopBatches_map, hbs] at hbs'
    exact (Option.some.inj hbs').symm
  have htt : thr' = renumberV τ thr := by
    rw [hthr', hthr, hbb]
    exact thresholds_fold_renumber τ bs {} {} ⟨rfl, rfl⟩
  have hc : (data.map (renumberFlat τ)).countP (fun e => decide (IsOffDiagonal thr' e)) =
      data.countP (fun e => decide (IsOffDiagonal thr e)) := by
    rw [List.countP_map, htt]
    refine List.countP_congr (fun e he => ?_)
    obtain ⟨i, hi, rfl⟩ := List.getElem_of_mem he
    have := offDiagonal_renumber τ thr data[i] (h2 ⟨i, hi⟩)
    simp [this]
  have hs : (data.map (renumberFlat τ)).map (selfConfidenceScore thr') = data.map (selfConfidenceScore thr) := by
    rw [List.map_map]
    refine List.map_congr_left (fun e _ => ?_)
    simp [selfConfidenceScore, renumberFlat, renumberV]
  rw [hc, hs] at h'
  generalize hT : (findTopIssues A (data.map (selfConfidenceScore thr)).get
    (some (data.countP (fun e => decide (IsOffDiagonal thr e))))).map Fin.val = T at h h'
  refine ⟨((List.finRange data.length).filter (fun i => decide (i.val ∈ T) &&
    !(reduceIssues (labelsOf data) (probsOf data) i))).map Fin.val, ?_, ?_⟩
  · unfold findLabelIssuesBatchedIndices
    rw [h]
    rfl
  · unfold findLabelIssuesBatchedIndices
    rw [h']
    dsimp only [Option.map, Except.map]
    have := flat_renumber (fun n l p => ((List.finRange n).filter (fun i => decide (i.val ∈ T) &&
      !(reduceIssues l p i))).map Fin.val) τ data
    simp only [reduce_renumber τ _ _ h1] at this
    rw [this]

/-- **C217**, tokens with `low_memory=True`. -/
theorem C217_low_memory (A : ArgSort ℚ) (τ : Equiv.Perm (Fin K)) (jobs jobs' : ℕ → Jobs) (batchSize : ℕ) (hb : 1 ≤ batchSize)
    (labels : List (List (Fin K))) (probs : List (List (Fin K → ℚ))) (data : List (Ex K))
    (hd : Token.flattenData labels probs = .ok data) (hne : data ≠ []) (h1 : NoMillionth (labelsOf data) (probsOf data))
    (h2 : OneBest (probsOf data)) :
    Token.findLabelIssuesLowMemory A selfConfidenceScore jobs' batchSize (renumberSentences τ labels) (renumberTokens τ probs) =
      Token.findLabelIssuesLowMemory A selfConfidenceScore jobs batchSize labels probs := by
  obtain ⟨S, hS, hS'⟩ := C217_batched A τ jobs jobs' batchSize hb data hne h1 h2
  unfold Token.findLabelIssuesLowMemory
  rw [flattenData_renumber τ labels probs data hd, hd, lengths_renumber]
  dsimp only
  have key : ∀ (n : ℕ) (o : Option (Except String (List (Fin n)))),
      o.map (fun r => r.map (List.map Fin.val)) = some (.ok S) →
      o.map (fun r => r.bind (fun issues => issues.mapM (fun r => Token.lookup (labels.map List.length) r.val))) =
        some (S.mapM (Token.lookup (labels.map List.length))) := by
    intro n o ho
    cases o with
    | none => cases ho
    | some r =>
      cases r with
      | error e => cases ho
      | ok l =>
        have : l.map Fin.val = S := Except.ok.inj (Option.some.inj ho)
        rw [← this]
        simp only [Option.map_some, Except.bind, List.mapM_map]
        rfl
  rw [key _ _ hS, key _ _ hS']

/-- Two sentences, the first of one token with a label error. -/
def errorTokens : List (List (Fin 2)) := [[0], [0, 1]]

def errorTokenProbs : List (List (Fin 2 → ℚ)) := [[![3 / 10, 7 / 10]], [![9 / 10, 1 / 10], ![2 / 5, 3 / 5]]]

def errorTokenData : List (Ex 2) := [(0, ![3 / 10, 7 / 10]), (0, ![9 / 10, 1 / 10]), (1, ![2 / 5, 3 / 5])]

example : Token.flattenData errorTokens errorTokenProbs = .ok errorTokenData := rfl

example : SameFlags (labelsOf errorTokenData) (probsOf errorTokenData) { filterBy := .confidentLearning } where
  two := ⟨⟨0, by decide⟩, ⟨2, by decide⟩, by decide⟩
  range := by unfold InRange; decide +kernel
  millionth := by unfold NoMillionth; decide +kernel
  number := rfl
  joint := by rintro (h | h | h) <;> cases h

example : OneBest (probsOf errorTokenData) := by
  unfold OneBest; decide +kernel

/-- Only the error is found, in both numberings. -/
example : Token.findLabelIssues (stableSort ℚ) (stableSort ℚ) (Token.methodScorer .selfConfidence) errorTokens errorTokenProbs
      { filterBy := .confidentLearning } = .ok [(0, 0)] ∧
    renumberSentences (Equiv.swap 0 1) errorTokens = [[1], [1, 0]] := by
  refine ⟨ok_of_toOption (by decide +kernel), by decide⟩

example : (Token.findLabelIssuesLowMemory (stableSort ℚ) selfConfidenceScore (fun _ => .one) 2 errorTokens errorTokenProbs).map
    Except.toOption = some (some [(0, 0)]) := by decide +kernel

end Cleanlab.Props
