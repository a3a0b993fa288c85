import Verif.Model.Token
import Verif.Props.Filter
import Verif.Props.FilterChecked
import Verif.Props.BatchedFind
import Verif.Props.MultilabelScore

/-!
# C31, C32, C67, C68: token classification
-/

namespace Cleanlab.Props

open Np Cleanlab.Util Cleanlab.Count Cleanlab.Rank Cleanlab.Filter Cleanlab.Batched Cleanlab.Token Cleanlab.Spec

variable {K : ℕ}

theorem mapM_eq_map {α β : Type} (l : List α) (f : α → Except String β) (g : α → β) (h : ∀ x ∈ l, f x = .ok (g x)) :
    l.mapM f = .ok (l.map g) := by
  induction l with
  | nil => rfl
  | cons x l ih =>
    rw [List.mapM_cons, h x (by simp), ih (fun y hy => h y (by simp [hy]))]
    rfl

theorem mapM_exists {α β : Type} (l : List α) (f : α → Except String β) (Q : α → β → Prop)
    (h : ∀ x ∈ l, ∃ y, f x = .ok y ∧ Q x y) :
    ∃ m : List β, l.mapM f = .ok m ∧ m.length = l.length ∧
      ∀ (i : ℕ) x y, l[i]? = some x → m[i]? = some y → Q x y := by
  induction l with
  | nil => exact ⟨[], rfl, rfl, by simp⟩
  | cons x l ih =>
    obtain ⟨y, h1, h2⟩ := h x (by simp)
    obtain ⟨m, h3, h4, h5⟩ := ih (fun z hz => h z (by simp [hz]))
    refine ⟨y :: m, ?_, by simp [h4], ?_⟩
    · rw [List.mapM_cons, h1, h3]; rfl
    · intro i a b ha hb
      cases i with
      | zero => simp at ha hb; rw [← ha, ← hb]; exact h2
      | succ i => exact h5 i a b (by simpa using ha) (by simpa using hb)

/-- The number of tokens before token `j` of sentence `i`. -/
def tokensBefore {α : Type} (xs : List (List α)) (i j : ℕ) : ℕ := (xs.take i).flatten.length + j

theorem flatten_get {α : Type} (xs : List (List α)) (i j : ℕ) (row : List α) (x : α) (h1 : xs[i]? = some row)
    (h2 : row[j]? = some x) : xs.flatten[tokensBefore xs i j]? = some x := by
  induction xs generalizing i with
  | nil => simp at h1
  | cons y ys ih =>
    cases i with
    | zero =>
      simp only [List.getElem?_cons_zero, Option.some.injEq] at h1
      subst h1
      have hj : j < y.length := (List.getElem?_eq_some_iff.mp h2).1
      simp [tokensBefore, List.getElem?_append_left hj, h2]
    | succ i =>
      rw [List.getElem?_cons_succ] at h1
      have := ih i h1
      unfold tokensBefore at this ⊢
      rw [List.flatten_cons, List.take_succ_cons, List.flatten_cons, List.length_append, Nat.add_assoc,
        List.getElem?_append_right (Nat.le_add_right _ _), Nat.add_sub_cancel_left, this]

theorem mapping_get {α : Type} (xs : List (List α)) (s r i j : ℕ) :
    (((xs.map List.length).zipIdx s).map (fun p => (List.range p.1).map (fun j => (p.2, j)))).flatten[r]? = some (i, j) ↔
      s ≤ i ∧ ∃ row, xs[i - s]? = some row ∧ j < row.length ∧ r = tokensBefore xs (i - s) j := by
  induction xs generalizing s r with
  | nil => simp
  | cons y ys ih =>
    simp only [List.map_cons, List.zipIdx_cons, List.flatten_cons]
    by_cases hr : r < y.length
    · rw [List.getElem?_append_left (by simpa using hr)]
      simp only [List.getElem?_map, List.getElem?_range hr, Option.map_some, Option.some.injEq, Prod.mk.injEq]
      constructor
      · rintro ⟨rfl, rfl⟩
        refine ⟨le_rfl, y, by simp, hr, ?_⟩
        simp [tokensBefore]
      · rintro ⟨hs, row, h1, h2, h3⟩
        rcases Nat.eq_zero_or_pos (i - s) with h0 | h0
        · rw [h0] at h3
          simp [tokensBefore] at h3
          exact ⟨by omega, h3⟩
        · obtain ⟨t, ht⟩ := Nat.exists_eq_succ_of_ne_zero (Nat.pos_iff_ne_zero.mp h0)
          rw [ht] at h3
          simp [tokensBefore] at h3
          omega
    · rw [List.getElem?_append_right (by simpa using hr)]
      simp only [List.length_map, List.length_range]
      rw [ih]
      constructor
      · rintro ⟨hs, row, h1, h2, h3⟩
        have he : i - s = (i - (s + 1)) + 1 := by omega
        refine ⟨by omega, row, ?_, h2, ?_⟩
        · rw [he, List.getElem?_cons_succ]; exact h1
        · rw [he]
          simp [tokensBefore] at h3 ⊢
          omega
      · rintro ⟨hs, row, h1, h2, h3⟩
        rcases Nat.eq_zero_or_pos (i - s) with h0 | h0
        · rw [h0] at h1 h3
          simp [tokensBefore] at h1 h3
          subst h1; omega
        · have he : i - s = (i - (s + 1)) + 1 := by omega
          rw [he] at h1 h3
          rw [List.getElem?_cons_succ] at h1
          refine ⟨by omega, row, h1, h2, ?_⟩
          simp [tokensBefore] at h3 ⊢
          omega

theorem length_mappingFlatten (lengths : List ℕ) (s : ℕ) :
    ((lengths.zipIdx s).map (fun p => (List.range p.1).map (fun j => (p.2, j)))).flatten.length = lengths.sum := by
  induction lengths generalizing s with
  | nil => rfl
  | cons a l ih => simp only [List.zipIdx_cons, List.map_cons, List.flatten_cons, List.length_append, ih]; simp

/-- The sentence and token of a flat position. -/
theorem lookup_spec {α : Type} (xs : List (List α)) (r : ℕ) (hr : r < xs.flatten.length) :
    ∃ i j row, lookup (xs.map List.length) r = .ok (i, j) ∧ xs[i]? = some row ∧ j < row.length ∧ r = tokensBefore xs i j := by
  have hlen : r < (mappingFlatten (xs.map List.length)).length := by
    unfold mappingFlatten
    rw [length_mappingFlatten, ← List.length_flatten]
    exact hr
  have hsome : (mappingFlatten (xs.map List.length))[r]? = some (mappingFlatten (xs.map List.length))[r] :=
    List.getElem?_eq_getElem hlen
  have h := (mapping_get xs 0 r _ _).mp hsome
  obtain ⟨-, row, h1, h2, h3⟩ := h
  refine ⟨_, _, row, ?_, by simpa using h1, h2, by simpa using h3⟩
  unfold lookup
  rw [hsome]
  rfl

theorem lookup_eq_iff {α : Type} (xs : List (List α)) (r i j : ℕ) :
    lookup (xs.map List.length) r = .ok (i, j) ↔ ∃ row, xs[i]? = some row ∧ j < row.length ∧ r = tokensBefore xs i j := by
  have h := mapping_get xs 0 r i j
  simp only [Nat.zero_le, Nat.sub_zero, true_and] at h
  rw [← h]
  unfold lookup mappingFlatten
  constructor
  · intro hl
    split at hl
    · cases hl
    · rename_i p hp
      cases hl
      exact hp
  · intro hl
    rw [hl]

theorem tokensBefore_congr {α β : Type} (xs : List (List α)) (ys : List (List β))
    (h : xs.map List.length = ys.map List.length) (i j : ℕ) : tokensBefore xs i j = tokensBefore ys i j := by
  unfold tokensBefore
  rw [List.length_flatten, List.length_flatten, List.map_take, List.map_take, h]

/-- The flat data of labels and probabilities of the same shape. -/
theorem flattenData_eq (labels : List (List (Fin K))) (probs : List (List (Fin K → ℚ)))
    (h : labels.map List.length = probs.map List.length) :
    flattenData labels probs = .ok (labels.flatten.zip probs.flatten) ∧
      (labels.flatten.zip probs.flatten).length = labels.flatten.length := by
  have hl : labels.flatten.length = probs.flatten.length := by
    rw [List.length_flatten, List.length_flatten, h]
  constructor
  · unfold flattenData; rw [if_neg (by simpa using hl)]
  · rw [List.length_zip, hl, min_self]

/-- Token `(i, j)` of a data set. -/
def IsToken (labels : List (List (Fin K))) (probs : List (List (Fin K → ℚ))) (i j : ℕ) (y : Fin K) (p : Fin K → ℚ) : Prop :=
  (∃ row, labels[i]? = some row ∧ row[j]? = some y) ∧ ∃ row, probs[i]? = some row ∧ row[j]? = some p

theorem isToken_of (labels : List (List (Fin K))) (probs : List (List (Fin K → ℚ)))
    (h : labels.map List.length = probs.map List.length) (r : Fin (labels.flatten.zip probs.flatten).length) (i j : ℕ)
    (row : List (Fin K)) (h1 : labels[i]? = some row) (h2 : j < row.length) (h3 : r.val = tokensBefore labels i j) :
    IsToken labels probs i j (labelsOf (labels.flatten.zip probs.flatten) r)
      (probsOf (labels.flatten.zip probs.flatten) r) := by
  have hi : i < labels.length := (List.getElem?_eq_some_iff.mp h1).1
  have hrow : labels[i] = row := (List.getElem?_eq_some_iff.mp h1).2
  have hlen : labels.length = probs.length := by simpa using congrArg List.length h
  have hip : i < probs.length := by omega
  have hrl : row.length = probs[i].length := by
    have := congrArg (fun l => l[i]?) h
    simp only [List.getElem?_map, h1, List.getElem?_eq_getElem hip, Option.map_some, Option.some.injEq] at this
    exact this
  have e1 := flatten_get labels i j row _ h1 (List.getElem?_eq_getElem h2)
  have e2 := flatten_get probs i j _ _ (List.getElem?_eq_getElem hip) (List.getElem?_eq_getElem (by omega : j < probs[i].length))
  rw [← tokensBefore_congr labels probs h, ← h3] at e2
  rw [← h3] at e1
  have hz : (labels.flatten.zip probs.flatten)[r.val]? = some (row[j], (probs[i])[j]'(by omega)) := by
    rw [List.getElem?_zip_eq_some]; exact ⟨e1, e2⟩
  have hz' : (labels.flatten.zip probs.flatten)[r.val] = (row[j], (probs[i])[j]'(by omega)) := by
    rw [List.getElem?_eq_getElem r.isLt] at hz
    exact Option.some.inj hz
  have hl : labelsOf (labels.flatten.zip probs.flatten) r = row[j] := congrArg Prod.fst hz'
  have hp : probsOf (labels.flatten.zip probs.flatten) r = (probs[i])[j]'(by omega) := congrArg Prod.snd hz'
  rw [hl, hp]
  exact ⟨⟨row, h1, List.getElem?_eq_getElem h2⟩, _, List.getElem?_eq_getElem hip, List.getElem?_eq_getElem _⟩

/-- Mapping a list of distinct flat positions to tokens. -/
theorem map_lookup {α : Type} (xs : List (List α)) (n : ℕ) (hn : n = xs.flatten.length) (l : List (Fin n)) (hnd : l.Nodup) :
    ∃ m : List (ℕ × ℕ), l.mapM (fun r => lookup (xs.map List.length) r.val) = .ok m ∧ m.Nodup ∧ m.length = l.length ∧
      (∀ i j, (i, j) ∈ m ↔ ∃ r ∈ l, ∃ row, xs[i]? = some row ∧ j < row.length ∧ r.val = tokensBefore xs i j) ∧
      ∀ (R : ℕ × ℕ → ℕ × ℕ → Prop), l.Pairwise (fun r r' => ∀ p p', lookup (xs.map List.length) r.val = .ok p →
        lookup (xs.map List.length) r'.val = .ok p' → R p p') → m.Pairwise R := by
  choose f1 f2 f3 hf1 hf2 hf3 hf4 using fun r : Fin n => lookup_spec xs r.val (hn ▸ r.isLt)
  refine ⟨l.map (fun r => (f1 r, f2 r)), mapM_eq_map _ _ _ (fun r _ => hf1 r), ?_, by simp, ?_, ?_⟩
  · refine hnd.map (fun r r' he => Fin.ext ?_)
    simp only [Prod.mk.injEq] at he
    rw [hf4 r, hf4 r', he.1, he.2]
  · intro i j
    rw [List.mem_map]
    constructor
    · rintro ⟨r, hr, he⟩
      simp only [Prod.mk.injEq] at he
      obtain ⟨rfl, rfl⟩ := he
      exact ⟨r, hr, f3 r, hf2 r, hf3 r, hf4 r⟩
    · rintro ⟨r, hr, row, h1, h2, h3⟩
      refine ⟨r, hr, ?_⟩
      have h4 := (lookup_eq_iff xs r.val i j).mpr ⟨row, h1, h2, h3⟩
      rw [hf1 r] at h4
      exact Except.ok.inj h4
  · intro R hR
    rw [List.pairwise_map]
    exact hR.imp (fun {a b} hab => hab _ _ (hf1 a) (hf1 b))

/-! ## C31 -/

/-- **C31**: the pairs returned are exactly the tokens at the flagged positions of the flat data, each once, in range,
and in increasing order of label quality score. -/
theorem C31_one_to_one {α : Type} [LinearOrder α] (A : ArgSort ℚ) (A' : ArgSort α) [NeZero K] (score : Scorer K α)
    (labels : List (List (Fin K))) (probs : List (List (Fin K → ℚ))) (args : Args K)
    (hshape : labels.map List.length = probs.map List.length)
    (s : Fin (labels.flatten.zip probs.flatten).length → α) (hs : score _ (labelsOf _) (probsOf _) = .ok s)
    (mask : Fin (labels.flatten.zip probs.flatten).length → Bool)
    (hm : findChecked A (labelsOf _) (probsOf _) args = .ok mask) :
    ∃ l, Token.findLabelIssues A A' score labels probs args = .ok l ∧ l.Nodup ∧
      (∀ i j, (i, j) ∈ l ↔ ∃ r, mask r = true ∧ ∃ row, labels[i]? = some row ∧ j < row.length ∧
        r.val = tokensBefore labels i j) ∧
      l.Pairwise (fun p p' => ∀ r r', r.val = tokensBefore labels p.1 p.2 → r'.val = tokensBefore labels p'.1 p'.2 →
        s r ≤ s r') := by
  obtain ⟨hd, hlen⟩ := flattenData_eq labels probs hshape
  obtain ⟨idx, hidx', hnd, hmem, hsort⟩ := C10_ranked_indices A A' _ _ args s mask ((C115_find_iff _ _ _ _ _).mp hm).2
  have hidx := findRankedChecked_ok A A' _ _ args s mask hm
  have hidx' : orderLabelIssues A' mask s = idx := by
    unfold findLabelIssuesRanked at hidx'
    rw [((C115_find_iff _ _ _ _ _).mp hm).2] at hidx'
    exact Except.ok.inj hidx'
  rw [hidx'] at hidx
  obtain ⟨l, hl, h1, -, h3, h4⟩ := map_lookup labels _ hlen idx hnd
  refine ⟨l, ?_, h1, ?_, ?_⟩
  · unfold Token.findLabelIssues
    simp only [hd, bind, Except.bind, hs, hidx]
    exact hl
  · intro i j
    rw [h3]
    simp only [hmem]
  · refine h4 _ (hsort.imp (fun {a b} hab p p' hp hp' r r' hr hr' => ?_))
    obtain ⟨_, -, -, e1⟩ := (lookup_eq_iff labels a.val p.1 p.2).mp hp
    obtain ⟨_, -, -, e2⟩ := (lookup_eq_iff labels b.val p'.1 p'.2).mp hp'
    have ea : r = a := Fin.ext (hr.trans e1.symm)
    have eb : r' = b := Fin.ext (hr'.trans e2.symm)
    rw [ea, eb]; exact hab

/-- **C31** end to end with the default score: every pair returned is a token of the data set for which another class is
more probable than the given one, and the pairs are sorted by the probability of the given label. -/
theorem C31_flagged_tokens (A : ArgSort ℚ) [NeZero K] (labels : List (List (Fin K))) (probs : List (List (Fin K → ℚ)))
    (args : Args K) (hshape : labels.map List.length = probs.map List.length)
    (hf : args.filterBy ≠ .lowSelfConfidence ∧ args.filterBy ≠ .lowNormalizedMargin) (l : List (ℕ × ℕ))
    (hl : Token.findLabelIssues A A (methodScorer .selfConfidence) labels probs args = .ok l) :
    (∀ p ∈ l, ∃ y q, IsToken labels probs p.1 p.2 y q ∧ ∃ k, k ≠ y ∧ q y + 1 / 1000000 ≤ q k) ∧
    l.Pairwise (fun p p' => ∀ y q y' q', IsToken labels probs p.1 p.2 y q → IsToken labels probs p'.1 p'.2 y' q' →
      q y ≤ q' y') := by
  obtain ⟨hd, hlen⟩ := flattenData_eq labels probs hshape
  have hmask : ∃ mask, findChecked A (labelsOf (labels.flatten.zip probs.flatten)) (probsOf _) args = .ok mask ∧
      methodScorer .selfConfidence _ (labelsOf (labels.flatten.zip probs.flatten)) (probsOf _) =
        .ok (selfConfidence (labelsOf (labels.flatten.zip probs.flatten)) (probsOf _)) := by
    unfold Token.findLabelIssues at hl
    simp only [hd, bind, Except.bind] at hl
    cases hv : validate true (labelsOf (labels.flatten.zip probs.flatten)) (probsOf _) with
    | error e => simp only [methodScorer, scoresChecked, hv, bind, Except.bind] at hl; cases hl
    | ok u =>
      have hs : methodScorer .selfConfidence _ (labelsOf (labels.flatten.zip probs.flatten)) (probsOf _) =
        .ok (selfConfidence (labelsOf (labels.flatten.zip probs.flatten)) (probsOf _)) := by
        simp only [methodScorer, scoresChecked, hv, bind, Except.bind, labelQualityScores]
      rw [hs] at hl
      dsimp only at hl
      cases hc : findRankedChecked A A (labelsOf (labels.flatten.zip probs.flatten)) (probsOf _) args
          (selfConfidence (labelsOf (labels.flatten.zip probs.flatten)) (probsOf _)) with
      | error e => rw [hc] at hl; cases hl
      | ok idx =>
        obtain ⟨m, hm, -⟩ := findRankedChecked_mask A A _ _ _ _ _ hc
        exact ⟨m, hm, hs⟩
  obtain ⟨mask, hm, hsc⟩ := hmask
  obtain ⟨l', hl', -, hmem, hsort⟩ := C31_one_to_one A A (methodScorer .selfConfidence) labels probs args hshape _ hsc mask hm
  rw [hl] at hl'
  cases hl'
  have huniq : ∀ i j y q y' q', IsToken labels probs i j y q → IsToken labels probs i j y' q' → y = y' ∧ q = q' := by
    rintro i j y q y' q' ⟨⟨r1, a1, a2⟩, r2, a3, a4⟩ ⟨⟨s1, b1, b2⟩, s2, b3, b4⟩
    rw [a1] at b1; cases b1
    rw [a3] at b3; cases b3
    rw [a2] at b2; rw [a4] at b4
    exact ⟨Option.some.inj b2, Option.some.inj b4⟩
  constructor
  · rintro ⟨i, j⟩ hp
    obtain ⟨r, hr, row, h1, h2, h3⟩ := (hmem i j).mp hp
    exact ⟨_, _, isToken_of labels probs hshape r i j row h1 h2 h3, C07_flagged_has_better_class A _ _ args hf mask ((C115_find_iff _ _ _ _ _).mp hm).2 r hr⟩
  · refine List.Pairwise.imp_of_mem ?_ hsort
    rintro ⟨i, j⟩ ⟨i', j'⟩ hp hp' hle y q y' q' ht ht'
    obtain ⟨r, -, row, h1, h2, h3⟩ := (hmem i j).mp hp
    obtain ⟨r', -, row', h1', h2', h3'⟩ := (hmem i' j').mp hp'
    have e := huniq i j _ _ _ _ ht (isToken_of labels probs hshape r i j row h1 h2 h3)
    have e' := huniq i' j' _ _ _ _ ht' (isToken_of labels probs hshape r' i' j' row' h1' h2' h3')
    rw [e.1, e.2, e'.1, e'.2]
    exact hle r r' h3 h3'

/-- **C31** with `low_memory=True`: every pair is a token in range with a more probable class; the order is not claimed. -/
theorem C31_low_memory_partial (A : ArgSort ℚ) [NeZero K] (jobs : ℕ → Jobs) (batchSize : ℕ) (hb : 1 ≤ batchSize)
    (labels : List (List (Fin K))) (probs : List (List (Fin K → ℚ)))
    (hshape : labels.map List.length = probs.map List.length) (hne : labels.flatten ≠ [])
    (hn : ∀ row ∈ probs, ∀ q ∈ row, ∀ k, 0 ≤ q k) :
    ∃ l, findLabelIssuesLowMemory A selfConfidenceScore jobs batchSize labels probs = some (.ok l) ∧ l.Nodup ∧
      ∀ p ∈ l, ∃ y q, IsToken labels probs p.1 p.2 y q ∧ ∃ k, k ≠ y ∧ q y + 1 / 1000000 ≤ q k := by
  obtain ⟨hd, hlen⟩ := flattenData_eq labels probs hshape
  have hdne : labels.flatten.zip probs.flatten ≠ [] := by
    rw [← List.length_pos_iff_ne_nil, hlen]
    exact List.length_pos_iff_ne_nil.mpr hne
  have hnn : ∀ e ∈ labels.flatten.zip probs.flatten, ∀ k, 0 ≤ e.2 k := by
    intro e he k
    obtain ⟨row, hrow, hq⟩ := List.mem_flatten.mp (List.of_mem_zip he).2
    exact hn row hrow e.2 hq k
  obtain ⟨mask, thr, hm, -, hbetter, -, -⟩ := C64_batched_partial A jobs batchSize _ hb hdne hnn
  obtain ⟨l, hl, h1, -, h3, -⟩ := map_lookup labels _ hlen ((List.finRange _).filter mask)
    ((List.nodup_finRange _).filter _)
  refine ⟨l, ?_, h1, ?_⟩
  · unfold findLabelIssuesLowMemory
    simp only [hd]
    unfold findLabelIssuesBatchedIndices
    rw [hm]
    exact congrArg some hl
  · rintro ⟨i, j⟩ hp
    obtain ⟨r, hr, row, e1, e2, e3⟩ := (h3 i j).mp hp
    exact ⟨_, _, isToken_of labels probs hshape r i j row e1 e2 e3, hbetter r (by simpa using hr)⟩

/-- **C31** fails with `low_memory=True`: the second pair has a lower label quality score than the first. -/
theorem C31_not_sorted_low_memory :
    (findLabelIssuesLowMemory (stableSort ℚ) selfConfidenceScore (fun _ => .one) 10000 [[(0 : Fin 2)], [0, 1]]
      [[![4/10, 6/10]], [![1/10, 9/10], ![4/10, 6/10]]]).map Except.toOption = some (some [(0, 0), (1, 0)]) := by
  decide +kernel

/-- The empty sentence in the middle is skipped. -/
example : (Token.findLabelIssues (stableSort ℚ) (stableSort ℚ) (methodScorer .selfConfidence)
    [[(0 : Fin 2), 0, 1], [], [0, 1]]
    [[![9/10, 1/10], ![7/10, 3/10], ![1/20, 19/20]], [], [![8/10, 2/10], ![8/10, 2/10]]]
    { filterBy := .predictedNeqGiven }).toOption = some [(2, 1)] := by
  decide +kernel

/-! ## C32 -/

theorem cutoffFrom_spec (t : ℚ) (l : List ℚ) :
    cutoffFrom t l = if ∀ s ∈ l, s < t then .error "IndexError: index is out of bounds"
      else .ok (l.takeWhile (fun s => decide (s < t))).length := by
  induction l with
  | nil => simp [cutoffFrom]
  | cons s l ih =>
    unfold cutoffFrom
    by_cases hs : s < t
    · rw [if_pos hs, ih]
      by_cases hl : ∀ s ∈ l, s < t
      · rw [if_pos hl, if_pos (by simpa [hs] using hl)]; rfl
      · rw [if_neg hl, if_neg (by simpa [hs] using hl)]
        simp [hs, Except.map]
    · rw [if_neg hs, if_neg (by intro h; exact hs (h s (by simp)))]
      simp [hs]

/-- **C32** fails: whenever every sentence is below the threshold, and for an empty array, the call raises. -/
theorem C32_not_total {N : ℕ} (A : ArgSort ℚ) (scores : Fin N → ℚ) (t : ℚ) (h : ∀ i, scores i < t) :
    ∃ e, Token.issuesFromScores A scores t = .error e := by
  refine ⟨"IndexError: index is out of bounds", ?_⟩
  unfold Token.issuesFromScores
  simp only [cutoffFrom_spec]
  rw [if_pos]
  · rfl
  · intro s hs
    obtain ⟨i, -, rfl⟩ := List.mem_map.mp hs
    exact h i

example : (Token.issuesFromScores (stableSort ℚ) ![1/20, 1/50] (1/10)).toOption = none := by decide +kernel

/-- **C32**, what holds: when some sentence is not below the threshold, exactly the sentences below it are returned, in
increasing order of score. -/
theorem C32_below_threshold_partial {N : ℕ} (A : ArgSort ℚ) (scores : Fin N → ℚ) (t : ℚ) (h : ∃ i, t ≤ scores i) :
    ∃ l, Token.issuesFromScores A scores t = .ok l ∧ l.Nodup ∧ (∀ i, i ∈ l ↔ scores i < t) ∧
      l.Pairwise (fun i j => scores i ≤ scores j) := by
  obtain ⟨i0, hi0⟩ := h
  have hsorted := A.pairwise_indices scores
  have hw : ∀ l : List (Fin N), ((l.map scores).takeWhile (fun s => decide (s < t))).length =
      (l.takeWhile (fun i => decide (scores i < t))).length := by
    intro l
    rw [List.takeWhile_map, List.length_map]
    rfl
  have htake : (A.indices scores).take ((A.indices scores).takeWhile (fun i => decide (scores i < t))).length =
      (A.indices scores).takeWhile (fun i => decide (scores i < t)) := by
    exact (List.prefix_iff_eq_take.mp (List.takeWhile_prefix _)).symm
  refine ⟨(A.indices scores).takeWhile (fun i => decide (scores i < t)), ?_, ?_, ?_, ?_⟩
  · unfold Token.issuesFromScores
    simp only [cutoffFrom_spec]
    rw [if_neg, hw]
    · show Except.ok _ = _
      rw [htake]
    · intro hall
      have := hall (scores i0) (List.mem_map.mpr ⟨i0, A.mem_indices scores i0, rfl⟩)
      linarith
  · exact (A.nodup_indices scores).sublist (List.takeWhile_sublist _)
  · intro i
    constructor
    · intro hi
      have := List.all_takeWhile (l := A.indices scores) (p := fun i => decide (scores i < t))
      simpa using List.all_eq_true.mp this i hi
    · intro hi
      by_contra hni
      have hmem := A.mem_indices scores i
      rw [← List.takeWhile_append_dropWhile (p := fun i => decide (scores i < t)) (l := A.indices scores),
        List.mem_append] at hmem
      have hd := hmem.resolve_left hni
      cases hdw : (A.indices scores).dropWhile (fun i => decide (scores i < t)) with
      | nil => rw [hdw] at hd; simp at hd
      | cons b rest =>
        have hb : ¬ scores b < t := by
          have := List.head?_dropWhile_not (fun i => decide (scores i < t)) (A.indices scores)
          rw [hdw] at this
          simpa using this
        rw [← List.takeWhile_append_dropWhile (p := fun i => decide (scores i < t)) (l := A.indices scores),
          List.pairwise_append] at hsorted
        have h2 := hsorted.2.1
        rw [hdw] at h2 hd
        rcases List.mem_cons.mp hd with rfl | hd
        · exact hb hi
        · have := (List.pairwise_cons.mp h2).1 i hd
          linarith
  · exact hsorted.sublist (List.takeWhile_sublist _)

/-- **C32** with token scores: exactly the tokens below the threshold, each once, in increasing order of score. -/
theorem C32_tokens (A : ArgSort ℚ) (scores : List (List ℚ)) (t : ℚ) :
    (issuesFromTokenScores A scores t).Nodup ∧
    (∀ i j, (i, j) ∈ issuesFromTokenScores A scores t ↔
      ∃ row v, scores[i]? = some row ∧ row[j]? = some v ∧ v < t) ∧
    (issuesFromTokenScores A scores t).Pairwise (fun p p' => ∀ row v row' v', scores[p.1]? = some row →
      row[p.2]? = some v → scores[p'.1]? = some row' → row'[p'.2]? = some v' → v ≤ v') := by
  set L := scores.zipIdx.flatMap (fun s =>
    s.1.zipIdx.filterMap (fun x => if x.1 < t then some (s.2, x.2, x.1) else none)) with hL
  have hmem : ∀ x : ℕ × ℕ × ℚ, x ∈ L ↔ ∃ row, scores[x.1]? = some row ∧ row[x.2.1]? = some x.2.2 ∧ x.2.2 < t := by
    rintro ⟨i, j, v⟩
    rw [hL]
    simp only [List.mem_flatMap, List.mem_filterMap, Prod.exists, List.mem_zipIdx_iff_getElem?]
    constructor
    · rintro ⟨row, i', hrow, v', j', hv, he⟩
      split_ifs at he with hlt
      simp only [Option.some.injEq, Prod.mk.injEq] at he
      obtain ⟨rfl, rfl, rfl⟩ := he
      exact ⟨row, hrow, hv, hlt⟩
    · rintro ⟨row, hrow, hv, hlt⟩
      exact ⟨row, i, hrow, v, j, hv, by rw [if_pos hlt]⟩
  have hnd : (L.map (fun x => (x.1, x.2.1))).Nodup := by
    rw [hL, List.map_flatMap, List.nodup_flatMap]
    constructor
    · rintro ⟨row, i⟩ _
      rw [List.map_filterMap]
      have hz : (row.zipIdx.map Prod.snd).Nodup := by
        rw [List.zipIdx_map_snd]; exact List.nodup_range'
      have hz' := hz.of_map
      have hpw : row.zipIdx.Pairwise (fun x y => x.2 ≠ y.2) := List.pairwise_map.mp hz
      show List.Pairwise _ _
      rw [List.pairwise_filterMap]
      refine hpw.imp (fun {x y} hxy b hb b' hb' => ?_)
      simp only [Option.map_eq_some_iff] at hb hb'
      obtain ⟨c, hc, rfl⟩ := hb
      obtain ⟨c', hc', rfl⟩ := hb'
      split_ifs at hc hc'
      simp only [Option.some.injEq] at hc hc'
      subst hc; subst hc'
      simpa using hxy
    · have hz : (scores.zipIdx.map Prod.snd).Nodup := by
        rw [List.zipIdx_map_snd]; exact List.nodup_range'
      have hpw : scores.zipIdx.Pairwise (fun x y => x.2 ≠ y.2) := List.pairwise_map.mp hz
      refine hpw.imp (fun {x y} hxy => ?_)
      show List.Disjoint _ _
      intro p hp hp'
      have key : ∀ s : List ℚ × ℕ, p ∈ (s.1.zipIdx.filterMap (fun x => if x.1 < t then some (s.2, x.2, x.1) else none)).map
          (fun x : ℕ × ℕ × ℚ => (x.1, x.2.1)) → p.1 = s.2 := by
        intro s hs
        simp only [List.mem_map, List.mem_filterMap] at hs
        obtain ⟨c, ⟨d, -, hd⟩, rfl⟩ := hs
        split_ifs at hd
        simp only [Option.some.injEq] at hd
        rw [← hd]
      exact hxy ((key x hp).symm.trans (key y hp'))
  refine ⟨?_, ?_, ?_⟩
  · exact ((sortOn_perm A (fun x : ℕ × ℕ × ℚ => x.2.2) L).map _).nodup_iff.mpr hnd
  · intro i j
    show (i, j) ∈ (sortOn A (fun x : ℕ × ℕ × ℚ => x.2.2) L).map (fun x => (x.1, x.2.1)) ↔ _
    rw [List.mem_map]
    constructor
    · rintro ⟨x, hx, he⟩
      simp only [Prod.mk.injEq] at he
      obtain ⟨rfl, rfl⟩ := he
      obtain ⟨row, h1, h2, h3⟩ := (hmem x).mp ((mem_sortOn A _ L x).mp hx)
      exact ⟨row, x.2.2, h1, h2, h3⟩
    · rintro ⟨row, v, h1, h2, h3⟩
      exact ⟨(i, j, v), (mem_sortOn A _ L _).mpr ((hmem _).mpr ⟨row, h1, h2, h3⟩), rfl⟩
  · show ((sortOn A (fun x : ℕ × ℕ × ℚ => x.2.2) L).map (fun x => (x.1, x.2.1))).Pairwise _
    rw [List.pairwise_map]
    refine List.Pairwise.imp_of_mem ?_ (sortOn_sorted A (fun x : ℕ × ℕ × ℚ => x.2.2) L)
    intro x y hx hy hxy row v row' v' h1 h2 h1' h2'
    obtain ⟨r, a1, a2, -⟩ := (hmem x).mp ((mem_sortOn A _ L x).mp hx)
    obtain ⟨r', b1, b2, -⟩ := (hmem y).mp ((mem_sortOn A _ L y).mp hy)
    rw [a1] at h1; cases h1
    rw [b1] at h1'; cases h1'
    rw [a2] at h2; cases h2
    rw [b2] at h2'; cases h2'
    exact hxy

example : issuesFromTokenScores (stableSort ℚ) [[9/10, 3/50], [], [1/50, 4/5]] (1/10) = [(2, 0), (0, 1)] := by
  decide +kernel

/-! ## C67 -/

theorem nestedList_spec {α β : Type} (f : List (List β)) (x : List α) (h : x.length = f.flatten.length) :
    ∃ m, nestedList x (f.map List.length) = .ok m ∧ m.flatten = x ∧ m.map List.length = f.map List.length := by
  induction f generalizing x with
  | nil =>
    refine ⟨[], rfl, ?_, rfl⟩
    simpa [eq_comm] using h
  | cons y f ih =>
    simp only [List.flatten_cons, List.length_append] at h
    obtain ⟨m, h1, h2, h3⟩ := ih (x.drop y.length) (by rw [List.length_drop]; omega)
    refine ⟨x.take y.length :: m, ?_, ?_, ?_⟩
    · simp only [List.map_cons, nestedList]
      rw [if_neg (by omega), h1]; rfl
    · simp [h2]
    · simp [h3]; omega

/-- **C67**: the token scores have the shape of the labels, and the score of token `(i, j)` is the score of its flat
position. -/
theorem C67_token_scores {α : Type} (score : Scorer K α) (labels : List (List (Fin K))) (probs : List (List (Fin K → ℚ)))
    (hshape : labels.map List.length = probs.map List.length)
    (s : Fin (labels.flatten.zip probs.flatten).length → α) (hs : score _ (labelsOf _) (probsOf _) = .ok s) :
    ∃ m, tokenScores score labels probs = .ok m ∧ m.map List.length = labels.map List.length ∧
      ∀ i j row v, m[i]? = some row → row[j]? = some v →
        ∃ r, r.val = tokensBefore labels i j ∧ s r = v := by
  obtain ⟨hd, hlen⟩ := flattenData_eq labels probs hshape
  obtain ⟨m, h1, h2, h3⟩ := nestedList_spec labels (List.ofFn s) (by rw [List.length_ofFn, hlen])
  refine ⟨m, ?_, h3, ?_⟩
  · unfold tokenScores
    simp only [hd, bind, Except.bind, hs]
    exact h1
  · intro i j row v e1 e2
    have := flatten_get m i j row v e1 e2
    rw [h2, tokensBefore_congr m labels h3] at this
    rw [List.getElem?_ofFn] at this
    split_ifs at this with hlt
    exact ⟨⟨_, hlt⟩, rfl, Option.some.inj this⟩

/-- **C67** with self-confidence, for probabilities (up to the tolerance of the input check) of at least one token: the
score of a token is the predicted probability of its given label. -/
theorem C67_self_confidence [NeZero K] (labels : List (List (Fin K))) (probs : List (List (Fin K → ℚ)))
    (hshape : labels.map List.length = probs.map List.length) (hne : labels.flatten ≠ [])
    (hr : ∀ row ∈ probs, ∀ q ∈ row, ∀ k, -(1 / 10 ^ 6) ≤ q k ∧ q k ≤ 1 + 1 / 10 ^ 6) :
    ∃ m, tokenScores (methodScorer .selfConfidence) labels probs = .ok m ∧ m.map List.length = labels.map List.length ∧
      ∀ i j row v, m[i]? = some row → row[j]? = some v → ∃ y q, IsToken labels probs i j y q ∧ v = q y := by
  obtain ⟨-, hlen⟩ := flattenData_eq labels probs hshape
  have hv : validate true (labelsOf (labels.flatten.zip probs.flatten)) (probsOf _) = .ok () := by
    rw [validate_iff]
    refine ⟨by rw [hlen]; exact List.length_pos_iff_ne_nil.mpr hne, Or.inl rfl, fun i k => ?_⟩
    obtain ⟨row, hrow, hq⟩ := List.mem_flatten.mp (List.of_mem_zip (List.get_mem (labels.flatten.zip probs.flatten) i)).2
    exact hr row hrow _ hq k
  have hs : methodScorer .selfConfidence _ (labelsOf (labels.flatten.zip probs.flatten)) (probsOf _) =
      .ok (selfConfidence (labelsOf (labels.flatten.zip probs.flatten)) (probsOf _)) := by
    simp only [methodScorer, scoresChecked, hv, bind, Except.bind, labelQualityScores]
  obtain ⟨m, h1, h2, h3⟩ := C67_token_scores (methodScorer .selfConfidence) labels probs hshape _ hs
  refine ⟨m, h1, h2, ?_⟩
  intro i j row v e1 e2
  obtain ⟨r, hr, hv⟩ := h3 i j row v e1 e2
  have hi : i < m.length := (List.getElem?_eq_some_iff.mp e1).1
  have hil : i < labels.length := by
    have := congrArg List.length h2
    simp at this; omega
  have hj : j < row.length := (List.getElem?_eq_some_iff.mp e2).1
  have hrl : row.length = labels[i].length := by
    have := congrArg (fun l => l[i]?) h2
    simp only [List.getElem?_map, e1, List.getElem?_eq_getElem hil, Option.map_some, Option.some.injEq] at this
    exact this
  exact ⟨_, _, isToken_of labels probs hshape r i j _ (List.getElem?_eq_getElem hil) (by omega) hr, hv.symm⟩

theorem npMin_spec {α : Type} [LinearOrder α] (l : List α) (h : l ≠ []) :
    ∃ v, npMin l = .ok v ∧ v ∈ l ∧ ∀ x ∈ l, v ≤ x := by
  unfold npMin
  cases hm : l.min? with
  | none => exact absurd (List.min?_eq_none_iff.mp hm) h
  | some v =>
    rw [List.min?_eq_some_iff] at hm
    exact ⟨v, rfl, hm.1, hm.2⟩

/-- **C67**: with `min`, when no sentence is empty, each sentence gets the score of its worst token. -/
theorem C67_min {α : Type} [LinearOrder α] (scores : List (List α)) (h : ∀ s ∈ scores, s ≠ []) :
    ∃ v : List α, sentenceScoresMin scores = .ok v ∧ v.length = scores.length ∧
      ∀ (i : ℕ) s x, scores[i]? = some s → v[i]? = some x → x ∈ s ∧ ∀ y ∈ s, x ≤ y := by
  exact mapM_exists scores npMin (fun s x => x ∈ s ∧ ∀ y ∈ s, x ≤ y) (fun s hs => npMin_spec s (h s hs))

/-- An empty sentence makes the call raise with `min`. -/
theorem C67_not_empty_sentence :
    (sentenceScoresMin [[(1 / 2 : ℚ)], []]).toOption = none := by decide +kernel

/-- **C67**: with `softmin` the score of a non-empty sentence lies between its lowest and its mean token score; it is
the lowest for temperature 0 and the mean for infinite temperature. -/
theorem C67_softmin (s : List ℝ) (hs : s ≠ []) (t : Temperature) :
    ∃ v, softminSentence s t = .ok v ∧ (∃ x ∈ s, x ≤ v) ∧ v ≤ s.sum / s.length ∧
      (t = .finite 0 → v ∈ s ∧ ∀ x ∈ s, v ≤ x) ∧ (t = .inf → v = s.sum / s.length) := by
  have hlen : s.length ≠ 0 := by simpa using hs
  have hpos : (0 : ℝ) < s.length := by exact_mod_cast Nat.pos_of_ne_zero hlen
  obtain ⟨m, hm1, hm2, hm3⟩ := npMin_spec s hs
  have hmean : m ≤ s.sum / s.length := by
    rw [le_div_iff₀ hpos]
    have := List.card_nsmul_le_sum s m hm3
    simpa [nsmul_eq_mul, mul_comm] using this
  unfold softminSentence
  rw [dif_neg hlen]
  cases t with
  | inf => exact ⟨_, rfl, ⟨m, hm2, hmean⟩, le_rfl, by simp, by simp⟩
  | finite t =>
    simp only
    by_cases ht : t = 0
    · rw [if_pos ht]
      exact ⟨m, hm1, ⟨m, hm2, le_rfl⟩, hmean, fun _ => ⟨hm2, hm3⟩, by simp⟩
    · rw [if_neg ht]
      have : NeZero s.length := ⟨hlen⟩
      obtain ⟨⟨k, hk⟩, h2, -⟩ := C23_softmin_between s.get t
      refine ⟨_, rfl, ⟨_, List.get_mem s k, hk⟩, ?_, ?_, by simp⟩
      · refine h2.trans (le_of_eq ?_)
        congr 1
        rw [← List.sum_ofFn, List.ofFn_get]
      · intro h; simp at h; exact absurd h ht

example : (tokenScores (methodScorer .selfConfidence) [[(0 : Fin 2), 1], [], [0]]
    [[![9/10, 1/10], ![7/10, 3/10]], [], [![1/4, 3/4]]]).toOption = some [[9/10, 3/10], [], [1/4]] := by decide +kernel

/-! ## C68 -/

variable {K' : ℕ}

theorem foldl_merge (p : Fin K → ℚ) (maps : Fin K → Option (Fin K')) (l : List (Fin K)) (acc : Fin K' → ℚ) (c : Fin K') :
    l.foldl (fun acc i => match maps i with
      | none => acc
      | some c => Function.update acc c (acc c + p i)) acc c =
      acc c + (l.map (fun i => if maps i = some c then p i else 0)).sum := by
  induction l generalizing acc with
  | nil => simp
  | cons i l ih =>
    rw [List.foldl_cons, ih, List.map_cons, List.sum_cons]
    cases hm : maps i with
    | none => simp
    | some d =>
      by_cases hd : d = c
      · subst hd; simp; ring
      · simp [hd, Function.update_of_ne (Ne.symm hd)]

theorem mergeRaw_eq (p : Fin K → ℚ) (maps : Fin K → Option (Fin K')) (c : Fin K') :
    mergeRaw p maps c = ∑ i, if maps i = some c then p i else 0 := by
  unfold mergeRaw
  refine (foldl_merge p maps _ _ c).trans ?_
  rw [zero_add, ← List.sum_ofFn, List.ofFn_eq_map]

theorem sum_mergeRaw (p : Fin K → ℚ) (maps : Fin K → Option (Fin K')) :
    ∑ c, mergeRaw p maps c = ∑ i, if maps i = none then 0 else p i := by
  simp only [mergeRaw_eq]
  rw [Finset.sum_comm]
  refine Finset.sum_congr rfl (fun i _ => ?_)
  cases maps i with
  | none => simp
  | some d => simp

/-- **C68**: the merged probability of a new class is the sum of the probabilities mapped to it, divided by the total of
all mapped classes; for a distribution with some mapped mass the result is a distribution. -/
theorem C68_merge (p : Fin K → ℚ) (maps : Fin K → Option (Fin K')) (hp : IsDistribution p)
    (hmass : 0 < ∑ i, if maps i = none then 0 else p i) :
    ∃ q, mergeProbs p maps = .ok q ∧ IsDistribution q ∧
      ∀ c, q c * (∑ i, if maps i = none then 0 else p i) = ∑ i, if maps i = some c then p i else 0 := by
  have hnn : ∀ c, 0 ≤ mergeRaw p maps c := by
    intro c
    rw [mergeRaw_eq]
    exact Finset.sum_nonneg (fun i _ => by split_ifs; exacts [hp.1 i, le_rfl])
  unfold mergeProbs
  simp only
  split_ifs with h1 h2
  · rw [sum_mergeRaw] at h2; exact absurd h2 hmass.ne'
  · refine ⟨_, rfl, ⟨fun c => div_nonneg (hnn c) (Finset.sum_nonneg (fun c _ => hnn c)), ?_⟩, ?_⟩
    · rw [← Finset.sum_div, div_self h2]
    · intro c
      rw [← sum_mergeRaw, ← mergeRaw_eq, div_mul_cancel₀ _ h2]
  · push Not at h1
    have hsum : (∑ i, if maps i = none then 0 else p i) = 1 := by
      rw [← hp.2]
      exact Finset.sum_congr rfl (fun i _ => by rw [if_neg (h1 i)])
    refine ⟨_, rfl, ⟨hnn, ?_⟩, ?_⟩
    · rw [sum_mergeRaw, hsum]
    · intro c
      rw [hsum, mul_one, mergeRaw_eq]

/-- A token whose whole mass lies on ignored classes gets no distribution (`nan`). -/
theorem C68_not_ignored_mass :
    (mergeProbs ![(0 : ℚ), 1] (![some (0 : Fin 1), none])).toOption = none := by decide +kernel

example : (mergeProbs ![11/20, 1/80, 3/80, 1/10, 3/10] (![some (0 : Fin 3), some 1, some 1, some 2, some 2])).toOption =
    some ![11/20, 1/20, 4/10] := by decide +kernel

end Cleanlab.Props
