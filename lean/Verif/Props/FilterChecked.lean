import Verif.Model.FilterChecked
import Verif.Props.Validation
import Verif.Lemmas.Filter
import Verif.Lemmas.Except

/-!
# C115: which inputs the label issue functions accept
-/

namespace Cleanlab.Props

open Np Cleanlab.Util Cleanlab.Count Cleanlab.Rank Cleanlab.Filter Cleanlab.Validation

variable {n K : ℕ}

/-- Probabilities up to the tolerance of the input check. -/
def InRange (P : Fin n → Fin K → ℚ) : Prop := ∀ i k, -(1 / 10 ^ 6) ≤ P i k ∧ P i k ≤ 1 + 1 / 10 ^ 6

theorem validate_iff (allowOne : Bool) (labels : Fin n → Fin K) (P : Fin n → Fin K → ℚ) :
    validate allowOne labels P = .ok () ↔
      0 < n ∧ (allowOne = true ∨ ∃ i j, labels i ≠ labels j) ∧ InRange P := by
  have hz : AreClasses (List.ofFn (fun i => Raw.num ((labels i : ℕ) : ℚ))) (List.ofFn (fun i => (labels i : ℕ))) := by
    unfold AreClasses
    rw [List.map_ofFn]
    rfl
  have huniq : ∀ z, AreClasses (List.ofFn (fun i => Raw.num ((labels i : ℕ) : ℚ))) z →
      z = List.ofFn (fun i => (labels i : ℕ)) := by
    intro z h
    have h' := h.symm.trans hz
    refine (List.map_injective_iff.mpr ?_) h'
    intro a b hab
    have : (a : ℚ) = b := by injection hab
    exact_mod_cast this
  unfold validate
  rw [C96_probs_partial]
  constructor
  · rintro ⟨z, h1, h2, h3, h4⟩
    rw [C96_labels] at h1
    obtain ⟨hc, hne, h5, -⟩ := h1
    refine ⟨?_, ?_, h4⟩
    · rw [h2]
      exact List.length_pos_of_ne_nil hne
    rcases h5 with h5 | ⟨a, ha, b, hb, hab⟩
    · exact Or.inl h5
    · rw [huniq z hc] at ha hb
      rw [List.mem_ofFn] at ha hb
      obtain ⟨i, rfl⟩ := ha
      obtain ⟨j, rfl⟩ := hb
      exact Or.inr ⟨i, j, fun h => hab (by rw [h])⟩
  · rintro ⟨hn, hc, h4⟩
    refine ⟨List.ofFn (fun i => (labels i : ℕ)), ?_, by simp, ?_, h4⟩
    · rw [C96_labels]
      refine ⟨hz, ?_, ?_, Or.inl rfl⟩
      · intro h
        rw [List.ofFn_eq_nil_iff] at h
        omega
      · rcases hc with hc | ⟨i, j, hij⟩
        · exact Or.inl hc
        · exact Or.inr ⟨labels i, List.mem_ofFn.mpr ⟨i, rfl⟩, labels j, List.mem_ofFn.mpr ⟨j, rfl⟩,
            fun h => hij (Fin.ext h)⟩
    · intro a ha
      rw [List.mem_ofFn] at ha
      obtain ⟨i, rfl⟩ := ha
      exact (labels i).isLt

theorem validate_error (allowOne : Bool) (labels : Fin n → Fin K) (P : Fin n → Fin K → ℚ)
    (h : ¬(0 < n ∧ (allowOne = true ∨ ∃ i j, labels i ≠ labels j) ∧ InRange P)) :
    ∃ e, validate allowOne labels P = .error e := by
  cases hv : validate allowOne labels P with
  | error e => exact ⟨e, rfl⟩
  | ok u => exact absurd ((validate_iff allowOne labels P).mp hv) h

/-- The filters that check the inputs a second time. -/
def RechecksInputs (f : FilterBy) : Prop := f = .predictedNeqGiven ∨ f = .lowNormalizedMargin ∨ f = .lowSelfConfidence

/-- **C115.** Exactly these inputs are accepted: at least one example, probabilities between 0 and 1 (up to `1e-6`), and two
different labels; a single label is accepted only if it is class 0 and the filter is not one of the three that check again.
For accepted inputs the result is the one of the model without checks, to which the theorems about the filters refer. -/
theorem C115_find_iff (A : ArgSort ℚ) [NeZero K] (labels : Fin n → Fin K) (P : Fin n → Fin K → ℚ) (args : Args K)
    (mask : Fin n → Bool) :
    findChecked A labels P args = .ok mask ↔
      (0 < n ∧ InRange P ∧ ((∃ i j, labels i ≠ labels j) ∨ ((∀ i, (labels i : ℕ) = 0) ∧ ¬RechecksInputs args.filterBy))) ∧
      findLabelIssues A labels P args = .ok mask := by
  have hrc : args.filterBy ∈ [FilterBy.predictedNeqGiven, .lowNormalizedMargin, .lowSelfConfidence] ↔
      RechecksInputs args.filterBy := by
    unfold RechecksInputs
    simp
  unfold findChecked
  constructor
  · intro h
    cases hv : validate (allZero labels) labels P with
    | error e => rw [hv] at h; cases h
    | ok u =>
      rw [hv] at h
      dsimp only [bind, Except.bind] at h
      obtain ⟨hn, hc, hr⟩ := (validate_iff _ _ _).mp hv
      split_ifs at h with hf
      · cases hv' : validate false labels P with
        | error e => rw [hv'] at h; cases h
        | ok u =>
          rw [hv'] at h
          obtain ⟨-, hc', -⟩ := (validate_iff _ _ _).mp hv'
          exact ⟨⟨hn, hr, Or.inl (hc'.resolve_left (by simp))⟩, h⟩
      · refine ⟨⟨hn, hr, ?_⟩, h⟩
        rcases hc with hc | hc
        · right
          unfold allZero at hc
          exact ⟨(decide_eq_true_iff.mp hc).2, fun h => hf (hrc.mpr h)⟩
        · exact Or.inl hc
  · rintro ⟨⟨hn, hr, hc⟩, h⟩
    have h1 : validate (allZero labels) labels P = .ok () := by
      rw [validate_iff]
      refine ⟨hn, ?_, hr⟩
      rcases hc with hc | hc
      · exact Or.inr hc
      · exact Or.inl (decide_eq_true_iff.mpr ⟨hn, hc.1⟩)
    rw [h1]
    dsimp only [bind, Except.bind]
    split_ifs with hf
    · have h2 : validate false labels P = .ok () := by
        rw [validate_iff]
        exact ⟨hn, Or.inr (hc.resolve_right (fun hc => hc.2 (hrc.mp hf))), hr⟩
      rw [h2]
      exact h
    · exact h

/-- **C115 (partial).** With two different labels and probabilities between 0 and 1 the three functions agree with their
models without checks (also in the exceptions these raise for unsupported arguments). Missing: a single class, below. -/
theorem C115_accepts_partial (A : ArgSort ℚ) [NeZero K] (labels : Fin n → Fin K) (P : Fin n → Fin K → ℚ)
    (hl : ∃ i j, labels i ≠ labels j) (hP : InRange P) :
    (∀ args, findChecked A labels P args = findLabelIssues A labels P args) ∧
    (∀ m, scoresChecked m labels P = labelQualityScores m labels P) ∧
    ∀ cj m, numChecked A labels P cj m = numLabelIssues A labels P cj m := by
  have hn : 0 < n := by
    obtain ⟨i, -⟩ := hl
    exact i.pos
  have hv : ∀ b, validate b labels P = .ok () := fun b => (validate_iff b labels P).mpr ⟨hn, Or.inr hl, hP⟩
  refine ⟨fun args => ?_, fun m => ?_, fun cj m => ?_⟩
  · unfold findChecked
    rw [hv, hv]
    dsimp only [bind, Except.bind]
    split_ifs <;> rfl
  · unfold scoresChecked
    rw [hv]
    rfl
  · unfold numChecked
    rw [hv]
    rfl

/-- **C115.** Scores are returned for a single class, too. -/
theorem C115_scores (labels : Fin n → Fin K) (P : Fin n → Fin K → ℚ) (s : Fin n → ℚ) :
    scoresChecked .selfConfidence labels P = .ok s ↔ 0 < n ∧ InRange P ∧ ∀ i, s i = P i (labels i) := by
  unfold scoresChecked
  constructor
  · intro h
    cases hv : validate true labels P with
    | error e => rw [hv] at h; cases h
    | ok u =>
      rw [hv] at h
      obtain ⟨hn, -, hr⟩ := (validate_iff _ _ _).mp hv
      have h : labelQualityScores .selfConfidence labels P = .ok s := h
      cases h
      exact ⟨hn, hr, fun i => rfl⟩
  · rintro ⟨hn, hr, h⟩
    rw [(validate_iff true labels P).mpr ⟨hn, Or.inl rfl, hr⟩]
    show Except.ok _ = Except.ok _
    congr 1
    funext i
    exact (h i).symm

/-- **C115.** Probabilities outside of the allowed range (a negative one, or one above 1) are refused by all three. -/
theorem C115_refuses (A : ArgSort ℚ) [NeZero K] (labels : Fin n → Fin K) (P : Fin n → Fin K → ℚ)
    (h : ∃ i k, P i k < -(1 / 10 ^ 6) ∨ 1 + 1 / 10 ^ 6 < P i k) :
    (∀ args, ∃ e, findChecked A labels P args = .error e) ∧ (∀ m, ∃ e, scoresChecked m labels P = .error e) ∧
    ∀ cj m, ∃ e, numChecked A labels P cj m = .error e := by
  have hP : ¬InRange P := by
    obtain ⟨i, k, h⟩ := h
    intro hr
    rcases h with h | h
    · exact absurd (hr i k).1 (not_le.mpr h)
    · exact absurd (hr i k).2 (not_le.mpr h)
  have hv : ∀ b, ∃ e, validate b labels P = .error e := fun b => validate_error b labels P (fun h => hP h.2.2)
  refine ⟨fun args => ?_, fun m => ?_, fun cj m => ?_⟩
  · obtain ⟨e, he⟩ := hv (allZero labels)
    exact ⟨e, by unfold findChecked; rw [he]; rfl⟩
  · obtain ⟨e, he⟩ := hv true
    exact ⟨e, by unfold scoresChecked; rw [he]; rfl⟩
  · obtain ⟨e, he⟩ := hv false
    exact ⟨e, by unfold numChecked; rw [he]; rfl⟩

/-- **C115 (refuted as stated).** If all examples have the same label, issues are not counted, and label issues are
searched for if this class is number 0 (with the pruning filters), but refused if it has another number. -/
theorem C115_not_one_class (A : ArgSort ℚ) [NeZero K] (labels : Fin n → Fin K) (P : Fin n → Fin K → ℚ) (k : Fin K)
    (hl : ∀ i, labels i = k) :
    (∀ cj m, ∃ e, numChecked A labels P cj m = .error e) ∧
    ((k : ℕ) ≠ 0 → ∀ args, ∃ e, findChecked A labels P args = .error e) ∧
    ((k : ℕ) = 0 → 0 < n → InRange P → ∀ args, args.numToRemove = none → ¬RechecksInputs args.filterBy →
      ∃ mask, findChecked A labels P args = .ok mask) ∧
    ∀ args, RechecksInputs args.filterBy → ∃ e, findChecked A labels P args = .error e := by
  have hone : ¬∃ i j, labels i ≠ labels j := by
    rintro ⟨i, j, hij⟩
    exact hij ((hl i).trans (hl j).symm)
  have herr : ∀ args, (∀ mask, ¬findChecked A labels P args = .ok mask) → ∃ e, findChecked A labels P args = .error e := by
    intro args h
    cases hf : findChecked A labels P args with
    | error e => exact ⟨e, rfl⟩
    | ok m => exact absurd hf (h m)
  refine ⟨fun cj m => ?_, fun hk args => herr args (fun mask h => ?_), fun hk hn hP args hnum hf => ?_,
    fun args hf => herr args (fun mask h => ?_)⟩
  · obtain ⟨e, he⟩ := validate_error false labels P (fun h => hone (h.2.1.resolve_left (by simp)))
    exact ⟨e, by unfold numChecked; rw [he]; rfl⟩
  · obtain ⟨⟨hn, -, hc⟩, -⟩ := (C115_find_iff A labels P args mask).mp h
    rcases hc with hc | hc
    · exact hone hc
    · exact hk (by rw [← hl ⟨0, hn⟩]; exact hc.1 ⟨0, hn⟩)
  · have hraw : ∃ m, findLabelIssues A labels P args = .ok m := by
      have hr : ∃ m, rawMask A labels P args = .ok m := by
        unfold rawMask
        rw [hnum]
        cases hfb : args.filterBy with
        | lowNormalizedMargin => exact absurd (Or.inr (Or.inl hfb)) hf
        | lowSelfConfidence => exact absurd (Or.inr (Or.inr hfb)) hf
        | _ => exact ⟨_, rfl⟩
      obtain ⟨m, hm⟩ := hr
      unfold findLabelIssues
      rw [hnum, hm, if_neg (by simp)]
      dsimp only [bind, Except.bind]
      split_ifs
      · exact ⟨_, rfl⟩
      · exact ⟨_, rfl⟩
    obtain ⟨m, hm⟩ := hraw
    refine ⟨m, (C115_find_iff A labels P args m).mpr ⟨⟨hn, hP, Or.inr ⟨fun i => ?_, hf⟩⟩, hm⟩⟩
    rw [hl i, hk]
  · obtain ⟨⟨hn, -, hc⟩, -⟩ := (C115_find_iff A labels P args mask).mp h
    rcases hc with hc | hc
    · exact hone hc
    · exact hc.2 hf

/-- The labels 0, 0 are accepted, the labels 1, 1 are not, with the same probabilities. -/
example (A : ArgSort ℚ) : (∃ mask, findChecked A (![0, 0] : Fin 2 → Fin 2) ![![1, 0], ![1/2, 1/2]]
      { filterBy := .pruneByNoiseRate } = .ok mask) ∧
    ∃ e, findChecked A (![1, 1] : Fin 2 → Fin 2) ![![1, 0], ![1/2, 1/2]] { filterBy := .pruneByNoiseRate } = .error e := by
  refine ⟨(C115_not_one_class A _ _ 0 (by decide)).2.2.1 rfl (by decide) ?_ _ rfl ?_,
    (C115_not_one_class A _ _ 1 (by decide)).2.1 (by decide) _⟩
  · unfold InRange; decide +kernel
  · unfold RechecksInputs; simp

/-- Two different labels. -/
example (A : ArgSort ℚ) : findChecked A (![0, 1] : Fin 2 → Fin 2) ![![1, 0], ![3/4, 1/4]]
    { filterBy := .predictedNeqGiven } = .ok ![false, true] := by
  rw [(C115_accepts_partial A _ _ ⟨0, 1, by decide⟩ (by unfold InRange; decide +kernel)).1]
  refine ok_of_toOption ?_
  show some _ = some _
  congr 1
  decide +kernel

theorem validate_of_findChecked (A : ArgSort ℚ) [NeZero K] (labels : Fin n → Fin K) (P : Fin n → Fin K → ℚ)
    (args : Args K) (mask : Fin n → Bool) (h : findChecked A labels P args = .ok mask) :
    validate (allZero labels) labels P = .ok () := by
  unfold findChecked at h
  cases hv : validate (allZero labels) labels P with
  | error e => rw [hv] at h; cases h
  | ok u => rfl

theorem findRankedChecked_ok {α : Type} [LinearOrder α] (A : ArgSort ℚ) (A' : ArgSort α) [NeZero K]
    (labels : Fin n → Fin K) (P : Fin n → Fin K → ℚ) (args : Args K) (scores : Fin n → α) (mask : Fin n → Bool)
    (h : findChecked A labels P args = .ok mask) :
    findRankedChecked A A' labels P args scores = .ok (orderLabelIssues A' mask scores) := by
  unfold findRankedChecked
  rw [h, validate_of_findChecked A labels P args mask h]
  rfl

theorem findRankedChecked_mask {α : Type} [LinearOrder α] (A : ArgSort ℚ) (A' : ArgSort α) [NeZero K]
    (labels : Fin n → Fin K) (P : Fin n → Fin K → ℚ) (args : Args K) (scores : Fin n → α) (l : List (Fin n))
    (h : findRankedChecked A A' labels P args scores = .ok l) :
    ∃ mask, findChecked A labels P args = .ok mask ∧ l = orderLabelIssues A' mask scores := by
  cases hm : findChecked A labels P args with
  | error e => unfold findRankedChecked at h; rw [hm] at h; cases h
  | ok m =>
    rw [findRankedChecked_ok A A' labels P args scores m hm] at h
    exact ⟨m, rfl, (Except.ok.inj h).symm⟩

end Cleanlab.Props
