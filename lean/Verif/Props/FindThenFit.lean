import Verif.Props.CleanFit
import Verif.Props.IssueTable
import Verif.Model.RegressionFit

/-!
# C150: finding issues first and training afterwards is the same as training at once
-/

namespace Cleanlab.Props

open Np

section Classification

open CleanLearning

variable {K : ℕ}

/-- The stored flags of an earlier search and the form in which the issues were given have no influence on the final training. -/
theorem finalFit_mask (s : State K) (m : Option (List Bool)) (a : FitCall K) (x : Option (LabelIssuesArg K)) (q : Bool)
    (f : Fin a.n → Bool) :
    finalFit { s with labelIssuesMask := m } { a with labelIssues := none } f =
      finalFit s { a with labelIssues := x, hasQuality := q } f := by
  unfold finalFit
  dsimp only
  cases a.finalWeight <;> cases a.sampleWeight <;> cases s.noiseMatrix <;> rfl

theorem checkInputs_saveSpace (a : CleanLearning.Call K) (b : Bool) :
    CleanLearning.checkInputs { a with saveSpace := b } = CleanLearning.checkInputs a := by
  unfold CleanLearning.checkInputs
  dsimp only
  split_ifs
  · cases a.predProbs <;> rfl
  · rfl

theorem checkCall_saveSpace (cfg : Settings K) (a : CleanLearning.Call K) (b : Bool) :
    checkCall cfg { a with saveSpace := b } = checkCall cfg a := by
  unfold checkCall
  rw [checkInputs_saveSpace]

theorem checkCall_inputs (cfg : Settings K) (a : CleanLearning.Call K) (h : checkCall cfg a = .ok ()) :
    CleanLearning.checkInputs a = .ok () := by
  unfold checkCall at h
  cases hc : CleanLearning.checkInputs a with
  | error e => rw [hc] at h; cases h
  | ok u => rfl

/-- The flags, `classification.py:790-918`. -/
def maskOf [NeZero K] (cfg : Settings K) (s : State K) (a : CleanLearning.Call K) : State K × Except String (Fin a.n → Bool) :=
  if cfg.lowMemory then (s, cfg.batched a.labels a.probs) else CleanLearning.findMask cfg s a

theorem findLabelIssues_iff [NeZero K] (cfg : Settings K) (s s1 : State K) (a : CleanLearning.Call K) (df : List (IssueRow K)) :
    CleanLearning.findLabelIssues cfg s a = (s1, .ok df) ↔ checkCall cfg a = .ok () ∧ ∃ s2 mk, maskOf cfg s a = (s2, .ok mk) ∧
      CleanLearning.issueTable cfg s2 a mk = .ok df ∧
      s1 = if a.saveSpace then s2 else { s2 with labelIssuesMask := some (df.map (·.isLabelIssue)) } := by
  unfold CleanLearning.findLabelIssues
  change (match checkCall cfg a with
    | .error e => (s, .error e)
    | .ok () =>
      match (maskOf cfg s a).2.bind (CleanLearning.issueTable cfg (maskOf cfg s a).1 a) with
      | .error e => ((maskOf cfg s a).1, .error e)
      | .ok df => (if a.saveSpace then (maskOf cfg s a).1 else
          { (maskOf cfg s a).1 with labelIssuesMask := some (df.map (·.isLabelIssue)) }, .ok df)) = (s1, Except.ok df) ↔ _
  cases checkCall cfg a with
  | error e => simp
  | ok u =>
    generalize maskOf cfg s a = sm
    obtain ⟨s2, mask⟩ := sm
    cases mask with
    | error e => simp [Except.bind]
    | ok mk =>
      dsimp only [Except.bind]
      constructor
      · intro h
        refine ⟨rfl, s2, mk, rfl, ?_⟩
        cases ht : CleanLearning.issueTable cfg s2 a mk with
        | error e => rw [ht] at h; cases (Prod.mk.inj h).2
        | ok df' =>
          rw [ht] at h
          obtain ⟨h1, h2⟩ := Prod.mk.inj h
          cases h2
          exact ⟨rfl, h1.symm⟩
      · rintro ⟨-, s3, mk', h1, h2, h3⟩
        obtain ⟨rfl, h4⟩ := Prod.mk.inj h1
        cases h4
        rw [h2, h3]

/-- A successful search: the checks passed, and saving space changes nothing but the stored flags. -/
theorem findLabelIssues_run [NeZero K] {cfg : Settings K} {s s1 : State K} {a : CleanLearning.Call K} {df : List (IssueRow K)} (sv : Bool)
    (h : CleanLearning.findLabelIssues cfg s { a with saveSpace := sv } = (s1, .ok df)) :
    CleanLearning.checkInputs a = .ok () ∧
      ∃ m, CleanLearning.findLabelIssues cfg s { a with saveSpace := false } = ({ s1 with labelIssuesMask := m }, .ok df) := by
  obtain ⟨h1, s2, mk, h2, h3, h4⟩ := (findLabelIssues_iff cfg s s1 _ df).mp h
  rw [checkCall_saveSpace] at h1
  refine ⟨checkCall_inputs cfg a h1, some (df.map (·.isLabelIssue)), ?_⟩
  rw [findLabelIssues_iff, checkCall_saveSpace]
  refine ⟨h1, s2, mk, h2, h3, ?_⟩
  rw [h4]
  cases sv <;> rfl

theorem fit_none [NeZero K] (cfg : Settings K) (s : State K) (a : FitCall K) (h1 : ¬ a.weightInKwargs = true)
    (h2 : ¬ (a.sampleWeight.isSome ∧ ¬ a.clfTakesWeight)) (h3 : a.labelIssues = none) :
    CleanLearning.fit cfg s a = match CleanLearning.findLabelIssues cfg s { a.toCall with saveSpace := false } with
      | (s, .error e) => (s, .error e)
      | (s, .ok df) =>
        match CleanLearning.processArg a.labels (.table (df.map (·.isLabelIssue)) (some (df.map (·.givenLabel)))) with
        | .error e => (s, .error e)
        | .ok flagged => ((finalFit s a flagged).1, .ok (finalFit s a flagged).2) := by
  unfold CleanLearning.fit
  rw [if_neg h1, if_neg h2, h3]
  dsimp only
  generalize CleanLearning.findLabelIssues cfg s _ = r
  obtain ⟨s', e | df⟩ := r
  · rfl
  · dsimp only
    generalize CleanLearning.processArg a.labels _ = p
    cases p <;> rfl

theorem fit_some [NeZero K] (cfg : Settings K) (s : State K) (a : FitCall K) (h1 : ¬ a.weightInKwargs = true)
    (h2 : ¬ (a.sampleWeight.isSome ∧ ¬ a.clfTakesWeight)) (arg : LabelIssuesArg K) (h3 : a.labelIssues = some arg)
    (h4 : CleanLearning.checkInputs a.toCall = .ok ()) (h5 : a.hasQuality = true) :
    CleanLearning.fit cfg s a = match CleanLearning.processArg a.labels arg with
      | .error e => (s, .error e)
      | .ok flagged => ((finalFit s a flagged).1, .ok (finalFit s a flagged).2) := by
  unfold CleanLearning.fit
  rw [if_neg h1, if_neg h2, h3]
  dsimp only
  rw [h4]
  dsimp only
  cases CleanLearning.processArg a.labels arg with
  | error e => rfl
  | ok f =>
    dsimp only
    unfold addQuality
    rw [h5]
    cases a.predProbs <;> rfl

/-- **C150, classification.** Let `find_label_issues` return a table, whether or not it is also stored in the object. Training the
object with this table gives the same result, i.e. training examples and weights or an exception, as `fit` without label issues on the
object as it was before, and the same state of the object if it does not raise. -/
theorem C150_classification [NeZero K] (cfg : Settings K) (s s1 : State K) (a : FitCall K) (sv : Bool)
    (df : List (IssueRow K)) (h : CleanLearning.findLabelIssues cfg s { a.toCall with saveSpace := sv } = (s1, .ok df)) :
    let now := CleanLearning.fit cfg s { a with labelIssues := none }
    let later := CleanLearning.fit cfg s1 { a with labelIssues := some (.table (df.map (·.isLabelIssue)) (some (df.map (·.givenLabel)))), hasQuality := true }
    later.2 = now.2 ∧ ∀ t, now.2 = .ok t → later.1 = now.1 := by
  obtain ⟨hci, m, hf⟩ := findLabelIssues_run sv h
  intro now later
  by_cases h1 : a.weightInKwargs = true
  · have e1 : now = (s, .error "sample_weight should be provided directly in fit() or in clf_final_kwargs") := if_pos h1
    have e2 : later = (s1, .error "sample_weight should be provided directly in fit() or in clf_final_kwargs") := if_pos h1
    rw [e1, e2]
    exact ⟨rfl, fun t ht => by (cases ht)⟩
  by_cases h2 : a.sampleWeight.isSome ∧ ¬ a.clfTakesWeight
  · have e1 : now = (s, .error "sample_weight must be a supported fit() argument for your model") := (if_neg h1).trans (if_pos h2)
    have e2 : later = (s1, .error "sample_weight must be a supported fit() argument for your model") := (if_neg h1).trans (if_pos h2)
    rw [e1, e2]
    exact ⟨rfl, fun t ht => by (cases ht)⟩
  have e1 : now = _ := fit_none cfg s { a with labelIssues := none } h1 h2 rfl
  have e2 : later = _ := fit_some cfg s1 { a with labelIssues := some (.table (df.map (·.isLabelIssue)) (some (df.map (·.givenLabel)))), hasQuality := true }
    h1 h2 _ rfl hci rfl
  rw [e1, e2]
  dsimp only
  rw [hf]
  dsimp only
  cases hp : CleanLearning.processArg a.labels (.table (df.map (·.isLabelIssue)) (some (df.map (·.givenLabel)))) with
  | error e => exact ⟨rfl, fun t ht => by (cases ht)⟩
  | ok f =>
    dsimp only
    rw [finalFit_mask s1 m a _ true f]
    exact ⟨rfl, fun t ht => rfl⟩

/-- **C150, classification.** With the data of the search, the returned table is never refused: `fit` with it succeeds, unless the
weights are unusable. -/
theorem C150_accepted [NeZero K] (cfg : Settings K) (s s1 : State K) (a : FitCall K) (sv : Bool)
    (df : List (IssueRow K)) (h : CleanLearning.findLabelIssues cfg s { a.toCall with saveSpace := sv } = (s1, .ok df))
    (h1 : a.weightInKwargs = false) (h2 : a.sampleWeight.isSome = true → a.clfTakesWeight = true) :
    ∃ t, (CleanLearning.fit cfg s1 { a with labelIssues := some (.table (df.map (·.isLabelIssue)) (some (df.map (·.givenLabel)))), hasQuality := true }).2 = .ok t := by
  obtain ⟨hci, m, hf⟩ := findLabelIssues_run sv h
  rw [fit_some cfg s1 { a with labelIssues := some (.table (df.map (·.isLabelIssue)) (some (df.map (·.givenLabel)))), hasQuality := true }
    (by simp [h1]) (by rintro ⟨x, y⟩; exact y (h2 x)) _ rfl hci rfl]
  obtain ⟨hl, ⟨sc, -, hrow⟩, -⟩ := C149_table cfg s _ _ df hf
  have hl : df.length = a.n := hl
  have hg : df.map (·.givenLabel) = List.ofFn a.labels := by
    apply List.ext_getElem?
    intro i
    by_cases hi : i < a.n
    · obtain ⟨r, hr, hgl, -⟩ := hrow ⟨i, hi⟩
      rw [List.getElem?_map, hr, List.getElem?_ofFn, dif_pos hi]
      simp [hgl]
    · rw [List.getElem?_eq_none (by simp; omega), List.getElem?_eq_none (by simp; omega)]
  have hp : CleanLearning.processArg a.labels (.table (df.map (·.isLabelIssue)) (some (df.map (·.givenLabel)))) =
      .ok (fun i => (df.map (·.isLabelIssue))[i.val]'(by simp [hl])) := by
    unfold CleanLearning.processArg
    dsimp only
    rw [dif_pos (by simpa using hl)]
    rw [if_neg (by simp [hg])]
  dsimp only
  rw [hp]
  exact ⟨_, rfl⟩

/-- The search of `C55_not_other_data` on a new object finds the third of five examples; training with its table, or at once, uses the
other four. -/
example : ∃ s1 df t, CleanLearning.findLabelIssues cfg2 (fresh kw1) noisyCall = (s1, .ok df) ∧
    df.map (·.isLabelIssue) = [false, false, true, false, false] ∧
    (CleanLearning.fit cfg2 s1 { noisyCall with labelIssues := some (.table (df.map (·.isLabelIssue)) (some (df.map (·.givenLabel)))), hasQuality := true }).2 = .ok t ∧
    (CleanLearning.fit cfg2 (fresh kw1) { noisyCall with labelIssues := none }).2 = .ok t := by
  have h := C55_not_other_data.1
  generalize hr : CleanLearning.findLabelIssues cfg2 (fresh kw1) noisyCall = r at h
  obtain ⟨s1, e | df⟩ := r
  · cases h
  · have hf := Option.some.inj h
    have hc := C150_classification cfg2 (fresh kw1) s1 { noisyCall with labelIssues := none } false df hr
    obtain ⟨t, ht⟩ := C150_accepted cfg2 (fresh kw1) s1 { noisyCall with labelIssues := none } false df hr rfl (by intro h; cases h)
    exact ⟨s1, df, t, rfl, hf, ht, hc.1.symm.trans ht⟩

end Classification

section Regression

open RegressionFit

variable {n : ℕ} {κ : Type}

/-- **C150, regression.** The same for `cleanlab.regression.learn.CleanLearning`: with the table that `find_label_issues` returns,
`fit` gives the same training rows, labels and weights, or the same exception, as `fit` without label issues with the same random
numbers, and the same state of the object if it does not raise. -/
theorem C150_regression (B : ArgSort ℚ) (A : ArgSort ℝ) (E : Env n κ) (o o1 : Obj) (c : FitCall n κ) (t : Table)
    (h : RegressionFit.find B A E o c.toFindCall = (o1, .ok t)) :
    let now := RegressionFit.fit B A E o { c with labelIssues := none }
    let later := RegressionFit.fit B A E o1 { c with labelIssues := some (.table t) }
    later.2 = now.2 ∧ ∀ r, now.2 = .ok r → later.1 = now.1 := by
  intro now later
  have e1 : now = match (do RegressionFit.validate n; checkWeights c) with
      | .error e => (o, .error e)
      | .ok () => finish o1 { c with labelIssues := none } (.table t) := by
    change RegressionFit.fit B A E o { c with labelIssues := none } = _
    unfold RegressionFit.fit
    change (match (do RegressionFit.validate n; checkWeights c) with
      | .error e => (o, .error e)
      | .ok () => match RegressionFit.find B A E o c.toFindCall with
        | (o, .error e) => (o, .error e)
        | (o, .ok t) => finish o { c with labelIssues := none } (.table t) : Obj × Except String (Training n)) = _
    rw [h]
  have e2 : later = match (do RegressionFit.validate n; checkWeights c) with
      | .error e => (o1, .error e)
      | .ok () => finish o1 { c with labelIssues := none } (.table t) := rfl
  rw [e1, e2]
  cases (do RegressionFit.validate n; checkWeights c : Except String Unit) with
  | error e => exact ⟨rfl, fun r hr => by (cases hr)⟩
  | ok u => exact ⟨rfl, fun r hr => rfl⟩

end Regression

end Cleanlab.Props
