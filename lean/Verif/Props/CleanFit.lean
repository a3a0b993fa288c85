import Verif.Props.CleanLearning

/-!
# C56: what `CleanLearning.fit` trains on
-/

namespace Cleanlab.Props

open Np Cleanlab.CleanLearning

variable {K : ℕ}

/-- Example `i` of `n` is named by a `label_issues` argument. -/
def Names (n : ℕ) (i : ℕ) : LabelIssuesArg K → Prop
  | .table m _ => m[i]? = some true
  | .mask m => m[i]? = some true
  | .indices idx => (i : ℤ) ∈ idx ∨ (i : ℤ) - n ∈ idx
  | .noColumn => False
  | .other => False

/-- The training data are exactly the examples outside `flagged`, in their order, with their labels. -/
def TrainsOnRest {n : ℕ} (labels : Fin n → Fin K) (flagged : Fin n → Prop) (t : Training n K) : Prop :=
  (t.examples.map Prod.fst).Pairwise (· < ·) ∧ (∀ i, i ∈ t.examples.map Prod.fst ↔ ¬ flagged i) ∧
    ∀ e ∈ t.examples, e.2 = labels e.1

theorem processArg_ok {n : ℕ} {labels : Fin n → Fin K} {arg : LabelIssuesArg K} {f : Fin n → Bool}
    (h : processArg labels arg = .ok f) (i : Fin n) : f i = true ↔ Names n i arg := by
  unfold processArg at h
  cases arg with
  | noColumn => cases h
  | other => cases h
  | table m given =>
    dsimp only at h
    by_cases hl : m.length = n
    · rw [dif_pos hl] at h
      split_ifs at h
      have := Except.ok.inj h
      subst this
      show m[i.val] = true ↔ m[i.val]? = some true
      rw [List.getElem?_eq_getElem (by omega), Option.some.injEq]
    · rw [dif_neg hl] at h; cases h
  | mask m =>
    dsimp only at h
    by_cases hl : m.length = n
    · rw [dif_pos hl] at h
      have := Except.ok.inj h
      subst this
      show m[i.val] = true ↔ m[i.val]? = some true
      rw [List.getElem?_eq_getElem (by omega), Option.some.injEq]
    · rw [dif_neg hl] at h; cases h
  | indices idx =>
    dsimp only at h
    split_ifs at h
    have := Except.ok.inj h
    subst this
    show decide _ = true ↔ ((i : ℤ) ∈ idx ∨ (i : ℤ) - n ∈ idx)
    simp only [decide_eq_true_eq]

theorem finalFit_examples (s : State K) (a : FitCall K) (f : Fin a.n → Bool) :
    (finalFit s a f).2.examples = ((List.finRange a.n).filter (fun i => !f i)).map (fun i => (i, a.labels i)) := by
  unfold finalFit
  dsimp only
  split
  · rfl
  · rfl
  · split
    · rfl
    · split <;> rfl

theorem finalFit_rest (s : State K) (a : FitCall K) (f : Fin a.n → Bool) :
    TrainsOnRest a.labels (fun i => f i = true) (finalFit s a f).2 := by
  unfold TrainsOnRest
  rw [finalFit_examples]
  have hm : (((List.finRange a.n).filter (fun i => !f i)).map (fun i => (i, a.labels i))).map Prod.fst =
      (List.finRange a.n).filter (fun i => !f i) := by
    rw [List.map_map]
    exact List.map_id _
  rw [hm]
  refine ⟨(List.pairwise_lt_finRange _).filter _, fun i => ?_, fun e he => ?_⟩
  · simp [List.mem_filter]
  · obtain ⟨i, -, rfl⟩ := List.mem_map.mp he
    rfl

/-- A successful `fit` runs the final step with the examples named by the argument, or by the table that
`find_label_issues` returns. -/
theorem fit_ok [NeZero K] {cfg : Settings K} {s : State K} {a : FitCall K} {t : Training a.n K}
    (h : (fit cfg s a).2 = .ok t) :
    ∃ (s1 : State K) (f : Fin a.n → Bool), fit cfg s a = ((finalFit s1 a f).1, .ok t) ∧ (finalFit s1 a f).2 = t ∧
      (∀ arg, a.labelIssues = some arg → s1 = s ∧ ∀ i, f i = true ↔ Names a.n i arg) ∧
      (a.labelIssues = none → ∃ df,
        CleanLearning.findLabelIssues cfg s { a.toCall with saveSpace := false } = (s1, .ok df) ∧
        ∀ i, f i = true ↔ (df.map (·.isLabelIssue))[i.val]? = some true) := by
  unfold fit at h ⊢
  by_cases h1 : a.weightInKwargs = true
  · rw [if_pos h1] at h; cases h
  rw [if_neg h1] at h ⊢
  by_cases h2 : a.sampleWeight.isSome = true ∧ ¬ a.clfTakesWeight = true
  · rw [if_pos h2] at h; cases h
  rw [if_neg h2] at h ⊢
  cases hl : a.labelIssues with
  | none =>
    rw [hl] at h
    dsimp only at h ⊢
    cases hf : CleanLearning.findLabelIssues cfg s { a.toCall with saveSpace := false } with
    | mk s1 r =>
      rw [hf] at h
      cases r with
      | error e => cases h
      | ok df =>
        dsimp only at h ⊢
        cases hp : processArg a.labels (.table (df.map (·.isLabelIssue)) (some (df.map (·.givenLabel)))) with
        | error e => rw [hp] at h; cases h
        | ok f =>
          rw [hp] at h
          have ht : (finalFit s1 a f).2 = t := Except.ok.inj h
          refine ⟨s1, f, by dsimp only; rw [ht], ht, fun arg harg => (by cases harg), fun _ => ⟨df, rfl, fun i => ?_⟩⟩
          exact processArg_ok hp i
  | some arg =>
    rw [hl] at h
    dsimp only at h ⊢
    cases h3 : checkInputs a.toCall with
    | error e => rw [h3] at h; cases h
    | ok u =>
      rw [h3] at h
      dsimp only at h ⊢
      cases hp : processArg a.labels arg with
      | error e => rw [hp] at h; cases h
      | ok f =>
        rw [hp] at h
        dsimp only at h ⊢
        cases hq : addQuality cfg s a with
        | error e => rw [hq] at h; cases h
        | ok u =>
        rw [hq] at h
        have ht : (finalFit s a f).2 = t := Except.ok.inj h
        refine ⟨s, f, by dsimp only; rw [ht], ht, fun arg' harg => ?_, fun hn => (by cases hn)⟩
        cases harg
        exact ⟨rfl, processArg_ok hp⟩

/-- **C56.** With a `label_issues` argument of any accepted form, `fit` trains on exactly the examples it does not name,
in their order and with their labels, whatever the object did before. -/
theorem C56_trains_on_unflagged [NeZero K] (cfg : Settings K) (s : State K) (a : FitCall K) (arg : LabelIssuesArg K)
    (harg : a.labelIssues = some arg) (t : Training a.n K) (h : (fit cfg s a).2 = .ok t) :
    TrainsOnRest a.labels (fun i => Names a.n i arg) t := by
  obtain ⟨s1, f, -, ht, h1, -⟩ := fit_ok h
  have hr := finalFit_rest s1 a f
  rw [ht] at hr
  have : (fun i => f i = true) = fun i : Fin a.n => Names a.n i arg := by
    funext i; exact propext ((h1 arg harg).2 i)
  rwa [this] at hr

/-- **C56.** Without a `label_issues` argument, `fit` trains on exactly the examples that `find_label_issues`, called on the
same object, does not flag. -/
theorem C56_trains_on_found [NeZero K] (cfg : Settings K) (s : State K) (a : FitCall K) (harg : a.labelIssues = none)
    (t : Training a.n K) (h : (fit cfg s a).2 = .ok t) :
    ∃ df, (CleanLearning.findLabelIssues cfg s { a.toCall with saveSpace := false }).2 = .ok df ∧
      TrainsOnRest a.labels (fun i => (df.map (·.isLabelIssue))[i.val]? = some true) t := by
  obtain ⟨s1, f, -, ht, -, h1⟩ := fit_ok h
  obtain ⟨df, hdf, hi⟩ := h1 harg
  refine ⟨df, by rw [hdf], ?_⟩
  have hr := finalFit_rest s1 a f
  rw [ht] at hr
  have : (fun i => f i = true) = fun i : Fin a.n => (df.map (·.isLabelIssue))[i.val]? = some true := by
    funext i; exact propext (hi i)
  rwa [this] at hr

/-- **C56 (partial).** If no weights are given, the classifier accepts weights, labels are an array and the object has a
noise matrix, every training example gets the weight `1 / max(noise[k][k], 0.001)` of its class `k`, and the stored
weights are these for the training examples and 0 for the others. For labels in a list see `C56_not_list_labels`; for a
noise matrix passed together with `label_issues` see `C56_not_noise_matrix_argument`. -/
theorem C56_weights_partial [NeZero K] (cfg : Settings K) (s : State K) (a : FitCall K) (t : Training a.n K)
    (h : (fit cfg s a).2 = .ok t) (hw : a.sampleWeight = none) (hfw : a.finalWeight = none)
    (hc : a.clfTakesWeight = true) (hlist : a.labelsIsList = false) (m : Mat K)
    (hm : (fit cfg s a).1.noiseMatrix = some m) :
    t.weights = some (t.examples.map (fun e => 1 / max (m e.2 e.2) (1 / 1000))) ∧
    ∃ W, (fit cfg s a).1.sampleWeight = some W ∧ W.length = a.n ∧
      ∀ i : Fin a.n, W[i.val]? = some (if i ∈ t.examples.map Prod.fst then 1 / max (m (a.labels i) (a.labels i)) (1 / 1000)
        else 0) := by
  obtain ⟨s1, f, hfit, ht, -, -⟩ := fit_ok h
  rw [hfit] at hm ⊢
  dsimp only at hm ⊢
  have hmem : ∀ i, i ∈ t.examples.map Prod.fst ↔ ¬ f i = true := by
    have := (finalFit_rest s1 a f).2.1
    rw [ht] at this
    exact this
  have hex := finalFit_examples s1 a f
  rw [ht] at hex
  have hfin : finalFit s1 a f = match s1.noiseMatrix with
    | none => ({ s1 with labelIssuesMask := some (List.ofFn f) },
        ⟨((List.finRange a.n).filter (fun i => !f i)).map (fun i => (i, a.labels i)), none⟩)
    | some noise =>
      ({ s1 with
          labelIssuesMask := some (List.ofFn f)
          sampleWeight := some (List.ofFn (fun i =>
            if f i then 0 else autoWeight noise a.labelsIsList (a.labels i))) },
        ⟨((List.finRange a.n).filter (fun i => !f i)).map (fun i => (i, a.labels i)),
          some (((List.finRange a.n).filter (fun i => !f i)).map
            (fun i => autoWeight noise a.labelsIsList (a.labels i)))⟩) := by
    unfold finalFit
    dsimp only
    rw [hw, hfw]
    dsimp only
    cases s1.noiseMatrix with
    | none => rfl
    | some noise => simp only [hc, if_true]
  cases hn : s1.noiseMatrix with
  | none =>
    rw [hfin, hn] at hm
    cases hm
  | some noise =>
    rw [hn] at hfin
    dsimp only at hfin
    have hmn : noise = m := by
      rw [hfin] at hm
      exact Option.some.inj hm
    subst hmn
    have hauto : ∀ k, autoWeight noise a.labelsIsList k = 1 / max (noise k k) (1 / 1000) := by
      intro k; unfold autoWeight; rw [hlist]; rfl
    refine ⟨?_, List.ofFn (fun i => if f i then 0 else autoWeight noise a.labelsIsList (a.labels i)), ?_,
      List.length_ofFn, fun i => ?_⟩
    · have : t.weights = (finalFit s1 a f).2.weights := by rw [ht]
      rw [this, hfin, hex, List.map_map]
      simp only [hauto]
      rfl
    · rw [hfin]
    · rw [List.getElem?_ofFn]
      simp only [i.isLt, dif_pos, Fin.eta, Option.some.injEq]
      by_cases hfi : f i = true
      · rw [if_pos hfi, if_neg (fun hx => (hmem i).mp hx hfi)]
      · rw [if_neg hfi, if_pos ((hmem i).mpr hfi), hauto]

/-- **C56.** Given sample weights are passed on for exactly the training examples; weights in `clf_final_kwargs` are passed
on as they are. -/
theorem C56_given_weights [NeZero K] (cfg : Settings K) (s : State K) (a : FitCall K) (t : Training a.n K)
    (h : (fit cfg s a).2 = .ok t) :
    (∀ w, a.finalWeight = some w → t.weights = some w) ∧
    ∀ w, a.finalWeight = none → a.sampleWeight = some w → t.weights = some (t.examples.map (fun e => w e.1)) := by
  obtain ⟨s1, f, -, ht, -, -⟩ := fit_ok h
  have hex := finalFit_examples s1 a f
  rw [ht] at hex
  refine ⟨fun w hw => ?_, fun w hfw hw => ?_⟩
  · rw [← ht]
    unfold finalFit
    dsimp only
    rw [hw]
  · rw [hex, ← ht, List.map_map]
    unfold finalFit
    dsimp only
    rw [hw, hfw]
    rfl

/-- **C56.** Masks and tables of another length, repeated or out-of-range indices, and tables for other labels are
refused before anything is trained. -/
theorem C56_rejects [NeZero K] (cfg : Settings K) (s : State K) (a : FitCall K) (arg : LabelIssuesArg K)
    (harg : a.labelIssues = some arg)
    (hbad : (∃ m, arg = .mask m ∧ m.length ≠ a.n) ∨ (∃ m g, arg = .table m g ∧ m.length ≠ a.n) ∨
      (∃ m g, arg = .table m (some g) ∧ g ≠ List.ofFn a.labels) ∨ (∃ idx, arg = .indices idx ∧ ¬ idx.Nodup) ∨
      (∃ idx z, arg = .indices idx ∧ z ∈ idx ∧ (z < -(a.n : ℤ) ∨ (a.n : ℤ) ≤ z))) :
    ∃ e, (fit cfg s a).2 = .error e := by
  have hp : ∃ e, processArg a.labels arg = .error e := by
    unfold processArg
    rcases hbad with ⟨m, rfl, h⟩ | ⟨m, g, rfl, h⟩ | ⟨m, g, rfl, h⟩ | ⟨idx, rfl, h⟩ | ⟨idx, z, rfl, hz, h⟩
    · dsimp only; rw [dif_neg h]; exact ⟨_, rfl⟩
    · dsimp only; rw [dif_neg h]; exact ⟨_, rfl⟩
    · dsimp only
      by_cases hl : m.length = a.n
      · rw [dif_pos hl, if_pos (by simp [h])]; exact ⟨_, rfl⟩
      · rw [dif_neg hl]; exact ⟨_, rfl⟩
    · dsimp only; rw [if_pos h]; exact ⟨_, rfl⟩
    · dsimp only
      by_cases hd : ¬ idx.Nodup
      · rw [if_pos hd]; exact ⟨_, rfl⟩
      · rw [if_neg hd, if_pos ⟨z, hz, h⟩]; exact ⟨_, rfl⟩
  obtain ⟨e, he⟩ := hp
  unfold fit
  rw [harg]
  dsimp only
  rw [he]
  split_ifs
  · exact ⟨_, rfl⟩
  · exact ⟨_, rfl⟩
  · cases checkInputs a.toCall <;> exact ⟨_, rfl⟩

/-- The clean data of `C55_not_other_data` with one example marked, by its index from the end. -/
def fitExample : FitCall 2 := { cleanCall with labelIssues := some (.indices [-1]) }

/-- An object that knows a noise matrix. -/
def knowsNoise : State 2 := { kwargs := some {}, noiseMatrix := some ![![4 / 5, 1 / 2], ![1 / 5, 1 / 2]] }

example : (fit cfg2 knowsNoise fitExample).2.toOption.map (fun t =>
      (t.examples.map (fun e => (e.1.val, e.2)), t.weights)) = some ([(0, 0), (1, 0), (2, 1)], some [5 / 4, 5 / 4, 2]) ∧
    (fit cfg2 knowsNoise fitExample).1.sampleWeight = some [5 / 4, 5 / 4, 2, 0] := by
  decide +kernel

/-- **C56 fails for labels in a Python list.** The same call with the labels in a list trains with weight 1 everywhere. -/
theorem C56_not_list_labels :
    (fit cfg2 knowsNoise { fitExample with labelsIsList := true }).2.toOption.map (fun t => t.weights) =
      some (some [1, 1, 1]) := by
  decide +kernel

/-- **C56 fails for a noise matrix given with `label_issues`.** It is not stored, and a fresh object trains without
weights. -/
theorem C56_not_noise_matrix_argument :
    (fit cfg2 (fresh {}) { fitExample with noiseMatrix := some ![![4 / 5, 1 / 2], ![1 / 5, 1 / 2]] }).2.toOption.map
      (fun t => t.weights) = some none := by
  decide +kernel

end Cleanlab.Props
