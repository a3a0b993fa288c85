import Verif.Model.LabelManager
import Verif.Props.CleanLearning
import Verif.Props.Dataset

/-!
# C113: the label check of Datalab
-/

namespace Cleanlab.Props

open Np Cleanlab.Util Cleanlab.Count Cleanlab.Filter Cleanlab.CleanLearning Cleanlab.Dataset Cleanlab.LabelManager

variable {α : Type} {n K : ℕ}

/-- The table a successful call of `CleanLearning` returns. -/
theorem clean_table [NeZero K] {cfg : Settings K} {s : State K} {a : Call K} {df : List (IssueRow K)}
    (h : (CleanLearning.findLabelIssues cfg s a).2 = .ok df) :
    ∃ (mask : Fin a.n → Bool) (sc : Fin a.n → ℚ), cfg.scores a.labels a.probs = .ok sc ∧
      df = (List.finRange a.n).map (fun i => ⟨mask i, sc i, a.labels i, argmax (a.probs i)⟩) := by
  unfold CleanLearning.findLabelIssues at h
  split at h
  · cases h
  · dsimp only at h
    generalize (if cfg.lowMemory = true then (s, cfg.batched a.labels a.probs) else findMask cfg s a) = q at h
    obtain ⟨s', m⟩ := q
    dsimp only at h
    cases m with
    | error e => cases h
    | ok m =>
      simp only [Except.bind] at h
      unfold issueTable qualityScores at h
      by_cases hk : s'.kwargs.isNone = true
      · rw [if_pos hk] at h; cases h
      rw [if_neg hk] at h
      cases hs : cfg.scores a.labels a.probs with
      | error e => rw [hs] at h; cases h
      | ok sc =>
        rw [hs] at h
        simp only [bind, Except.bind, pure, Except.pure] at h
        exact ⟨m, sc, rfl, (Except.ok.inj h).symm⟩

/-- The checks that precede a successful call. -/
theorem clean_checked [NeZero K] {cfg : Settings K} {s : State K} {a : Call K} {df : List (IssueRow K)}
    (h : (CleanLearning.findLabelIssues cfg s a).2 = .ok df) :
    (∃ i j, a.labels i ≠ a.labels j) ∧ ∀ P, a.predProbs = some P → InRange P := by
  unfold CleanLearning.findLabelIssues at h
  split at h
  · cases h
  · rename_i hc
    unfold checkCall at hc
    cases hi : checkInputs a with
    | error e => rw [hi] at hc; cases hc
    | ok u =>
      unfold checkInputs at hi
      split_ifs at hi with h2
      · refine ⟨h2, fun P hP => ?_⟩
        rw [hP] at hi
        exact ((validate_iff _ _ _).mp hi).2.2

/-- The three functions that a successful `health_summary` combines. -/
theorem healthSummary_parts {A : ArgSort ℚ} [NeZero K] {asym : Bool} {labels : Fin n → Fin K} {P : Fin n → Fin K → ℚ}
    {s : Summary K} (h : healthSummary A asym { labels := some labels, predProbs := some P } = .ok s) :
    overallHealth A { labels := some labels, predProbs := some P } = .ok s.health ∧
      rankClasses A { labels := some labels, predProbs := some P } = .ok s.classes ∧
      overlappingClasses A asym { labels := some labels, predProbs := some P } = .ok s.pairs := by
  rw [healthSummary_labels] at h
  cases ho : overallHealth A ({ labels := some labels, predProbs := some P } : Inputs n K) with
  | error e => rw [ho] at h; cases h
  | ok v =>
    rw [ho] at h
    have := Except.ok.inj h
    subst this
    exact ⟨rfl, rfl, rfl⟩

/-- The parts of a successful check. -/
theorem labelCheck_ok [NeZero K] {cfg : Settings K} {lab : Lab α K} {o : Options α K} {labels : Fin n → Fin K}
    {P : Fin n → Fin K → ℚ} {r : Result α K} (h : findIssues cfg lab o labels P = .ok r) :
    ∃ df summary, (CleanLearning.findLabelIssues cfg (fresh o.findKwargs) (o.call labels P)).2 = .ok df ∧
      getHealthSummary cfg.sort (params lab o.healthParams) labels P = .ok summary ∧
      r = { issues := df.map (fun r => (r.isLabelIssue, r.labelQuality)), score := summary.health,
            info := collectInfo (CleanLearning.findLabelIssues cfg (fresh o.findKwargs) (o.call labels P)).1 df summary
              (getConfidentThresholds labels P) } := by
  unfold findIssues at h
  cases hf : CleanLearning.findLabelIssues cfg (fresh o.findKwargs) (o.call labels P) with
  | mk s d =>
    rw [hf] at h
    cases d with
    | error e => cases h
    | ok df =>
      dsimp only at h
      cases hs : getHealthSummary cfg.sort (params lab o.healthParams) labels P with
      | error e => rw [hs] at h; cases h
      | ok summary =>
        rw [hs] at h
        exact ⟨df, summary, rfl, rfl, (Except.ok.inj h).symm⟩

/-- **C113.** With all options, which are passed on, a check that succeeds reports for every example, in order, the flag and the score that
`CleanLearning(...).find_label_issues` of a new object gives it; the score is `get_label_quality_scores` of the labels and
predictions; the information holds the given labels, the most probable classes, the number of flagged examples and the
mean of the scores, and the confident joint and noise estimates of that object. -/
theorem C113_same_as_cleanlearning [NeZero K] (cfg : Settings K) (lab : Lab α K) (o : Options α K)
    (labels : Fin n → Fin K) (P : Fin n → Fin K → ℚ) (r : Result α K) (h : findIssues cfg lab o labels P = .ok r) :
    ∃ s df sc, CleanLearning.findLabelIssues cfg (fresh o.findKwargs)
        { n := n, labels := labels, predProbs := some P, cvProbs := P, thresholds := o.thresholds,
          noiseMatrix := o.noiseMatrix, inverseNoiseMatrix := o.inverseNoiseMatrix, saveSpace := o.saveSpace } =
        (s, .ok df) ∧
      cfg.scores labels P = .ok sc ∧
      r.issues.map Prod.fst = df.map (·.isLabelIssue) ∧ r.issues.map Prod.snd = List.ofFn sc ∧
      r.info.givenLabel = List.ofFn labels ∧ r.info.predictedLabel = List.ofFn (fun i => argmax (P i)) ∧
      r.info.numLabelIssues = r.issues.countP Prod.fst ∧ r.info.averageQuality = (∑ i, sc i) / n ∧
      r.info.confidentJoint = s.confidentJoint ∧ r.info.py = s.py ∧ r.info.noiseMatrix = s.noiseMatrix ∧
      r.info.inverseNoiseMatrix = s.inverseNoiseMatrix := by
  obtain ⟨df, summary, hdf, -, rfl⟩ := labelCheck_ok h
  have key : ∃ (mask : Fin n → Bool) (sc : Fin n → ℚ), cfg.scores labels P = .ok sc ∧
      df = (List.finRange n).map (fun i => ⟨mask i, sc i, labels i, argmax (P i)⟩) := clean_table hdf
  obtain ⟨mask, sc, hsc, htab⟩ := key
  refine ⟨_, df, sc, Prod.ext rfl hdf, hsc, ?_, ?_, ?_, ?_, ?_, ?_, rfl, rfl, rfl, rfl⟩
  · rw [List.map_map]; rfl
  · rw [List.map_map, htab, List.map_map, List.ofFn_eq_map]; rfl
  · show df.map _ = _
    rw [htab, List.map_map, List.ofFn_eq_map]; rfl
  · show df.map _ = _
    rw [htab, List.map_map, List.ofFn_eq_map]; rfl
  · show df.countP _ = _
    rw [List.countP_map]; rfl
  · show (df.map _).sum / (df.length : ℚ) = _
    rw [htab, List.map_map, List.length_map, List.length_finRange, ← List.sum_ofFn, List.ofFn_eq_map]; rfl

/-- **C113.** Unless health summary parameters are given (by the user, or as a confident joint or a joint with the number of
examples among the statistics of the lab), the score of the check,
the table of classes and the table of overlapping classes are those of the functions of `cleanlab.dataset` on the same
labels and predictions, and every row of the tables has the names that the label map gives to its classes. -/
theorem C113_same_as_dataset [NeZero K] (cfg : Settings K) (lab : Lab α K) (o : Options α K)
    (labels : Fin n → Fin K) (P : Fin n → Fin K → ℚ) (r : Result α K) (h : findIssues cfg lab o labels P = .ok r)
    (ho : o.healthParams = none) (hc : lab.confidentJoint = none) (hj : lab.joint = none ∨ lab.numExamples = none) :
    overallHealth cfg.sort { labels := some labels, predProbs := some P } = .ok r.score ∧
      rankClasses cfg.sort { labels := some labels, predProbs := some P } =
        .ok (r.info.classesByQuality.map Prod.snd) ∧
      overlappingClasses cfg.sort (lab.asymmetric.getD false) { labels := some labels, predProbs := some P } =
        .ok (r.info.overlappingClasses.map (fun x => x.2.2)) ∧
      (∀ x ∈ r.info.classesByQuality, lab.labelMapValues[x.2.cls.val]? = some x.1) ∧
      ∀ x ∈ r.info.overlappingClasses, lab.labelMapValues[x.2.2.a.val]? = some x.1 ∧
        lab.labelMapValues[x.2.2.b.val]? = some x.2.1 := by
  obtain ⟨df, summary, -, hs, rfl⟩ := labelCheck_ok h
  unfold getHealthSummary summaryInputs params at hs
  rw [ho] at hs
  have hj' : ¬ (lab.joint.isSome = true ∧ lab.numExamples.isSome = true) := by
    rcases hj with hj | hj <;> simp [hj]
  simp only [hc, hj', Option.isSome_none, Bool.false_eq_true, if_false, bind, Except.bind, pure, Except.pure] at hs
  unfold namedSummary at hs
  cases hh : healthSummary cfg.sort (lab.asymmetric.getD false)
      ({ labels := some labels, predProbs := some P } : Inputs n K) with
  | error e => rw [hh] at hs; cases hs
  | ok s =>
    rw [hh] at hs
    simp only [bind, Except.bind, pure, Except.pure] at hs
    split at hs
    · rename_i hl
      have hs := (Except.ok.inj hs).symm
      subst hs
      obtain ⟨e1, e2, e3⟩ := healthSummary_parts hh
      refine ⟨e1, ?_, ?_, ?_, ?_⟩
      · rw [e2]
        simp only [collectInfo, List.map_map]
        congr 1
        exact (List.map_id _).symm
      · rw [e3]
        simp only [collectInfo, List.map_map]
        congr 1
        exact (List.map_id _).symm
      · intro x hx
        obtain ⟨y, -, rfl⟩ := List.mem_map.mp hx
        exact List.getElem?_eq_getElem _
      · intro x hx
        obtain ⟨y, -, rfl⟩ := List.mem_map.mp hx
        exact ⟨List.getElem?_eq_getElem _, List.getElem?_eq_getElem _⟩
    · cases hs

/-- **C113 (partial).** Without health summary parameters the check succeeds exactly if `CleanLearning` succeeds and the
predictions have one column per class of the data. -/
theorem C113_succeeds_partial [NeZero K] (cfg : Settings K) (lab : Lab α K) (o : Options α K)
    (labels : Fin n → Fin K) (P : Fin n → Fin K → ℚ)
    (ho : o.healthParams = none) (hc : lab.confidentJoint = none) (hj : lab.joint = none ∨ lab.numExamples = none) :
    (∃ r, findIssues cfg lab o labels P = .ok r) ↔
      (∃ df, (CleanLearning.findLabelIssues cfg (fresh o.findKwargs) (o.call labels P)).2 = .ok df) ∧
        lab.labelMapValues.length = K := by
  have key : (∃ i j, labels i ≠ labels j) → InRange P →
      ((∃ s, getHealthSummary cfg.sort (params lab o.healthParams) labels P = .ok s) ↔
        lab.labelMapValues.length = K) := by
    intro h2 hr
    unfold getHealthSummary summaryInputs params
    rw [ho]
    have hj' : ¬ (lab.joint.isSome = true ∧ lab.numExamples.isSome = true) := by
      rcases hj with hj | hj <;> simp [hj]
    simp only [hc, hj', Option.isSome_none, Bool.false_eq_true, if_false, bind, Except.bind, pure, Except.pure]
    obtain ⟨s, hs⟩ := ((C63_documented_inputs_partial cfg.sort (lab.asymmetric.getD false) _
      (Documented.labels labels P)).2.2 (by simp)).2 (fun l p hl hp => by
        obtain rfl := Option.some.inj hl; obtain rfl := Option.some.inj hp; exact ⟨h2, hr⟩)
    unfold namedSummary
    rw [hs]
    simp only [bind, Except.bind, pure, Except.pure]
    by_cases hl : lab.labelMapValues.length = K
    · rw [dif_pos hl]; exact ⟨fun _ => hl, fun _ => ⟨_, rfl⟩⟩
    · rw [dif_neg hl]
      exact ⟨fun h => absurd h.choose_spec (by simp), fun h => absurd h hl⟩
  constructor
  · rintro ⟨r, h⟩
    obtain ⟨df, summary, h1, h2, -⟩ := labelCheck_ok h
    obtain ⟨c1, c2⟩ := clean_checked h1
    exact ⟨⟨df, h1⟩, (key c1 (c2 P rfl)).mp ⟨_, h2⟩⟩
  · rintro ⟨⟨df, h1⟩, h2⟩
    obtain ⟨c1, c2⟩ := clean_checked h1
    obtain ⟨s, hs⟩ := (key c1 (c2 P rfl)).mpr h2
    unfold findIssues
    cases hf : CleanLearning.findLabelIssues cfg (fresh o.findKwargs) (o.call labels P) with
    | mk st d =>
      rw [hf] at h1
      dsimp only at h1
      subst h1
      dsimp only
      rw [hs]
      exact ⟨_, rfl⟩

/-- **C113 fails.** If the predictions have a column for a class that no example has, the check always fails: the names
of the classes come from the labels of the data. `CleanLearning` accepts such predictions. -/
theorem C113_not_absent_class [NeZero K] (cfg : Settings K) (lab : Lab α K) (o : Options α K) (labels : Fin n → Fin K)
    (P : Fin n → Fin K → ℚ) (ho : o.healthParams = none) (hc : lab.confidentJoint = none)
    (hj : lab.joint = none ∨ lab.numExamples = none) (hl : lab.labelMapValues.length < K) : ∃ e, findIssues cfg lab o labels P = .error e := by
  cases h : findIssues cfg lab o labels P with
  | error e => exact ⟨e, rfl⟩
  | ok r =>
    have := ((C113_succeeds_partial cfg lab o labels P ho hc hj).mp ⟨r, h⟩).2
    omega

/-- **C113 fails.** `health_summary_parameters` is documented as keyword arguments of `dataset.health_summary`. If it does
not contain `class_names`, or contains a confident joint, or a joint and the number of examples, the check always
fails. The same holds, when it is not given, for the statistics of the lab, which take its place. -/
theorem C113_not_health_parameters [NeZero K] (cfg : Settings K) (lab : Lab α K) (o : Options α K)
    (labels : Fin n → Fin K) (P : Fin n → Fin K → ℚ) (p : Params α K)
    (ho : o.healthParams = some p ∨ o.healthParams = none ∧ p =
      { classNames := some lab.labelMapValues, numExamples := lab.numExamples, joint := lab.joint,
        confidentJoint := lab.confidentJoint, asymmetric := lab.asymmetric })
    (hp : p.classNames = none ∨ p.confidentJoint ≠ none ∨ p.joint ≠ none ∧ p.numExamples ≠ none) :
    ∃ e, findIssues cfg lab o labels P = .error e := by
  suffices hs : ∃ e, getHealthSummary cfg.sort (params lab o.healthParams) labels P = .error e by
    cases h : findIssues cfg lab o labels P with
    | error e => exact ⟨e, rfl⟩
    | ok r =>
      obtain ⟨df, summary, -, h2, -⟩ := labelCheck_ok h
      obtain ⟨e, he⟩ := hs
      rw [he] at h2
      cases h2
  have ho : params lab o.healthParams = p := by
    rcases ho with ho | ⟨ho, rfl⟩ <;> rw [ho] <;> rfl
  rw [ho]
  unfold getHealthSummary summaryInputs
  cases hn : p.classNames with
  | none => exact ⟨_, rfl⟩
  | some names =>
    rw [hn] at hp
    simp only [reduceCtorEq, false_or] at hp
    by_cases hcj : p.confidentJoint = none
    · rcases hp with hp | ⟨h1, h2⟩
      · exact absurd hcj hp
      · obtain ⟨j, hj⟩ := Option.ne_none_iff_exists'.mp h1
        obtain ⟨m, hm⟩ := Option.ne_none_iff_exists'.mp h2
        obtain ⟨e, he⟩ := (C63_not_health_summary (n := n) cfg.sort (p.asymmetric.getD false) j m).1
        simp only [hcj, hj, hm, Option.isSome_none, Option.isSome_some, Bool.false_eq_true, if_false, and_self, if_true,
          bind, Except.bind, pure, Except.pure, namedSummary, he]
        exact ⟨_, rfl⟩
    · obtain ⟨cj, hj⟩ := Option.ne_none_iff_exists'.mp hcj
      obtain ⟨e, he⟩ := (C63_not_health_summary (n := n) cfg.sort (p.asymmetric.getD false) cj 0).2
      simp only [hj, Option.isSome_some, if_true, bind, Except.bind, pure, Except.pure, namedSummary, he]
      exact ⟨_, rfl⟩

/-- **C113 fails.** The reported `confident_thresholds` are those of the labels and predictions, also if the check used
other `thresholds`. -/
theorem C113_not_thresholds [NeZero K] (cfg : Settings K) (lab : Lab α K) (o : Options α K)
    (labels : Fin n → Fin K) (P : Fin n → Fin K → ℚ) (r : Result α K) (h : findIssues cfg lab o labels P = .ok r)
    (t : Fin K → ℚ) (_ : o.thresholds = some t) : r.info.thresholds = getConfidentThresholds labels P := by
  obtain ⟨df, summary, -, -, rfl⟩ := labelCheck_ok h
  rfl

/-- No class with at most `minN` examples has flagged examples. -/
theorem maskByCount_small (A : ArgSort ℚ) (labels : Fin n → Fin K) (P : Fin n → Fin K → ℚ) (minN : ℕ)
    (pcm : Fin K → Fin K → ℤ) (h : ∀ k, Spec.numGiven labels k ≤ minN) : maskByCount A labels P minN pcm = fun _ => false := by
  funext i
  obtain ⟨r, hr⟩ := exists_get labels i
  rw [← hr, Bool.eq_false_iff]
  intro hc
  have := ((maskByCount_get A labels P minN pcm _ r).mp hc).2.1
  have := h (labels i)
  omega

/-- **C113.** With the default options no example is flagged if no class has more than 10 examples. -/
theorem C113_small_classes [NeZero K] (cfg : Settings K) (hlow : cfg.lowMemory = false) (hpu : cfg.pulearning = none)
    (lab : Lab α K) (labels : Fin n → Fin K) (P : Fin n → Fin K → ℚ) (r : Result α K)
    (h : findIssues cfg lab {} labels P = .ok r) (hk : ∀ k, Spec.numGiven labels k ≤ 10) :
    r.info.numLabelIssues = 0 ∧ ∀ x ∈ r.issues, x.1 = false := by
  obtain ⟨df, summary, hdf, -, rfl⟩ := labelCheck_ok h
  obtain ⟨mask, hm, ht, -⟩ := find_ok hlow hdf
  have hf := ((findMask_spec cfg hpu _ _ _ rfl).2 mask hm).1
  obtain ⟨m, hraw, hmask⟩ := raw_of_findLabelIssues cfg.sort _ _ _ ⟨by simp [used, Kwargs.toArgs], by simp [used, Kwargs.toArgs]⟩
    mask ((C115_find_iff _ _ _ _ _).mp hf).2
  have hm0 : m = fun _ => false := by
    unfold rawMask at hraw
    simp only [used, Kwargs.toArgs, Option.getD_none, Option.getD_some, pruneCountMatrix_none] at hraw
    have := Except.ok.inj hraw
    rw [← this]
    exact maskByCount_small cfg.sort labels P 10 _ hk
  have hall : ∀ x ∈ df, x.isLabelIssue = false := by
    unfold issueTable qualityScores at ht
    split_ifs at ht
    · cases ht
    cases hs : cfg.scores (Options.call (α := α) {} labels P).labels (Options.call (α := α) {} labels P).probs with
    | error e => rw [hs] at ht; cases ht
    | ok sc =>
      rw [hs] at ht
      have := (Except.ok.inj ht).symm
      intro x hx
      rw [this] at hx
      obtain ⟨i, -, rfl⟩ := List.mem_map.mp hx
      show mask i = false
      rw [hmask, hm0]
      rfl
  constructor
  · show df.countP _ = 0
    rw [List.countP_eq_zero]
    intro x hx
    rw [hall x hx]
    simp
  · intro x hx
    obtain ⟨y, hy, rfl⟩ := List.mem_map.mp hx
    exact hall y hy

/-- Datalab with two classes. -/
def exLab : Lab String 2 := { labelMapValues := ["cat", "dog"], numExamples := some 5 }

/-- The check of the five examples of `noisyCall` succeeds. -/
theorem exLab_ok : ∃ r, findIssues cfg2 exLab {} noisyCall.labels noisyCall.probs = .ok r := by
  rw [C113_succeeds_partial cfg2 exLab {} _ _ rfl rfl (Or.inl rfl)]
  refine ⟨?_, rfl⟩
  have hm := findMask_eq cfg2 rfl (fresh {}) (Options.call (α := String) {} noisyCall.labels noisyCall.probs) {} rfl rfl rfl rfl
    (by rintro cj (h | ⟨-, h⟩) <;> cases h)
  exact (flags_of_mask cfg2 rfl rfl (fresh {}) {} rfl _ (by decide +kernel) _
    (hm.trans ((C115_find_iff _ _ _ _ _).mpr ⟨⟨by decide, (accepted_of noisyCall (by decide +kernel)).2.1,
      Or.inl (accepted_of noisyCall (by decide +kernel)).2.2⟩, rfl⟩)) _ rfl).1

/-- **C113 fails.** The score and the flags disagree: the score says that one of five labels is wrong, while no example is
flagged. -/
theorem C113_not_consistent : ∃ r, findIssues cfg2 exLab {} noisyCall.labels noisyCall.probs = .ok r ∧
    r.score = 1 - 1 / 5 ∧ r.info.numLabelIssues = 0 ∧ r.issues.length = 5 := by
  obtain ⟨r, hr⟩ := exLab_ok
  refine ⟨r, hr, ?_, ?_, ?_⟩
  · have h1 := (C113_same_as_dataset cfg2 exLab {} _ _ r hr rfl rfl (Or.inl rfl)).1
    have h2 : (overallHealth (stableSort ℚ) ({ labels := some noisyCall.labels, predProbs := some noisyCall.probs } :
        Inputs noisyCall.n 2)).toOption = some (1 - 1 / 5) := by decide +kernel
    exact Except.ok.inj (h1.symm.trans (ok_of_toOption h2))
  · exact (C113_small_classes cfg2 rfl rfl exLab _ _ r hr (by decide +kernel)).1
  · obtain ⟨s, df, sc, -, -, -, h, -⟩ := C113_same_as_cleanlearning cfg2 exLab {} _ _ r hr
    have := congrArg List.length h
    rw [List.length_map, List.length_ofFn] at this
    exact this

example : ∃ e, findIssues cfg2 { exLab with labelMapValues := ["cat"] } {} noisyCall.labels noisyCall.probs = .error e :=
  C113_not_absent_class _ _ _ _ _ rfl rfl (Or.inl rfl) (by decide)

example : ∃ e, findIssues cfg2 exLab { healthParams := some { asymmetric := some true } } noisyCall.labels noisyCall.probs =
    .error e := C113_not_health_parameters _ _ _ _ _ _ (Or.inl rfl) (Or.inl rfl)

example : ∃ e, findIssues cfg2 { exLab with joint := some (fun _ _ => 1 / 4) } {} noisyCall.labels noisyCall.probs =
    .error e := C113_not_health_parameters _ _ _ _ _ _ (Or.inr ⟨rfl, rfl⟩) (Or.inr (Or.inr (by simp [exLab])))

end Cleanlab.Props
