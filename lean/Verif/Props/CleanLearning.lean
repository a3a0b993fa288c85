import Verif.Model.CleanLearning
import Verif.Props.FilterChecked
import Verif.Lemmas.Except
import Verif.Lemmas.Filter

/-!
# C55: reusing a `CleanLearning` object
-/

namespace Cleanlab.Props

open Np Cleanlab.Util Cleanlab.Count Cleanlab.Latent Cleanlab.Filter Cleanlab.CleanLearning

variable {K : ℕ}

/-- Two dictionaries that lead to the same arguments except for the joint. -/
def SameOptions (kw kw' : Kwargs K) : Prop :=
  kw'.minExamples.getD 10 = kw.minExamples.getD 10 ∧ kw'.filterBy = kw.filterBy ∧ kw'.fracNoise = kw.fracNoise ∧
    kw'.numToRemove = kw.numToRemove ∧ kw'.unsupported = kw.unsupported

theorem SameOptions.refl (kw : Kwargs K) : SameOptions kw kw := ⟨rfl, rfl, rfl, rfl, rfl⟩

theorem SameOptions.trans {a b c : Kwargs K} (h : SameOptions a b) (h' : SameOptions b c) : SameOptions a c :=
  ⟨h'.1.trans h.1, h'.2.1.trans h.2.1, h'.2.2.1.trans h.2.2.1, h'.2.2.2.1.trans h.2.2.2.1, h'.2.2.2.2.trans h.2.2.2.2⟩

/-- The processed dictionary: the default `min_examples_per_class` filled in and the joint replaced. -/
def used (kw : Kwargs K) (cj : Option (Mat K)) : Kwargs K :=
  { kw with minExamples := some (kw.minExamples.getD 10), confidentJoint := cj }

theorem sameOptions_used (kw : Kwargs K) (cj : Option (Mat K)) : SameOptions kw (used kw cj) :=
  ⟨rfl, rfl, rfl, rfl, rfl⟩

theorem used_congr {kw kw' : Kwargs K} (h : SameOptions kw kw') (cj : Option (Mat K)) : used kw' cj = used kw cj := by
  obtain ⟨h1, h2, h3, h4, h5⟩ := h
  unfold used
  rw [h1, h2, h3, h4, h5]

theorem latentFromJoint_state (s : State K) (a : Call K) :
    (latentFromJoint s a).1.kwargs = s.kwargs ∧ (latentFromJoint s a).1.confidentJoint = s.confidentJoint := by
  unfold latentFromJoint
  split
  · exact ⟨rfl, rfl⟩
  · split <;> exact ⟨rfl, rfl⟩

theorem useMatrices_state (cfg : Settings K) (s : State K) (a : Call K) (noise : Option (Mat K)) :
    (useMatrices cfg s a noise).1.kwargs = s.kwargs ∧ (useMatrices cfg s a noise).1.confidentJoint = s.confidentJoint := by
  unfold useMatrices
  split
  · split <;> exact ⟨rfl, rfl⟩
  · exact ⟨rfl, rfl⟩
  · split <;> exact ⟨rfl, rfl⟩
  · exact ⟨rfl, rfl⟩

theorem estimateNoise_kwargs [NeZero K] (cfg : Settings K) (s : State K) (a : Call K) (noise : Option (Mat K)) :
    (estimateNoise cfg s a noise).1.kwargs = s.kwargs := by
  unfold estimateNoise
  dsimp only
  split
  · split <;> rfl
  · split <;> rfl

/-- The joint after the estimation step: the one that was there, else the one computed from the data. -/
def jointOf [NeZero K] (cfg : Settings K) (old : Option (Mat K)) (a : Call K) : Mat K := old.getD (a.joint cfg.sort)

theorem latentFromJoint_noise {s s' : State K} {a : Call K} {noise : Option (Mat K)}
    (h : latentFromJoint s a = (s', .ok noise)) (hn : noise = none) : s.confidentJoint = none := by
  unfold latentFromJoint at h
  split at h
  · assumption
  · split at h
    · cases h
    · have := Except.ok.inj (congrArg Prod.snd h)
      rw [hn] at this; cases this

theorem estimateNoise_joint [NeZero K] {cfg : Settings K} {s s' : State K} {a : Call K} {noise : Option (Mat K)}
    (h : estimateNoise cfg s a noise = (s', .ok ())) (hs : noise = none → s.confidentJoint = none) :
    s'.confidentJoint = some (jointOf cfg s.confidentJoint a) := by
  unfold estimateNoise at h
  dsimp only at h
  by_cases hc : noise.isNone = true ∧ a.inverseNoiseMatrix.isNone = true
  · rw [if_pos hc] at h
    have hn : s.confidentJoint = none := hs (Option.isNone_iff_eq_none.mp hc.1)
    split at h
    · cases h
    · have := (Prod.mk.inj h).1
      rw [← this, hn]; rfl
  · rw [if_neg hc] at h
    split at h
    · rename_i cj hcj
      have := (Prod.mk.inj h).1
      rw [← this, hcj]; rfl
    · rename_i hcj
      have := (Prod.mk.inj h).1
      rw [← this, hcj]; rfl

/-- The joint passed to `filter.find_label_issues`, without `pulearning`. -/
def passedJoint [NeZero K] (cfg : Settings K) (kw : Kwargs K) (old : Option (Mat K)) (a : Call K) : Option (Mat K) :=
  match kw.confidentJoint with
  | some cj => some cj
  | none => if kw.filterBy = some .confidentLearning then none else some (jointOf cfg old a)

/-- What a call of the main branch does to the dictionary and, if it succeeds, what it returns. -/
theorem findMask_spec [NeZero K] (cfg : Settings K) (hpu : cfg.pulearning = none) (s : State K) (a : Call K)
    (kw : Kwargs K) (hkw : s.kwargs = some kw) :
    (∃ kw', (findMask cfg s a).1.kwargs = some kw' ∧ SameOptions kw kw' ∧
      (kw'.confidentJoint = kw.confidentJoint ∨ kw.confidentJoint = none ∧ kw.filterBy ≠ some .confidentLearning)) ∧
    ∀ mask, (findMask cfg s a).2 = .ok mask →
      findChecked cfg.sort a.labels a.probs (used kw (passedJoint cfg kw s.confidentJoint a)).toArgs = .ok mask ∧
      (findMask cfg s a).1.kwargs = some (used kw (passedJoint cfg kw s.confidentJoint a)) := by
  have h1 : ∀ kw : Kwargs K, SameOptions kw { kw with minExamples := some (kw.minExamples.getD 10) } :=
    fun kw => ⟨rfl, rfl, rfl, rfl, rfl⟩
  unfold findMask
  cases hp : processKwargs s with
  | mk s1 r1 =>
  unfold processKwargs at hp
  rw [hkw] at hp
  dsimp only at hp
  by_cases hu : kw.unsupported = true
  · rw [if_pos hu] at hp
    obtain ⟨rfl, rfl⟩ := Prod.mk.inj hp
    exact ⟨⟨kw, hkw, SameOptions.refl _, Or.inl rfl⟩, fun mask h => by cases h⟩
  · rw [if_neg hu] at hp
    obtain ⟨e1, rfl⟩ := Prod.mk.inj hp
    have k1 : s1.kwargs = some { kw with minExamples := some (kw.minExamples.getD 10) } := by rw [← e1]
    have j1 : s1.confidentJoint = match kw.confidentJoint with
        | some cj => some cj
        | none => s.confidentJoint := by rw [← e1]; rfl
    dsimp only
    have l1 := latentFromJoint_state s1 a
    cases hl : latentFromJoint s1 a with
    | mk s2 r2 =>
    rw [hl] at l1
    cases r2 with
    | error e =>
      exact ⟨⟨_, l1.1.trans k1, h1 kw, Or.inl rfl⟩, fun mask h => by cases h⟩
    | ok noise =>
    dsimp only
    have l2 := useMatrices_state cfg s2 a noise
    cases hm : useMatrices cfg s2 a noise with
    | mk s3 r3 =>
    rw [hm] at l2
    cases r3 with
    | error e =>
      exact ⟨⟨_, l2.1.trans (l1.1.trans k1), h1 kw, Or.inl rfl⟩, fun mask h => by cases h⟩
    | ok u =>
    dsimp only
    have l3 := estimateNoise_kwargs cfg s3 a noise
    cases he : estimateNoise cfg s3 a noise with
    | mk s4 r4 =>
    rw [he] at l3
    cases r4 with
    | error e =>
      exact ⟨⟨_, l3.trans (l2.1.trans (l1.1.trans k1)), h1 kw, Or.inl rfl⟩, fun mask h => by cases h⟩
    | ok u =>
    have j3 : s3.confidentJoint = s1.confidentJoint := l2.2.trans l1.2
    have j4 : s4.confidentJoint = some (jointOf cfg s3.confidentJoint a) :=
      estimateNoise_joint he (fun hn => j3.trans (latentFromJoint_noise hl hn))
    unfold puLearning
    rw [hpu]
    dsimp only
    have hadd : addJoint s4 { kw with minExamples := some (kw.minExamples.getD 10) } =
        used kw (passedJoint cfg kw s.confidentJoint a) := by
      unfold addJoint passedJoint used
      cases hc : kw.confidentJoint with
      | some cj => simp
      | none =>
        rw [hc] at j1
        by_cases hf : kw.filterBy = some .confidentLearning
        · simp [hf]
        · simp only [Option.isNone_none, true_and, hf, ne_eq, not_false_eq_true, if_true, if_false]
          rw [j4, j3, j1]
    rw [hadd]
    refine ⟨⟨_, rfl, sameOptions_used _ _, ?_⟩, fun mask h => ⟨h, rfl⟩⟩
    show passedJoint cfg kw s.confidentJoint a = kw.confidentJoint ∨ _
    unfold passedJoint
    cases hc : kw.confidentJoint with
    | some cj => exact Or.inl rfl
    | none =>
      by_cases hf : kw.filterBy = some .confidentLearning
      · left; simp [hf]
      · right; exact ⟨rfl, hf⟩

/-- The dictionary after a history. -/
theorem after_kwargs [NeZero K] (cfg : Settings K) (hpu : cfg.pulearning = none) :
    ∀ (calls : List (Call K)) (s : State K) (kw : Kwargs K), s.kwargs = some kw →
      ∃ kw', (after cfg s calls).kwargs = some kw' ∧ SameOptions kw kw' ∧
        (kw'.confidentJoint = kw.confidentJoint ∨ kw.confidentJoint = none ∧ kw.filterBy ≠ some .confidentLearning) := by
  intro calls
  induction calls with
  | nil => intro s kw h; exact ⟨kw, h, SameOptions.refl _, Or.inl rfl⟩
  | cons a calls ih =>
    intro s kw h
    have hstep : ∃ kw', (CleanLearning.findLabelIssues cfg s a).1.kwargs = some kw' ∧ SameOptions kw kw' ∧
        (kw'.confidentJoint = kw.confidentJoint ∨ kw.confidentJoint = none ∧ kw.filterBy ≠ some .confidentLearning) := by
      have hbase : ∃ kw', s.kwargs = some kw' ∧ SameOptions kw kw' ∧
        (kw'.confidentJoint = kw.confidentJoint ∨ kw.confidentJoint = none ∧ kw.filterBy ≠ some .confidentLearning) :=
        ⟨kw, h, SameOptions.refl _, Or.inl rfl⟩
      unfold CleanLearning.findLabelIssues
      split
      · exact hbase
      · by_cases hlow : cfg.lowMemory = true
        · rw [if_pos hlow]
          dsimp only
          split
          · exact hbase
          · by_cases hs : a.saveSpace = true
            · rw [if_pos hs]; exact hbase
            · rw [if_neg hs]; exact hbase
        · rw [if_neg hlow]
          have := (findMask_spec cfg hpu s a kw h).1
          cases hf : findMask cfg s a with
          | mk s' mask =>
            rw [hf] at this
            dsimp only
            split
            · exact this
            · by_cases hs : a.saveSpace = true
              · rw [if_pos hs]; exact this
              · rw [if_neg hs]; exact this
    obtain ⟨kw', h1, h2, h3⟩ := hstep
    obtain ⟨kw'', g1, g2, g3⟩ := ih _ kw' h1
    refine ⟨kw'', g1, h2.trans g2, ?_⟩
    rcases g3 with g | g
    · rcases h3 with h | h
      · exact Or.inl (g.trans h)
      · exact Or.inr h
    · rcases h3 with h | h
      · right; rw [← h, ← h2.2.1]; exact g
      · exact Or.inr h

/-- A successful call of the object, outside `low_memory`. -/
theorem find_ok [NeZero K] {cfg : Settings K} (hlow : cfg.lowMemory = false) {s : State K} {a : Call K}
    {df : List (IssueRow K)} (h : (CleanLearning.findLabelIssues cfg s a).2 = .ok df) :
    ∃ mask, (findMask cfg s a).2 = .ok mask ∧ issueTable cfg (findMask cfg s a).1 a mask = .ok df ∧
      (CleanLearning.findLabelIssues cfg s a).1.kwargs = (findMask cfg s a).1.kwargs := by
  unfold CleanLearning.findLabelIssues at h ⊢
  split at h
  · cases h
  · rename_i hc
    rw [hlow] at h ⊢
    simp only [Bool.false_eq_true, if_false] at h ⊢
    cases hf : findMask cfg s a with
    | mk s' mask =>
      rw [hf] at h
      dsimp only at h ⊢
      cases mask with
      | error e => cases h
      | ok mask =>
        cases ht : issueTable cfg s' a mask with
        | error e => simp only [Except.bind, ht] at h; cases h
        | ok df' =>
          simp only [Except.bind, ht] at h ⊢
          refine ⟨mask, rfl, ?_, ?_⟩
          · rw [ht, ← h]
          · by_cases hs : a.saveSpace = true
            · rw [if_pos hs]
            · rw [if_neg hs]

/-- The table does not depend on the attributes of the object. -/
theorem issueTable_unique [NeZero K] {cfg : Settings K} {s s' : State K} {a : Call K} {mask : Fin a.n → Bool}
    {df df' : List (IssueRow K)} (h : issueTable cfg s a mask = .ok df) (h' : issueTable cfg s' a mask = .ok df') :
    df' = df := by
  unfold issueTable qualityScores at h h'
  by_cases hs : s.kwargs.isNone = true
  · rw [if_pos hs] at h; cases h
  by_cases hs' : s'.kwargs.isNone = true
  · rw [if_pos hs'] at h'; cases h'
  rw [if_neg hs] at h
  rw [if_neg hs', h] at h'
  exact (Except.ok.inj h').symm

/-- Whether the mask of `filter.find_label_issues` depends on the joint. -/
def UsesJoint (f : Option FilterBy) : Prop :=
  f = none ∨ f = some .pruneByNoiseRate ∨ f = some .pruneByClass ∨ f = some .both

theorem mask_joint_irrelevant [NeZero K] (A : ArgSort ℚ) {n : ℕ} (labels : Fin n → Fin K) (P : Fin n → Fin K → ℚ)
    (kw : Kwargs K) (hf : ¬ UsesJoint kw.filterBy) (c c' : Option (Mat K)) :
    findChecked A labels P (used kw c).toArgs = findChecked A labels P (used kw c').toArgs := by
  unfold UsesJoint at hf
  push Not at hf
  obtain ⟨f0, f1, f2, f3⟩ := hf
  cases hk : kw.filterBy with
  | none => exact absurd hk f0
  | some f =>
    rw [hk] at f1 f2 f3
    unfold findChecked Filter.findLabelIssues rawMask
    simp only [used, Kwargs.toArgs, hk, Option.getD_some]
    cases f <;> first | rfl | (exfalso; first | exact f1 rfl | exact f2 rfl | exact f3 rfl)

/-- **C55 (partial).** If `low_memory=True`, or `find_label_issues_kwargs` contains a confident joint, or its `filter_by`
is one that does not look at the joint, then after every history of calls (including failed ones) a successful call
returns the same table as on a fresh object. Not covered: the default `filter_by` (see `C55_not_other_data`), failures
(`C55_not_same_data`), the stored noise matrix (`C55_not_noise_matrix`) and `pulearning`. -/
theorem C55_independent_partial [NeZero K] (cfg : Settings K) (hpu : cfg.pulearning = none) (kw : Kwargs K)
    (hcase : cfg.lowMemory = true ∨ kw.confidentJoint.isSome ∨ ¬ UsesJoint kw.filterBy)
    (history : List (Call K)) (a : Call K) (df df' : List (IssueRow K))
    (hused : (CleanLearning.findLabelIssues cfg (after cfg (fresh kw) history) a).2 = .ok df')
    (hfresh : (CleanLearning.findLabelIssues cfg (fresh kw) a).2 = .ok df) : df' = df := by
  by_cases hlow : cfg.lowMemory = true
  · have : ∀ s : State K, s.kwargs.isNone = false →
        (CleanLearning.findLabelIssues cfg s a).2 = (CleanLearning.findLabelIssues cfg (fresh kw) a).2 := by
      intro s hs
      have ht : issueTable cfg s a = issueTable cfg (fresh kw) a := by
        funext m
        unfold issueTable qualityScores
        rw [hs]
        rfl
      unfold CleanLearning.findLabelIssues
      split
      · rfl
      · rw [if_pos hlow, if_pos hlow]
        dsimp only
        rw [ht]
        split <;> rfl
    obtain ⟨kw', k1, -, -⟩ := after_kwargs cfg hpu history (fresh kw) kw rfl
    rw [this _ (by rw [k1]; rfl), hfresh] at hused
    exact (Except.ok.inj hused).symm
  · have hlow' : cfg.lowMemory = false := by simpa using hlow
    obtain ⟨m, h1, h2, -⟩ := find_ok hlow' hfresh
    obtain ⟨m', h1', h2', -⟩ := find_ok hlow' hused
    obtain ⟨kw', k1, k2, k3⟩ := after_kwargs cfg hpu history (fresh kw) kw rfl
    have e1 := ((findMask_spec cfg hpu _ a kw rfl).2 m h1).1
    have e2 := ((findMask_spec cfg hpu _ a kw' k1).2 m' h1').1
    have hmm : m' = m := by
      rw [used_congr k2] at e2
      rcases hcase with hc | hc | hc
      · exact absurd hc hlow
      · obtain ⟨cj, hcj⟩ := Option.isSome_iff_exists.mp hc
        have hk' : kw'.confidentJoint = some cj := by
          rcases k3 with h | h
          · rw [h, hcj]
          · rw [hcj] at h; cases h.1
        have p1 : passedJoint cfg kw (fresh kw).confidentJoint a = some cj := by unfold passedJoint; rw [hcj]
        have p2 : ∀ o, passedJoint cfg kw' o a = some cj := by intro o; unfold passedJoint; rw [hk']
        rw [p1] at e1
        rw [p2, e1] at e2
        exact (Except.ok.inj e2).symm
      · rw [mask_joint_irrelevant cfg.sort a.labels a.probs kw hc _ (passedJoint cfg kw (fresh kw).confidentJoint a), e1] at e2
        exact (Except.ok.inj e2).symm
    subst hmm
    exact issueTable_unique h2 h2'

/-- **C55 (partial).** Repeating the same successful call gives the same table again, unless it raises. -/
theorem C55_repeat_partial [NeZero K] (cfg : Settings K) (hpu : cfg.pulearning = none) (kw : Kwargs K) (a : Call K)
    (df df' : List (IssueRow K)) (h : (CleanLearning.findLabelIssues cfg (fresh kw) a).2 = .ok df)
    (h' : (CleanLearning.findLabelIssues cfg (CleanLearning.findLabelIssues cfg (fresh kw) a).1 a).2 = .ok df') :
    df' = df := by
  by_cases hlow : cfg.lowMemory = true
  · exact C55_independent_partial cfg hpu kw (Or.inl hlow) [a] a df df' h' h
  · have hlow' : cfg.lowMemory = false := by simpa using hlow
    obtain ⟨m, h1, h2, h3⟩ := find_ok hlow' h
    obtain ⟨m', h1', h2', -⟩ := find_ok hlow' h'
    obtain ⟨e1, k1⟩ := (findMask_spec cfg hpu _ a kw rfl).2 m h1
    rw [k1] at h3
    have e2 := ((findMask_spec cfg hpu _ a _ h3).2 m' h1').1
    have hj : passedJoint cfg (used kw (passedJoint cfg kw (fresh kw).confidentJoint a))
        (CleanLearning.findLabelIssues cfg (fresh kw) a).1.confidentJoint a =
        passedJoint cfg kw (fresh kw).confidentJoint a := by
      generalize hp : passedJoint cfg kw (fresh kw).confidentJoint a = p
      cases p with
      | some cj => rfl
      | none =>
        unfold passedJoint at hp ⊢
        cases hc : kw.confidentJoint with
        | some cj => rw [hc] at hp; cases hp
        | none =>
          rw [hc] at hp
          by_cases hf : kw.filterBy = some .confidentLearning
          · have : (used kw none).filterBy = some .confidentLearning := hf
            simp [used, hf]
          · rw [if_neg hf] at hp; cases hp
    rw [hj, used_congr (sameOptions_used kw _), e1] at e2
    have := Except.ok.inj e2
    subst this
    exact issueTable_unique h2 h2'

/-! ### Where the object remembers too much -/

/-- `compute_py_inv_noise_matrix` for two classes, with the inverse written out. -/
def pyInv2 (ps : Fin 2 → ℚ) (m : Mat 2) : Except String ((Fin 2 → ℚ) × Mat 2) :=
  let det := m 0 0 * m 1 1 - m 0 1 * m 1 0
  if det = 0 then .error "Singular matrix"
  else
    let py := clipValues ![(m 1 1 * ps 0 - m 0 1 * ps 1) / det, (m 0 0 * ps 1 - m 1 0 * ps 0) / det]
      clippingLowerBound 1 (some 1)
    .ok (py, computeInvNoiseMatrix py m (some ps))

/-- Default settings for two classes. -/
def cfg2 : Settings 2 where
  sort := stableSort ℚ
  pyInv := pyInv2
  batched := fun _ _ => .error "not used"
  scores := fun labels P => .ok (fun i => P i (labels i))

/-- Four examples, all labels right. -/
def cleanCall : Call 2 where
  n := 4
  labels := ![0, 0, 1, 1]
  predProbs := some ![![9 / 10, 1 / 10], ![9 / 10, 1 / 10], ![1 / 10, 9 / 10], ![1 / 10, 9 / 10]]
  cvProbs := fun _ _ => 0

/-- Five examples; the third one is labelled 0 and predicted 1. -/
def noisyCall : Call 2 where
  n := 5
  labels := ![0, 0, 0, 1, 1]
  predProbs := some ![![9 / 10, 1 / 10], ![9 / 10, 1 / 10], ![1 / 10, 9 / 10], ![1 / 10, 9 / 10], ![1 / 10, 9 / 10]]
  cvProbs := fun _ _ => 0

/-- `find_label_issues_kwargs={"min_examples_per_class": 1}`. -/
def kw1 : Kwargs 2 := { minExamples := some 1 }

/-- The flags of a returned table. -/
def flags (r : Except String (List (IssueRow K))) : Option (List Bool) := r.toOption.map (fun df => df.map (·.isLabelIssue))

theorem estimateLatent_cnt {n : ℕ} (cj : Mat K) (labels : Fin n → Fin K) (c : Bool) :
    ∃ py m inv, estimateLatent cj labels .cnt c = .ok (py, m, inv) := by
  cases c <;> exact ⟨_, _, _, rfl⟩

theorem estimateLatent_noise {n : ℕ} {cj : Mat K} {labels : Fin n → Fin K} {py : Fin K → ℚ} {m inv : Mat K}
    (h : estimateLatent cj labels .cnt false = .ok (py, m, inv)) :
    m = clipNoiseRates (fun s y => cj s y / clipTiny (∑ s, cj s y)) := by
  have := Except.ok.inj h
  exact (congrArg (fun r => r.2.1) this).symm

/-- A call without matrices, if the inversion that a stored joint leads to succeeds. -/
theorem findMask_eq [NeZero K] (cfg : Settings K) (hpu : cfg.pulearning = none) (s : State K) (a : Call K)
    (kw : Kwargs K) (hkw : s.kwargs = some kw) (hu : kw.unsupported = false) (hn : a.noiseMatrix = none)
    (hi : a.inverseNoiseMatrix = none)
    (hpy : ∀ cj, kw.confidentJoint = some cj ∨ kw.confidentJoint = none ∧ s.confidentJoint = some cj →
      ∀ py m inv, estimateLatent cj a.labels .cnt false = .ok (py, m, inv) →
      ∃ r, a.ps.bind (fun ps => cfg.pyInv ps m) = .ok r) :
    (findMask cfg s a).2 =
      findChecked cfg.sort a.labels a.probs (used kw (passedJoint cfg kw s.confidentJoint a)).toArgs := by
  suffices h : ∀ e, (findMask cfg s a).2 = .error e → findChecked cfg.sort a.labels a.probs
      (used kw (passedJoint cfg kw s.confidentJoint a)).toArgs = .error e by
    cases hf : (findMask cfg s a).2 with
    | error e => exact (h e hf).symm
    | ok mask => exact (((findMask_spec cfg hpu s a kw hkw).2 mask hf).1).symm
  intro e he
  unfold findMask at he
  cases hp : processKwargs s with
  | mk s1 r1 =>
  rw [hp] at he
  unfold processKwargs at hp
  rw [hkw] at hp
  dsimp only at hp
  rw [if_neg (by simp [hu])] at hp
  obtain ⟨e1, rfl⟩ := Prod.mk.inj hp
  have j1 : s1.confidentJoint = match kw.confidentJoint with
      | some cj => some cj
      | none => s.confidentJoint := by rw [← e1]; rfl
  dsimp only at he
  have l1 := latentFromJoint_state s1 a
  cases hl : latentFromJoint s1 a with
  | mk s2 r2 =>
  rw [hl] at he l1
  have hcase : (s1.confidentJoint = none ∧ r2 = .ok none) ∨
      (∃ m r, r2 = .ok (some m) ∧ a.ps.bind (fun ps => cfg.pyInv ps m) = .ok r) := by
    unfold latentFromJoint at hl
    cases hj : s1.confidentJoint with
    | none =>
      rw [hj] at hl
      left
      exact ⟨rfl, by rw [← (Prod.mk.inj hl).2, hn]⟩
    | some cj =>
      right
      rw [hj] at hl
      obtain ⟨py, m, inv, hlat⟩ := estimateLatent_cnt cj a.labels false
      dsimp only at hl
      rw [hlat] at hl
      have hh : kw.confidentJoint = some cj ∨ kw.confidentJoint = none ∧ s.confidentJoint = some cj := by
        rw [hj] at j1
        cases hc : kw.confidentJoint with
        | some c => rw [hc] at j1; left; exact j1.symm
        | none => rw [hc] at j1; right; exact ⟨rfl, j1.symm⟩
      obtain ⟨r, hr⟩ := hpy cj hh py m inv hlat
      exact ⟨m, r, (Prod.mk.inj hl).2.symm, hr⟩
  have hfin : ∃ noise s3 s4, r2 = .ok noise ∧ useMatrices cfg s2 a noise = (s3, .ok ()) ∧
      estimateNoise cfg s3 a noise = (s4, .ok ()) := by
    rcases hcase with ⟨hj, rfl⟩ | ⟨m, r, rfl, hr⟩
    · have hv : ∃ s4, estimateNoise cfg s2 a none = (s4, .ok ()) := by
        unfold estimateNoise
        dsimp only
        rw [hi, if_pos ⟨rfl, rfl⟩]
        obtain ⟨py, m, inv, hlat⟩ := estimateLatent_cnt (a.joint cfg.sort) a.labels cfg.converge
        rw [hlat]
        exact ⟨_, rfl⟩
      obtain ⟨s4, hs4⟩ := hv
      exact ⟨none, s2, s4, rfl, by unfold useMatrices; rw [hi], hs4⟩
    · have hu : ∃ s3, useMatrices cfg s2 a (some m) = (s3, .ok ()) := by
        unfold useMatrices; rw [hi]; dsimp only; rw [hr]; exact ⟨_, rfl⟩
      obtain ⟨s3, hs3⟩ := hu
      have hv : ∃ s4, estimateNoise cfg s3 a (some m) = (s4, .ok ()) := by
        unfold estimateNoise
        dsimp only
        rw [if_neg (by simp)]
        split <;> exact ⟨_, rfl⟩
      obtain ⟨s4, hs4⟩ := hv
      exact ⟨some m, s3, s4, rfl, hs3, hs4⟩
  obtain ⟨noise, s3, s4, rfl, h3, h4⟩ := hfin
  have hspec := findMask_spec cfg hpu s a kw hkw
  dsimp only at he
  rw [h3] at he
  dsimp only at he
  rw [h4] at he
  dsimp only at he
  unfold puLearning at he
  rw [hpu] at he
  dsimp only at he
  have j4 : s4.confidentJoint = some (jointOf cfg s3.confidentJoint a) :=
    estimateNoise_joint h4 (fun hn => by
      have := useMatrices_state cfg s2 a noise
      rw [h3] at this
      exact this.2.trans (l1.2.trans (latentFromJoint_noise hl hn)))
  have j3 : s3.confidentJoint = s1.confidentJoint := by
    have := useMatrices_state cfg s2 a noise
    rw [h3] at this
    exact this.2.trans l1.2
  have hadd : addJoint s4 { kw with minExamples := some (kw.minExamples.getD 10) } =
      used kw (passedJoint cfg kw s.confidentJoint a) := by
    unfold addJoint passedJoint used
    cases hc : kw.confidentJoint with
    | some cj => simp
    | none =>
      rw [hc] at j1
      by_cases hf : kw.filterBy = some .confidentLearning
      · simp [hf]
      · simp only [Option.isNone_none, true_and, hf, ne_eq, not_false_eq_true, if_true, if_false]
        rw [j4, j3, j1]
  rw [hadd] at he
  exact he

/-- From a mask to the flags of the returned table. -/
theorem flags_of_mask [NeZero K] (cfg : Settings K) (hlow : cfg.lowMemory = false) (hpu : cfg.pulearning = none)
    (s : State K) (kw : Kwargs K) (hkw : s.kwargs = some kw) (a : Call K)
    (hc : checkCall cfg a = .ok ()) (mask : Fin a.n → Bool) (hm : (findMask cfg s a).2 = .ok mask) (sc : Fin a.n → ℚ)
    (hs : cfg.scores a.labels a.probs = .ok sc) :
    (∃ df, (CleanLearning.findLabelIssues cfg s a).2 = .ok df) ∧
    flags (CleanLearning.findLabelIssues cfg s a).2 = some (List.ofFn mask) := by
  have hk : (findMask cfg s a).1.kwargs.isNone = false := by
    rw [((findMask_spec cfg hpu s a kw hkw).2 mask hm).2]
    rfl
  unfold CleanLearning.findLabelIssues
  rw [hc]
  simp only [hlow, Bool.false_eq_true, if_false]
  cases hf : findMask cfg s a with
  | mk s' m =>
    rw [hf] at hm hk
    dsimp only at hm hk ⊢
    subst hm
    unfold issueTable qualityScores
    rw [hk]
    simp only [Bool.false_eq_true, if_false, hs]
    refine ⟨⟨_, rfl⟩, ?_⟩
    simp only [flags, Except.bind, bind, pure, Except.pure, Except.toOption, Option.map_some, List.map_map]
    rw [List.ofFn_eq_map]
    rfl

theorem cleanCall_joint : cleanCall.joint (stableSort ℚ) = fun a b => ((![![2, 0], ![0, 2]] : Fin 2 → Fin 2 → ℤ) a b : ℚ) := by
  funext a b
  have : computeConfidentJoint (stableSort ℚ) cleanCall.labels cleanCall.probs
      (getConfidentThresholds cleanCall.labels cleanCall.probs) true a b =
      (![![2, 0], ![0, 2]] : Fin 2 → Fin 2 → ℤ) a b := by
    refine roundRows_intCast (stableSort ℚ) _ a b _ ?_
    revert a b
    decide +kernel
  show ((computeConfidentJoint (stableSort ℚ) cleanCall.labels cleanCall.probs
    (getConfidentThresholds cleanCall.labels cleanCall.probs) true a b : ℤ) : ℚ) = _
  rw [this]

theorem noisyCall_joint : noisyCall.joint (stableSort ℚ) = fun a b => ((![![2, 1], ![0, 2]] : Fin 2 → Fin 2 → ℤ) a b : ℚ) := by
  funext a b
  have : computeConfidentJoint (stableSort ℚ) noisyCall.labels noisyCall.probs
      (getConfidentThresholds noisyCall.labels noisyCall.probs) true a b =
      (![![2, 1], ![0, 2]] : Fin 2 → Fin 2 → ℤ) a b := by
    refine roundRows_intCast (stableSort ℚ) _ a b _ ?_
    revert a b
    decide +kernel
  show ((computeConfidentJoint (stableSort ℚ) noisyCall.labels noisyCall.probs
    (getConfidentThresholds noisyCall.labels noisyCall.probs) true a b : ℤ) : ℚ) = _
  rw [this]

theorem accepted_of (a : Call K) (h : 0 < a.n ∧ (∀ i k, -(1 / 10 ^ 6) ≤ a.probs i k ∧ a.probs i k ≤ 1 + 1 / 10 ^ 6) ∧
    ∃ i j, a.labels i ≠ a.labels j) : 0 < a.n ∧ InRange a.probs ∧ ∃ i j, a.labels i ≠ a.labels j := h

theorem filter_example (a : Call 2) (hv : 0 < a.n ∧ InRange a.probs ∧ ∃ i j, a.labels i ≠ a.labels j) (M M' : Fin 2 → Fin 2 → ℤ)
    (hk : ∀ j k, reducePruneCounts (keepDiagonal (fun j k => (M k j : ℚ)) 1) 1 j k = M' j k) :
    findChecked (stableSort ℚ) a.labels a.probs (used kw1 (some (fun s y => (M s y : ℚ)))).toArgs =
    .ok (fun i => maskByCount (stableSort ℚ) a.labels a.probs 1 M' i && !(reduceIssues a.labels a.probs i)) := by
  have hpcm : keepAtLeastN (stableSort ℚ) (fun j k => (M k j : ℚ)) 1 1 = M' := by
    funext j k
    rw [keepAtLeastN_eq, hk]
  rw [C115_find_iff]
  refine ⟨⟨hv.1, hv.2.1, Or.inl hv.2.2⟩, ?_⟩
  unfold Filter.findLabelIssues rawMask pruneCountMatrix
  simp only [used, kw1, Kwargs.toArgs, usedJoint, Option.getD_some, Option.getD_none, hpcm]
  rfl

/-- The state after the call on clean data. -/
theorem after_clean : (after cfg2 (fresh kw1) [cleanCall]).kwargs =
    some (used kw1 (some (fun s y => ((![![2, 0], ![0, 2]] : Fin 2 → Fin 2 → ℤ) s y : ℚ)))) := by
  have hm := findMask_eq cfg2 rfl (fresh kw1) cleanCall kw1 rfl rfl rfl rfl (by rintro cj (h | ⟨-, h⟩) <;> cases h)
  have hp : passedJoint cfg2 kw1 (fresh kw1).confidentJoint cleanCall =
      some (fun s y => ((![![2, 0], ![0, 2]] : Fin 2 → Fin 2 → ℤ) s y : ℚ)) := by
    show some (cleanCall.joint (stableSort ℚ)) = _
    rw [cleanCall_joint]
  rw [hp] at hm
  have hf := filter_example cleanCall (accepted_of _ (by decide +kernel)) ![![2, 0], ![0, 2]] ![![2, 0], ![0, 2]] (by decide +kernel)
  have hm' := hm.trans hf
  obtain ⟨⟨df, hdf⟩, -⟩ := flags_of_mask cfg2 rfl rfl (fresh kw1) kw1 rfl cleanCall (by decide +kernel) _ hm' _ rfl
  obtain ⟨m, h1, -, h3⟩ := find_ok (cfg := cfg2) rfl hdf
  have := ((findMask_spec cfg2 rfl _ cleanCall kw1 rfl).2 m h1).2
  rw [hp] at this
  exact h3.trans this

theorem pyInv2_ok (ps : Fin 2 → ℚ) (m : Mat 2) (h : m 0 0 * m 1 1 - m 0 1 * m 1 0 ≠ 0) : ∃ r, pyInv2 ps m = .ok r := by
  unfold pyInv2
  dsimp only
  rw [if_neg h]
  exact ⟨_, rfl⟩

/-- What an object whose dictionary holds the joint of the clean data returns on the noisy data. -/
theorem stale_result (s : State 2)
    (hs : s.kwargs = some (used kw1 (some (fun s y => ((![![2, 0], ![0, 2]] : Fin 2 → Fin 2 → ℤ) s y : ℚ))))) :
    flags (CleanLearning.findLabelIssues cfg2 s noisyCall).2 = some [false, false, false, false, false] := by
  have hm := findMask_eq cfg2 rfl s noisyCall _ hs rfl rfl rfl (by
    rintro cj (h | ⟨h, -⟩)
    · have := Option.some.inj h
      subst this
      intro py m inv hlat
      rw [estimateLatent_noise hlat]
      rw [show noisyCall.ps = .ok (fun k => (labelCounts noisyCall.labels k : ℚ) / noisyCall.n) from
        if_pos (by decide +kernel)]
      have e : cfg2.pyInv = pyInv2 := rfl
      simp only [Except.bind, e]
      exact pyInv2_ok _ _ (by decide +kernel)
    · cases h)
  have hp : passedJoint cfg2 (used kw1 (some (fun s y => ((![![2, 0], ![0, 2]] : Fin 2 → Fin 2 → ℤ) s y : ℚ))))
      s.confidentJoint noisyCall = some (fun s y => ((![![2, 0], ![0, 2]] : Fin 2 → Fin 2 → ℤ) s y : ℚ)) := rfl
  rw [hp, used_congr (sameOptions_used kw1 _)] at hm
  have hf := filter_example noisyCall (accepted_of _ (by decide +kernel)) ![![2, 0], ![0, 2]] ![![2, 0], ![0, 2]] (by decide +kernel)
  rw [(flags_of_mask cfg2 rfl rfl s _ hs noisyCall (by decide +kernel) _ (hm.trans hf) _ rfl).2]
  decide +kernel

/-- **C55 fails.** A fresh object flags the mislabelled example; an object that was used on clean data before does not:
the confident joint of the first data set was stored in `find_label_issues_kwargs` and is used for the second. -/
theorem C55_not_other_data :
    flags (CleanLearning.findLabelIssues cfg2 (fresh kw1) noisyCall).2 = some [false, false, true, false, false] ∧
    flags (CleanLearning.findLabelIssues cfg2 (after cfg2 (fresh kw1) [cleanCall]) noisyCall).2 =
      some [false, false, false, false, false] := by
  refine ⟨?_, stale_result _ after_clean⟩
  have hm := findMask_eq cfg2 rfl (fresh kw1) noisyCall kw1 rfl rfl rfl rfl (by rintro cj (h | ⟨-, h⟩) <;> cases h)
  have hp : passedJoint cfg2 kw1 (fresh kw1).confidentJoint noisyCall =
      some (fun s y => ((![![2, 1], ![0, 2]] : Fin 2 → Fin 2 → ℤ) s y : ℚ)) := by
    show some (noisyCall.joint (stableSort ℚ)) = _
    rw [noisyCall_joint]
  rw [hp] at hm
  have hf := filter_example noisyCall (accepted_of _ (by decide +kernel)) ![![2, 1], ![0, 2]] ![![2, 0], ![1, 2]] (by decide +kernel)
  rw [(flags_of_mask cfg2 rfl rfl (fresh kw1) kw1 rfl noisyCall (by decide +kernel) _ (hm.trans hf) _ rfl).2]
  decide +kernel

/-- **C55 fails for clones.** `sklearn.base.clone` of the used object gives an object with the stored joint, so it also
misses the example. -/
theorem C55_not_clone :
    flags (CleanLearning.findLabelIssues cfg2 (clone (after cfg2 (fresh kw1) [cleanCall])) noisyCall).2 =
      some [false, false, false, false, false] :=
  stale_result _ after_clean

/-- A call whose dictionary holds a joint fails if a class is absent from the labels (the columns of `pred_probs` may
name classes without examples) and no inverse noise matrix is given. -/
theorem stored_joint_fails [NeZero K] (cfg : Settings K) (hlow : cfg.lowMemory = false) (s : State K) (a : Call K)
    (kw : Kwargs K) (hkw : s.kwargs = some kw) (cj : Mat K) (hcj : kw.confidentJoint = some cj)
    (hi : a.inverseNoiseMatrix = none) (c : Fin K) (habs : labelCounts a.labels c = 0) :
    ∃ e, (CleanLearning.findLabelIssues cfg s a).2 = .error e := by
  have hps : ∃ e, a.ps = .error e := by
    unfold Call.ps
    rw [if_neg (fun h => h c habs)]
    exact ⟨_, rfl⟩
  obtain ⟨e0, hps⟩ := hps
  cases hr : (CleanLearning.findLabelIssues cfg s a).2 with
  | error e => exact ⟨e, rfl⟩
  | ok df =>
    exfalso
    obtain ⟨m, h1, -, -⟩ := find_ok hlow hr
    unfold findMask processKwargs at h1
    rw [hkw] at h1
    dsimp only at h1
    by_cases hu : kw.unsupported = true
    · rw [if_pos hu] at h1; cases h1
    · rw [if_neg hu] at h1
      unfold latentFromJoint at h1
      simp only [hcj] at h1
      obtain ⟨py, m', inv, hlat⟩ := estimateLatent_cnt cj a.labels false
      rw [hlat] at h1
      unfold useMatrices at h1
      simp only [hi, hps, Except.bind] at h1
      cases h1

/-- **C55 fails for the same data.** If a class has no example, then with the default `filter_by` the second of two
identical calls raises although the first one succeeded. -/
theorem C55_not_same_data [NeZero K] (cfg : Settings K) (hpu : cfg.pulearning = none) (hlow : cfg.lowMemory = false)
    (kw : Kwargs K) (hf : kw.filterBy ≠ some .confidentLearning) (a : Call K) (hi : a.inverseNoiseMatrix = none)
    (c : Fin K) (habs : labelCounts a.labels c = 0) (df : List (IssueRow K))
    (h : (CleanLearning.findLabelIssues cfg (fresh kw) a).2 = .ok df) :
    ∃ e, (CleanLearning.findLabelIssues cfg (CleanLearning.findLabelIssues cfg (fresh kw) a).1 a).2 = .error e := by
  obtain ⟨m, h1, -, h3⟩ := find_ok hlow h
  have hk := ((findMask_spec cfg hpu _ a kw rfl).2 m h1).2
  rw [hk] at h3
  have hp : ∃ cj, passedJoint cfg kw (fresh kw).confidentJoint a = some cj := by
    unfold passedJoint
    cases kw.confidentJoint with
    | some cj => exact ⟨cj, rfl⟩
    | none => rw [if_neg hf]; exact ⟨_, rfl⟩
  obtain ⟨cj, hcj⟩ := hp
  exact stored_joint_fails cfg hlow _ a _ h3 cj hcj hi c habs

/-- Default settings for three classes (the inversion is never reached on a fresh object). -/
def cfg3 : Settings 3 where
  sort := stableSort ℚ
  pyInv := fun _ _ => .error "not reached"
  batched := fun _ _ => .error "not used"
  scores := fun labels P => .ok (fun i => P i (labels i))

/-- Three classes, of which the last has no example. -/
def absentCall : Call 3 where
  n := 4
  labels := ![0, 0, 1, 1]
  predProbs := some ![![8 / 10, 1 / 10, 1 / 10], ![8 / 10, 1 / 10, 1 / 10], ![1 / 10, 8 / 10, 1 / 10],
    ![1 / 10, 8 / 10, 1 / 10]]
  cvProbs := fun _ _ => 0

/-- The first call succeeds, so the second one raises. -/
example : (∃ df, (CleanLearning.findLabelIssues cfg3 (fresh {}) absentCall).2 = .ok df) ∧
    ∃ e, (CleanLearning.findLabelIssues cfg3 (CleanLearning.findLabelIssues cfg3 (fresh {}) absentCall).1 absentCall).2 =
      .error e := by
  have hm := findMask_eq cfg3 rfl (fresh {}) absentCall {} rfl rfl rfl rfl (by rintro cj (h | ⟨-, h⟩) <;> cases h)
  have h1 : ∃ df, (CleanLearning.findLabelIssues cfg3 (fresh {}) absentCall).2 = .ok df :=
    (flags_of_mask cfg3 rfl rfl _ {} rfl absentCall (by decide +kernel) _
      (hm.trans ((C115_find_iff _ _ _ _ _).mpr ⟨⟨by decide, (accepted_of absentCall (by decide +kernel)).2.1,
        Or.inl (accepted_of absentCall (by decide +kernel)).2.2⟩, rfl⟩)) _ rfl).1
  refine ⟨h1, ?_⟩
  obtain ⟨df, h⟩ := h1
  exact C55_not_same_data cfg3 rfl rfl {} (by decide) absentCall rfl 2 (by decide +kernel) df h

/-- **C55 fails for a given noise matrix.** Once the dictionary holds a joint, `noise_matrix` is ignored: whatever matrix is
passed, the one stored (and later used for the sample weights) is estimated from the old joint and the new labels. -/
theorem C55_not_noise_matrix [NeZero K] (cfg : Settings K) (hpu : cfg.pulearning = none) (s : State K) (a : Call K)
    (kw : Kwargs K) (hkw : s.kwargs = some kw) (cj : Mat K) (hcj : kw.confidentJoint = some cj) (mask : Fin a.n → Bool)
    (h : (findMask cfg s a).2 = .ok mask) :
    ∃ py m inv, estimateLatent cj a.labels .cnt false = .ok (py, m, inv) ∧ (findMask cfg s a).1.noiseMatrix = some m := by
  obtain ⟨py, m, inv, hlat⟩ := estimateLatent_cnt cj a.labels false
  refine ⟨py, m, inv, hlat, ?_⟩
  unfold findMask processKwargs at h ⊢
  rw [hkw] at h ⊢
  dsimp only at h ⊢
  by_cases hu : kw.unsupported = true
  · rw [if_pos hu] at h; cases h
  · rw [if_neg hu] at h ⊢
    unfold latentFromJoint at h ⊢
    simp only [hcj] at h ⊢
    rw [hlat] at h ⊢
    dsimp only at h ⊢
    have hnm : ∀ (s : State K) s3, useMatrices cfg s a (some m) = (s3, .ok ()) → s3.noiseMatrix = some m := by
      intro s s3 hs3
      unfold useMatrices at hs3
      cases hi : a.inverseNoiseMatrix with
      | some iv => rw [hi] at hs3; rw [← (Prod.mk.inj hs3).1]
      | none =>
        rw [hi] at hs3
        dsimp only at hs3
        split at hs3
        · cases hs3
        · rw [← (Prod.mk.inj hs3).1]
    split at h
    · cases h
    · rename_i s3 hs3
      have h3 := hnm _ _ hs3
      split at h
      · cases h
      · rename_i s4 hs4
        have h4 : s4.noiseMatrix = some m := by
          unfold estimateNoise at hs4
          dsimp only at hs4
          rw [if_neg (by simp)] at hs4
          split at hs4
          · rw [← (Prod.mk.inj hs4).1]; exact h3
          · rw [← (Prod.mk.inj hs4).1]; exact h3
        unfold puLearning
        rw [hpu]
        exact h4

/-- **C96.** `CleanLearning.find_label_issues` accepts its arguments exactly if two labels differ, given probabilities are
probabilities, the traces of given matrices exceed 1, and there are enough examples for cross-validation if no probabilities are
given. -/
theorem C96_clean_learning (cfg : Settings K) (a : Call K) :
    checkCall cfg a = .ok () ↔ (∃ i j, a.labels i ≠ a.labels j) ∧ (∀ P, a.predProbs = some P → InRange P) ∧
      (∀ m, a.noiseMatrix = some m → 1 < ∑ k, m k k) ∧ (∀ m, a.inverseNoiseMatrix = some m → 1 < ∑ k, m k k) ∧
      (a.predProbs = none → (cfg.cvFolds : ℚ) ≤ (a.n : ℚ) / K) := by
  have hin : CleanLearning.checkInputs a = .ok () ↔
      (∃ i j, a.labels i ≠ a.labels j) ∧ ∀ P, a.predProbs = some P → InRange P := by
    unfold CleanLearning.checkInputs
    by_cases h : ∃ i j, a.labels i ≠ a.labels j
    · rw [if_neg (not_not.mpr h)]
      cases hP : a.predProbs with
      | none => simpa using h
      | some P =>
        dsimp only
        rw [validate_iff]
        obtain ⟨i, -⟩ := h
        have hn : 0 < a.n := Nat.lt_of_le_of_lt (Nat.zero_le _) i.isLt
        simp only [Bool.false_eq_true, false_or, Option.some.injEq]
        constructor
        · rintro ⟨-, h1, h2⟩
          exact ⟨h1, fun P' hP' => hP' ▸ h2⟩
        · rintro ⟨h1, h2⟩
          exact ⟨hn, h1, h2 P rfl⟩
    · rw [if_pos h]
      constructor
      · intro hc; cases hc
      · rintro ⟨h1, -⟩; exact absurd h1 h
  have hany : ∀ o : Option (Mat K), o.any (fun m => decide (∑ k, m k k ≤ 1)) = true ↔ ¬ ∀ m, o = some m → 1 < ∑ k, m k k := by
    intro o
    cases o with
    | none => simp
    | some m => simp
  unfold checkCall
  cases hc : CleanLearning.checkInputs a with
  | error e =>
    rw [hc] at hin
    simp only [bind, Except.bind, reduceCtorEq, false_iff] at hin ⊢
    rintro ⟨h1, h2, -⟩
    exact hin ⟨h1, h2⟩
  | ok u =>
    obtain ⟨h1, h2⟩ := hin.mp (by rw [hc])
    dsimp only [bind, Except.bind]
    by_cases hn : ∀ m, a.noiseMatrix = some m → 1 < ∑ k, m k k
    · rw [if_neg (fun hh => (hany _).mp hh hn)]
      by_cases hi : ∀ m, a.inverseNoiseMatrix = some m → 1 < ∑ k, m k k
      · rw [if_neg (fun hh => (hany _).mp hh hi)]
        by_cases hv : a.predProbs = none → (cfg.cvFolds : ℚ) ≤ (a.n : ℚ) / K
        · rw [if_neg]
          · exact ⟨fun _ => ⟨h1, h2, hn, hi, hv⟩, fun _ => rfl⟩
          · rintro ⟨b1, b2⟩
            exact absurd (hv (Option.isNone_iff_eq_none.mp b1)) (not_le.mpr b2)
        · rw [if_pos]
          · exact ⟨fun hh => by (cases hh), fun hh => absurd hh.2.2.2.2 hv⟩
          · push Not at hv
            exact ⟨Option.isNone_iff_eq_none.mpr hv.1, hv.2⟩
      · rw [if_pos ((hany _).mpr hi)]
        exact ⟨fun hh => by (cases hh), fun hh => absurd hh.2.2.2.1 hi⟩
    · rw [if_pos ((hany _).mpr hn)]
      exact ⟨fun hh => by (cases hh), fun hh => absurd hh.2.2.1 hn⟩

/-- An inverse noise matrix with trace 1, which says nothing about the true labels, is refused. -/
example (cfg : Settings 2) (P : Fin 2 → Fin 2 → ℚ) :
    checkCall cfg { n := 2, labels := ![0, 1], cvProbs := P, inverseNoiseMatrix := some (fun _ _ => 1 / 2) } ≠ .ok () := by
  rw [Ne, C96_clean_learning]
  rintro ⟨-, -, -, h, -⟩
  have := h _ rfl
  norm_num [Fin.sum_univ_two] at this

end Cleanlab.Props
