import Verif.Props.CleanLearning

/-!
# C137: a class declared to be perfectly labelled

`CleanLearning(pulearning=p)`: the caller is certain that the class `p` of two classes has no label errors.
-/

namespace Cleanlab.Props

open Np Cleanlab.Util Cleanlab.Count Cleanlab.Latent Cleanlab.Filter Cleanlab.CleanLearning

/-- The other one of two classes. -/
def otherClass (p : Fin 2) : Fin 2 := ⟨1 - p.val, by omega⟩

/-- A joint count in which no example with given label `p` belongs to the other class. -/
def puJoint (cj : Mat 2) (p : Fin 2) : Mat 2 := setPair cj p (otherClass p) 0 1

/-- What a successful call returns and stores. -/
theorem findMask_pu {cfg : Settings 2} {p : Fin 2} (hpu : cfg.pulearning = some p) (s : State 2) (a : Call 2)
    (kw : Kwargs 2) (hkw : s.kwargs = some kw) (mask : Fin a.n → Bool) (h : (findMask cfg s a).2 = .ok mask) :
    findChecked cfg.sort a.labels a.probs
        (used kw ((passedJoint cfg kw s.confidentJoint a).map (fun cj => puJoint cj p))).toArgs = .ok mask ∧
      (∃ cj, (findMask cfg s a).1.confidentJoint = some (puJoint cj p)) ∧
      (∀ m, (findMask cfg s a).1.noiseMatrix = some m → m p (otherClass p) = 0 ∧ m (otherClass p) (otherClass p) = 1) ∧
      (∀ m, (findMask cfg s a).1.inverseNoiseMatrix = some m → m (otherClass p) p = 0 ∧ m p p = 1) ∧
      (findMask cfg s a).1.kwargs.isSome = true := by
  have hne : otherClass p ≠ p := (by decide : ∀ p, otherClass p ≠ p) p
  unfold findMask at h ⊢
  cases hp : processKwargs s with
  | mk s1 r1 =>
  rw [hp] at h
  unfold processKwargs at hp
  rw [hkw] at hp
  dsimp only at hp
  by_cases hu : kw.unsupported = true
  · rw [if_pos hu] at hp
    obtain ⟨rfl, rfl⟩ := Prod.mk.inj hp
    cases h
  rw [if_neg hu] at hp
  obtain ⟨e1, rfl⟩ := Prod.mk.inj hp
  have j1 : s1.confidentJoint = match kw.confidentJoint with
      | some cj => some cj
      | none => s.confidentJoint := by rw [← e1]; cases kw.confidentJoint <;> rfl
  dsimp only at h ⊢
  have l1 := latentFromJoint_state s1 a
  cases hl : latentFromJoint s1 a with
  | mk s2 r2 =>
  rw [hl] at l1 h
  cases r2 with
  | error e => cases h
  | ok noise =>
  dsimp only at h ⊢
  have l2 := useMatrices_state cfg s2 a noise
  cases hm : useMatrices cfg s2 a noise with
  | mk s3 r3 =>
  rw [hm] at l2 h
  cases r3 with
  | error e => cases h
  | ok u =>
  dsimp only at h ⊢
  cases he : estimateNoise cfg s3 a noise with
  | mk s4 r4 =>
  rw [he] at h
  cases r4 with
  | error e => cases h
  | ok u =>
  have j3 : s3.confidentJoint = s1.confidentJoint := l2.2.trans l1.2
  have j4 : s4.confidentJoint = some (jointOf cfg s3.confidentJoint a) :=
    estimateNoise_joint he (fun hn => j3.trans (latentFromJoint_noise hl hn))
  unfold puLearning at h ⊢
  rw [hpu] at h ⊢
  dsimp only at h ⊢
  rw [dif_pos rfl] at h ⊢
  dsimp only at h ⊢
  refine ⟨?_, ⟨_, by rw [j4]; rfl⟩, ?_, ?_, rfl⟩
  · rw [← h]
    congr 2
    unfold addJoint passedJoint used
    cases hc : kw.confidentJoint with
    | some cj => simp [puJoint, otherClass]
    | none =>
      rw [hc] at j1
      by_cases hf : kw.filterBy = some .confidentLearning
      · simp [hf]
      · simp only [Option.map_none, Option.isNone_none, true_and, hf, ne_eq, not_false_eq_true, if_true, if_false]
        rw [j4, j3, j1]
        rfl
  · intro m hm
    obtain ⟨m', -, rfl⟩ := Option.map_eq_some_iff.mp hm
    refine ⟨?_, ?_⟩
    · show setPair m' p (otherClass p) 0 1 p (otherClass p) = 0
      unfold setPair
      rw [if_pos rfl, if_pos rfl]
    · show setPair m' p (otherClass p) 0 1 (otherClass p) (otherClass p) = 1
      unfold setPair
      rw [if_pos rfl, if_neg hne, if_pos rfl]
  · intro m hm
    obtain ⟨m', -, rfl⟩ := Option.map_eq_some_iff.mp hm
    refine ⟨?_, ?_⟩
    · show setPairInv m' p (otherClass p) 0 1 (otherClass p) p = 0
      unfold setPairInv
      rw [if_pos rfl, if_pos rfl]
    · show setPairInv m' p (otherClass p) 0 1 p p = 1
      unfold setPairInv
      rw [if_pos rfl, if_neg hne.symm, if_pos rfl]

/-- Nothing is to be removed from the class. -/
theorem pu_counts (A : ArgSort ℚ) (cj : Mat 2) (p j : Fin 2) (minN : ℕ) (frac : ℚ) (hj : p ≠ j) :
    keepAtLeastN A (fun j k => puJoint cj p k j) minN frac j p = 0 := by
  have hjo : j = otherClass p := by
    apply Fin.ext
    have h1 := p.isLt
    have h2 := j.isLt
    have h3 : p.val ≠ j.val := fun h => hj (Fin.ext h)
    unfold otherClass
    dsimp only
    omega
  have h0 : keepDiagonal (fun j k => puJoint cj p k j) minN j p = 0 := by
    unfold keepDiagonal
    dsimp only
    rw [if_neg hj.symm]
    have hz : puJoint cj p p j = 0 := by
      unfold puJoint setPair
      rw [if_pos hjo, if_pos rfl]
    rw [hz]
    have hd : 0 ≤ (max (puJoint cj p p p) (minN : ℚ) - puJoint cj p p p) / numNoiseRates (fun j k => puJoint cj p k j) p := by
      apply div_nonneg
      · exact sub_nonneg.mpr (le_max_left _ _)
      · unfold numNoiseRates
        exact zero_le_one.trans (le_max_right _ _)
    split_ifs with h
    · rfl
    · push Not at h
      linarith
  rw [keepAtLeastN_eq]
  unfold reducePruneCounts reducePruneCountsExact
  dsimp only
  rw [if_neg hj.symm, if_neg hj.symm, h0, zero_mul]
  rfl

/-- **C137 (partial).** With `filter_by="prune_by_noise_rate"` (the default) or `"both"` no example of the declared class is
reported, whatever the object was used for before. Missing: the other filters (`C137_not_prune_by_class`,
`C137_not_predicted`), `low_memory` (`C137_not_low_memory`) and `num_to_remove_per_class`. -/
theorem C137_clean_class_partial {cfg : Settings 2} {p : Fin 2} (hpu : cfg.pulearning = some p) (hlow : cfg.lowMemory = false)
    (s : State 2) (kw : Kwargs 2) (hkw : s.kwargs = some kw) (a : Call 2)
    (hf : kw.filterBy = none ∨ kw.filterBy = some .pruneByNoiseRate ∨ kw.filterBy = some .both) (hn : kw.numToRemove = none)
    (df : List (IssueRow 2)) (h : (CleanLearning.findLabelIssues cfg s a).2 = .ok df) :
    ∀ row ∈ df, row.givenLabel = p → row.isLabelIssue = false := by
  obtain ⟨mask, h1, h2, -⟩ := find_ok hlow h
  obtain ⟨h3, -⟩ := findMask_pu hpu s a kw hkw mask h1
  have hrows : ∀ row ∈ df, ∃ i, row.isLabelIssue = mask i ∧ row.givenLabel = a.labels i := by
    unfold issueTable at h2
    cases hq : qualityScores cfg (findMask cfg s a).1 a.labels a.probs with
    | error e => rw [hq] at h2; cases h2
    | ok sc =>
      rw [hq] at h2
      rw [← Except.ok.inj h2]
      intro row hr
      obtain ⟨i, -, rfl⟩ := List.mem_map.mp hr
      exact ⟨i, rfl, rfl⟩
  intro row hr hg
  obtain ⟨i, e1, e2⟩ := hrows row hr
  rw [e1]
  have hp : a.labels i = p := e2.symm.trans hg
  obtain ⟨cj, hcj⟩ : ∃ cj, (passedJoint cfg kw s.confidentJoint a).map (fun cj => puJoint cj p) = some (puJoint cj p) := by
    unfold passedJoint
    cases kw.confidentJoint with
    | some cj => exact ⟨cj, rfl⟩
    | none =>
      dsimp only
      rw [if_neg (by rcases hf with hf | hf | hf <;> rw [hf] <;> decide)]
      exact ⟨_, rfl⟩
  rw [hcj] at h3
  obtain ⟨-, h4⟩ := (C115_find_iff _ _ _ _ _).mp h3
  have hcount : ∀ minN frac, maskByCount cfg.sort a.labels a.probs minN
      (keepAtLeastN cfg.sort (fun j k => puJoint cj p k j) minN frac) i = false := by
    intro minN frac
    rw [Bool.eq_false_iff]
    intro ht
    obtain ⟨r, hr⟩ := List.get_of_mem ((mem_classIdx a.labels p i).mpr hp)
    rw [← hr, maskByCount_get] at ht
    obtain ⟨-, -, j, hj, hpos, -⟩ := ht
    rw [pu_counts _ _ _ _ _ _ hj] at hpos
    exact absurd hpos (lt_irrefl _)
  have hargs : (used kw (some (puJoint cj p))).toArgs.filterBy = .pruneByNoiseRate ∨
      (used kw (some (puJoint cj p))).toArgs.filterBy = .both := by
    unfold used Kwargs.toArgs
    rcases hf with hf | hf | hf <;> rw [hf]
    · exact Or.inl rfl
    · exact Or.inl rfl
    · exact Or.inr rfl
  have hnum : (used kw (some (puJoint cj p))).toArgs.numToRemove = none := hn
  have hjoint : usedJoint cfg.sort a.labels a.probs (used kw (some (puJoint cj p))).toArgs = puJoint cj p := rfl
  obtain ⟨raw, hraw, hmask⟩ := raw_of_findLabelIssues _ _ _ _
    (by rcases hargs with h | h <;> rw [h] <;> exact ⟨by decide, by decide⟩) _ h4
  have hz : raw i = false := by
    unfold rawMask at hraw
    rcases hargs with hfb | hfb
    · rw [hfb, hjoint, hnum] at hraw
      unfold pruneCountMatrix at hraw
      rw [← Except.ok.inj hraw]
      exact hcount _ _
    · rw [hfb, hjoint, hnum] at hraw
      unfold pruneCountMatrix at hraw
      rw [← Except.ok.inj hraw]
      dsimp only
      rw [hcount, Bool.false_and]
  rw [hmask]
  dsimp only
  rw [hz, Bool.false_and]

/-- **C137.** After a successful call the stored matrices say that no example with the declared label belongs to the other
class. -/
theorem C137_matrices {cfg : Settings 2} {p : Fin 2} (hpu : cfg.pulearning = some p) (hlow : cfg.lowMemory = false)
    (s : State 2) (kw : Kwargs 2) (hkw : s.kwargs = some kw) (a : Call 2) (df : List (IssueRow 2))
    (h : (CleanLearning.findLabelIssues cfg s a).2 = .ok df) :
    let t := (CleanLearning.findLabelIssues cfg s a).1
    (∃ cj, t.confidentJoint = some cj ∧ cj p (otherClass p) = 0) ∧
    (∀ m, t.noiseMatrix = some m → m p (otherClass p) = 0 ∧ m (otherClass p) (otherClass p) = 1) ∧
    ∀ m, t.inverseNoiseMatrix = some m → m (otherClass p) p = 0 ∧ m p p = 1 := by
  obtain ⟨mask, h1, h2, -⟩ := find_ok hlow h
  obtain ⟨-, ⟨cj, hcj⟩, h4, h5, -⟩ := findMask_pu hpu s a kw hkw mask h1
  have hst : (CleanLearning.findLabelIssues cfg s a).1.confidentJoint = (findMask cfg s a).1.confidentJoint ∧
      (CleanLearning.findLabelIssues cfg s a).1.noiseMatrix = (findMask cfg s a).1.noiseMatrix ∧
      (CleanLearning.findLabelIssues cfg s a).1.inverseNoiseMatrix = (findMask cfg s a).1.inverseNoiseMatrix := by
    unfold CleanLearning.findLabelIssues at h ⊢
    cases hc : checkCall cfg a with
    | error e => rw [hc] at h; cases h
    | ok u =>
      simp only [hlow, Bool.false_eq_true, if_false]
      cases (findMask cfg s a).2.bind (issueTable cfg (findMask cfg s a).1 a) with
      | error e => exact ⟨rfl, rfl, rfl⟩
      | ok df =>
        dsimp only
        by_cases hs : a.saveSpace = true
        · rw [if_pos hs]; exact ⟨rfl, rfl, rfl⟩
        · rw [if_neg hs]; exact ⟨rfl, rfl, rfl⟩
  dsimp only
  rw [hst.1, hst.2.1, hst.2.2]
  refine ⟨⟨_, hcj, ?_⟩, h4, h5⟩
  unfold puJoint setPair
  rw [if_pos rfl, if_pos rfl]

/-! ### What fails -/

/-- From a mask to the flags of the table. -/
theorem flags_pu (cfg : Settings 2) (hlow : cfg.lowMemory = false) (s : State 2) (a : Call 2)
    (hc : checkCall cfg a = .ok ()) (mask : Fin a.n → Bool) (hm : (findMask cfg s a).2 = .ok mask)
    (hk : (findMask cfg s a).1.kwargs.isSome = true) (sc : Fin a.n → ℚ) (hs : cfg.scores a.labels a.probs = .ok sc) :
    flags (CleanLearning.findLabelIssues cfg s a).2 = some (List.ofFn mask) := by
  have hk : (findMask cfg s a).1.kwargs.isNone = false := by
    cases hh : (findMask cfg s a).1.kwargs with
    | none => rw [hh] at hk; cases hk
    | some _ => rfl
  unfold CleanLearning.findLabelIssues
  rw [hc]
  simp only [hlow, Bool.false_eq_true, if_false]
  cases hf : findMask cfg s a with
  | mk s' m =>
    rw [hf] at hm hk
    dsimp only at hm hk ⊢
    subst hm
    unfold issueTable qualityScores
    rw [hk]
    simp only [Bool.false_eq_true, if_false, hs]
    simp only [flags, Except.bind, bind, pure, Except.pure, Except.toOption, Option.map_some, List.map_map]
    rw [List.ofFn_eq_map]
    rfl

/-- The first call of a new object without given matrices. -/
theorem findMask_fresh (cfg : Settings 2) (p : Fin 2) (hpu : cfg.pulearning = some p) (kw : Kwargs 2)
    (hu : kw.unsupported = false) (hj : kw.confidentJoint = none) (a : Call 2) (hn : a.noiseMatrix = none)
    (hi : a.inverseNoiseMatrix = none) :
    (findMask cfg (fresh kw) a).2 = findChecked cfg.sort a.labels a.probs
      (used kw ((passedJoint cfg kw none a).map (fun cj => puJoint cj p))).toArgs ∧
    (findMask cfg (fresh kw) a).1.kwargs.isSome = true := by
  have hproc : processKwargs (fresh kw) =
      ({ fresh kw with kwargs := some (used kw none) }, .ok (used kw none)) := by
    unfold processKwargs fresh used
    dsimp only
    rw [if_neg (by simp [hu]), hj]
  obtain ⟨py, m, inv, hlat⟩ := estimateLatent_cnt (a.joint cfg.sort) a.labels cfg.converge
  unfold findMask
  rw [hproc]
  dsimp only [latentFromJoint, fresh]
  rw [hn]
  unfold useMatrices
  rw [hi]
  dsimp only
  unfold estimateNoise
  dsimp only
  rw [hi, if_pos ⟨rfl, rfl⟩, hlat]
  dsimp only
  unfold puLearning
  rw [hpu]
  dsimp only
  rw [dif_pos rfl]
  refine ⟨?_, rfl⟩
  dsimp only
  congr 2
  unfold addJoint passedJoint used
  rw [hj]
  by_cases hf : kw.filterBy = some .confidentLearning
  · simp [hf]
  · simp only [Option.map_none, Option.isNone_none, true_and, hf, ne_eq, not_false_eq_true, if_true, if_false]
    rfl

/-- `CleanLearning(pulearning=p)`. -/
def cfgPu (p : Fin 2) : Settings 2 := { cfg2 with pulearning := some p }

theorem passed_noisy (kw : Kwargs 2) (hj : kw.confidentJoint = none) (hf : kw.filterBy ≠ some .confidentLearning)
    (p : Fin 2) (M : Fin 2 → Fin 2 → ℤ)
    (hM : ∀ a b, puJoint (fun a b => ((![![2, 1], ![0, 2]] : Fin 2 → Fin 2 → ℤ) a b : ℚ)) p a b = M a b) :
    (passedJoint (cfgPu p) kw none noisyCall).map (fun cj => puJoint cj p) = some (fun a b => (M a b : ℚ)) := by
  unfold passedJoint
  rw [hj]
  dsimp only
  rw [if_neg hf]
  show some (puJoint (noisyCall.joint (stableSort ℚ)) p) = _
  rw [noisyCall_joint]
  congr 1
  funext a b
  exact hM a b

/-- **C137 fails for `filter_by="prune_by_class"`.** The class 0 is declared to be free of label errors and an example of
the class is reported, because the examples that were taken to belong to the other class are not added to the diagonal. -/
theorem C137_not_prune_by_class :
    flags (CleanLearning.findLabelIssues (cfgPu 0) (fresh { minExamples := some 1, filterBy := some .pruneByClass })
      noisyCall).2 = some [false, false, true, false, false] := by
  obtain ⟨hm, hk⟩ := findMask_fresh (cfgPu 0) 0 rfl { minExamples := some 1, filterBy := some .pruneByClass } rfl rfl
    noisyCall rfl rfl
  rw [passed_noisy _ rfl (by decide) 0 ![![2, 0], ![0, 1]] (by decide +kernel)] at hm
  have hpcm : keepAtLeastN (stableSort ℚ) (fun j k => ((![![2, 0], ![0, 1]] : Fin 2 → Fin 2 → ℤ) k j : ℚ)) 1 1 =
      ![![2, 0], ![0, 1]] := by
    funext j k
    rw [keepAtLeastN_eq]
    revert j k
    decide +kernel
  have hf : findChecked (stableSort ℚ) noisyCall.labels noisyCall.probs
      (used { minExamples := some 1, filterBy := some .pruneByClass }
        (some (fun a b => ((![![2, 0], ![0, 1]] : Fin 2 → Fin 2 → ℤ) a b : ℚ)))).toArgs =
      .ok (fun i => maskByClass (stableSort ℚ) noisyCall.labels noisyCall.probs 1 ![![2, 0], ![0, 1]] i &&
        !(reduceIssues noisyCall.labels noisyCall.probs i)) := by
    have hv := accepted_of noisyCall (by decide +kernel)
    rw [C115_find_iff]
    refine ⟨⟨hv.1, hv.2.1, Or.inl hv.2.2⟩, ?_⟩
    unfold Filter.findLabelIssues rawMask pruneCountMatrix
    simp only [used, Kwargs.toArgs, usedJoint, Option.getD_some, Option.getD_none, hpcm]
    rfl
  rw [flags_pu (cfgPu 0) rfl _ noisyCall (by decide +kernel) _ (hm.trans hf) hk _ rfl]
  decide +kernel

/-- **C137 fails for `filter_by="predicted_neq_given"`.** -/
theorem C137_not_predicted :
    flags (CleanLearning.findLabelIssues (cfgPu 0) (fresh { filterBy := some .predictedNeqGiven }) noisyCall).2 =
      some [false, false, true, false, false] := by
  obtain ⟨hm, hk⟩ := findMask_fresh (cfgPu 0) 0 rfl { filterBy := some .predictedNeqGiven } rfl rfl noisyCall rfl rfl
  have hf : ∀ cj, findChecked (stableSort ℚ) noisyCall.labels noisyCall.probs
      (used { filterBy := some .predictedNeqGiven } cj).toArgs =
      .ok (fun i => decide (argmax (noisyCall.probs i) ≠ noisyCall.labels i) &&
        !(reduceIssues noisyCall.labels noisyCall.probs i)) := by
    intro cj
    have hv := accepted_of noisyCall (by decide +kernel)
    rw [C115_find_iff]
    exact ⟨⟨hv.1, hv.2.1, Or.inl hv.2.2⟩, rfl⟩
  rw [flags_pu (cfgPu 0) rfl _ noisyCall (by decide +kernel) _ (hm.trans (hf _)) hk _ rfl]
  decide +kernel

/-- **C137 fails for `filter_by="confident_learning"`.** -/
theorem C137_not_confident_learning :
    flags (CleanLearning.findLabelIssues (cfgPu 0) (fresh { filterBy := some .confidentLearning }) noisyCall).2 =
      some [false, false, true, false, false] := by
  obtain ⟨hm, hk⟩ := findMask_fresh (cfgPu 0) 0 rfl { filterBy := some .confidentLearning } rfl rfl noisyCall rfl rfl
  have hf : ∀ cj, findChecked (stableSort ℚ) noisyCall.labels noisyCall.probs
      (used { filterBy := some .confidentLearning } cj).toArgs =
      .ok (fun i => decide (i ∈ offDiagonalIndices noisyCall.labels noisyCall.probs
          (getConfidentThresholds noisyCall.labels noisyCall.probs)) &&
        !(reduceIssues noisyCall.labels noisyCall.probs i)) := by
    intro cj
    have hv := accepted_of noisyCall (by decide +kernel)
    rw [C115_find_iff]
    exact ⟨⟨hv.1, hv.2.1, Or.inl hv.2.2⟩, rfl⟩
  rw [flags_pu (cfgPu 0) rfl _ noisyCall (by decide +kernel) _ (hm.trans (hf _)) hk _ rfl]
  decide +kernel

/-- **C137 fails with `low_memory`.** The declaration is ignored. -/
theorem C137_not_low_memory (cfg : Settings 2) (hlow : cfg.lowMemory = true) (p : Fin 2) (s : State 2) (a : Call 2) :
    CleanLearning.findLabelIssues { cfg with pulearning := some p } s a =
      CleanLearning.findLabelIssues { cfg with pulearning := none } s a := by
  unfold CleanLearning.findLabelIssues
  simp only [hlow, if_true]
  rfl

/-- **C137 fails for the other class.** The class 1 is declared to be free of label errors, and the only label error of
the class 0, which is reported without the declaration, is missed: the number of examples of class 0 that are taken to
be right is overwritten by the noise rate 1. -/
theorem C137_not_other_class :
    flags (CleanLearning.findLabelIssues cfg2 (fresh { minExamples := some 2 }) noisyCall).2 =
      some [false, false, true, false, false] ∧
    flags (CleanLearning.findLabelIssues (cfgPu 1) (fresh { minExamples := some 2 }) noisyCall).2 =
      some [false, false, false, false, false] := by
  have hf : ∀ M M' : Fin 2 → Fin 2 → ℤ,
      (∀ j k, reducePruneCounts (keepDiagonal (fun j k => (M k j : ℚ)) 2) 1 j k = M' j k) →
      findChecked (stableSort ℚ) noisyCall.labels noisyCall.probs
        (used { minExamples := some 2 } (some (fun s y => (M s y : ℚ)))).toArgs =
      .ok (fun i => maskByCount (stableSort ℚ) noisyCall.labels noisyCall.probs 2 M' i &&
        !(reduceIssues noisyCall.labels noisyCall.probs i)) := by
    intro M M' hk
    have hv := accepted_of noisyCall (by decide +kernel)
    have hpcm : keepAtLeastN (stableSort ℚ) (fun j k => (M k j : ℚ)) 2 1 = M' := by
      funext j k
      rw [keepAtLeastN_eq, hk]
    rw [C115_find_iff]
    refine ⟨⟨hv.1, hv.2.1, Or.inl hv.2.2⟩, ?_⟩
    unfold Filter.findLabelIssues rawMask pruneCountMatrix
    simp only [used, Kwargs.toArgs, usedJoint, Option.getD_some, Option.getD_none, hpcm]
    rfl
  constructor
  · have hm := findMask_eq cfg2 rfl (fresh { minExamples := some 2 }) noisyCall _ rfl rfl rfl rfl
      (by rintro cj (h | ⟨-, h⟩) <;> cases h)
    have hp : passedJoint cfg2 { minExamples := some 2 } (fresh { minExamples := some 2 }).confidentJoint noisyCall =
        some (fun s y => ((![![2, 1], ![0, 2]] : Fin 2 → Fin 2 → ℤ) s y : ℚ)) := by
      show some (noisyCall.joint (stableSort ℚ)) = _
      rw [noisyCall_joint]
    rw [hp] at hm
    rw [(flags_of_mask cfg2 rfl rfl (fresh { minExamples := some 2 }) _ rfl noisyCall (by decide +kernel) _
      (hm.trans (hf ![![2, 1], ![0, 2]] ![![2, 0], ![1, 2]] (by decide +kernel))) _ rfl).2]
    decide +kernel
  · obtain ⟨hm, hk⟩ := findMask_fresh (cfgPu 1) 1 rfl { minExamples := some 2 } rfl rfl noisyCall rfl rfl
    rw [passed_noisy _ rfl (by decide) 1 ![![1, 1], ![0, 2]] (by decide +kernel)] at hm
    rw [flags_pu (cfgPu 1) rfl _ noisyCall (by decide +kernel) _
      (hm.trans (hf ![![1, 1], ![0, 2]] ![![2, 0], ![0, 2]] (by decide +kernel))) hk _ rfl]
    decide +kernel

/-- The hypotheses of `C137_clean_class_partial` hold for a call that reports a label error of the other class. -/
example : flags (CleanLearning.findLabelIssues (cfgPu 1) (fresh kw1) noisyCall).2 =
    some [false, false, true, false, false] := by
  obtain ⟨hm, hk⟩ := findMask_fresh (cfgPu 1) 1 rfl kw1 rfl rfl noisyCall rfl rfl
  rw [passed_noisy _ rfl (by decide) 1 ![![1, 1], ![0, 2]] (by decide +kernel)] at hm
  have hf := filter_example noisyCall (accepted_of _ (by decide +kernel)) ![![1, 1], ![0, 2]] ![![1, 0], ![1, 2]]
    (by decide +kernel)
  rw [flags_pu (cfgPu 1) rfl _ noisyCall (by decide +kernel) _ (hm.trans hf) hk _ rfl]
  decide +kernel

/-- And for one in which the label error that would be reported without the declaration is not reported. -/
example : flags (CleanLearning.findLabelIssues (cfgPu 0) (fresh kw1) noisyCall).2 =
    some [false, false, false, false, false] := by
  obtain ⟨hm, hk⟩ := findMask_fresh (cfgPu 0) 0 rfl kw1 rfl rfl noisyCall rfl rfl
  rw [passed_noisy _ rfl (by decide) 0 ![![2, 0], ![0, 1]] (by decide +kernel)] at hm
  have hf := filter_example noisyCall (accepted_of _ (by decide +kernel)) ![![2, 0], ![0, 1]] ![![2, 0], ![0, 1]]
    (by decide +kernel)
  rw [flags_pu (cfgPu 0) rfl _ noisyCall (by decide +kernel) _ (hm.trans hf) hk _ rfl]
  decide +kernel

end Cleanlab.Props
