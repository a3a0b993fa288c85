import Verif.Props.Calibration
import Verif.Props.Rank

/-!
# C84, C86: active learning scores end to end, and what the ensemble functions do to the caller's arrays
-/

namespace Cleanlab.Props

open Np Cleanlab.Util Cleanlab.Rank Cleanlab.Multiannotator Cleanlab.Spec Cleanlab.Count

variable {n M K R u : ℕ}

/-! ## Lemmas -/

theorem valueCounts_length (isInt : Bool) (x : List ℕ) (K : ℕ) (hx : ∀ a ∈ x, a < K) (hne : x ≠ []) :
    ∃ c, valueCounts isInt x (some K) = .ok c ∧ c.length = K := by
  cases isInt with
  | true => exact ⟨_, C18_integer_labels x K hx hne, by simp⟩
  | false =>
    have hle : (npUnique x).length ≤ K := by
      have := List.Nodup.length_le_card (α := Fin K) (l := (npUnique x).attach.map
        (fun a => (⟨a.1, hx a.1 ((mem_npUnique x a.1).mp a.2)⟩ : Fin K))) (by
          rw [List.nodup_map_iff_inj_on (List.nodup_attach.mpr (nodup_npUnique x))]
          intro a _ b _ hab
          exact Subtype.ext (Fin.mk.inj hab))
      simpa using this
    have hlen : (npUniqueCounts x).length = (npUnique x).length := by unfold npUniqueCounts; simp
    unfold valueCounts
    simp only
    by_cases h : K = (npUnique x).length
    · rw [if_pos h]; exact ⟨_, rfl, by rw [hlen, ← h]⟩
    · rw [if_neg h, if_neg (by simp), if_neg (by omega)]
      exact ⟨_, rfl, by simp [hlen]; omega⟩

theorem meanEntropy_ok (isInt : Bool) (L : Annotations n M K) (P : Fin n → Fin K → ℝ) (hn : 0 < n) (hK : K ≠ 1)
    (hv : ∀ i, ∃ m, L i m ≠ none) (T : ℝ) : ∃ x, meanEntropy isInt L P T = .ok x := by
  have hi : ∀ i, ∃ x, softCrossEntropy isInt L (fun i => softmaxLog T (P i)) i = .ok x := by
    intro i
    have hne : numAnnotators L i ≠ 0 := by
      obtain ⟨m, hm⟩ := hv i
      exact (Finset.card_pos.mpr ⟨m, by simp [hm]⟩).ne'
    obtain ⟨c, hc, hl⟩ := valueCounts_length isInt (((List.finRange M).filterMap (fun m => L i m)).map Fin.val) K
      (by intro a ha; obtain ⟨k, -, rfl⟩ := List.mem_map.mp ha; exact k.isLt)
      (by rw [← List.length_pos_iff, List.length_map, length_labels]; omega)
    unfold softCrossEntropy
    simp only [length_labels]
    rw [if_neg (by simp [hne, hK]), hc]
    simp only [hl, dite_true]
    exact ⟨_, rfl⟩
  choose g hg using hi
  unfold meanEntropy
  rw [if_neg (by omega), (collect_ok_iff _ _).mpr hg]
  exact ⟨_, rfl⟩

/-- The search for the temperature always ends with a temperature between `0.1` and `8`. -/
theorem bestTemp_ok (isInt : Bool) (L : Annotations n M K) (P : Fin n → Fin K → ℝ) (hn : 0 < n) (hK : K ≠ 1)
    (hv : ∀ i, ∃ m, L i m ≠ none) : ∃ T, bestTemp isInt L P = .ok T ∧ 1 / 10 ≤ T ∧ T ≤ 8 := by
  choose f hf using meanEntropy_ok isInt L P hn hK hv
  obtain ⟨T, h1, h2, -⟩ := bestTemp_spec isInt L P f (fun T _ => hf T)
  exact ⟨T, h1, fineRange_bounds _ T h2⟩

theorem root_spec (L : Annotations n M K) : 0 ≤ rootMeanAnnotations L ∧
    rootMeanAnnotations L * rootMeanAnnotations L = (∑ i, (numAnnotators L i : ℝ)) / n := by
  refine ⟨Real.sqrt_nonneg _, ?_⟩
  unfold rootMeanAnnotations
  rw [Real.mul_self_sqrt (by positivity)]
  simp only [numAnnotations_eq]

theorem afterAnnotators_of_unique {F : Type} [Field F] [LinearOrder F] (L : Annotations n M K)
    (P : Option (Fin n → Fin K → F)) (i : Fin n) (h : (modes L i).length = 1) : afterAnnotators L P i = modes L i := by
  have h1 : afterPredProbs L P i = modes L i := by
    unfold afterPredProbs tieBreak
    cases P with
    | none => rfl
    | some P => exact if_pos h
  have h2 : afterFrequency L P i = modes L i := by
    unfold afterFrequency tieBreak
    rw [h1]; exact if_pos h
  unfold afterAnnotators
  rw [h2]
  exact if_pos h

theorem unique_mode_of_single (L : Annotations n M K) (i : Fin n) (h : numAnnotators L i = 1) :
    ∃! k, IsMode L i k := by
  obtain ⟨m, hm⟩ := Finset.card_eq_one.mp h
  have hmem : ∀ m', L i m' ≠ none ↔ m' = m := fun m' => by
    have := Finset.ext_iff.mp hm m'
    simpa using this
  obtain ⟨k, hk⟩ := Option.ne_none_iff_exists'.mp ((hmem m).mpr rfl)
  have hv : ∀ j, numVotes L i j = if j = k then 1 else 0 := by
    intro j
    unfold numVotes
    by_cases hj : j = k
    · subst hj
      rw [if_pos rfl, Finset.card_eq_one]
      refine ⟨m, Finset.ext fun m' => ?_⟩
      simp only [Finset.mem_filter, Finset.mem_univ, true_and, Finset.mem_singleton]
      exact ⟨fun h => (hmem m').mp (by rw [h]; simp), fun h => by rw [h, hk]⟩
    · rw [if_neg hj, Finset.card_eq_zero]
      refine Finset.filter_eq_empty_iff.mpr fun m' _ h => hj ?_
      have := (hmem m').mp (by rw [h]; simp)
      rw [this, hk] at h
      exact (Option.some.inj h).symm
  refine ⟨k, fun j => by rw [hv k, if_pos rfl, hv]; split_ifs <;> simp, fun j hj => ?_⟩
  by_contra hne
  have := hj k
  rw [hv, hv, if_pos rfl, if_neg hne] at this
  omega

/-- With one label per example the majority vote is that label. -/
theorem majorityVote_single {F : Type} [Field F] [LinearOrder F] [IsStrictOrderedRing F] (L : Annotations n M K)
    (P : Option (Fin n → Fin K → F)) (rand : Fin n → ℕ) (h : ∀ i, numAnnotators L i = 1) :
    ∃ c, majorityVote L P rand = .ok c ∧ ∀ i m k, L i m = some k → c i = k := by
  have hpos : ∀ i, 0 < (afterAnnotators L P i).length := fun i => by
    have hl := (length_modes_eq_one L i).mpr (unique_mode_of_single L i (h i))
    rw [afterAnnotators_of_unique L P i hl]; omega
  refine ⟨_, dif_pos hpos, fun i m k hk => ?_⟩
  have hmv := C19_majority_vote_was_given L P rand _ (dif_pos hpos) i ⟨m, by rw [hk]; simp⟩
  obtain ⟨m', hm'⟩ := hmv
  obtain ⟨m0, hm0⟩ := Finset.card_eq_one.mp (h i)
  have hmem : ∀ m', L i m' ≠ none → m' = m0 := fun m' hne => by
    have := Finset.ext_iff.mp hm0 m'
    simpa [hne] using this
  have e1 := hmem m (by rw [hk]; simp)
  have e2 := hmem m' (by rw [hm']; simp)
  rw [e2, ← e1, hk] at hm'
  exact (Option.some.inj hm').symm

theorem inUnit_weighted (a b u v : ℝ) (hu : 0 ≤ u) (hv : 0 ≤ v) (huv : 0 < u + v) (ha : 0 ≤ a ∧ a ≤ 1)
    (hb : 0 ≤ b ∧ b ≤ 1) : 0 ≤ (a * u + b * v) / (u + v) ∧ (a * u + b * v) / (u + v) ≤ 1 := by
  constructor
  · have := mul_nonneg ha.1 hu
    have := mul_nonneg hb.1 hv
    positivity
  · rw [div_le_one huv]; nlinarith [mul_le_mul_of_nonneg_right ha.2 hu, mul_le_mul_of_nonneg_right hb.2 hv]

theorem inv_K_range [NeZero K] : (0 : ℝ) ≤ 1 / K ∧ (1 : ℝ) / K ≤ 1 := by
  have : (1 : ℝ) ≤ K := by exact_mod_cast Nat.one_le_iff_ne_zero.mpr (NeZero.ne K)
  exact ⟨by positivity, (div_le_one (by linarith)).mpr this⟩

/-! ## C84 -/

/-- The labelled half, for valid annotations by several annotators. -/
theorem activeLabeled_spec [NeZero K] (isInt : Bool) (L : Annotations n M K) (P : Fin n → Fin K → ℝ)
    (rand : Fin n → ℕ) (hK : K ≠ 1) (hv : ValidAnnotations L) (hu : ∃ i, ∃! k, IsMode L i k) :
    ∃ a, activeLabeled isInt L P rand = .ok a ∧ (∀ i, 0 ≤ a.scores i ∧ a.scores i ≤ 1) ∧ 0 < a.modelWeight ∧
      0 < a.avgWeight ∧ 1 / 10 ≤ a.temp ∧ a.temp ≤ 8 := by
  have hn : 0 < n := by
    obtain ⟨i, -⟩ := hu
    exact lt_of_le_of_lt (Nat.zero_le _) i.isLt
  obtain ⟨T, hT, hT1, hT8⟩ := bestTemp_ok isInt L P hn hK hv.1
  obtain ⟨mv, hmv⟩ := C19_returns_partial L (some (fun i => tempScale T (P i))) rand hv hu
  have hP : ∀ i, IsDistribution (tempScale T (P i)) := fun i => (C82_distribution T (P i)).1
  obtain ⟨h0, hr⟩ := root_spec L
  obtain ⟨r0, hr0, -⟩ := consensusStats_spec L mv (fun i => tempScale T (P i)) _ hv hP h0 hr
  obtain ⟨r, hr1, hc, hd, hq, -, hmw, haw⟩ := consensusStats_spec L (bestQuality r0.posterior.post mv)
    (fun i => tempScale T (P i)) _ hv hP h0 hr
  have hl : labelQualityMultiannotator L (fun i => tempScale T (P i)) rand (rootMeanAnnotations L) .bestQuality =
      .ok r := by
    unfold labelQualityMultiannotator
    rw [(assertValidInputs_iff L).mpr hv, hmv]
    simp [bind, Except.bind, hr0, hr1]
  unfold activeLabeled
  rw [if_neg (by
    obtain ⟨i, hi⟩ := hv.2.2.2
    intro h
    exact hi (by rw [← numAnnotations_eq]; exact h i)), hT]
  dsimp only [bind, Except.bind]
  rw [hl]
  refine ⟨_, rfl, fun i => ?_, hmw, ?_, hT1, hT8⟩
  · dsimp only
    obtain ⟨h1, h2⟩ := C22_score_between L r.quality r.posterior.annWeight r.posterior.modelWeight hmw
      (fun m => (haw m).1.le) i
    have hqr : 0 ≤ r.quality i ∧ r.quality i ≤ 1 := by
      rw [hq]; exact ⟨(hd i).1 _, dist_le_one _ (hd i) _⟩
    have hk := inv_K_range (K := K)
    exact ⟨le_trans (le_min hqr.1 hk.1) h1, le_trans h2 (max_le hqr.2 hk.2)⟩
  · dsimp only
    have hM : 0 < M := by have := hv.2.2.1; omega
    apply div_pos (Finset.sum_pos (fun m _ => (haw m).1) ⟨⟨0, hM⟩, Finset.mem_univ _⟩)
    exact_mod_cast hM

/-- **C84**: for valid annotations by several annotators (of any dtype), at least two classes, and an example with a
unique most frequent label, the call returns; the scores of labelled examples are in `[0, 1]`, those of unlabelled
examples in `[1/K, 1]`. -/
theorem C84_range [NeZero K] (isInt : Bool) (L : Annotations n M K) (P : Fin n → Fin K → ℝ)
    (U : Option (Fin u → Fin K → ℝ)) (rand : Fin n → ℕ) (hK : K ≠ 1) (hv : ValidAnnotations L)
    (hu : ∃ i, ∃! k, IsMode L i k) :
    ∃ s t, activeLearningScores isInt (some L) (some P) U rand = .ok (some s, t) ∧ (t = none ↔ U = none) ∧
      (∀ i, 0 ≤ s i ∧ s i ≤ 1) ∧ ∀ t', t = some t' → ∀ i, 1 / K ≤ t' i ∧ t' i ≤ 1 := by
  obtain ⟨a, ha, h1, h2, h3, -⟩ := activeLabeled_spec isInt L P rand hK hv hu
  unfold activeLearningScores
  cases U with
  | none =>
    dsimp only
    rw [ha]
    exact ⟨a.scores, none, rfl, by simp, h1, by simp⟩
  | some U =>
    dsimp only
    rw [ha]
    refine ⟨a.scores, some _, rfl, by simp, h1, fun t' ht i => ?_⟩
    cases ht
    obtain ⟨hd, -⟩ := C82_distribution a.temp (U i)
    obtain ⟨b1, k, b2⟩ := C22_unlabeled_between _ hd a.modelWeight a.avgWeight h2 h3.le
    exact ⟨b1, le_trans b2 (dist_le_one _ hd k)⟩

/-- **C84**: if every example has exactly one label, the probabilities are not calibrated: an example with label `k`
scores `(2 p_k + 1/K) / 3`, an unlabelled one with largest probability `m` scores `(m + 1/K) / 2`. -/
theorem C84_single_label [NeZero K] (isInt : Bool) (L : Annotations n M K) (P : Fin n → Fin K → ℝ)
    (U : Fin u → Fin K → ℝ) (rand : Fin n → ℕ) (hn : 0 < n) (h1 : ∀ i, numAnnotators L i = 1)
    (hm : ∀ m, ∃ i, L i m ≠ none) (hP : ∀ i k, 0 ≤ P i k ∧ P i k ≤ 1) (hU : ∀ i, IsDistribution (U i))
    (hs : ∀ i k, 1 / 10 ^ 30 ≤ U i k) :
    ∃ s t, activeLearningScores isInt (some L) (some P) (some U) rand = .ok (some s, some t) ∧
      (∀ i m k, L i m = some k → s i = (2 * P i k + 1 / K) / 3) ∧
      ∀ i k, (∀ j, U i j ≤ U i k) → t i = (U i k + 1 / K) / 2 := by
  obtain ⟨c, hc, hcl⟩ := majorityVote_single L (some P) rand h1
  have hrow : ∀ i, ∃ m, L i m ≠ none := fun i => by
    have : 0 < numAnnotators L i := by rw [h1]; exact Nat.one_pos
    obtain ⟨m, hm⟩ := Finset.card_pos.mp this
    exact ⟨m, by simpa using hm⟩
  have hM : 0 < M := by
    obtain ⟨m, -⟩ := hrow ⟨0, hn⟩
    exact lt_of_le_of_lt (Nat.zero_le _) m.isLt
  have hM' : (M : ℝ) ≠ 0 := by exact_mod_cast hM.ne'
  have hval : assertValidSingle L = .ok () := by
    unfold assertValidSingle
    rw [if_neg (by push Not; exact hrow), if_neg (by push Not; exact hm)]
  unfold activeLearningScores activeLabeled
  dsimp only
  rw [if_pos (fun i => by rw [numAnnotations_eq, h1]), hval, hc]
  dsimp only [bind, Except.bind]
  rw [(checkReal_iff true c P).mpr ⟨hn, Or.inl rfl, fun i k =>
    ⟨le_trans (by norm_num) (hP i k).1, le_trans (hP i k).2 (by norm_num)⟩⟩]
  refine ⟨_, _, rfl, fun i m k hk => ?_, fun i k hk => ?_⟩
  · have hsum : (∑ m, if (L i m).isSome then (1 : ℝ) else 0) = 1 := by
      rw [Finset.sum_boole]
      have : Finset.univ.filter (fun m => (L i m).isSome = true) = Finset.univ.filter (fun m => L i m ≠ none) := by
        ext m; simp [Option.isSome_iff_ne_none]
      rw [this]
      have := h1 i
      unfold numAnnotators at this
      rw [this, Nat.cast_one]
    unfold activeScore selfConfidence
    dsimp only
    rw [hsum, hcl i m k hk]
    simp only [Finset.sum_const, Finset.card_univ, Fintype.card_fin, nsmul_eq_mul, mul_one]
    rw [div_self hM']
    norm_num
    ring
  · dsimp only
    rw [C82_identity (U i) (hU i) (hs i)]
    unfold activeScoreUnlabeled
    have : U i (argmax (U i)) = U i k := le_antisymm (hk _) (le_argmax _ k)
    rw [this]
    simp only [Finset.sum_const, Finset.card_univ, Fintype.card_fin, nsmul_eq_mul, mul_one]
    rw [div_self hM']
    norm_num

/-- **C84**: without labelled data an unlabelled example with largest probability `m` scores `(m + 1/K) / 2`. -/
theorem C84_only_unlabeled [NeZero K] (isInt : Bool) (L : Option (Annotations n M K)) (U : Fin u → Fin K → ℝ)
    (rand : Fin n → ℕ) (hU : ∀ i, IsDistribution (U i)) (hs : ∀ i k, 1 / 10 ^ 30 ≤ U i k) :
    ∃ t, activeLearningScores isInt L none (some U) rand = .ok (none, some t) ∧
      ∀ i k, (∀ j, U i j ≤ U i k) → t i = (U i k + 1 / K) / 2 := by
  refine ⟨_, rfl, fun i k hk => ?_⟩
  rw [C82_identity (U i) (hU i) (hs i)]
  unfold activeScoreUnlabeled
  have : U i (argmax (U i)) = U i k := le_antisymm (hk _) (le_argmax _ k)
  rw [this]
  norm_num

/-- **C84**: of two unlabelled examples, the one whose largest calibrated probability is larger scores higher. -/
theorem C84_unlabeled_order [NeZero K] (p q : Fin K → ℝ) (mw avg : ℝ) (hmw : 0 < mw) (havg : 0 ≤ avg) :
    activeScoreUnlabeled p mw avg < activeScoreUnlabeled q mw avg ↔ ∃ k, ∀ j, p j < q k := by
  unfold activeScoreUnlabeled
  rw [div_lt_div_iff_of_pos_right (by linarith), add_lt_add_iff_right, mul_lt_mul_iff_left₀ hmw]
  constructor
  · intro h; exact ⟨argmax q, fun j => lt_of_le_of_lt (le_argmax p j) h⟩
  · rintro ⟨k, hk⟩; exact lt_of_lt_of_le (hk _) (le_argmax q k)

/-- **C84**: without any probabilities, or with probabilities of labelled examples but no labels, the call is
refused. -/
theorem C84_refused [NeZero K] (isInt : Bool) (L : Option (Annotations n M K)) (P : Fin n → Fin K → ℝ)
    (U : Option (Fin u → Fin K → ℝ)) (rand : Fin n → ℕ) :
    (∃ e, activeLearningScores isInt L none (none : Option (Fin u → Fin K → ℝ)) rand = .error e) ∧
      ∃ e, activeLearningScores isInt (none : Option (Annotations n M K)) (some P) U rand = .error e := by
  refine ⟨⟨_, rfl⟩, ?_⟩
  cases U <;> exact ⟨_, rfl⟩

/-- Annotations to which `C84_range` applies, and annotations to which `C84_single_label` applies. -/
example : (ValidAnnotations exVotes ∧ ∃ i, ∃! k, IsMode exVotes i k) ∧
    ∃ L : Annotations 2 2 3, (∀ i, numAnnotators L i = 1) ∧ ∀ m, ∃ i, L i m ≠ none :=
  ⟨⟨(assertValidInputs_iff _).mp (by decide +kernel), 1, by rw [← length_modes_eq_one]; decide +kernel⟩,
    ![![some 2, none], ![none, some 1]], by decide +kernel, by decide +kernel⟩

/-! ## C86 -/

/-- **C86 (partial)**: the array of probabilities of the labelled examples is left alone by
`get_label_quality_multiannotator_ensemble` without calibration, and by `get_active_learning_scores_ensemble` when
every example has exactly one label. Missing: the other calls, see the refutations. -/
theorem C86_unchanged_partial [NeZero K] (isInt : Bool) (L : Annotations n M K) (P : Fin R → Fin n → Fin K → ℝ)
    (rand : Fin n → ℕ) :
    (∀ r P', labelQualityEnsembleCall isInt false L P rand = .ok (r, P') → P' = P) ∧
      ((∀ i, numAnnotators L i = 1) → ∀ a, activeLabeledEnsemble isInt L P rand = .ok a → a.array = P) := by
  constructor
  · intro r P' h
    unfold labelQualityEnsembleCall at h
    cases hv : assertValidInputs L with
    | error e => rw [hv] at h; cases h
    | ok _ =>
      rw [hv] at h
      simp only [bind, Except.bind, Bool.false_eq_true, if_false] at h
      cases hl : labelQualityEnsemble L P rand with
      | error e => rw [hl] at h; cases h
      | ok r' => rw [hl] at h; cases h; rfl
  · intro h1 a h
    unfold activeLabeledEnsemble at h
    rw [if_pos (fun i => by rw [numAnnotations_eq, h1])] at h
    cases hv : assertValidSingle L with
    | error e => rw [hv] at h; cases h
    | ok _ =>
      rw [hv] at h
      simp only [bind, Except.bind] at h
      cases hl : majorityVote L (some (avgProbs P)) rand with
      | error e => rw [hl] at h; cases h
      | ok r' =>
        rw [hl] at h
        dsimp only at h
        cases hc : checkReal true r' (avgProbs P) with
        | error e => rw [hc] at h; cases h
        | ok _ => rw [hc] at h; cases h; rfl

theorem activeUnlabeled_array [NeZero K] (U : Fin R → Fin u → Fin K → ℝ) (T mw : Fin R → ℝ) (avg : ℝ)
    (rand : Fin u → ℕ) (x : (Fin u → ℝ) × (Fin R → Fin u → Fin K → ℝ))
    (h : activeUnlabeledEnsemble U T mw avg rand = .ok x) : x.2 = fun r i => tempScale (T r) (U r i) := by
  unfold activeUnlabeledEnsemble at h
  dsimp only at h
  generalize assertValidInputs _ = v at h
  cases v with
  | error e => cases h
  | ok _ =>
    generalize majorityVote (F := ℝ) _ _ _ = m at h
    cases m with
    | error e => cases h
    | ok _ => cases h; rfl

/-- **C86 (partial)**: without labelled data, the array of the unlabelled examples is left alone if its rows are
distributions whose entries are at least `1e-30` (up to rounding, which the model does not have). -/
theorem C86_unlabeled_partial [NeZero K] (isInt : Bool) (L : Option (Annotations n M K))
    (U : Fin R → Fin u → Fin K → ℝ) (rand : Fin n → ℕ) (randU : Fin u → ℕ) (hU : ∀ r i, IsDistribution (U r i))
    (hs : ∀ r i k, 1 / 10 ^ 30 ≤ U r i k) (c : EnsembleCall n u K R)
    (h : activeLearningScoresEnsemble isInt L none (some U) rand randU = .ok c) : c.U = some U := by
  unfold activeLearningScoresEnsemble at h
  dsimp only at h
  cases he : activeUnlabeledEnsemble U (fun _ => 1) (fun _ => 1) 1 randU with
  | error e => rw [he] at h; cases h
  | ok x =>
    rw [he] at h
    cases h
    show some x.2 = some U
    rw [activeUnlabeled_array U _ _ _ _ x he]
    congr 1
    funext r i
    exact C82_identity (U r i) (hU r i) (hs r i)

/-- **C86**: which temperatures are used. With labelled data that has an example with two annotators, both arrays end up
calibrated, model by model, with the temperature found for this model on the labelled data. -/
theorem C86_fitted_temperatures [NeZero K] (isInt : Bool) (L : Annotations n M K) (P : Fin R → Fin n → Fin K → ℝ)
    (U : Fin R → Fin u → Fin K → ℝ) (rand : Fin n → ℕ) (randU : Fin u → ℕ) (hL : ∃ i, numAnnotations L i ≠ 1)
    (c : EnsembleCall n u K R)
    (h : activeLearningScoresEnsemble isInt (some L) (some P) (some U) rand randU = .ok c) :
    ∃ T : Fin R → ℝ, (∀ r, bestTemp isInt L (P r) = .ok (T r)) ∧
      c.P = some (fun r i => tempScale (T r) (P r i)) ∧ c.U = some (fun r i => tempScale (T r) (U r i)) := by
  unfold activeLearningScoresEnsemble at h
  dsimp only at h
  cases ha : activeLabeledEnsemble isInt L P rand with
  | error e => rw [ha] at h; cases h
  | ok a =>
    rw [ha] at h
    dsimp only [bind, Except.bind] at h
    cases he : activeUnlabeledEnsemble U a.temp a.modelWeight a.avgWeight randU with
    | error e => rw [he] at h; cases h
    | ok x =>
      rw [he] at h
      cases h
      unfold activeLabeledEnsemble at ha
      rw [if_neg (by push Not; exact hL)] at ha
      unfold calibrate at ha
      cases hT : collect (fun r => bestTemp isInt L (P r)) with
      | error e => rw [hT] at ha; cases ha
      | ok T =>
        rw [hT] at ha
        dsimp only [bind, Except.bind, pure, Except.pure] at ha
        cases hq : labelQualityEnsemble L (fun r i => tempScale (T r) (P r i)) rand with
        | error e => rw [hq] at ha; cases ha
        | ok q =>
          rw [hq] at ha
          cases ha
          refine ⟨T, (collect_ok_iff _ _).mp hT, rfl, ?_⟩
          show some x.2 = _
          rw [activeUnlabeled_array U _ _ _ _ x he]

/-- A temperature other than `1` changes the row `(3/4, 1/4)`. -/
theorem tempScale_ne (T : ℝ) (hT : 1 / 10 ≤ T) (h1 : T < 1) : tempScale T (rowOf 3) 0 ≠ rowOf 3 0 := by
  have hs : ∀ k, smallConst ≤ rowOf 3 k := by
    intro k; unfold smallConst rowOf; fin_cases k <;> norm_num
  have hw : ∀ k, tempWeight T (rowOf 3) k = rowOf 3 k ^ (1 / T) := by
    intro k
    unfold tempWeight
    rw [max_eq_left (hs k), max_eq_left (by norm_num at hT ⊢; linarith),
      Real.rpow_def_of_pos (lt_of_lt_of_le smallConst_pos (hs k))]
    congr 1
    ring
  have he : tempScale T (rowOf 3) 0 = atTemp T (rowOf 3) 0 := by
    rw [tempScale_eq]; unfold atTemp; simp only [hw]
  rw [he, (atTemp_rowOf 3 (by norm_num) T).1]
  have h3 : (3 : ℝ) < 3 ^ (1 / T) := by
    have := pow_anti 3 (by norm_num) T 1 hT h1
    simpa using this
  unfold rowOf
  simp only [Matrix.cons_val_zero]
  intro h
  rw [div_eq_div_iff (by positivity) (by norm_num)] at h
  linarith

/-- Two annotators agree with a prediction of `3/4`: the temperature found is below `1`. -/
theorem bestTemp_agree (isInt : Bool) : ∃ T, bestTemp isInt (bothLabel 0) (fun _ => rowOf 3) = .ok T ∧
    1 / 10 ≤ T ∧ T < 1 := by
  have hv : ∀ i, ∃ m, bothLabel 0 i m ≠ none := fun i => ⟨0, by simp [bothLabel]⟩
  have hcnt : ∀ i, valueCounts isInt (((List.finRange 2).filterMap (fun m => bothLabel 0 i m)).map Fin.val) (some 2) =
      .ok ((List.range 2).map
        (fun k => (((List.finRange 2).filterMap (fun m => bothLabel 0 i m)).map Fin.val).count k)) := by
    revert isInt; decide
  obtain ⟨T, h1, h2, h3⟩ := bestTemp_spec isInt (bothLabel 0) (fun _ => rowOf 3) _
    (meanEntropy_eq isInt (bothLabel 0) (fun _ => rowOf 3) (by norm_num) (by norm_num) hv
      (fun _ => (rowOf_dist 3 (by norm_num)).1) hcnt)
  have hb := fineRange_bounds _ T h2
  refine ⟨T, h1, hb.1, ?_⟩
  have hle := best_le_coarse _ (1 / 10) (by simp [IsCoarse]) (by norm_num)
    (agree_mono 3 (by norm_num) (by norm_num) (1 / 10) 8 le_rfl (by norm_num)).le T h3 (1 / 10) (by simp [IsCoarse])
  by_contra hge
  have := agree_mono 3 (by norm_num) (by norm_num) (1 / 10) T le_rfl (by linarith)
  linarith

/-- The calibration loop overwrites the array in this example. -/
theorem calibrate_changes (isInt : Bool) :
    ∃ T, calibrate isInt (bothLabel 0) (fun (_ : Fin 1) _ => rowOf 3) =
      .ok (T, fun r _ => tempScale (T r) (rowOf 3)) ∧
      (fun (r : Fin 1) (_ : Fin 1) => tempScale (T r) (rowOf 3)) ≠ fun _ _ => rowOf 3 := by
  obtain ⟨T, h1, h2, h3⟩ := bestTemp_agree isInt
  refine ⟨fun _ => T, ?_, fun h => tempScale_ne T h2 h3 (congrFun (congrFun (congrFun h 0) 0) 0)⟩
  unfold calibrate
  rw [(collect_ok_iff _ (fun _ => T)).mpr (fun _ => h1)]
  rfl

end Cleanlab.Props
