import Verif.Props.ActiveLearning

/-!
# C85, C86: ensembles of models with several annotators
-/

namespace Cleanlab.Props

open Np Cleanlab.Util Cleanlab.Rank Cleanlab.Multiannotator Cleanlab.Spec Cleanlab.Count

variable {n M K R u : ℕ}

/-! ## C85 -/

/-- The ensemble posterior is a weighted mean of the posteriors of one model, whose probabilities are the weighted
mean of those of the models. -/
theorem posteriorEnsemble_eq (L : Annotations n M K) (P : Fin R → Fin n → Fin K → ℝ) (cl : ℝ) (mw : Fin R → ℝ)
    (aw : Fin M → ℝ) (hmw : 0 < ∑ r, mw r) :
    posteriorEnsemble L P cl mw aw =
      posterior L (fun i k => (∑ r, P r i k * mw r) / ∑ r, mw r) cl (∑ r, mw r) aw := by
  funext i k
  unfold posteriorEnsemble posterior
  simp only
  rw [div_mul_cancel₀ _ hmw.ne']
  rfl

theorem mix_isDistribution (P : Fin R → Fin n → Fin K → ℝ) (mw : Fin R → ℝ) (hmw : ∀ r, 0 ≤ mw r)
    (hpos : 0 < ∑ r, mw r) (hP : ∀ r i, IsDistribution (P r i)) (i : Fin n) :
    IsDistribution (fun k => (∑ r, P r i k * mw r) / ∑ r, mw r) := by
  refine ⟨fun k => div_nonneg (Finset.sum_nonneg fun r _ => mul_nonneg ((hP r i).1 k) (hmw r)) hpos.le, ?_⟩
  rw [← Finset.sum_div, Finset.sum_comm]
  simp only [← Finset.sum_mul, (hP _ i).2, one_mul]
  exact div_self hpos.ne'

theorem avgProbs_isDistribution [NeZero R] (P : Fin R → Fin n → Fin K → ℝ) (hP : ∀ r i, IsDistribution (P r i))
    (i : Fin n) : IsDistribution (avgProbs P i) := by
  have hR : (0 : ℝ) < R := by exact_mod_cast Nat.pos_of_ne_zero (NeZero.ne R)
  have := mix_isDistribution P (fun _ => 1) (fun _ => zero_le_one) (by simpa using hR) hP i
  have e : avgProbs P i = fun k => (∑ r, P r i k * 1) / ∑ _r : Fin R, 1 := by
    funext k; simp [avgProbs]
  rw [e]; exact this

/-- **C85**: with an ensemble of models, too, the posterior of every example is a distribution and the weights of
models and annotators are positive. -/
theorem C85_posterior_is_distribution [NeZero K] [NeZero R] (L : Annotations n M K) (c : Fin n → Fin K)
    (P : Fin R → Fin n → Fin K → ℝ) (hv : ValidAnnotations L) (hP : ∀ r i, IsDistribution (P r i)) :
    ∃ p, postEnsemble L c P = .ok p ∧ (∀ i, IsDistribution (p.post i)) ∧ (∀ r, 0 < p.modelWeight r) ∧
      ∀ m, 0 < p.annWeight m ∧ p.annWeight m ≤ 1 := by
  obtain ⟨h0, hr⟩ := root_spec L
  -- the run of one model gives everything that does not depend on the models
  have hone := fun r => C20_posterior_is_distribution L c (P r) (rootMeanAnnotations L) hv (hP r) h0 hr
  unfold postEnsemble
  unfold postCrowdlab at hone
  generalize hm : mean? ((multiRows L).map (agreementWithConsensus (F := ℝ) L c)) = m at hone
  cases m with
  | none =>
    obtain ⟨p, hp, -⟩ := hone 0
    cases hp
  | some cl =>
    dsimp only at hone ⊢
    by_cases hs : ∀ m, (agreementWithAnnotators (F := ℝ) L m).isSome
    · simp only [dif_pos hs] at hone ⊢
      have hmw : ∀ r, 0 < modelWeight L c (P r) (rootMeanAnnotations L) := fun r => by
        obtain ⟨p, hp, -, h, -⟩ := hone r
        cases hp; exact h
      have haw : ∀ m, 0 < adjustedAgreement L c ((agreementWithAnnotators L m).get (hs m)) ∧
          adjustedAgreement L c ((agreementWithAnnotators L m).get (hs m)) ≤ 1 := by
        obtain ⟨p, hp, -, -, h⟩ := hone 0
        cases hp; exact h
      have hsum : 0 < ∑ r, modelWeight L c (P r) (rootMeanAnnotations L) :=
        Finset.sum_pos (fun r _ => hmw r) ⟨0, Finset.mem_univ _⟩
      have hclr := mean?_range _ cl hm (by
        intro x hx v hxv
        obtain ⟨i, -, rfl⟩ := List.mem_map.mp hx
        obtain ⟨a, ha, -, h0, h1⟩ := C21_example_agreement (F := ℝ) L c i (hv.1 i)
        rw [ha] at hxv
        cases hxv
        exact ⟨h0, h1⟩)
      refine ⟨_, rfl, fun i => ?_, hmw, haw⟩
      dsimp only
      rw [posteriorEnsemble_eq L P cl _ _ hsum]
      exact posterior_isDistribution L _ cl _ _ i (mix_isDistribution P _ (fun r => (hmw r).le) hsum hP i) hclr.1
        hclr.2 (fun hK => consensus_one_class hK L hv c cl hm) hsum (fun m => (haw m).1)
    · obtain ⟨p, hp, -⟩ := hone 0
      rw [dif_neg hs] at hp
      cases hp

theorem consensusStatsEnsemble_spec [NeZero K] [NeZero R] (L : Annotations n M K) (c : Fin n → Fin K)
    (P : Fin R → Fin n → Fin K → ℝ) (hv : ValidAnnotations L) (hP : ∀ r i, IsDistribution (P r i)) :
    ∃ r, consensusStatsEnsemble L P c = .ok r ∧ r.consensus = c ∧ (∀ i, IsDistribution (r.posterior.post i)) ∧
      (∀ i, r.quality i = r.posterior.post i (c i)) ∧
      (∀ i m, r.detailed i m = (L i m).map (r.posterior.post i)) ∧ (∀ r', 0 < r.posterior.modelWeight r') ∧
      ∀ m, 0 < r.posterior.annWeight m ∧ r.posterior.annWeight m ≤ 1 := by
  obtain ⟨p, hp, h1, h2, h3⟩ := C85_posterior_is_distribution L c P hv hP
  unfold consensusStatsEnsemble
  rw [hp]
  exact ⟨_, rfl, rfl, h1, fun _ => rfl, fun _ _ => rfl, h2, h3⟩

/-- The run without calibration. -/
theorem labelQualityEnsemble_spec [NeZero K] [NeZero R] (L : Annotations n M K) (P : Fin R → Fin n → Fin K → ℝ)
    (rand : Fin n → ℕ) (hv : ValidAnnotations L) (hP : ∀ r i, IsDistribution (P r i))
    (hu : ∃ i, ∃! k, IsMode L i k) :
    ∃ r, labelQualityEnsemble L P rand = .ok r ∧ (∀ i, IsDistribution (r.posterior.post i)) ∧
      (∀ i, r.quality i = r.posterior.post i (r.consensus i)) ∧
      (∀ i m, r.detailed i m = (L i m).map (r.posterior.post i)) ∧ (∀ r', 0 < r.posterior.modelWeight r') ∧
      ∀ m, 0 < r.posterior.annWeight m ∧ r.posterior.annWeight m ≤ 1 := by
  obtain ⟨mv, hmv⟩ := C19_returns_partial L (some (avgProbs P)) rand hv hu
  obtain ⟨r0, h0, -⟩ := consensusStatsEnsemble_spec L mv P hv hP
  obtain ⟨r, hr, hc, h1, h2, h3⟩ := consensusStatsEnsemble_spec L (bestQuality r0.posterior.post mv) P hv hP
  refine ⟨r, ?_, h1, fun i => by rw [hc]; exact h2 i, h3⟩
  unfold labelQualityEnsemble
  rw [(assertValidInputs_iff L).mpr hv, hmv]
  simp [bind, Except.bind, h0, hr]

/-- **C85**: for valid annotations with an example that has a unique most frequent label, the ensemble function
returns; consensus and label qualities are in `[0, 1]`, and exactly the given labels have a quality. -/
theorem C85_scores_in_range [NeZero K] [NeZero R] (L : Annotations n M K) (P : Fin R → Fin n → Fin K → ℝ)
    (rand : Fin n → ℕ) (hv : ValidAnnotations L) (hP : ∀ r i, IsDistribution (P r i))
    (hu : ∃ i, ∃! k, IsMode L i k) :
    ∃ r, labelQualityEnsemble L P rand = .ok r ∧ (∀ i, 0 ≤ r.quality i ∧ r.quality i ≤ 1) ∧
      (∀ i m, r.detailed i m = none ↔ L i m = none) ∧
      (∀ i m q, r.detailed i m = some q → 0 ≤ q ∧ q ≤ 1) ∧
      ∀ i m, L i m = some (r.consensus i) → r.detailed i m = some (r.quality i) := by
  obtain ⟨r, hr, hd, hq, hdet, -⟩ := labelQualityEnsemble_spec L P rand hv hP hu
  refine ⟨r, hr, fun i => ?_, fun i m => ?_, fun i m q h => ?_, fun i m h => ?_⟩
  · rw [hq]; exact ⟨(hd i).1 _, dist_le_one _ (hd i) _⟩
  · rw [hdet]; simp
  · rw [hdet] at h
    obtain ⟨k, -, rfl⟩ := Option.map_eq_some_iff.mp h
    exact ⟨(hd i).1 _, dist_le_one _ (hd i) _⟩
  · rw [hdet, h, hq]; rfl

theorem avgProbs_one (P : Fin n → Fin K → ℝ) : avgProbs (fun _ : Fin 1 => P) = P := by
  funext i k; simp [avgProbs]

/-- The ensemble result of a run of one model. -/
def toEnsemble (r : Result n M K ℝ) : ResultEnsemble n M K 1 :=
  { consensus := r.consensus, quality := r.quality, detailed := r.detailed,
    posterior := { post := r.posterior.post, modelWeight := fun _ => r.posterior.modelWeight,
                   annWeight := r.posterior.annWeight } }

theorem consensusStats_one [NeZero K] (L : Annotations n M K) (P : Fin n → Fin K → ℝ) (c : Fin n → Fin K) :
    consensusStatsEnsemble L (fun _ : Fin 1 => P) c =
      (consensusStats L P c (rootMeanAnnotations L)).map toEnsemble := by
  have hpost : ∀ cl mw aw, posteriorEnsemble L (fun _ : Fin 1 => P) cl (fun _ => mw) aw =
      posterior L P cl mw aw := by
    intro cl mw aw
    funext i k
    simp [posteriorEnsemble, posterior]
    rfl
  unfold consensusStatsEnsemble consensusStats postEnsemble postCrowdlab
  generalize mean? ((multiRows L).map (agreementWithConsensus (F := ℝ) L c)) = m
  cases m with
  | none => rfl
  | some cl =>
    dsimp only
    by_cases hs : ∀ m, (agreementWithAnnotators (F := ℝ) L m).isSome
    · rw [dif_pos hs, dif_pos hs, hpost]; rfl
    · rw [dif_neg hs, dif_neg hs]; rfl

/-- **C85**: an ensemble of one model gives the results (or the exception) of
`get_label_quality_multiannotator`. -/
theorem C85_one_model [NeZero K] (L : Annotations n M K) (P : Fin n → Fin K → ℝ) (rand : Fin n → ℕ) :
    labelQualityEnsemble L (fun _ : Fin 1 => P) rand =
      (labelQualityMultiannotator L P rand (rootMeanAnnotations L) .bestQuality).map toEnsemble := by
  unfold labelQualityEnsemble labelQualityMultiannotator
  rw [avgProbs_one]
  cases assertValidInputs L with
  | error e => rfl
  | ok _ =>
    dsimp only [bind, Except.bind]
    cases majorityVote L (some P) rand with
    | error e => rfl
    | ok mv =>
      dsimp only
      rw [consensusStats_one]
      cases consensusStats L P mv (rootMeanAnnotations L) with
      | error e => rfl
      | ok r =>
        dsimp only [Except.map]
        rw [consensusStats_one]
        rfl

theorem avgProbs_perm (P : Fin R → Fin n → Fin K → ℝ) (σ : Equiv.Perm (Fin R)) :
    avgProbs (fun r => P (σ r)) = avgProbs P := by
  funext i k
  unfold avgProbs
  rw [Equiv.sum_comp σ (fun r => P r i k)]

/-- The result with the models in another order. -/
def permResult (σ : Equiv.Perm (Fin R)) (r : ResultEnsemble n M K R) : ResultEnsemble n M K R :=
  { r with posterior := { r.posterior with modelWeight := fun j => r.posterior.modelWeight (σ j) } }

theorem consensusStats_perm [NeZero K] (L : Annotations n M K) (P : Fin R → Fin n → Fin K → ℝ)
    (σ : Equiv.Perm (Fin R)) (c : Fin n → Fin K) :
    consensusStatsEnsemble L (fun r => P (σ r)) c = (consensusStatsEnsemble L P c).map (permResult σ) := by
  have hpost : ∀ cl (mw : Fin R → ℝ) aw, posteriorEnsemble L (fun r => P (σ r)) cl (fun r => mw (σ r)) aw =
      posteriorEnsemble L P cl mw aw := by
    intro cl mw aw
    funext i k
    unfold posteriorEnsemble
    dsimp only
    rw [Equiv.sum_comp σ (fun r => P r i k * mw r), Equiv.sum_comp σ mw]
  unfold consensusStatsEnsemble postEnsemble
  generalize mean? ((multiRows L).map (agreementWithConsensus (F := ℝ) L c)) = m
  cases m with
  | none => rfl
  | some cl =>
    dsimp only
    by_cases hs : ∀ m, (agreementWithAnnotators (F := ℝ) L m).isSome
    · rw [dif_pos hs, dif_pos hs,
        hpost cl (fun r => modelWeight L c (P r) (rootMeanAnnotations L))]
      rfl
    · rw [dif_neg hs, dif_neg hs]; rfl

/-- **C85**: the order of the models does not matter. -/
theorem C85_model_order [NeZero K] (L : Annotations n M K) (P : Fin R → Fin n → Fin K → ℝ) (rand : Fin n → ℕ)
    (σ : Equiv.Perm (Fin R)) :
    labelQualityEnsemble L (fun r => P (σ r)) rand = (labelQualityEnsemble L P rand).map (permResult σ) := by
  unfold labelQualityEnsemble
  rw [avgProbs_perm]
  cases assertValidInputs L with
  | error e => rfl
  | ok _ =>
    dsimp only [bind, Except.bind]
    cases majorityVote L (some (avgProbs P)) rand with
    | error e => rfl
    | ok mv =>
      dsimp only
      rw [consensusStats_perm]
      cases consensusStatsEnsemble L P mv with
      | error e => rfl
      | ok r =>
        dsimp only [Except.map]
        rw [consensusStats_perm]
        rfl

/-- The calibration loop returns for valid annotations, and then all rows are distributions. -/
theorem calibrate_ok (isInt : Bool) (L : Annotations n M K) (P : Fin R → Fin n → Fin K → ℝ) (hn : 0 < n) (hK : K ≠ 1)
    (hv : ∀ i, ∃ m, L i m ≠ none) :
    ∃ T, calibrate isInt L P = .ok (T, fun r i => tempScale (T r) (P r i)) := by
  choose T hT using fun r => bestTemp_ok isInt L (P r) hn hK hv
  refine ⟨T, ?_⟩
  unfold calibrate
  rw [(collect_ok_iff _ T).mpr (fun r => (hT r).1)]
  rfl

/-- **C85**: the active learning scores of the labelled examples computed with an ensemble are in `[0, 1]`. -/
theorem C85_active_range [NeZero K] [NeZero R] (isInt : Bool) (L : Annotations n M K) (P : Fin R → Fin n → Fin K → ℝ)
    (rand : Fin n → ℕ) (hK : K ≠ 1) (hv : ValidAnnotations L) (hu : ∃ i, ∃! k, IsMode L i k) :
    ∃ a, activeLabeledEnsemble isInt L P rand = .ok a ∧ (∀ i, 0 ≤ a.scores i ∧ a.scores i ≤ 1) ∧
      (∀ r, 0 < a.modelWeight r) ∧ 0 < a.avgWeight := by
  have hn : 0 < n := by
    obtain ⟨i, -⟩ := hu
    exact lt_of_le_of_lt (Nat.zero_le _) i.isLt
  obtain ⟨T, hT⟩ := calibrate_ok isInt L P hn hK hv.1
  obtain ⟨r, hr, hd, hq, -, hmw, haw⟩ := labelQualityEnsemble_spec L (fun r i => tempScale (T r) (P r i)) rand hv
    (fun r i => (C82_distribution (T r) (P r i)).1) hu
  unfold activeLabeledEnsemble
  rw [if_neg (by
    obtain ⟨i, hi⟩ := hv.2.2.2
    intro h
    exact hi (by rw [← numAnnotations_eq]; exact h i)), hT]
  dsimp only [bind, Except.bind]
  rw [hr]
  refine ⟨_, rfl, fun i => ?_, hmw, ?_⟩
  · dsimp only
    obtain ⟨h1, h2⟩ := C22_score_between L r.quality r.posterior.annWeight _
      (Finset.sum_pos (fun r' _ => hmw r') ⟨0, Finset.mem_univ _⟩) (fun m => (haw m).1.le) i
    have hqr : 0 ≤ r.quality i ∧ r.quality i ≤ 1 := by
      rw [hq]; exact ⟨(hd i).1 _, dist_le_one _ (hd i) _⟩
    have hk := inv_K_range (K := K)
    exact ⟨le_trans (le_min hqr.1 hk.1) h1, le_trans h2 (max_le hqr.2 hk.2)⟩
  · dsimp only
    have hM : 0 < M := by have := hv.2.2.1; omega
    apply div_pos (Finset.sum_pos (fun m _ => (haw m).1) ⟨⟨0, hM⟩, Finset.mem_univ _⟩)
    exact_mod_cast hM

/-- **C85**: if every example has exactly one label, the probabilities are not calibrated and all models and annotators weigh the
same: with `R` models an example with label `k` scores `((R + 1) p + 1/K) / (R + 2)`, where `p` is the mean probability of `k`. -/
theorem C85_single_label [NeZero K] [NeZero R] (isInt : Bool) (L : Annotations n M K) (P : Fin R → Fin n → Fin K → ℝ)
    (rand : Fin n → ℕ) (hn : 0 < n) (h1 : ∀ i, numAnnotators L i = 1) (hm : ∀ m, ∃ i, L i m ≠ none)
    (hP : ∀ r i k, 0 ≤ P r i k ∧ P r i k ≤ 1) :
    ∃ a, activeLabeledEnsemble isInt L P rand = .ok a ∧ a.temp = (fun _ => 1) ∧ a.modelWeight = (fun _ => 1) ∧ a.avgWeight = 1 ∧
      a.array = P ∧ ∀ i m k, L i m = some k → a.scores i = ((R + 1) * ((∑ r, P r i k) / R) + 1 / K) / (R + 2) := by
  obtain ⟨c, hc, hcl⟩ := majorityVote_single L (some (avgProbs P)) rand h1
  have hrow : ∀ i, ∃ m, L i m ≠ none := fun i => by
    have : 0 < numAnnotators L i := by rw [h1]; exact Nat.one_pos
    obtain ⟨m, hm⟩ := Finset.card_pos.mp this
    exact ⟨m, by simpa using hm⟩
  have hM : 0 < M := by
    obtain ⟨m, -⟩ := hrow ⟨0, hn⟩
    exact lt_of_le_of_lt (Nat.zero_le _) m.isLt
  have hM' : (M : ℝ) ≠ 0 := by exact_mod_cast hM.ne'
  have hR : (0 : ℝ) < R := Nat.cast_pos.mpr (NeZero.pos R)
  have hval : assertValidSingle L = .ok () := by
    unfold assertValidSingle
    rw [if_neg (by push Not; exact hrow), if_neg (by push Not; exact hm)]
  have havg : ∀ i k, 0 ≤ avgProbs P i k ∧ avgProbs P i k ≤ 1 := by
    intro i k
    unfold avgProbs
    refine ⟨div_nonneg (Finset.sum_nonneg (fun r _ => (hP r i k).1)) hR.le, ?_⟩
    rw [div_le_one hR]
    calc ∑ r, P r i k ≤ ∑ _r : Fin R, (1 : ℝ) := Finset.sum_le_sum (fun r _ => (hP r i k).2)
      _ = R := by simp
  unfold activeLabeledEnsemble
  rw [if_pos (fun i => by rw [numAnnotations_eq, h1]), hval, hc]
  dsimp only [bind, Except.bind]
  rw [(checkReal_iff true c (avgProbs P)).mpr ⟨hn, Or.inl rfl, fun i k =>
    ⟨le_trans (by norm_num) (havg i k).1, le_trans (havg i k).2 (by norm_num)⟩⟩]
  refine ⟨_, rfl, rfl, rfl, ?_, rfl, fun i m k hk => ?_⟩
  · dsimp only
    simp only [Finset.sum_const, Finset.card_univ, Fintype.card_fin, nsmul_eq_mul, mul_one]
    exact div_self hM'
  · have hsum : (∑ m, if (L i m).isSome then (1 : ℝ) else 0) = 1 := by
      rw [Finset.sum_boole]
      have : Finset.univ.filter (fun m => (L i m).isSome = true) = Finset.univ.filter (fun m => L i m ≠ none) := by
        ext m; simp [Option.isSome_iff_ne_none]
      rw [this]
      have := h1 i
      unfold numAnnotators at this
      rw [this, Nat.cast_one]
    unfold activeScore selfConfidence
    dsimp only
    rw [hsum, hcl i m k hk]
    simp only [Finset.sum_const, Finset.card_univ, Fintype.card_fin, nsmul_eq_mul, mul_one]
    rw [div_self hM']
    unfold avgProbs
    congr 1 <;> ring

example : ∃ L : Annotations 2 2 3, (∀ i, numAnnotators L i = 1) ∧ ∀ m, ∃ i, L i m ≠ none :=
  ⟨![![some 2, none], ![none, some 1]], by decide +kernel, by decide +kernel⟩

/-- **C85**: those of the unlabelled examples as well, whenever there is a result. -/
theorem C85_active_unlabeled_range [NeZero K] [NeZero R] (U : Fin R → Fin u → Fin K → ℝ) (T mw : Fin R → ℝ) (avg : ℝ)
    (rand : Fin u → ℕ) (hmw : ∀ r, 0 < mw r) (havg : 0 ≤ avg) (x : (Fin u → ℝ) × (Fin R → Fin u → Fin K → ℝ))
    (h : activeUnlabeledEnsemble U T mw avg rand = .ok x) (i : Fin u) : 0 < x.1 i ∧ x.1 i ≤ 1 := by
  unfold activeUnlabeledEnsemble at h
  dsimp only at h
  generalize assertValidInputs _ = v at h
  cases v with
  | error e => cases h
  | ok _ =>
    generalize majorityVote (F := ℝ) _ _ _ = m at h
    cases m with
    | error e => cases h
    | ok c =>
      cases h
      dsimp only
      unfold selfConfidence
      have hs : 0 < ∑ r, mw r := Finset.sum_pos (fun r _ => hmw r) ⟨0, Finset.mem_univ _⟩
      have hk := inv_K_range (K := K)
      have h1 : ∑ r, tempScale (T r) (U r i) (c i) * mw r ≤ ∑ r, mw r := Finset.sum_le_sum fun r _ => by
        have := dist_le_one _ (C82_distribution (T r) (U r i)).1 (c i)
        nlinarith [hmw r]
      have h2 : 0 < ∑ r, tempScale (T r) (U r i) (c i) * mw r :=
        Finset.sum_pos (fun r _ => mul_pos ((C82_distribution (T r) (U r i)).2 _) (hmw r)) ⟨0, Finset.mem_univ _⟩
      have h3 := mul_nonneg hk.1 havg
      have h4 := mul_le_mul_of_nonneg_right hk.2 havg
      exact ⟨by positivity, by rw [div_le_one (by positivity)]; linarith⟩

/-- **C85**: the score of an unlabelled example. Each model is calibrated with its temperature; some class `c` that most
models predict gets the mean of the models' probabilities and of the uniform distribution, with the weights of the
models and of the annotators. -/
theorem C85_unlabeled_score [NeZero K] [NeZero R] (U : Fin R → Fin u → Fin K → ℝ) (T mw : Fin R → ℝ) (avg : ℝ)
    (rand : Fin u → ℕ) (x : (Fin u → ℝ) × (Fin R → Fin u → Fin K → ℝ))
    (h : activeUnlabeledEnsemble U T mw avg rand = .ok x) (h0 : (∑ r, mw r) + avg ≠ 0) (i : Fin u) :
    ∃ c : Fin K,
      (∀ k : Fin K, (Finset.univ.filter (fun r => argmax (tempScale (T r) (U r i)) = k)).card ≤
        (Finset.univ.filter (fun r => argmax (tempScale (T r) (U r i)) = c)).card) ∧
      x.1 i * ((∑ r, mw r) + avg) = (∑ r, mw r * tempScale (T r) (U r i) c) + avg * (1 / (K : ℝ)) := by
  classical
  unfold activeUnlabeledEnsemble at h
  dsimp only at h
  generalize assertValidInputs _ = v at h
  cases v with
  | error e => cases h
  | ok _ =>
    cases hm : majorityVote (F := ℝ) (fun (i : Fin u) (r : Fin R) => some (argmax (tempScale (T r) (U r i))))
        (some (avgProbs fun r i => tempScale (T r) (U r i))) rand with
    | error e => rw [hm] at h; cases h
    | ok c =>
      rw [hm] at h
      cases h
      have hmode := (mem_modes _ _ _).mp
        (afterFrequency_subset _ _ i (afterAnnotators_subset _ _ i (majorityVote_mem hm i)))
      refine ⟨c i, fun k => ?_, ?_⟩
      · have := hmode k
        simpa [numVotes] using this
      · dsimp only [selfConfidence]
        rw [div_mul_cancel₀ _ h0, mul_comm avg]
        congr 1
        exact Finset.sum_congr rfl fun r _ => mul_comm _ _

/-- **C85**: at least two models that predict the same class for each of the unlabelled examples (of which there is at
least one) give a result, whatever the temperatures and the weights. -/
theorem C85_agreeing_models [NeZero K] (U : Fin R → Fin u → Fin K → ℝ) (T mw : Fin R → ℝ) (avg : ℝ)
    (rand : Fin u → ℕ) (hR : 2 ≤ R) (hu : 0 < u) (c : Fin u → Fin K)
    (hc : ∀ r i, argmax (tempScale (T r) (U r i)) = c i) :
    ∃ x, activeUnlabeledEnsemble U T mw avg rand = .ok x ∧
      ∀ i, x.1 i = ((∑ r, tempScale (T r) (U r i) (c i) * mw r) + 1 / (K : ℝ) * avg) / ((∑ r, mw r) + avg) := by
  have hR0 : 0 < R := by omega
  set L : Annotations u R K := fun i _ => some (c i) with hL
  have hvotes : (fun (i : Fin u) (r : Fin R) => some (argmax (tempScale (T r) (U r i)))) = L := by
    funext i r; rw [hc r i]
  have hv : ValidAnnotations L := by
    refine ⟨fun i => ⟨⟨0, hR0⟩, by simp [hL]⟩, fun m => ⟨⟨0, hu⟩, by simp [hL]⟩, hR, ⟨0, hu⟩, ?_⟩
    simp [hL, numAnnotators]
    omega
  have hm : ∀ i k, IsMode L i k ↔ k = c i := by
    intro i k
    have hn : ∀ k, numVotes L i k = if k = c i then R else 0 := by
      intro k
      unfold numVotes
      by_cases hk : k = c i
      · rw [if_pos hk, hk]; simp [hL]
      · rw [if_neg hk]; simp [hL, Ne.symm hk]
    constructor
    · intro h
      by_contra hk
      have := h (c i)
      rw [hn, hn, if_pos rfl, if_neg hk] at this
      omega
    · rintro rfl j
      rw [hn, hn, if_pos rfl]
      split_ifs <;> omega
  have hmodes : ∀ i, (modes L i).length = 1 := fun i =>
    (length_modes_eq_one L i).mpr ⟨c i, (hm i _).mpr rfl, fun j hj => (hm i j).mp hj⟩
  have hpos : ∀ i, 0 < (afterAnnotators L (some (avgProbs fun r i => tempScale (T r) (U r i))) i).length := fun i => by
    rw [afterAnnotators_of_unique L _ i (hmodes i), hmodes i]; exact Nat.one_pos
  obtain ⟨d, hd⟩ : ∃ d, majorityVote L (some (avgProbs fun r i => tempScale (T r) (U r i))) rand = .ok d := by
    unfold majorityVote; rw [dif_pos hpos]; exact ⟨_, rfl⟩
  have hdc : ∀ i, d i = c i := fun i => (hm i _).mp ((mem_modes _ _ _).mp (by
    have := majorityVote_mem hd i
    rwa [afterAnnotators_of_unique L _ i (hmodes i)] at this))
  unfold activeUnlabeledEnsemble
  dsimp only
  rw [hvotes, (assertValidInputs_iff _).mpr hv]
  dsimp only [bind, Except.bind]
  rw [hd]
  refine ⟨_, rfl, fun i => ?_⟩
  dsimp only [selfConfidence]
  rw [hdc i]

/-- Two equal models that give class `0` the probability `3/4` of a single unlabelled example: a score of
`(3/4 + 3/4 + 1/2) / 3 = 2/3`. -/
example (rand : Fin 1 → ℕ) : ∃ x, activeUnlabeledEnsemble (fun (_ : Fin 2) (_ : Fin 1) => rowOf 3) (fun _ => 1)
    (fun _ => 1) 1 rand = .ok x ∧ x.1 0 = 2 / 3 := by
  have h1 : tempScale 1 (rowOf 3) = rowOf 3 := C82_identity _ (rowOf_dist 3 (by norm_num)) (fun k => by
    fin_cases k <;> simp [rowOf] <;> norm_num)
  obtain ⟨x, hx, hs⟩ := C85_agreeing_models (fun (_ : Fin 2) (_ : Fin 1) => rowOf 3) (fun _ => 1) (fun _ => 1) 1 rand
    le_rfl Nat.one_pos (fun _ => argmax (rowOf 3)) (fun _ _ => by rw [h1])
  refine ⟨x, hx, ?_⟩
  have ha : argmax (rowOf 3) = 0 := by
    rw [argmax_eq_iff]
    refine ⟨fun j => ?_, fun j hj => absurd hj (by simp)⟩
    fin_cases j <;> (simp [rowOf]; try norm_num)
  rw [hs 0, h1, ha]
  simp [rowOf]
  norm_num

/-- **C85**: refuted for unlabelled examples. An ensemble of one model is refused with the message that the labels
must have more than one column, whatever the probabilities, although `get_active_learning_scores` accepts them. -/
theorem C85_not_one_model [NeZero K] (isInt : Bool) (U : Fin u → Fin K → ℝ) (rand : Fin n → ℕ) (randU : Fin u → ℕ)
    (hu : 0 < u) :
    (∃ e, activeLearningScoresEnsemble isInt (none : Option (Annotations n M K)) none (some (fun _ : Fin 1 => U)) rand
      randU = .error e) ∧
    ∃ x, activeLearningScores isInt (none : Option (Annotations n M K)) none (some U) rand = .ok x := by
  refine ⟨⟨"labels_multiannotator must have more than one column", ?_⟩, _, rfl⟩
  unfold activeLearningScoresEnsemble activeUnlabeledEnsemble assertValidInputs
  dsimp only
  rw [if_neg (by simp), if_neg (by push Not; exact fun _ => ⟨⟨0, hu⟩, by simp⟩), if_pos le_rfl]
  rfl

/-- The two models of the next theorem. -/
noncomputable def exModels : Fin 2 → Fin 1 → Fin 2 → ℝ := ![fun _ => rowOf 3, fun _ => rowOf (1 / 3)]

theorem exModels_dist (r : Fin 2) (i : Fin 1) : IsDistribution (exModels r i) := by
  fin_cases r
  · exact rowOf_dist 3 (by norm_num)
  · exact rowOf_dist (1 / 3) (by norm_num)

/-- What the two models predict. -/
def exOpinions : Annotations 1 2 2 := fun _ r => some r

theorem exOpinions_fail (P : Fin 1 → Fin 2 → ℝ) (hP : P 0 0 = P 0 1) (rand : Fin 1 → ℕ) :
    ∃ e, majorityVote exOpinions (some P) rand = .error e := by
  have hm : modes exOpinions 0 = [0, 1] := by decide +kernel
  have h1 : afterPredProbs exOpinions (some P) 0 = [0, 1] := by
    show tieBreak (P 0) (modes exOpinions 0) = _
    unfold tieBreak keepMax
    rw [hm]
    simp [hP]
  have h2 : afterFrequency exOpinions (some P) 0 = [0, 1] := by
    have h0 : classFrequency exOpinions 0 = 1 := by decide +kernel
    have h3 : classFrequency exOpinions 1 = 1 := by decide +kernel
    unfold afterFrequency tieBreak keepMax
    rw [h1]
    simp [h0, h3]
  have hn : nontiedIdx exOpinions = [] := by decide +kernel
  have hi : ∀ m, initialAgreement (F := ℝ) exOpinions m = none := fun m => by
    unfold initialAgreement; rw [hn]; rfl
  have hj : ∀ m, imputedAgreement (F := ℝ) exOpinions m = none := fun m => by
    unfold imputedAgreement; simp [hi]
  have hw0 : (List.finRange 2).filter (fun m => exOpinions 0 m == some 0) = [0] := by decide +kernel
  have hs : annotatorsScore (F := ℝ) exOpinions 0 0 = none := by
    unfold annotatorsScore
    simp only [hw0]
    simp [hj]
  have h3 : afterAnnotators exOpinions (some P) 0 = [] := by
    unfold afterAnnotators
    simp only [h2]
    rw [if_neg (by decide), List.filter_eq_nil_iff]
    intro k _
    simp [hs, leNaN]
  unfold majorityVote
  rw [dif_neg (by push Not; exact ⟨0, by rw [h3]; simp⟩)]
  exact ⟨_, rfl⟩

/-- **C85**: refuted for unlabelled examples on which the models disagree: two models with opposite opinions on the
only example end in the exception of `np.random.choice`. -/
theorem C85_not_disagreeing_models : ∃ U : Fin 2 → Fin 1 → Fin 2 → ℝ, (∀ r i, IsDistribution (U r i)) ∧
    ∀ (rand : Fin 1 → ℕ) (randU : Fin 1 → ℕ), ∃ e, activeLearningScoresEnsemble (n := 1) (M := 1) true none none
      (some U) rand randU = .error e := by
  refine ⟨exModels, exModels_dist, fun rand randU => ?_⟩
  have hid : ∀ r i, tempScale 1 (exModels r i) = exModels r i := by
    intro r i
    refine C82_identity _ (exModels_dist r i) (fun k => ?_)
    fin_cases r <;> fin_cases k <;> simp [exModels, rowOf] <;> norm_num
  have hvote : (fun (i : Fin 1) (r : Fin 2) => some (argmax (exModels r i))) = exOpinions := by
    funext i r
    congr 1
    rw [argmax_eq_iff]
    fin_cases r <;> refine ⟨fun j => ?_, fun j hj => ?_⟩ <;> fin_cases j <;> simp [exModels, rowOf] at * <;> norm_num
  obtain ⟨e, he⟩ := exOpinions_fail (avgProbs exModels) (by
    unfold avgProbs; simp [Fin.sum_univ_two, exModels, rowOf]; norm_num) randU
  refine ⟨e, ?_⟩
  unfold activeLearningScoresEnsemble activeUnlabeledEnsemble
  simp only [hid]
  rw [hvote, he, show assertValidInputs exOpinions = .ok () by decide +kernel]
  rfl

/-! ## C86 -/

/-- **C86**: refuted. Two annotators agree with the only model: calling
`get_label_quality_multiannotator_ensemble(..., calibrate_probs=True)` overwrites the caller's `pred_probs`. -/
theorem C86_not_unchanged (isInt : Bool) : ∃ (L : Annotations 1 2 2) (P : Fin 1 → Fin 1 → Fin 2 → ℝ),
    ValidAnnotations L ∧ (∀ r i, IsDistribution (P r i)) ∧ ∀ rand, ∃ r P',
      labelQualityEnsembleCall isInt true L P rand = .ok (r, P') ∧ P' ≠ P := by
  have hv : ValidAnnotations (bothLabel 0) := (assertValidInputs_iff _).mp (by decide +kernel)
  have hu : ∃ i, ∃! k, IsMode (bothLabel 0) i k := ⟨0, by rw [← length_modes_eq_one]; decide +kernel⟩
  obtain ⟨T, hT, hne⟩ := calibrate_changes isInt
  refine ⟨bothLabel 0, fun _ _ => rowOf 3, hv, fun _ _ => rowOf_dist 3 (by norm_num), fun rand => ?_⟩
  obtain ⟨r, hr, -⟩ := labelQualityEnsemble_spec (bothLabel 0) (fun (r : Fin 1) _ => tempScale (T r) (rowOf 3)) rand hv
    (fun r i => (C82_distribution (T r) _).1) hu
  refine ⟨r, _, ?_, hne⟩
  unfold labelQualityEnsembleCall
  rw [(assertValidInputs_iff _).mpr hv, if_pos rfl, hT]
  simp [bind, Except.bind, Except.map, hr, pure, Except.pure]

/-- **C86**: refuted. `get_active_learning_scores_ensemble` overwrites `pred_probs` in the same situation, and hence
a second call with the same array starts from other probabilities. -/
theorem C86_not_unchanged_active (isInt : Bool) : ∃ (L : Annotations 1 2 2) (P : Fin 1 → Fin 1 → Fin 2 → ℝ),
    ValidAnnotations L ∧ (∀ r i, IsDistribution (P r i)) ∧ ∀ (rand : Fin 1 → ℕ) (randU : Fin u → ℕ), ∃ c,
      activeLearningScoresEnsemble isInt (some L) (some P) (none : Option (Fin 1 → Fin u → Fin 2 → ℝ)) rand randU =
        .ok c ∧ c.P ≠ some P := by
  have hv : ValidAnnotations (bothLabel 0) := (assertValidInputs_iff _).mp (by decide +kernel)
  have hu : ∃ i, ∃! k, IsMode (bothLabel 0) i k := ⟨0, by rw [← length_modes_eq_one]; decide +kernel⟩
  obtain ⟨T, hT, hne⟩ := calibrate_changes isInt
  refine ⟨bothLabel 0, fun _ _ => rowOf 3, hv, fun _ _ => rowOf_dist 3 (by norm_num), fun rand randU => ?_⟩
  obtain ⟨r, hr, -⟩ := labelQualityEnsemble_spec (bothLabel 0) (fun (r : Fin 1) _ => tempScale (T r) (rowOf 3)) rand hv
    (fun r i => (C82_distribution (T r) _).1) hu
  unfold activeLearningScoresEnsemble activeLabeledEnsemble
  dsimp only
  rw [if_neg (by decide +kernel), hT]
  dsimp only [bind, Except.bind]
  rw [hr]
  exact ⟨_, rfl, fun h => hne (Option.some.inj h)⟩

/-- `C86_fitted_temperatures` on a case: two annotators, two models that agree, the same data unlabelled. -/
example (rand : Fin 1 → ℕ) (randU : Fin 1 → ℕ) : ∃ c, activeLearningScoresEnsemble true (some (bothLabel 0))
    (some (fun (_ : Fin 2) (_ : Fin 1) => rowOf 3)) (some (fun (_ : Fin 2) (_ : Fin 1) => rowOf 3)) rand randU =
      .ok c ∧ c.P = c.U := by
  have hv : ValidAnnotations (bothLabel 0) := (assertValidInputs_iff _).mp (by decide +kernel)
  have hu : ∃ i, ∃! k, IsMode (bothLabel 0) i k := ⟨0, by rw [← length_modes_eq_one]; decide +kernel⟩
  obtain ⟨a, ha, -⟩ := C85_active_range true (bothLabel 0) (fun (_ : Fin 2) (_ : Fin 1) => rowOf 3) rand (by decide) hv hu
  have hord : ∀ T, argmax (tempScale T (rowOf 3)) = 0 := by
    intro T
    rw [argmax_eq_iff]
    refine ⟨fun j => ?_, fun j hj => absurd hj (by simp)⟩
    rw [← not_lt, C82_order, not_lt]
    refine max_le_max ?_ le_rfl
    fin_cases j <;> (simp [rowOf]; try norm_num)
  obtain ⟨x, hx, -⟩ := C85_agreeing_models (fun (_ : Fin 2) (_ : Fin 1) => rowOf 3) a.temp a.modelWeight a.avgWeight
    randU le_rfl Nat.one_pos (fun _ => 0) (fun r _ => hord _)
  have h : activeLearningScoresEnsemble true (some (bothLabel 0)) (some (fun (_ : Fin 2) (_ : Fin 1) => rowOf 3))
      (some (fun (_ : Fin 2) (_ : Fin 1) => rowOf 3)) rand randU =
      .ok { labeled := some a.scores, unlabeled := some x.1, P := some a.array, U := some x.2 } := by
    unfold activeLearningScoresEnsemble
    dsimp only
    rw [ha]
    dsimp only [bind, Except.bind]
    rw [hx]
    rfl
  refine ⟨_, h, ?_⟩
  obtain ⟨T, -, h1, h2⟩ := C86_fitted_temperatures true (bothLabel 0) _ _ rand randU ⟨0, by decide +kernel⟩ _ h
  rw [h1, h2]

end Cleanlab.Props
