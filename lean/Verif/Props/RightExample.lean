import Verif.Props.CleanTwice

/-!
# C198, C199: adding an example whose label is right
-/

namespace Cleanlab.Props

open Np Cleanlab.Util Cleanlab.Rank Cleanlab.Count Cleanlab.Filter Cleanlab.Spec

variable {n K : ℕ}

/-- The labels with one more example at the end. -/
def oneMore (labels : Fin n → Fin K) (z : Fin K) : Fin (n + 1) → Fin K := Fin.snoc (α := fun _ => Fin K) labels z

/-- The predicted probabilities with one more example at the end. -/
def oneMoreRow (P : Fin n → Fin K → ℚ) (q : Fin K → ℚ) : Fin (n + 1) → Fin K → ℚ := Fin.snoc (α := fun _ => Fin K → ℚ) P q

theorem oneMore_old (labels : Fin n → Fin K) (z : Fin K) (i : Fin n) : oneMore labels z i.castSucc = labels i := by
  unfold oneMore; exact Fin.snoc_castSucc (α := fun _ => Fin K) z labels i

theorem oneMore_new (labels : Fin n → Fin K) (z : Fin K) : oneMore labels z (Fin.last n) = z := by
  unfold oneMore; exact Fin.snoc_last (α := fun _ => Fin K) z labels

theorem oneMoreRow_old (P : Fin n → Fin K → ℚ) (q : Fin K → ℚ) (i : Fin n) : oneMoreRow P q i.castSucc = P i := by
  unfold oneMoreRow; exact Fin.snoc_castSucc (α := fun _ => Fin K → ℚ) q P i

theorem oneMoreRow_new (P : Fin n → Fin K → ℚ) (q : Fin K → ℚ) : oneMoreRow P q (Fin.last n) = q := by
  unfold oneMoreRow; exact Fin.snoc_last (α := fun _ => Fin K → ℚ) q P

theorem sum_oneMore (labels : Fin n → Fin K) (z k : Fin K) (f : Fin (n + 1) → ℚ) :
    ∑ i ∈ Finset.univ.filter (fun i => oneMore labels z i = k), f i =
      ∑ i ∈ Finset.univ.filter (fun i => labels i = k), f i.castSucc + if z = k then f (Fin.last n) else 0 := by
  rw [Finset.sum_filter, Finset.sum_filter, Fin.sum_univ_castSucc]
  simp only [oneMore_old, oneMore_new]

theorem numGiven_oneMore (labels : Fin n → Fin K) (z k : Fin K) :
    (numGiven (oneMore labels z) k : ℚ) = numGiven labels k + if z = k then 1 else 0 := by
  have := sum_oneMore labels z k (fun _ => 1)
  simp only [Finset.sum_const, nsmul_eq_mul, mul_one] at this
  exact this

/-- The mean of the class of the new example does not fall if the new example is not below it; the others stay. -/
theorem mean_oneMore (labels : Fin n → Fin K) (P : Fin n → Fin K → ℚ) (z : Fin K) (q : Fin K → ℚ)
    (hz : ∃ i, labels i = z) (hq : meanSelfConfidence labels P z ≤ q z) (k : Fin K) :
    meanSelfConfidence labels P k ≤ meanSelfConfidence (oneMore labels z) (oneMoreRow P q) k ∧
      (k ≠ z → meanSelfConfidence (oneMore labels z) (oneMoreRow P q) k = meanSelfConfidence labels P k) := by
  have hne : k ≠ z → meanSelfConfidence (oneMore labels z) (oneMoreRow P q) k = meanSelfConfidence labels P k := by
    intro h
    unfold meanSelfConfidence
    rw [sum_oneMore, numGiven_oneMore, if_neg (Ne.symm h), if_neg (Ne.symm h), add_zero, add_zero]
    simp only [oneMoreRow_old]
  refine ⟨?_, hne⟩
  by_cases h : k = z
  swap
  · exact (hne h).ge
  subst h
  have hN : (0 : ℚ) < numGiven labels k := by
    obtain ⟨i, hi⟩ := hz
    exact Nat.cast_pos.mpr (Finset.card_pos.mpr ⟨i, Finset.mem_filter.mpr ⟨Finset.mem_univ _, hi⟩⟩)
  unfold meanSelfConfidence at hq ⊢
  rw [sum_oneMore, numGiven_oneMore, if_pos rfl, if_pos rfl]
  simp only [oneMoreRow_old, oneMoreRow_new]
  rw [div_le_iff₀ hN] at hq
  rw [div_le_div_iff₀ hN (by linarith)]
  nlinarith

theorem threshold_oneMore (labels : Fin n → Fin K) (P : Fin n → Fin K → ℚ) (z : Fin K) (q : Fin K → ℚ)
    (hz : ∃ i, labels i = z) (hq : meanSelfConfidence labels P z ≤ q z) (k : Fin K) :
    getConfidentThresholds labels P k ≤ getConfidentThresholds (oneMore labels z) (oneMoreRow P q) k := by
  unfold getConfidentThresholds
  apply max_le_max _ le_rfl
  obtain ⟨hle, heq⟩ := mean_oneMore labels P z q hz hq k
  by_cases h : ∃ i, labels i = k
  · have h' : ∃ i, oneMore labels z i = k := by
      obtain ⟨i, hi⟩ := h
      exact ⟨i.castSucc, by rw [oneMore_old, hi]⟩
    rw [if_pos ((mem_ofFn_iff _ _).mpr h), if_pos ((mem_ofFn_iff _ _).mpr h'), classMean_eq, classMean_eq]
    exact hle
  · have h' : ¬ ∃ i, oneMore labels z i = k := by
      rintro ⟨i, hi⟩
      induction i using Fin.lastCases with
      | last =>
        rw [oneMore_new] at hi
        exact h (hi ▸ hz)
      | cast i =>
        rw [oneMore_old] at hi
        exact h ⟨i, hi⟩
    rw [if_neg (fun hh => h ((mem_ofFn_iff _ _).mp hh)), if_neg (fun hh => h' ((mem_ofFn_iff _ _).mp hh))]

theorem reduce_old [NeZero K] (labels : Fin n → Fin K) (P : Fin n → Fin K → ℚ) (z : Fin K) (q : Fin K → ℚ) (i : Fin n) :
    reduceIssues (oneMore labels z) (oneMoreRow P q) i.castSucc = reduceIssues labels P i := by
  unfold reduceIssues
  rw [oneMore_old, oneMoreRow_old]

/-- **C198.** An example is added to a class that has examples already, its label is its most probable class, and the model is
at least as sure of it as of the examples of this class on average. Then `confident_learning` does not flag the new example, and
every other example that it flags was flagged before. -/
theorem C198_confident (A : ArgSort ℚ) [NeZero K] (labels : Fin n → Fin K) (P : Fin n → Fin K → ℚ) (z : Fin K) (q : Fin K → ℚ)
    (hz : ∃ i, labels i = z) (hq : meanSelfConfidence labels P z ≤ q z) (hmax : ∀ k, q k ≤ q z)
    (args : Args K) (hf : args.filterBy = .confidentLearning) (hn : args.numToRemove = none) :
    ∃ mask mask', findLabelIssues A labels P args = .ok mask ∧
      findLabelIssues A (oneMore labels z) (oneMoreRow P q) args = .ok mask' ∧ mask' (Fin.last n) = false ∧
      ∀ i : Fin n, mask' i.castSucc = true → mask i = true := by
  obtain ⟨m1, h1, hi1⟩ := confident_flag_iff A labels P args hf hn
  obtain ⟨m2, h2, hi2⟩ := confident_flag_iff A (oneMore labels z) (oneMoreRow P q) args hf hn
  refine ⟨m1, m2, h1, h2, ?_, fun i hi => ?_⟩
  · rw [← Bool.not_eq_true]
    intro h
    obtain ⟨j, -, hj⟩ := reduceIssues_false_iff _ _ _ ((hi2 _).mp h).1
    rw [oneMore_new, oneMoreRow_new] at hj
    have := hmax j
    linarith
  · rw [hi2, reduce_old, oneMore_old] at hi
    rw [hi1]
    obtain ⟨hr, j, hj, hreach⟩ := hi
    refine ⟨hr, j, hj, ?_⟩
    unfold Reaches at hreach ⊢
    rw [oneMoreRow_old] at hreach
    exact le_trans (threshold_oneMore labels P z q hz hq j) hreach

/-- **C198.** With `predicted_neq_given` nothing changes at all for the other examples, whatever is added. -/
theorem C198_predicted (A : ArgSort ℚ) [NeZero K] (labels : Fin n → Fin K) (P : Fin n → Fin K → ℚ) (z : Fin K) (q : Fin K → ℚ)
    (args : Args K) (hf : args.filterBy = .predictedNeqGiven) (hn : args.numToRemove = none) :
    ∃ mask mask', findLabelIssues A labels P args = .ok mask ∧
      findLabelIssues A (oneMore labels z) (oneMoreRow P q) args = .ok mask' ∧ ((∀ k, q k ≤ q z) → mask' (Fin.last n) = false) ∧
      ∀ i : Fin n, mask' i.castSucc = mask i := by
  have h0 := fun {n' : ℕ} (labels : Fin n' → Fin K) (P : Fin n' → Fin K → ℚ) =>
    findLabelIssues_of_raw A labels P args (by rw [hf]; decide) (Or.inl hn) _ (by unfold rawMask; rw [hf])
  refine ⟨_, _, h0 labels P, h0 (oneMore labels z) (oneMoreRow P q), fun hmax => ?_, fun i => ?_⟩
  · have : reduceIssues (oneMore labels z) (oneMoreRow P q) (Fin.last n) = true := by
      rw [← Bool.not_eq_false]
      intro h
      obtain ⟨j, -, hj⟩ := reduceIssues_false_iff _ _ _ h
      rw [oneMore_new, oneMoreRow_new] at hj
      have := hmax j
      linarith
    simp [this]
  · simp only [reduce_old, oneMore_old, oneMoreRow_old]

/-- **C199 (partial).** With two classes, the default filter and `prune_by_class`: if nothing is flagged, then nothing is flagged
after adding an example to a class of at least two, whose label is its most probable class and of which the model is at least as
sure as of the examples of this class on average. Missing: data in which something is flagged already, see `C199_not_right`. -/
theorem C199_clean_partial (A : ArgSort ℚ) (labels : Fin n → Fin 2) (P : Fin n → Fin 2 → ℚ) (hP : ∀ i, IsDistribution (P i))
    (z : Fin 2) (q : Fin 2 → ℚ) (hqd : IsDistribution q) (hz : 1 < numGiven labels z) (hq : meanSelfConfidence labels P z ≤ q z)
    (hmax : ∀ k, q k ≤ q z) (f : FilterBy) (hf : f = .pruneByNoiseRate ∨ f = .pruneByClass)
    (hm : findLabelIssues A labels P { filterBy := f } = .ok (fun _ => false)) :
    findLabelIssues A (oneMore labels z) (oneMoreRow P q) { filterBy := f } = .ok (fun _ => false) := by
  have hz' : ∃ i, labels i = z := by
    obtain ⟨i, hi⟩ := Finset.card_pos.mp (lt_trans Nat.zero_lt_one hz)
    exact ⟨i, (Finset.mem_filter.mp hi).2⟩
  have hP' : ∀ i, IsDistribution (oneMoreRow P q i) := fun i => by
    induction i using Fin.lastCases with
    | last => rw [oneMoreRow_new]; exact hqd
    | cast i => rw [oneMoreRow_old]; exact hP i
  have hthr := threshold_oneMore labels P z q hz' hq
  obtain ⟨raw, h1, hshort, hraw⟩ := prune_two (labels := labels) A hP { filterBy := f } hf rfl rfl rfl rfl
  obtain ⟨raw', h1', hshort', hraw'⟩ := prune_two (labels := oneMore labels z) A hP' { filterBy := f } hf rfl rfl rfl rfl
  rw [h1] at hm
  have hnone : ∀ i, (raw i && !(reduceIssues labels P i)) = false := fun i => congrFun (Except.ok.inj hm) i
  rw [h1']
  congr 1
  funext r
  rw [Bool.eq_false_iff]
  intro hr
  simp only [Bool.and_eq_true, Bool.not_eq_true'] at hr
  obtain ⟨hr1, hr2⟩ := hr
  induction r using Fin.lastCases with
  | last =>
    obtain ⟨j, -, hj⟩ := reduceIssues_false_iff _ _ _ hr2
    rw [oneMore_new, oneMoreRow_new] at hj
    have := hmax j
    linarith
  | cast i =>
    rw [reduce_old] at hr2
    obtain ⟨j, hjk⟩ : ∃ j, j ≠ labels i := ⟨1 - labels i, by generalize labels i = l; revert l; decide⟩
    have hN' : 1 < numGiven (oneMore labels z) (labels i) := by
      by_contra hc
      have := hshort' i.castSucc (by rw [oneMore_old]; exact not_lt.mp hc)
      rw [this] at hr1
      exact absurd hr1 (by simp)
    have hN : 1 < numGiven labels (labels i) := by
      by_cases hk : z = labels i
      · rw [← hk]; exact hz
      · have := numGiven_oneMore labels z (labels i)
        rw [if_neg hk, add_zero] at this
        have h2 : numGiven (oneMore labels z) (labels i) = numGiven labels (labels i) := by exact_mod_cast this
        rw [← h2]
        exact hN'
    obtain ⟨-, hall, hone⟩ := hraw j (labels i) hjk hN
    have hunc : ∀ s, labels s = labels i → ¬ Confused labels P j s := by
      by_cases hconf : ∀ s, labels s = labels i → Confused labels P j s
      · have h2 := hone hconf
        refine absurd (le_trans (Finset.card_le_card ?_) h2) (not_le.mpr hN)
        intro s hs
        simp only [Finset.mem_filter, Finset.mem_univ, true_and] at hs ⊢
        refine ⟨hs, ?_⟩
        have h3 := hnone s
        rw [(hconf s hs).1] at h3
        simpa using h3
      · push Not at hconf
        intro s hs hc
        have h3 := hnone s
        rw [hall hconf s hs hc, hc.1] at h3
        exact absurd h3 (by simp)
    have hnot : ¬ Reaches P (getConfidentThresholds labels P) i j := fun h => hunc i rfl ⟨hr2, h⟩
    have hhalf := (wrong_half hP hjk hr2).1
    have hzero : takenFor (oneMore labels z) (oneMoreRow P q) (labels i) j = 0 := by
      unfold takenFor
      rw [Finset.card_eq_zero, Finset.filter_eq_empty_iff]
      rintro s - ⟨hs, ⟨b, hb⟩, hg⟩
      have hreach : Reaches (oneMoreRow P q) (getConfidentThresholds (oneMore labels z) (oneMoreRow P q)) s j := by
        by_cases hbj : b = j
        · exact hbj ▸ hb
        · by_contra hnj
          rw [trueLabelGuess_of_unique (oneMoreRow P q) _ s b hb (fun l hl => by
            by_contra hlb
            have : l = j := by
              by_contra hlj
              exact hlb (other_unique hlj hbj)
            exact hnj (this ▸ hl))] at hg
          exact hbj hg
      unfold Reaches at hreach hnot
      have ht := hthr j
      induction s using Fin.lastCases with
      | last =>
        rw [oneMore_new] at hs
        rw [oneMoreRow_new] at hreach
        have hjz : j ≠ z := by rw [hs]; exact hjk
        have := hqd.2
        rw [sum_two hjz] at this
        have := hmax j
        linarith
      | cast s =>
        rw [oneMore_old] at hs
        rw [oneMoreRow_old] at hreach
        have hw := wrong_mono (labels := labels) hP (i := i) (s := s) hs hjk (by linarith) hr2
        refine hunc s hs ⟨hw, ?_⟩
        unfold Reaches
        linarith
    have := (hraw' j (labels i) hjk hN').1 hzero i.castSucc (oneMore_old labels z i)
    rw [this] at hr1
    exact absurd hr1 (by simp)

/-- Seven examples of two classes: of the first class three are just right, one is badly wrong and one (the fifth) is not clear. -/
def unclearLabels : Fin 7 → Fin 2 := ![0, 0, 0, 0, 0, 1, 1]

/-- Predicted probabilities of the seven examples. -/
def unclearProbs : Fin 7 → Fin 2 → ℚ :=
  ![![51/100, 49/100], ![51/100, 49/100], ![51/100, 49/100], ![1/10, 9/10], ![9/20, 11/20], ![3/10, 7/10], ![3/10, 7/10]]

/-- The masks of the three pruning filters, given the numbers of examples to remove. -/
theorem masks_of {n : ℕ} (labels : Fin n → Fin 2) (P : Fin n → Fin 2 → ℚ) (C : Fin 2 → Fin 2 → ℤ)
    (hc : ∀ f, keepAtLeastN (stableSort ℚ) (fun j k => Filter.usedJoint (stableSort ℚ) labels P { filterBy := f } k j) 1 1 = C)
    (f : FilterBy) (hf : f = .pruneByNoiseRate ∨ f = .pruneByClass ∨ f = .both) :
    ∃ raw : Fin n → Bool, findLabelIssues (stableSort ℚ) labels P { filterBy := f } = .ok (fun i => raw i && !(reduceIssues labels P i)) ∧
      ∀ i, (f = .pruneByNoiseRate → raw i = maskByCount (stableSort ℚ) labels P 1 C i) ∧
        (f = .pruneByClass → raw i = maskByClass (stableSort ℚ) labels P 1 C i) ∧
        (f = .both → raw i = (maskByCount (stableSort ℚ) labels P 1 C i && maskByClass (stableSort ℚ) labels P 1 C i)) := by
  rcases hf with rfl | rfl | rfl
  · refine ⟨_, findLabelIssues_of_raw (stableSort ℚ) labels P { filterBy := .pruneByNoiseRate } ⟨by decide, by decide⟩ (Or.inl rfl)
      (fun i => maskByCount (stableSort ℚ) labels P 1 C i) (by rw [← hc .pruneByNoiseRate]; rfl), fun i => ⟨fun _ => rfl, nofun, nofun⟩⟩
  · refine ⟨_, findLabelIssues_of_raw (stableSort ℚ) labels P { filterBy := .pruneByClass } ⟨by decide, by decide⟩ (Or.inl rfl)
      (fun i => maskByClass (stableSort ℚ) labels P 1 C i) (by rw [← hc .pruneByClass]; rfl), fun i => ⟨nofun, fun _ => rfl, nofun⟩⟩
  · refine ⟨_, findLabelIssues_of_raw (stableSort ℚ) labels P { filterBy := .both } ⟨by decide, by decide⟩ (Or.inl rfl)
      (fun i => maskByCount (stableSort ℚ) labels P 1 C i && maskByClass (stableSort ℚ) labels P 1 C i) (by rw [← hc .both]; rfl),
      fun i => ⟨nofun, nofun, fun _ => rfl⟩⟩

/-- **C199 (refuted as stated).** Two classes, seven examples, and an eighth one of the first class of which the model is certain:
the fifth example was not flagged without it and is flagged with it, by the default filter, by `prune_by_class` and by `both`. The
new example raises the threshold of its class above the probabilities of the three examples that are just right, which no longer
count as confidently right, so that half of the class is taken to be wrong. -/
theorem C199_not_right (f : FilterBy) (hf : f = .pruneByNoiseRate ∨ f = .pruneByClass ∨ f = .both) :
    ∃ (labels : Fin 7 → Fin 2) (P : Fin 7 → Fin 2 → ℚ) (z : Fin 2) (q : Fin 2 → ℚ), (∀ i, IsDistribution (P i)) ∧ IsDistribution q ∧
      1 < numGiven labels z ∧ q z = 1 ∧ ∃ mask mask', findLabelIssues (stableSort ℚ) labels P { filterBy := f } = .ok mask ∧
        findLabelIssues (stableSort ℚ) (oneMore labels z) (oneMoreRow P q) { filterBy := f } = .ok mask' ∧
        ∃ i : Fin 7, mask i = false ∧ mask' i.castSucc = true := by
  have h1 := fun f => removal_of (stableSort ℚ) unclearLabels unclearProbs ![52/125, 7/10] (by decide +kernel) ![![4, 1], ![0, 2]] (by decide +kernel)
    ![![4, 1], ![0, 2]] ![![4, 0], ![1, 2]] (by decide +kernel) (by decide +kernel) f
  have h2 := fun f => removal_of (stableSort ℚ) (oneMore unclearLabels 0) (oneMoreRow unclearProbs ![1, 0]) ![77/150, 7/10] (by decide +kernel)
    ![![1, 1], ![0, 2]] (by decide +kernel) ![![3, 3], ![0, 2]] ![![3, 0], ![3, 2]] (by decide +kernel) (by decide +kernel) f
  obtain ⟨raw, e1, hr1⟩ := masks_of _ _ _ h1 f hf
  obtain ⟨raw', e2, hr2⟩ := masks_of _ _ _ h2 f hf
  refine ⟨unclearLabels, unclearProbs, 0, ![1, 0], fun i => isDistribution_of (by revert i; decide +kernel),
    isDistribution_of (by decide +kernel), by decide +kernel, rfl, _, _, e1, e2, 4, ?_, ?_⟩
  · rcases hf with rfl | rfl | rfl
    · rw [(hr1 4).1 rfl]; decide +kernel
    · rw [(hr1 4).2.1 rfl]; decide +kernel
    · rw [(hr1 4).2.2 rfl]; decide +kernel
  · rcases hf with rfl | rfl | rfl
    · rw [(hr2 _).1 rfl]; decide +kernel
    · rw [(hr2 _).2.1 rfl]; decide +kernel
    · rw [(hr2 _).2.2 rfl]; decide +kernel

/-- The hypotheses of `C198_confident` hold for the same data: the fourth example is flagged before, and it is the only one that
may be flagged afterwards. -/
example : (∃ i, unclearLabels i = 0) ∧ meanSelfConfidence unclearLabels unclearProbs 0 ≤ (![1, 0] : Fin 2 → ℚ) 0 ∧
    ∃ mask, findLabelIssues (stableSort ℚ) unclearLabels unclearProbs { filterBy := .confidentLearning } = .ok mask ∧ mask 3 = true := by
  refine ⟨⟨0, rfl⟩, by decide +kernel, _, findLabelIssues_of_raw (stableSort ℚ) unclearLabels unclearProbs { filterBy := .confidentLearning }
    ⟨by decide, by decide⟩ (Or.inl rfl) _ rfl, by decide +kernel⟩

/-- Data to which `C199_clean_partial` applies: those without the wrong example. -/
example : let labels : Fin 4 → Fin 2 := ![0, 0, 1, 1]
    let P : Fin 4 → Fin 2 → ℚ := ![![3/5, 2/5], ![9/20, 11/20], ![3/10, 7/10], ![3/10, 7/10]]
    (∀ i, IsDistribution (P i)) ∧ 1 < numGiven labels 0 ∧
      findLabelIssues (stableSort ℚ) labels P { filterBy := .pruneByNoiseRate } = .ok (fun _ => false) := by
  refine ⟨fun i => isDistribution_of (by revert i; decide +kernel), by decide +kernel, ?_⟩
  have h1 := fun f => removal_of (stableSort ℚ) (![0, 0, 1, 1] : Fin 4 → Fin 2) ![![3/5, 2/5], ![9/20, 11/20], ![3/10, 7/10], ![3/10, 7/10]]
    ![21/40, 7/10] (by decide +kernel) ![![1, 0], ![0, 2]] (by decide +kernel)
    ![![2, 0], ![0, 2]] ![![2, 0], ![0, 2]] (by decide +kernel) (by decide +kernel) f
  obtain ⟨raw, e1, hr1⟩ := masks_of _ _ _ h1 .pruneByNoiseRate (Or.inl rfl)
  rw [e1]
  congr 1
  funext i
  rw [(hr1 i).1 rfl]
  revert i
  decide +kernel

end Cleanlab.Props
