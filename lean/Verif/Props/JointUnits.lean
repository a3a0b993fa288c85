import Verif.Props.Dataset
import Verif.Props.RightExample

/-!
# C241, C242: the unit in which a confident joint is given
-/

namespace Cleanlab.Props

open Np Cleanlab.Util Cleanlab.Count Cleanlab.Rank Cleanlab.Filter Cleanlab.Spec Cleanlab.Dataset

variable {n K : ℕ}

/-- The rows of a confident joint in other units: row `a` multiplied by `c a`. -/
def jointInUnits (c : Fin K → ℚ) (cj : Fin K → Fin K → ℚ) : Fin K → Fin K → ℚ := fun a b => c a * cj a b

/-- Each row of counts is empty or contains at least one example. -/
def CountRows (cj : Fin K → Fin K → ℚ) : Prop := ∀ a, (∀ b, cj a b = 0) ∨ 1 ≤ ∑ b, cj a b

theorem share_units {c : Fin K → ℚ} (hc : ∀ a, tinyValue ≤ c a) {cj : Fin K → Fin K → ℚ} (hcj : CountRows cj)
    (a b : Fin K) : jointInUnits c cj a b / clipTiny (∑ b', jointInUnits c cj a b') = cj a b / clipTiny (∑ b', cj a b') := by
  have hpos : 0 < c a := lt_of_lt_of_le tinyValue_pos (hc a)
  rcases hcj a with h | h
  · unfold jointInUnits
    rw [h b]
    simp
  · have hs : ∑ b', jointInUnits c cj a b' = c a * ∑ b', cj a b' := by unfold jointInUnits; rw [Finset.mul_sum]
    rw [hs, clipTiny_of_one_le h]
    have : clipTiny (c a * ∑ b', cj a b') = c a * ∑ b', cj a b' := by
      refine max_eq_left ((hc a).trans ?_)
      exact le_mul_of_one_le_right hpos.le h
    rw [this]
    unfold jointInUnits
    exact mul_div_mul_left _ _ hpos.ne'

/-- **C241.** Calibration to the given labels looks at the proportions within each row of the confident joint only. -/
theorem C241_calibrated (A : ArgSort ℚ) (c : Fin K → ℚ) (hc : ∀ a, tinyValue ≤ c a) (cj : Fin K → Fin K → ℚ)
    (hcj : CountRows cj) (labels : Fin n → Fin K) :
    calibrateConfidentJoint A (jointInUnits c cj) labels = calibrateConfidentJoint A cj labels ∧
      estimateJointFrom A (jointInUnits c cj) labels = estimateJointFrom A cj labels := by
  have h1 : calibrateRows (jointInUnits c cj) labels = calibrateRows cj labels := by
    funext a b
    unfold calibrateRows
    rw [share_units hc hcj]
  have h2 : calibrateTotal (jointInUnits c cj) labels = calibrateTotal cj labels := by
    funext a b
    unfold calibrateTotal
    rw [h1]
  have h3 : calibrateConfidentJoint A (jointInUnits c cj) labels = calibrateConfidentJoint A cj labels := by
    unfold calibrateConfidentJoint
    rw [h2]
  refine ⟨h3, ?_⟩
  unfold estimateJointFrom
  rw [h3]

/-- **C241.** So the number of label issues estimated from a given confident joint does not depend on its units. -/
theorem C241_number [NeZero K] (A : ArgSort ℚ) (c : Fin K → ℚ) (hc : ∀ a, tinyValue ≤ c a) (cj : Fin K → Fin K → ℚ)
    (hcj : CountRows cj) (labels : Fin n → Fin K) (P : Fin n → Fin K → ℚ) (method : EstimationMethod) :
    numChecked A labels P (some (jointInUnits c cj)) method = numChecked A labels P (some cj) method := by
  have h : numLabelIssues A labels P (some (jointInUnits c cj)) method = numLabelIssues A labels P (some cj) method := by
    cases method with
    | offDiagonalCustom =>
      show Except.ok (rint ((1 - ∑ k, estimateJointFrom A (jointInUnits c cj) labels k k) * n)) =
        Except.ok (rint ((1 - ∑ k, estimateJointFrom A cj labels k k) * n))
      rw [(C241_calibrated A c hc cj hcj labels).2]
    | offDiagonal => rfl
    | offDiagonalCalibrated => rfl
    | other _ => rfl
  unfold numChecked
  rw [h]

/-- **C241.** The functions of `dataset.py`, given labels and a confident joint, return the same. -/
theorem C241_dataset [NeZero K] (A : ArgSort ℚ) (asym : Bool) (c : Fin K → ℚ) (hc : ∀ a, tinyValue ≤ c a)
    (cj : Fin K → Fin K → ℚ) (hcj : CountRows cj) (labels : Fin n → Fin K) (P : Option (Fin n → Fin K → ℚ))
    (joint : Option (Fin K → Fin K → ℚ)) (num : Option ℚ) :
    rankClasses A ⟨some labels, P, joint, num, some (jointInUnits c cj)⟩ = rankClasses A ⟨some labels, P, joint, num, some cj⟩ ∧
    overlappingClasses A asym ⟨some labels, P, joint, num, some (jointInUnits c cj)⟩ =
      overlappingClasses A asym ⟨some labels, P, joint, num, some cj⟩ ∧
    overallHealth A ⟨some labels, P, joint, num, some (jointInUnits c cj)⟩ =
      overallHealth A ⟨some labels, P, joint, num, some cj⟩ ∧
    healthSummary A asym ⟨some labels, P, joint, num, some (jointInUnits c cj)⟩ =
      healthSummary A asym ⟨some labels, P, joint, num, some cj⟩ := by
  have hused : ∀ (joint : Option (Fin K → Fin K → ℚ)) (num : Option ℚ),
      Dataset.usedJoint A ⟨some labels, P, joint, num, some (jointInUnits c cj)⟩ =
        Dataset.usedJoint A ⟨some labels, P, joint, num, some cj⟩ := by
    intro joint num
    cases joint with
    | some j => rfl
    | none =>
      show Except.ok (estimateJointFrom A (jointInUnits c cj) labels) = Except.ok (estimateJointFrom A cj labels)
      rw [(C241_calibrated A c hc cj hcj labels).2]
  have hrank : ∀ (joint : Option (Fin K → Fin K → ℚ)) (num : Option ℚ),
      rankClasses A ⟨some labels, P, joint, num, some (jointInUnits c cj)⟩ =
        rankClasses A ⟨some labels, P, joint, num, some cj⟩ := by
    intro joint num
    unfold rankClasses
    rw [hused]
  have hover : ∀ (joint : Option (Fin K → Fin K → ℚ)) (num : Option ℚ),
      overlappingClasses A asym ⟨some labels, P, joint, num, some (jointInUnits c cj)⟩ =
        overlappingClasses A asym ⟨some labels, P, joint, num, some cj⟩ := by
    intro joint num
    unfold overlappingClasses
    rw [hused]
    rfl
  have hhealth : ∀ (joint : Option (Fin K → Fin K → ℚ)) (num : Option ℚ),
      overallHealth A ⟨some labels, P, joint, num, some (jointInUnits c cj)⟩ =
        overallHealth A ⟨some labels, P, joint, num, some cj⟩ := by
    intro joint num
    unfold overallHealth
    rw [hused]
    cases P with
    | none => rfl
    | some P =>
      dsimp only
      rw [C241_number A c hc cj hcj labels P]
      rfl
  refine ⟨hrank joint num, hover joint num, hhealth joint num, ?_⟩
  unfold healthSummary
  rw [hused]
  dsimp only
  simp only [hrank, hover, hhealth]

/-- Counts of two classes, and the same as shares. -/
example : CountRows (![![2, 1], ![0, 1]] : Fin 2 → Fin 2 → ℚ) ∧
    jointInUnits (fun _ => 1 / 4) (![![2, 1], ![0, 1]] : Fin 2 → Fin 2 → ℚ) = ![![1 / 2, 1 / 4], ![0, 1 / 4]] := by
  refine ⟨fun a => Or.inr ?_, ?_⟩
  · fin_cases a <;> simp [Fin.sum_univ_two]
  · funext a b
    fin_cases a <;> fin_cases b <;> norm_num [jointInUnits]

/-- **C242, partially.** The filters that do not prune return the same whatever confident joint is given. -/
theorem C242_others_partial [NeZero K] (A : ArgSort ℚ) (labels : Fin n → Fin K) (P : Fin n → Fin K → ℚ) (args : Args K)
    (hf : args.filterBy ≠ .pruneByNoiseRate ∧ args.filterBy ≠ .pruneByClass ∧ args.filterBy ≠ .both)
    (cj : Option (Fin K → Fin K → ℚ)) :
    findChecked A labels P { args with confidentJoint := cj } = findChecked A labels P args := by
  have h : rawMask A labels P { args with confidentJoint := cj } = rawMask A labels P args := by
    unfold rawMask
    dsimp only
    cases hfb : args.filterBy <;> simp_all
  unfold findChecked Filter.findLabelIssues
  rw [h]

/-- **C242, partially.** Giving the calibrated counts that `compute_confident_joint` returns for the data is the same as giving
nothing, with every filter. -/
theorem C242_own_partial [NeZero K] (A : ArgSort ℚ) (labels : Fin n → Fin K) (P : Fin n → Fin K → ℚ) (args : Args K)
    (cj : Fin K → Fin K → ℚ)
    (hcj : ∀ a b, cj a b = computeConfidentJoint A labels P (getConfidentThresholds labels P) true a b) :
    findChecked A labels P { args with confidentJoint := some cj } =
      findChecked A labels P { args with confidentJoint := none } := by
  have hcj' : cj = fun a b => (computeConfidentJoint A labels P (getConfidentThresholds labels P) true a b : ℚ) :=
    funext fun a => funext (hcj a)
  have h : rawMask A labels P { args with confidentJoint := some cj } =
      rawMask A labels P { args with confidentJoint := none } := by
    rw [hcj']
    unfold rawMask
    dsimp only
    cases args.filterBy <;> rfl
  unfold findChecked Filter.findLabelIssues
  rw [h]

/-- Four examples, the third with a wrong label. -/
def unitLabels : Fin 4 → Fin 2 := ![0, 0, 0, 1]

/-- Their predicted probabilities. -/
def unitProbs : Fin 4 → Fin 2 → ℚ := ![![9/10, 1/10], ![8/10, 2/10], ![1/10, 9/10], ![1/10, 9/10]]

/-- Their confident joint, as counts. -/
def unitCounts : Fin 2 → Fin 2 → ℚ := ![![2, 1], ![0, 1]]

theorem findChecked_unit (cj : Fin 2 → Fin 2 → ℚ) (C : Fin 2 → Fin 2 → ℤ)
    (hC : ∀ j k, reducePruneCounts (keepDiagonal (fun j k => cj k j) 1) 1 j k = C j k) :
    findChecked (stableSort ℚ) unitLabels unitProbs { filterBy := .pruneByNoiseRate, confidentJoint := some cj } =
      .ok (fun i => maskByCount (stableSort ℚ) unitLabels unitProbs 1 C i && !(reduceIssues unitLabels unitProbs i)) := by
  have hk : keepAtLeastN (stableSort ℚ) (fun j k => cj k j) 1 1 = C := by
    funext j k
    rw [keepAtLeastN_eq, hC]
  have hv : validate (allZero unitLabels) unitLabels unitProbs = .ok () := by decide +kernel
  have hraw := findLabelIssues_of_raw (stableSort ℚ) unitLabels unitProbs
    { filterBy := .pruneByNoiseRate, confidentJoint := some cj } ⟨nofun, nofun⟩ (Or.inl rfl)
    (fun i => maskByCount (stableSort ℚ) unitLabels unitProbs 1 C i) (by rw [← hk]; rfl)
  rw [← hraw]
  unfold findChecked
  rw [hv]
  rfl

/-- **C242 fails** for the default filter: given the counts, the wrong label is flagged; given the joint distribution that
`estimate_joint` returns, the same numbers divided by the number of examples, nothing is. -/
theorem C242_not_units : ∃ mask mask' : Fin 4 → Bool,
    findChecked (stableSort ℚ) unitLabels unitProbs
      { filterBy := .pruneByNoiseRate, confidentJoint := some unitCounts } = .ok mask ∧
    findChecked (stableSort ℚ) unitLabels unitProbs
      { filterBy := .pruneByNoiseRate, confidentJoint := some (jointInUnits (fun _ => 1 / 4) unitCounts) } = .ok mask' ∧
    mask 2 = true ∧ ∀ i, mask' i = false := by
  refine ⟨_, _, findChecked_unit unitCounts ![![2, 0], ![1, 1]] (by decide +kernel),
    findChecked_unit _ ![![1, 0], ![0, 1]] (by decide +kernel), by decide +kernel, by decide +kernel⟩

end Cleanlab.Props
