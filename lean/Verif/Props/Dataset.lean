import Verif.Model.Dataset
import Verif.Props.Filter
import Verif.Props.FilterChecked

/-!
# C28, C62, C63: `dataset.py`
-/

namespace Cleanlab.Props

open Np Cleanlab.Util Cleanlab.Count Cleanlab.Filter Cleanlab.Dataset Cleanlab.Spec

variable {n K : ℕ}

/-! ## C28 -/

theorem sum_allPairs (f : Fin K × Fin K → ℚ) (p : Fin K × Fin K → Bool) :
    (((allPairs K).filter p).map f).sum = ∑ a, ∑ b, if p (a, b) then f (a, b) else 0 := by
  have h1 : ∀ l : List (Fin K × Fin K), ((l.filter p).map f).sum = (l.map (fun q => if p q then f q else 0)).sum := by
    intro l
    induction l with
    | nil => rfl
    | cons q l ih =>
      by_cases hq : p q = true
      · simp [hq, ih]
      · simp [hq, ih]
  rw [h1]
  unfold allPairs
  rw [List.map_flatMap, List.flatMap_def, List.sum_flatten, List.map_map]
  simp only [Function.comp_def, List.map_map]
  rw [← List.ofFn_eq_map, List.sum_ofFn]
  refine Finset.sum_congr rfl (fun a _ => ?_)
  rw [← List.ofFn_eq_map, List.sum_ofFn]

theorem nodup_allPairs : (allPairs K).Nodup := by
  unfold allPairs
  rw [List.nodup_flatMap]
  refine ⟨fun a _ => (List.nodup_finRange K).map (fun b c h => (Prod.mk.inj h).2), ?_⟩
  refine (List.nodup_finRange K).imp_of_mem ?_
  intro a b _ _ hab
  simp only [Function.onFun, List.Disjoint, List.mem_map, List.mem_finRange, true_and]
  rintro q ⟨c, rfl⟩ ⟨d, hd⟩
  exact hab (Prod.mk.inj hd).1.symm

theorem mem_allPairs (p : Fin K × Fin K) : p ∈ allPairs K := by
  unfold allPairs
  simp only [List.mem_flatMap, List.mem_map, List.mem_finRange, true_and]
  exact ⟨p.1, p.2, rfl⟩

/-- The rows of the two tables, in terms of the pairs. -/
theorem pairRows_eq (asym : Bool) (joint : Fin K → Fin K → ℚ) (num : ℚ) : pairRows asym joint num =
    ((allPairs K).filter (fun p => if asym then decide (p.1 ≠ p.2) else decide (p.1 < p.2))).map
      (fun p => { a := p.1, b := p.2,
                  num := rint ((if asym then joint p.1 p.2 else joint p.1 p.2 + joint p.2 p.1) * num),
                  prob := if asym then joint p.1 p.2 else joint p.1 p.2 + joint p.2 p.1 }) := by
  unfold pairRows
  cases asym
  · simp only [Bool.false_eq_true, if_false]
    refine List.map_congr_left (fun p hp => ?_)
    have : p.1 < p.2 := by simpa using (List.mem_filter.mp hp).2
    simp [symJoint, this.le]
  · simp

/-- The output rows are the rows before sorting, in decreasing order. -/
theorem overlapping_perm (A : ArgSort ℚ) [NeZero K] (asym : Bool) (x : Inputs n K) (joint : Fin K → Fin K → ℚ)
    (rows : List (PairRow K)) (hj : usedJoint A x = .ok joint) (h : overlappingClasses A asym x = .ok rows) :
    ∃ num, rows.Perm (pairRows asym joint num) ∧ rows.Pairwise (fun r s => r.prob ≥ s.prob) := by
  unfold overlappingClasses at h
  rw [hj] at h
  simp only [bind, Except.bind] at h
  have key : ∀ num, (A.indices (fun r => -((pairRows asym joint num).get r).prob)).map (pairRows asym joint num).get =
      rows → ∃ num, rows.Perm (pairRows asym joint num) ∧ rows.Pairwise (fun r s => r.prob ≥ s.prob) := by
    rintro num rfl
    refine ⟨num, ?_, ?_⟩
    · refine ((A.perm_indices _).map _).trans ?_
      rw [List.map_get_finRange]
    · rw [List.pairwise_map]
      exact (A.pairwise_indices (fun r => -((pairRows asym joint num).get r).prob)).imp (fun h => neg_le_neg_iff.mp h)
  cases hx : x.numExamples with
  | some m =>
    rw [hx] at h
    exact key m (Except.ok.inj h)
  | none =>
    rw [hx] at h
    simp only at h
    cases hn : getNumExamples x.labels x.confidentJoint with
    | error e => rw [hn] at h; cases h
    | ok m => rw [hn] at h; exact key m (Except.ok.inj h)

/-- **C28**: `find_overlapping_classes` lists every pair of classes exactly once (with `asymmetric=True` every
ordered pair), with the joint probability of confusing them, in decreasing order. -/
theorem C28_pairs_once (A : ArgSort ℚ) [NeZero K] (asym : Bool) (x : Inputs n K) (joint : Fin K → Fin K → ℚ)
    (rows : List (PairRow K)) (hj : usedJoint A x = .ok joint) (h : overlappingClasses A asym x = .ok rows) :
    (rows.map (fun r => (r.a, r.b))).Nodup ∧
    (∀ a b, (a, b) ∈ rows.map (fun r => (r.a, r.b)) ↔ if asym then a ≠ b else a < b) ∧
    (∀ r ∈ rows, r.prob = if asym then joint r.a r.b else joint r.a r.b + joint r.b r.a) ∧
    rows.Pairwise (fun r s => r.prob ≥ s.prob) := by
  obtain ⟨num, hp, hs⟩ := overlapping_perm A asym x joint rows hj h
  rw [pairRows_eq] at hp
  have hm := hp.map (fun r => (r.a, r.b))
  rw [List.map_map] at hm
  have hid : ((fun r : PairRow K => (r.a, r.b)) ∘ fun p : Fin K × Fin K =>
      ({ a := p.1, b := p.2,
         num := rint ((if asym then joint p.1 p.2 else joint p.1 p.2 + joint p.2 p.1) * num),
         prob := if asym then joint p.1 p.2 else joint p.1 p.2 + joint p.2 p.1 } : PairRow K)) = id := by
    funext p; rfl
  rw [hid, List.map_id] at hm
  refine ⟨hm.nodup_iff.mpr (nodup_allPairs.filter _), fun a b => ?_, fun r hr => ?_, hs⟩
  · rw [hm.mem_iff, List.mem_filter]
    cases asym <;> simp [mem_allPairs]
  · obtain ⟨p, -, rfl⟩ := List.mem_map.mp (hp.mem_iff.mp hr)
    rfl

/-- **C28**: the listed joint probabilities add up to the off-diagonal mass of the joint. -/
theorem C28_pairs_sum (A : ArgSort ℚ) [NeZero K] (asym : Bool) (x : Inputs n K) (joint : Fin K → Fin K → ℚ)
    (rows : List (PairRow K)) (hj : usedJoint A x = .ok joint) (h : overlappingClasses A asym x = .ok rows) :
    (rows.map PairRow.prob).sum = ∑ a, ∑ b, joint a b - ∑ k, joint k k := by
  obtain ⟨num, hp, -⟩ := overlapping_perm A asym x joint rows hj h
  rw [(hp.map PairRow.prob).sum_eq, pairRows_eq, List.map_map, sum_allPairs]
  have hoff : ∑ a, ∑ b, joint a b - ∑ k, joint k k = ∑ a, ∑ b, if a ≠ b then joint a b else 0 := by
    rw [← Finset.sum_sub_distrib]
    refine Finset.sum_congr rfl (fun a _ => ?_)
    rw [Finset.sum_ite, Finset.sum_const_zero, add_zero]
    have : Finset.univ.filter (fun b => a ≠ b) = Finset.univ.erase a := by ext b; simp [eq_comm]
    rw [this, ← Finset.add_sum_erase Finset.univ _ (Finset.mem_univ a)]
    ring
  rw [hoff]
  cases asym
  · simp only [Bool.false_eq_true, if_false, Function.comp, decide_eq_true_eq]
    have hsplit : ∀ a b : Fin K, (if a ≠ b then joint a b else 0) =
        (if a < b then joint a b else 0) + (if b < a then joint a b else 0) := by
      intro a b
      rcases lt_trichotomy a b with h | h | h
      · simp [h, h.ne, h.le]
      · simp [h]
      · simp [h, h.ne', h.le]
    simp only [hsplit, Finset.sum_add_distrib]
    rw [Finset.sum_comm (f := fun a b => if b < a then joint a b else 0), ← Finset.sum_add_distrib]
    refine Finset.sum_congr rfl (fun a _ => ?_)
    rw [← Finset.sum_add_distrib]
    refine Finset.sum_congr rfl (fun b _ => ?_)
    split_ifs <;> ring
  · simp

/-- **C28**: computed from a joint distribution, the overall health score is the probability that the given label
is right, lies in `[0, 1]`, and is 1 minus the total of `find_overlapping_classes`. -/
theorem C28_health_from_joint (A : ArgSort ℚ) [NeZero K] (asym : Bool) (joint : Fin K → Fin K → ℚ) (num : ℚ)
    (hnn : ∀ a b, 0 ≤ joint a b) (hsum : ∑ a, ∑ b, joint a b = 1) :
    ∃ score rows, overallHealth A ({ joint := some joint, numExamples := some num } : Inputs n K) = .ok score ∧
      overlappingClasses A asym ({ joint := some joint, numExamples := some num } : Inputs n K) = .ok rows ∧
      score = ∑ k, joint k k ∧ 0 ≤ score ∧ score ≤ 1 ∧ score = 1 - (rows.map PairRow.prob).sum := by
  refine ⟨_, _, rfl, rfl, rfl, Finset.sum_nonneg (fun k _ => hnn k k), ?_, ?_⟩
  · rw [← hsum]
    exact Finset.sum_le_sum (fun k _ => Finset.single_le_sum (fun b _ => hnn k b) (Finset.mem_univ k))
  · have := C28_pairs_sum A asym ({ joint := some joint, numExamples := some num } : Inputs n K) joint _ rfl rfl
    rw [this, hsum]
    ring

/-- **C28**: computed from labels and predicted probabilities, the overall health score is 1 minus the fraction of
examples that `find_label_issues(filter_by="confident_learning")` flags, and lies in `[0, 1]`. -/
theorem C28_health_from_labels (A : ArgSort ℚ) [NeZero K] (labels : Fin n → Fin K) (P : Fin n → Fin K → ℚ)
    (hl : ∃ i j, labels i ≠ labels j) (hP : InRange P) :
    ∃ mask score, findChecked A labels P { filterBy := .confidentLearning } = .ok mask ∧
      overallHealth A { labels := some labels, predProbs := some P } = .ok score ∧
      score = 1 - ((Finset.univ.filter (fun i => mask i = true)).card : ℚ) / n ∧ 0 ≤ score ∧ score ≤ 1 := by
  obtain ⟨mask, hm, hnum⟩ := C06_count_matches_list A labels P { filterBy := .confidentLearning } rfl rfl none
  obtain ⟨hf, -, hc⟩ := C115_accepts_partial A labels P hl hP
  have hn : 0 < n := hl.choose.pos
  have hn' : (0 : ℚ) < n := by exact_mod_cast hn
  have hcard : ((Finset.univ.filter (fun i => mask i = true)).card : ℚ) ≤ n := by
    have : (Finset.univ.filter (fun i => mask i = true)).card ≤ n := (Finset.card_filter_le _ _).trans (by simp)
    exact_mod_cast this
  refine ⟨mask, _, (hf _).trans hm, ?_, rfl, ?_, ?_⟩
  · unfold overallHealth
    simp only [bind, Except.bind, getNumExamples, hc, hnum, Int.cast_natCast, if_neg hn'.ne']
  · have : ((Finset.univ.filter (fun i => mask i = true)).card : ℚ) / n ≤ 1 := by rwa [div_le_one hn']
    linarith
  · have : 0 ≤ ((Finset.univ.filter (fun i => mask i = true)).card : ℚ) / n := by positivity
    linarith

/-- Joint of two classes used below. -/
def exJoint : Fin 2 → Fin 2 → ℚ := ![![1/2, 1/8], ![1/8, 1/4]]

example : ∑ a, ∑ b, exJoint a b = 1 ∧
    ((overlappingClasses (n := 1) (stableSort ℚ) false { joint := some exJoint, numExamples := some 8 }).toOption.map
      (·.map (fun r => (r.a, r.b, r.num, r.prob)))) = some [(0, 1, 2, 1/4)] := by
  constructor <;> decide +kernel

/-! ## C62 -/

/-- **C62**: `rank_classes_by_label_quality` lists every class exactly once, worst first; for a joint without
negative entries the quality lies in `[0, 1]`, is the conditional probability that the given label `k` is right if
`k` is given with probability at least `1e-6`, and is `1` if `k` is never given. -/
theorem C62_rank_classes (A : ArgSort ℚ) [NeZero K] (joint : Fin K → Fin K → ℚ) (num : ℚ)
    (hnn : ∀ a b, 0 ≤ joint a b) :
    ∃ rows, rankClasses A ({ joint := some joint, numExamples := some num } : Inputs n K) = .ok rows ∧
      (rows.map ClassRow.cls).Perm (List.finRange K) ∧ rows.Pairwise (fun r s => r.quality ≤ s.quality) ∧
      ∀ r ∈ rows, 0 ≤ r.quality ∧ r.quality ≤ 1 ∧ r.labelNoise = 1 - r.quality ∧
        (1 / 1000000 ≤ ∑ b, joint r.cls b → r.quality = joint r.cls r.cls / ∑ b, joint r.cls b) ∧
        (∑ b, joint r.cls b = 0 → r.quality = 1) := by
  refine ⟨_, rfl, ?_, ?_, ?_⟩
  · rw [List.map_map]
    have : ClassRow.cls ∘ classRow joint num = id := rfl
    rw [this, List.map_id]
    exact A.perm_indices _
  · rw [List.pairwise_map]
    exact A.pairwise_indices _
  · intro r hr
    obtain ⟨k, -, rfl⟩ := List.mem_map.mp hr
    have hk : joint k k ≤ ∑ b, joint k b := Finset.single_le_sum (fun b _ => hnn k b) (Finset.mem_univ k)
    have h0 : 0 ≤ joint k k := hnn k k
    have hpos : 0 < max (∑ b, joint k b) (1 / 1000000) := lt_max_of_lt_right (by norm_num)
    have hle : ∑ b, joint k b ≤ max (∑ b, joint k b) (1 / 1000000) := le_max_left _ _
    have hn0 : 0 ≤ (∑ b, joint k b - joint k k) / max (∑ b, joint k b) (1 / 1000000) :=
      div_nonneg (by linarith) hpos.le
    have hn1 : (∑ b, joint k b - joint k k) / max (∑ b, joint k b) (1 / 1000000) ≤ 1 := by
      rw [div_le_one hpos]; linarith
    unfold classRow
    simp only
    refine ⟨by linarith, by linarith, by ring, fun h => ?_, fun h => ?_⟩
    · rw [max_eq_left h]
      have : ∑ b, joint k b ≠ 0 := by linarith
      field_simp
      ring
    · have : joint k k = 0 := by linarith
      rw [h, this]
      norm_num

/-- **C62, counts.** "Label Issues" is, up to rounding, the expected number of examples given `k` with another true
label, "Inverse Label Issues" that of examples truly `k` given another label, and "Inverse Label Noise" the conditional
probability of another given label when `k` is the true label with probability at least `1e-6`. -/
theorem C62_counts (A : ArgSort ℚ) [NeZero K] (joint : Fin K → Fin K → ℚ) (num : ℚ) (rows : List (ClassRow K))
    (h : rankClasses A ({ joint := some joint, numExamples := some num } : Inputs n K) = .ok rows) :
    ∀ r ∈ rows, |(∑ b ∈ Finset.univ.erase r.cls, joint r.cls b) * num - r.labelIssues| ≤ 1 / 2 ∧
      |(∑ a ∈ Finset.univ.erase r.cls, joint a r.cls) * num - r.inverseLabelIssues| ≤ 1 / 2 ∧
      (1 / 1000000 ≤ ∑ a, joint a r.cls →
        r.inverseLabelNoise = (∑ a ∈ Finset.univ.erase r.cls, joint a r.cls) / ∑ a, joint a r.cls) := by
  cases h
  intro r hr
  obtain ⟨k, -, rfl⟩ := List.mem_map.mp hr
  have h1 : ∑ b ∈ Finset.univ.erase k, joint k b = ∑ b, joint k b - joint k k := by
    rw [← Finset.add_sum_erase _ _ (Finset.mem_univ k)]; ring
  have h2 : ∑ a ∈ Finset.univ.erase k, joint a k = ∑ a, joint a k - joint k k := by
    rw [← Finset.add_sum_erase _ (fun a => joint a k) (Finset.mem_univ k)]; ring
  unfold classRow
  simp only
  rw [h1, h2]
  exact ⟨abs_sub_rint_le _, abs_sub_rint_le _, fun h => by rw [max_eq_left h]⟩

example : ((rankClasses (n := 1) (stableSort ℚ) { joint := some exJoint, numExamples := some 8 }).toOption.map
    (·.map (fun r => (r.cls, r.labelIssues, r.quality)))) = some [(1, 1, 2/3), (0, 1, 4/5)] := by decide +kernel

/-! ## C63 -/

/-- The three documented ways to call the functions: labels and predictions, a joint and the number of examples,
or a confident joint. -/
inductive Documented : Inputs n K → Prop
  | labels (labels : Fin n → Fin K) (P : Fin n → Fin K → ℚ) :
      Documented { labels := some labels, predProbs := some P }
  | joint (joint : Fin K → Fin K → ℚ) (num : ℚ) : Documented { joint := some joint, numExamples := some num }
  | confidentJoint (cj : Fin K → Fin K → ℚ) : Documented { confidentJoint := some cj }

/-- The check that `num_label_issues` makes of given labels and predictions. -/
def LabelsAccepted (x : Inputs n K) : Prop :=
  ∀ labels P, x.labels = some labels → x.predProbs = some P → (∃ i j, labels i ≠ labels j) ∧ InRange P

/-- `health_summary` for labels and predictions. -/
theorem healthSummary_labels (A : ArgSort ℚ) [NeZero K] (asym : Bool) (labels : Fin n → Fin K) (P : Fin n → Fin K → ℚ) :
    healthSummary A asym ({ labels := some labels, predProbs := some P } : Inputs n K) =
        (overallHealth A ({ labels := some labels, predProbs := some P } : Inputs n K)).map (fun s =>
          { health := s, joint := estimateJoint A labels P,
            classes := (A.indices (fun k => (classRow (estimateJoint A labels P) n k).quality)).map
              (classRow (estimateJoint A labels P) n),
            pairs := (A.indices (fun r => -((pairRows asym (estimateJoint A labels P) n).get r).prob)).map
              (pairRows asym (estimateJoint A labels P) n).get }) := by
  cases ho : overallHealth A ({ labels := some labels, predProbs := some P } : Inputs n K) with
  | error e =>
    have : overallHealth A ({ labels := some labels, predProbs := some P, numExamples := some n } : Inputs n K) =
      .error e := ho
    simp [healthSummary, rankClasses, overlappingClasses, Dataset.usedJoint, estimateJointAny, getNumExamples, bind,
      Except.bind, pure, Except.pure, this, Except.map]
  | ok s =>
    have : overallHealth A ({ labels := some labels, predProbs := some P, numExamples := some n } : Inputs n K) =
      .ok s := ho
    simp [healthSummary, rankClasses, overlappingClasses, Dataset.usedJoint, estimateJointAny, getNumExamples, bind,
      Except.bind, pure, Except.pure, this, Except.map]

/-- **C63**, what holds: `find_overlapping_classes` and `overall_label_health_score` work with each of the three
documented inputs, and the other two functions with labels and predictions; the health score requires two different
labels. -/
theorem C63_documented_inputs_partial (A : ArgSort ℚ) [NeZero K] (asym : Bool) (x : Inputs n K) (h : Documented x) :
    (∃ r, overlappingClasses A asym x = .ok r) ∧ (LabelsAccepted x → ∃ r, overallHealth A x = .ok r) ∧
      (x.labels ≠ none → (∃ r, rankClasses A x = .ok r) ∧ (LabelsAccepted x → ∃ r, healthSummary A asym x = .ok r)) := by
  cases h with
  | labels labels P =>
    have hh : LabelsAccepted ({ labels := some labels, predProbs := some P } : Inputs n K) →
        ∃ r, overallHealth A ({ labels := some labels, predProbs := some P } : Inputs n K) = .ok r := by
      intro h
      obtain ⟨h1, h2⟩ := h labels P rfl rfl
      obtain ⟨-, s, -, hs, -⟩ := C28_health_from_labels A labels P h1 h2
      exact ⟨s, hs⟩
    refine ⟨⟨_, rfl⟩, hh, fun _ => ⟨⟨_, rfl⟩, fun h => ?_⟩⟩
    obtain ⟨s, hs⟩ := hh h
    have := healthSummary_labels A asym labels P
    rw [this, hs]
    exact ⟨_, rfl⟩
  | joint j num => exact ⟨⟨_, rfl⟩, fun _ => ⟨_, rfl⟩, fun h => absurd rfl h⟩
  | confidentJoint cj => exact ⟨⟨_, rfl⟩, fun _ => ⟨_, rfl⟩, fun h => absurd rfl h⟩

/-- **C63** fails: with labels of one class `overall_label_health_score` and `health_summary` raise. -/
theorem C63_not_one_class (A : ArgSort ℚ) [NeZero K] (asym : Bool) (labels : Fin n → Fin K) (P : Fin n → Fin K → ℚ)
    (hl : ∀ i j, labels i = labels j) :
    (∃ e, overallHealth A ({ labels := some labels, predProbs := some P } : Inputs n K) = .error e) ∧
      ∃ e, healthSummary A asym ({ labels := some labels, predProbs := some P } : Inputs n K) = .error e := by
  obtain ⟨e, he⟩ := validate_error false labels P (by
    rintro ⟨-, h | ⟨i, j, hij⟩, -⟩
    · cases h
    · exact hij (hl i j))
  have h1 : ∀ num, overallHealth A ({ labels := some labels, predProbs := some P, numExamples := num } : Inputs n K) =
      .error e := by
    intro num
    cases num <;> simp [overallHealth, numChecked, he, bind, Except.bind, getNumExamples]
  refine ⟨⟨e, h1 none⟩, e, ?_⟩
  simp [healthSummary, rankClasses, overlappingClasses, Dataset.usedJoint, estimateJointAny, getNumExamples, bind,
    Except.bind, pure, Except.pure, h1]

/-- **C63** fails: `rank_classes_by_label_quality` with only a confident joint always raises. -/
theorem C63_not_rank_classes (A : ArgSort ℚ) [NeZero K] (cj : Fin K → Fin K → ℚ) :
    ∃ e, rankClasses A ({ confidentJoint := some cj } : Inputs n K) = .error e := ⟨_, rfl⟩

/-- **C63** fails: `health_summary` always raises with the second and with the third documented input. -/
theorem C63_not_health_summary (A : ArgSort ℚ) [NeZero K] (asym : Bool) (cj : Fin K → Fin K → ℚ) (num : ℚ) :
    (∃ e, healthSummary A asym ({ joint := some cj, numExamples := some num } : Inputs n K) = .error e) ∧
      ∃ e, healthSummary A asym ({ confidentJoint := some cj } : Inputs n K) = .error e := ⟨⟨_, rfl⟩, _, rfl⟩

/-- **C63.** Giving only a confident joint is the same as giving the joint distribution and the number of examples it stands for:
each entry divided by the total, and the total. -/
theorem C63_confident_joint (A : ArgSort ℚ) [NeZero K] (asym : Bool) (cj : Fin K → Fin K → ℚ)
    (htot : 1 / 10 ^ 100 ≤ ∑ a, ∑ b, cj a b) :
    overlappingClasses A asym ({ confidentJoint := some cj } : Inputs n K) =
      overlappingClasses A asym
        ({ joint := some (fun a b => cj a b / ∑ a', ∑ b', cj a' b'), numExamples := some (∑ a, ∑ b, cj a b) } : Inputs n K) ∧
    overallHealth A ({ confidentJoint := some cj } : Inputs n K) = .ok ((∑ k, cj k k) / ∑ a, ∑ b, cj a b) := by
  have hc : clipTiny (∑ a, ∑ b, cj a b) = ∑ a, ∑ b, cj a b := max_eq_left htot
  constructor
  · simp only [overlappingClasses, Dataset.usedJoint, estimateJointAny, getNumExamples, hc]
  · simp only [overallHealth, Dataset.usedJoint, estimateJointAny, getNumExamples, hc, bind, Except.bind, pure, Except.pure]
    rw [Finset.sum_div]

/-- Four examples, one of them thought to be of the other class. -/
example : overallHealth (n := 4) (stableSort ℚ) ({ confidentJoint := some ![![2, 1], ![0, 1]] } : Inputs 4 2) = .ok (3 / 4) := by
  rw [(C63_confident_joint (stableSort ℚ) false _ (by norm_num [Fin.sum_univ_two])).2]
  norm_num [Fin.sum_univ_two]

end Cleanlab.Props
