import Verif.Props.CrowdlabWeights

/-!
# C196, C197: which of two annotators is rated higher
-/

namespace Cleanlab.Props

open Np Cleanlab.Util Cleanlab.Rank Cleanlab.Multiannotator Cleanlab.Spec Cleanlab.Count

variable {n M K : ℕ} {F : Type} [Field F] [LinearOrder F] [IsStrictOrderedRing F]

/-- The two annotators labelled the same examples. -/
def LabelledTogether (L : Annotations n M K) (m m' : Fin M) : Prop := ∀ i, L i m = none ↔ L i m' = none

/-- Wherever the two annotators gave different labels, the first one gave the consensus label. -/
def RightWhereDifferent (L : Annotations n M K) (c : Fin n → Fin K) (m m' : Fin M) : Prop :=
  ∀ i, L i m ≠ L i m' → L i m = some (c i)

omit [LinearOrder F] [IsStrictOrderedRing F] in
theorem mean_known {α : Type} (rows : List α) (f : α → Option F) (hf : ∀ i ∈ rows, (f i).isSome) (hne : rows ≠ []) :
    mean? (rows.map f) = some ((rows.map (fun i => (f i).elim 0 id)).sum / rows.length) := by
  have h : rows.map f = rows.map (fun i => some ((f i).elim 0 id)) := by
    apply List.map_congr_left
    intro i hi
    obtain ⟨x, hx⟩ := Option.isSome_iff_exists.mp (hf i hi)
    rw [hx]
    rfl
  have hlen : rows.length ≠ 0 := by simpa using hne
  unfold mean?
  rw [List.length_map, if_neg hlen, h, mapM_some]
  rfl

theorem rows_eq {L : Annotations n M K} {m m' : Fin M} (hs : LabelledTogether L m m') (l : List (Fin n)) :
    l.filter (fun i => (L i m).isSome) = l.filter (fun i => (L i m').isSome) := by
  apply List.filter_congr
  intro i _
  have := hs i
  cases h : L i m <;> cases h' : L i m' <;> simp_all

theorem both_labelled {L : Annotations n M K} {m m' : Fin M} (hs : LabelledTogether L m m') {i : Fin n} (hd : L i m ≠ L i m') :
    (L i m).isSome ∧ 2 ≤ numAnnotators L i := by
  have h0 := hs i
  have h1 : L i m ≠ none := fun h => hd (by rw [h, h0.mp h])
  have h2 : L i m' ≠ none := fun h => h1 (h0.mpr h)
  refine ⟨Option.isSome_iff_ne_none.mpr h1, ?_⟩
  unfold numAnnotators
  have hmm : m ≠ m' := fun h => hd (by rw [h])
  have : ({m, m'} : Finset (Fin M)) ⊆ Finset.univ.filter (fun m => L i m ≠ none) := by
    intro x hx
    simp only [Finset.mem_insert, Finset.mem_singleton] at hx
    simp only [Finset.mem_filter, Finset.mem_univ, true_and]
    rcases hx with rfl | rfl
    · exact h1
    · exact h2
  calc 2 = ({m, m'} : Finset (Fin M)).card := (Finset.card_pair hmm).symm
    _ ≤ _ := Finset.card_le_card this

theorem right_counts {L : Annotations n M K} {c : Fin n → Fin K} {m m' : Fin M} (hr : RightWhereDifferent L c m m') (l : List (Fin n)) :
    l.countP (fun i => L i m' == some (c i)) ≤ l.countP (fun i => L i m == some (c i)) ∧
      ((∃ i ∈ l, L i m ≠ L i m') → l.countP (fun i => L i m' == some (c i)) < l.countP (fun i => L i m == some (c i))) := by
  have hcons : ∀ i, (L i m' == some (c i)) = true → (L i m == some (c i)) = true := by
    intro i hi
    by_cases hd : L i m = L i m'
    · rw [hd]; exact hi
    · rw [hr i hd]; simp
  refine ⟨List.countP_mono_left (fun i _ => hcons i), ?_⟩
  rintro ⟨i, hin, hi⟩
  have hyes : (L i m == some (c i)) = true := by rw [hr i hi]; simp
  have hno : ¬ (L i m' == some (c i)) = true := fun hh => hi ((hr i hi).trans (beq_iff_eq.mp hh).symm)
  obtain ⟨s, t, hst⟩ := List.append_of_mem hin
  rw [hst, List.countP_append, List.countP_append, List.countP_cons_of_pos (p := fun i => L i m == some (c i)) hyes,
    List.countP_cons_of_neg (p := fun i => L i m' == some (c i)) hno]
  have ha1 : s.countP (fun i => L i m' == some (c i)) ≤ s.countP (fun i => L i m == some (c i)) := List.countP_mono_left (fun i _ => hcons i)
  have ha2 : t.countP (fun i => L i m' == some (c i)) ≤ t.countP (fun i => L i m == some (c i)) := List.countP_mono_left (fun i _ => hcons i)
  omega

/-- **C196.** Two annotators labelled the same examples, and wherever their labels differ the first one gave the consensus label
and has at least the label quality score of the second one. Then the quality of the first one is known exactly if that of the
second one is, it is not smaller, and it is larger if they gave different labels at all. -/
theorem C196_rated [NeZero K] (L : Annotations n M K) (P : Fin n → Fin K → F) (rand : Fin n → ℕ) (root : F) (hroot : 0 < root)
    (method : ConsensusMethod) (r : Result n M K F) (h : labelQualityMultiannotator L P rand root method = .ok r)
    (m m' : Fin M) (hs : LabelledTogether L m m') (hr : RightWhereDifferent L r.consensus m m')
    (hq : ∀ i, L i m ≠ L i m' → ∀ q q', r.detailed i m = some q → r.detailed i m' = some q' → q' ≤ q) :
    ((annotatorQuality L r.consensus r.posterior m).isSome ↔ (annotatorQuality L r.consensus r.posterior m').isSome) ∧
      ∀ a a', annotatorQuality L r.consensus r.posterior m = some a → annotatorQuality L r.consensus r.posterior m' = some a' →
        a' ≤ a ∧ ((∃ i, L i m ≠ L i m') → a' < a) := by
  obtain ⟨q, e, ag, ht, haw, hmw, -, -, hdet, -⟩ := C158_weights L P rand root method r h
  have hwpos : ∀ m, 0 < r.posterior.annWeight m := fun m => (C158_trust ht haw m m).2.2.2.1
  have hmpos : 0 < r.posterior.modelWeight := by
    rw [hmw]
    exact mul_pos (lt_of_lt_of_le (by norm_num) (le_max_right _ _)) hroot
  have hnum : ∀ i, numAnnotations L i = numAnnotators L i := numAnnotations_eq L
  set c := r.consensus
  set p := r.posterior
  -- the two means and the two counts
  have hle : ∀ i, (L i m).isSome → ((L i m').map (p.post i)).elim 0 id ≤ ((L i m).map (p.post i)).elim 0 id := by
    intro i hi
    by_cases hd : L i m = L i m'
    · rw [hd]
    · obtain ⟨k, hk⟩ := Option.isSome_iff_exists.mp hi
      have h' : L i m' ≠ none := fun h => by rw [(hs i).mpr h] at hk; cases hk
      obtain ⟨k', hk'⟩ := Option.ne_none_iff_exists'.mp h'
      have := hq i hd (p.post i k) (p.post i k') (by rw [hdet, hk]; rfl) (by rw [hdet, hk']; rfl)
      rw [hk, hk']
      exact this
  have hlq : annotatorLqs L p.post m = mean? (((List.finRange n).filter (fun i => (L i m).isSome)).map (fun i => (L i m).map (p.post i))) := rfl
  have hlq' : annotatorLqs L p.post m' = mean? (((List.finRange n).filter (fun i => (L i m).isSome)).map (fun i => (L i m').map (p.post i))) := by
    unfold annotatorLqs
    rw [rows_eq hs]
  have hag : agreementOnMulti (F := F) L c m = if ((multiRows L).filter (fun i => (L i m).isSome)).length = 0 then none else
      some ((((multiRows L).filter (fun i => (L i m).isSome)).countP (fun i => L i m == some (c i)) : F) / ((multiRows L).filter (fun i => (L i m).isSome)).length) := rfl
  have hag' : agreementOnMulti (F := F) L c m' = if ((multiRows L).filter (fun i => (L i m).isSome)).length = 0 then none else
      some ((((multiRows L).filter (fun i => (L i m).isSome)).countP (fun i => L i m' == some (c i)) : F) / ((multiRows L).filter (fun i => (L i m).isSome)).length) := by
    rw [rows_eq hs]
    rfl
  set rows := (List.finRange n).filter (fun i => (L i m).isSome) with hrows
  set mrows := (multiRows L).filter (fun i => (L i m).isSome) with hmrows
  have hsub : ∀ i ∈ mrows, i ∈ rows := by
    intro i hi
    rw [hrows, List.mem_filter]
    exact ⟨List.mem_finRange i, (List.mem_filter.mp hi).2⟩
  have hfrac : ∃ w, 0 ≤ w ∧ w < 1 ∧ w = p.modelWeight / (p.modelWeight + (∑ m, p.annWeight m) * (((∑ i, (numAnnotations L i : F)) / n) / M)) ∨
      mrows.length = 0 := by
    by_cases hm0 : mrows.length = 0
    · exact ⟨0, Or.inr hm0⟩
    refine ⟨_, Or.inl ⟨?_, ?_, rfl⟩⟩
    all_goals
      obtain ⟨i0, hi0⟩ := List.exists_mem_of_ne_nil mrows (by intro h; rw [h] at hm0; exact hm0 rfl)
      have hi1 : (L i0 m).isSome := (List.mem_filter.mp hi0).2
      have hn : 0 < (n : F) := Nat.cast_pos.mpr (Nat.pos_of_ne_zero (by rintro rfl; exact i0.elim0))
      have hM : 0 < (M : F) := Nat.cast_pos.mpr (Nat.pos_of_ne_zero (by rintro rfl; exact m.elim0))
      have hnum0 : 0 < numAnnotations L i0 := by
        unfold numAnnotations
        exact List.countP_pos_iff.mpr ⟨m, List.mem_finRange m, hi1⟩
      have hsum : 0 < ∑ i, (numAnnotations L i : F) := by
        apply Finset.sum_pos' (fun i _ => Nat.cast_nonneg _)
        exact ⟨i0, Finset.mem_univ _, Nat.cast_pos.mpr hnum0⟩
      have haws : 0 < ∑ m, p.annWeight m := Finset.sum_pos (fun m _ => hwpos m) ⟨m, Finset.mem_univ _⟩
      have hadj : 0 < (∑ m, p.annWeight m) * (((∑ i, (numAnnotations L i : F)) / n) / M) := by positivity
    · positivity
    · rw [div_lt_one (by positivity)]
      linarith
  by_cases hm0 : mrows.length = 0
  · have h1 : annotatorQuality L c p m = none := by
      unfold annotatorQuality
      rw [hag, if_pos hm0]
      cases annotatorLqs L p.post m <;> rfl
    have h2 : annotatorQuality L c p m' = none := by
      unfold annotatorQuality
      rw [hag', if_pos hm0]
      cases annotatorLqs L p.post m' <;> rfl
    rw [h1, h2]
    exact ⟨Iff.rfl, fun a a' h => by cases h⟩
  obtain ⟨w, hw | hw⟩ := hfrac
  swap
  · exact absurd hw hm0
  obtain ⟨hw0, hw1, hweq⟩ := hw
  have hrne : rows ≠ [] := by
    obtain ⟨i0, hi0⟩ := List.exists_mem_of_ne_nil mrows (by intro h; rw [h] at hm0; exact hm0 rfl)
    exact List.ne_nil_of_mem (hsub i0 hi0)
  have hmem : ∀ i ∈ rows, (L i m).isSome := fun i hi => (List.mem_filter.mp hi).2
  have hmem' : ∀ i ∈ rows, (L i m').isSome := by
    intro i hi
    have h1 := hmem i hi
    rw [Option.isSome_iff_ne_none] at h1 ⊢
    exact fun h => h1 ((hs i).mpr h)
  rw [mean_known rows _ (fun i hi => by rw [Option.isSome_map]; exact hmem i hi) hrne] at hlq
  rw [mean_known rows _ (fun i hi => by rw [Option.isSome_map]; exact hmem' i hi) hrne] at hlq'
  rw [if_neg hm0] at hag hag'
  have hsumle : (rows.map (fun i => ((L i m').map (p.post i)).elim 0 id)).sum / (rows.length : F) ≤
      (rows.map (fun i => ((L i m).map (p.post i)).elim 0 id)).sum / (rows.length : F) := by
    apply div_le_div_of_nonneg_right _ (Nat.cast_nonneg _)
    exact List.sum_le_sum (fun i hi => hle i (hmem i hi))
  have hcntle : mrows.countP (fun i => L i m' == some (c i)) ≤ mrows.countP (fun i => L i m == some (c i)) :=
    (right_counts hr mrows).1
  have h1 : annotatorQuality L c p m = some (w * ((rows.map (fun i => ((L i m).map (p.post i)).elim 0 id)).sum / (rows.length : F)) +
      (1 - w) * ((mrows.countP (fun i => L i m == some (c i)) : F) / mrows.length)) := by
    unfold annotatorQuality
    rw [hag, hlq, hweq]
    rfl
  have h2 : annotatorQuality L c p m' = some (w * ((rows.map (fun i => ((L i m').map (p.post i)).elim 0 id)).sum / (rows.length : F)) +
      (1 - w) * ((mrows.countP (fun i => L i m' == some (c i)) : F) / mrows.length)) := by
    unfold annotatorQuality
    rw [hag', hlq', hweq]
    rfl
  rw [h1, h2]
  refine ⟨by simp, fun a a' ha ha' => ?_⟩
  rw [← Option.some.inj ha, ← Option.some.inj ha']
  have hpos : (0 : F) < mrows.length := Nat.cast_pos.mpr (Nat.pos_of_ne_zero hm0)
  have hA := mul_le_mul_of_nonneg_left hsumle hw0
  constructor
  · have hB : (1 - w) * ((mrows.countP (fun i => L i m' == some (c i)) : F) / mrows.length) ≤
        (1 - w) * ((mrows.countP (fun i => L i m == some (c i)) : F) / mrows.length) := by
      apply mul_le_mul_of_nonneg_left _ (by linarith)
      exact div_le_div_of_nonneg_right (Nat.cast_le.mpr hcntle) hpos.le
    linarith
  · rintro ⟨i, hi⟩
    have hlt : mrows.countP (fun i => L i m' == some (c i)) < mrows.countP (fun i => L i m == some (c i)) := by
      have hi' := both_labelled hs hi
      refine (right_counts hr mrows).2 ⟨i, ?_, hi⟩
      rw [hmrows, List.mem_filter]
      refine ⟨?_, hi'.1⟩
      unfold multiRows
      rw [List.mem_filter]
      refine ⟨List.mem_finRange i, ?_⟩
      rw [decide_eq_true_eq, hnum]
      have := hi'.2
      omega
    have hB : (1 - w) * ((mrows.countP (fun i => L i m' == some (c i)) : F) / mrows.length) <
        (1 - w) * ((mrows.countP (fun i => L i m == some (c i)) : F) / mrows.length) := by
      apply mul_lt_mul_of_pos_left _ (by linarith)
      exact div_lt_div_of_pos_right (Nat.cast_lt.mpr hlt) hpos
    linarith

/-- Annotations for which the default consensus is rated lowest. -/
def rankL : Annotations 3 4 3 :=
  ![![some 0, some 1, some 2, some 0], ![some 0, some 1, some 1, some 0], ![some 2, some 1, some 0, some 0]]

/-- Predicted probabilities for `rankL`. -/
def rankP : Fin 3 → Fin 3 → ℚ := ![![1/20, 0, 19/20], ![1/10, 17/20, 1/20], ![0, 1/2, 1/2]]

/-- Annotations for which the model and the majority disagree. -/
def rankL' : Annotations 3 4 3 :=
  ![![some 1, some 2, some 0, some 2], ![some 0, some 1, some 2, some 0], ![some 0, some 0, some 1, some 1]]

/-- Predicted probabilities for `rankL'`. -/
def rankP' : Fin 3 → Fin 3 → ℚ := ![![1/20, 19/20, 0], ![1/2, 1/2, 0], ![0, 5/6, 1/6]]

/-- The least weight of each of four annotators. -/
def leastWeights : Fin 4 → ℚ := fun _ => 1 / 1000000

theorem rankL_valid : ValidAnnotations rankL := (assertValidInputs_iff _).mp (by decide +kernel)

theorem rankL'_valid : ValidAnnotations rankL' := (assertValidInputs_iff _).mp (by decide +kernel)

theorem majority_of (L : Annotations 3 4 3) (P : Fin 3 → Fin 3 → ℚ) (c : Fin 3 → Fin 3)
    (h : ∀ i, afterAnnotators L (some P) i = [c i]) (rand : Fin 3 → ℕ) : majorityVote L (some P) rand = .ok c := by
  unfold majorityVote
  rw [dif_pos (fun i => by rw [h]; simp)]
  congr 1
  funext i
  simp only [h]
  simp

theorem rankL_run (rand : Fin 3 → ℕ) : labelQualityMultiannotator rankL rankP rand 2 .bestQuality =
    .ok { consensus := ![2, 1, 0],
          quality := selfConfidence ![2, 1, 0] (posterior rankL rankP (5 / 12) 1 leastWeights),
          agreement := agreementWithConsensus rankL ![2, 1, 0],
          detailed := fun i m => (rankL i m).map (posterior rankL rankP (5 / 12) 1 leastWeights i),
          posterior := { post := posterior rankL rankP (5 / 12) 1 leastWeights, modelWeight := 1, annWeight := leastWeights } } := by
  have hp := postCrowdlab_eq rankL ![0, 1, 0] rankP 2 (1 / 2) ![2/9, 1/9, 2/9, 1/3] (1 / 500000) leastWeights
    (by decide +kernel) (by decide +kernel) (by decide +kernel) (by decide +kernel)
  have hb : bestQuality (posterior rankL rankP (1 / 2) (1 / 500000) leastWeights) ![0, 1, 0] = ![2, 1, 0] := by
    decide +kernel
  have hp2 := postCrowdlab_eq rankL ![2, 1, 0] rankP 2 (5 / 12) ![2/9, 1/9, 2/9, 1/3] 1 leastWeights
    (by decide +kernel) (by decide +kernel) (by decide +kernel) (by decide +kernel)
  unfold labelQualityMultiannotator
  rw [(assertValidInputs_iff _).mpr rankL_valid, majority_of rankL rankP ![0, 1, 0] (by decide +kernel)]
  unfold consensusStats
  simp only [bind, Except.bind, hp, pure, Except.pure, hb, hp2]

theorem rankL'_run (rand : Fin 3 → ℕ) : labelQualityMultiannotator rankL' rankP' rand 2 .majorityVote =
    .ok { consensus := ![2, 0, 1],
          quality := selfConfidence ![2, 0, 1] (posterior rankL' rankP' (1 / 2) 1 leastWeights),
          agreement := agreementWithConsensus rankL' ![2, 0, 1],
          detailed := fun i m => (rankL' i m).map (posterior rankL' rankP' (1 / 2) 1 leastWeights i),
          posterior := { post := posterior rankL' rankP' (1 / 2) 1 leastWeights, modelWeight := 1, annWeight := leastWeights } } := by
  have hp := postCrowdlab_eq rankL' ![2, 0, 1] rankP' 2 (1 / 2) ![2/9, 2/9, 1/9, 1/3] 1 leastWeights
    (by decide +kernel) (by decide +kernel) (by decide +kernel) (by decide +kernel)
  unfold labelQualityMultiannotator
  rw [(assertValidInputs_iff _).mpr rankL'_valid, majority_of rankL' rankP' ![2, 0, 1] (by decide +kernel)]
  unfold consensusStats
  simp only [bind, Except.bind, hp, pure, Except.pure]

/-- The hypotheses of `C196_rated` can be met: the third annotator always gave the consensus label, the last one only once. -/
example (rand : Fin 3 → ℕ) : ∃ r, labelQualityMultiannotator rankL rankP rand 2 .bestQuality = .ok r ∧
    ∃ a a', annotatorQuality rankL r.consensus r.posterior 2 = some a ∧ annotatorQuality rankL r.consensus r.posterior 3 = some a' ∧
      a' < a := by
  refine ⟨_, rankL_run rand, 75000671877/125001000002, 9375515626/187501500003, by decide +kernel, by decide +kernel, ?_⟩
  refine ((C196_rated rankL rankP rand 2 (by norm_num) .bestQuality _ (rankL_run rand) 2 3 (by unfold LabelledTogether; decide +kernel)
    (by unfold RightWhereDifferent; decide +kernel) ?_).2 _ _ (by decide +kernel) (by decide +kernel)).2 ⟨0, by decide +kernel⟩
  intro i hi q q' hq hq'
  have h : ∀ i, rankL i 2 ≠ rankL i 3 → ∃ k k', rankL i 2 = some k ∧ rankL i 3 = some k' ∧
      posterior rankL rankP (5 / 12) 1 leastWeights i k' ≤ posterior rankL rankP (5 / 12) 1 leastWeights i k := by decide +kernel
  obtain ⟨k, k', hk, hk', hle⟩ := h i hi
  simp only [hk, hk', Option.map_some, Option.some.injEq] at hq hq'
  rw [← hq, ← hq']
  exact hle

/-- **C197 (partial).** The agreement of the first annotator with the consensus is larger, both over all of their examples (the
column `agreement_with_consensus`) and over those that others labelled too (the quality for `quality_method="agreement"`), for
every consensus. Missing: the quality of `quality_method="crowdlab"`, see `C197_not_rated` and C196. -/
theorem C197_agreement_partial (L : Annotations n M K) (c : Fin n → Fin K) (m m' : Fin M) (hs : LabelledTogether L m m')
    (hr : RightWhereDifferent L c m m') :
    (∀ a a' : F, statsAgreement L c m = some a → statsAgreement L c m' = some a' → a' ≤ a ∧ ((∃ i, L i m ≠ L i m') → a' < a)) ∧
      (∀ a a' : F, agreementOnMulti L c m = some a → agreementOnMulti L c m' = some a' → a' ≤ a ∧ ((∃ i, L i m ≠ L i m') → a' < a)) := by
  have key : ∀ (l : List (Fin n)) (a a' : F), (∀ i, L i m ≠ L i m' → i ∈ l) →
      (if (l.filter (fun i => (L i m).isSome)).length = 0 then none
        else some (((l.filter (fun i => (L i m).isSome)).countP (fun i => L i m == some (c i)) : F) / (l.filter (fun i => (L i m).isSome)).length)) = some a →
      (if (l.filter (fun i => (L i m').isSome)).length = 0 then none
        else some (((l.filter (fun i => (L i m').isSome)).countP (fun i => L i m' == some (c i)) : F) / (l.filter (fun i => (L i m').isSome)).length)) = some a' →
      a' ≤ a ∧ ((∃ i, L i m ≠ L i m') → a' < a) := by
    intro l a a' hl ha ha'
    rw [← rows_eq hs] at ha'
    split_ifs at ha ha' with h0
    rw [← Option.some.inj ha, ← Option.some.inj ha']
    have hpos : (0 : F) < (l.filter (fun i => (L i m).isSome)).length := Nat.cast_pos.mpr (Nat.pos_of_ne_zero h0)
    obtain ⟨h1, h2⟩ := right_counts hr (l.filter (fun i => (L i m).isSome))
    refine ⟨div_le_div_of_nonneg_right (Nat.cast_le.mpr h1) hpos.le, ?_⟩
    rintro ⟨i, hi⟩
    exact div_lt_div_of_pos_right (Nat.cast_lt.mpr (h2 ⟨i, List.mem_filter.mpr ⟨hl i hi, (both_labelled hs hi).1⟩, hi⟩)) hpos
  refine ⟨fun a a' ha ha' => key (List.finRange n) a a' (fun i _ => List.mem_finRange i) ha ha',
    fun a a' ha ha' => key (multiRows L) a a' (fun i hi => ?_) ha ha'⟩
  unfold multiRows
  rw [List.mem_filter]
  refine ⟨List.mem_finRange i, ?_⟩
  rw [decide_eq_true_eq, numAnnotations_eq]
  have := (both_labelled hs hi).2
  omega

example : statsAgreement rankL ![2, 1, 0] 3 = some (1 / 3 : ℚ) ∧ statsAgreement rankL ![2, 1, 0] 0 = some (0 : ℚ) := by decide +kernel

/-- **C197 (refuted as stated).** It is not enough that the first annotator gave the consensus label wherever the two differ: here
the last annotator differs from the first one on the last example only, where they gave the consensus label, and is rated lower
(`0.05` instead of `0.22`). The two classes that the model prefers for this example tie, so the consensus falls back to the
majority label, which has the lowest quality of all classes. -/
theorem C197_not_rated : ∃ (L : Annotations 3 4 3) (P : Fin 3 → Fin 3 → ℚ) (root : ℚ),
    ValidAnnotations L ∧ (∀ i, IsDistribution (P i)) ∧ 0 < root ∧
      root * root = (∑ i, (numAnnotators L i : ℚ)) / (3 : ℕ) ∧ ∀ rand, ∃ r,
        labelQualityMultiannotator L P rand root .bestQuality = .ok r ∧ ∃ m m',
          LabelledTogether L m m' ∧ RightWhereDifferent L r.consensus m m' ∧ ∃ a a',
            annotatorQuality L r.consensus r.posterior m = some a ∧ annotatorQuality L r.consensus r.posterior m' = some a' ∧
              a < a' := by
  refine ⟨rankL, rankP, 2, rankL_valid, fun i => ⟨by revert i; decide +kernel, by revert i; decide +kernel⟩,
    by norm_num, by decide +kernel, fun rand => ⟨_, rankL_run rand, 3, 0, ?_, ?_, 9375515626/187501500003,
      81250515625/375003000006, by decide +kernel, by decide +kernel, by norm_num⟩⟩
  · unfold LabelledTogether; decide +kernel
  · unfold RightWhereDifferent; decide +kernel

/-- **C197 (refuted as stated)**, for the majority vote: the model, which weighs more than all annotators together, prefers another
label than the majority. -/
theorem C197_not_rated_majority : ∃ (L : Annotations 3 4 3) (P : Fin 3 → Fin 3 → ℚ) (root : ℚ),
    ValidAnnotations L ∧ (∀ i, IsDistribution (P i)) ∧ 0 < root ∧
      root * root = (∑ i, (numAnnotators L i : ℚ)) / (3 : ℕ) ∧ ∀ rand, ∃ r,
        labelQualityMultiannotator L P rand root .majorityVote = .ok r ∧ ∃ m m',
          LabelledTogether L m m' ∧ RightWhereDifferent L r.consensus m m' ∧ ∃ a a',
            annotatorQuality L r.consensus r.posterior m = some a ∧ annotatorQuality L r.consensus r.posterior m' = some a' ∧
              a < a' := by
  refine ⟨rankL', rankP', 2, rankL'_valid, fun i => ⟨by revert i; decide +kernel, by revert i; decide +kernel⟩,
    by norm_num, by decide +kernel, fun rand => ⟨_, rankL'_run rand, 3, 0, ?_, ?_, 250003093759/562504500009,
      90625515626/187501500003, by decide +kernel, by decide +kernel, by norm_num⟩⟩
  · unfold LabelledTogether; decide +kernel
  · unfold RightWhereDifferent; decide +kernel

end Cleanlab.Props
