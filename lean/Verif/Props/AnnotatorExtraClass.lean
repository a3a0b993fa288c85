import Verif.Props.ExtraClass
import Verif.Props.AnnotatorOrder

/-!
# C244, C245: a class nobody uses and the multi-annotator functions

`extendA L` are the annotations `L` for one more class, which no annotator ever chooses; `extendP P` has a further column of
zeros for it.
-/

namespace Cleanlab.Props

open Np Cleanlab.Rank Cleanlab.Multiannotator

variable {n M K : ℕ} {F : Type} [Field F] [LinearOrder F]

/-- The same annotations, with one more class. -/
def extendA (L : Annotations n M K) : Annotations n M (K + 1) := fun i m => (L i m).map Fin.castSucc

theorem extendA_isSome (L : Annotations n M K) (i : Fin n) (m : Fin M) : (extendA L i m).isSome = (L i m).isSome := by
  unfold extendA; cases L i m <;> rfl

theorem extendA_beq (L : Annotations n M K) (i : Fin n) (m : Fin M) (k : Fin K) :
    (extendA L i m == some k.castSucc) = (L i m == some k) := by
  unfold extendA
  rw [Bool.eq_iff_iff, beq_iff_eq, beq_iff_eq]
  cases L i m with
  | none => simp
  | some a => simp

theorem extendA_last (L : Annotations n M K) (i : Fin n) (m : Fin M) : (extendA L i m == some (Fin.last K)) = false := by
  unfold extendA
  rw [beq_eq_false_iff_ne]
  cases L i m with
  | none => simp
  | some a => simp

theorem extendA_none (L : Annotations n M K) (i : Fin n) (m : Fin M) : extendA L i m = none ↔ L i m = none := by
  unfold extendA; simp

theorem numAnnotations_extendA (L : Annotations n M K) (i : Fin n) : numAnnotations (extendA L) i = numAnnotations L i := by
  unfold numAnnotations
  simp only [extendA_isSome]

theorem labelCount_extendA (L : Annotations n M K) (i : Fin n) (k : Fin K) :
    labelCount (extendA L) i k.castSucc = labelCount L i k := by
  unfold labelCount
  simp only [extendA_beq]

theorem labelCount_extendA_last (L : Annotations n M K) (i : Fin n) : labelCount (extendA L) i (Fin.last K) = 0 := by
  unfold labelCount
  simp only [extendA_last]
  exact List.countP_eq_zero.mpr (fun _ _ => by simp)

/-- **C244.** The input checks accept or refuse (with the same message) the data with one more class. -/
theorem C244_checks (L : Annotations n M K) : assertValidInputs (extendA L) = assertValidInputs L := by
  unfold assertValidInputs
  simp only [extendA_none, numAnnotations_extendA]

/-! ### Majority vote -/

theorem modes_extendA (L : Annotations n M K) (i : Fin n) (h : ∃ m, L i m ≠ none) :
    modes (extendA L) i = (modes L i).map Fin.castSucc := by
  obtain ⟨m, hm⟩ := h
  obtain ⟨k, hk⟩ := Option.ne_none_iff_exists'.mp hm
  have hpos : 0 < labelCount L i k := by
    unfold labelCount
    exact List.countP_pos_iff.mpr ⟨m, List.mem_finRange m, by rw [hk]; simp⟩
  unfold modes
  rw [List.finRange_succ_last, List.filter_append, List.filter_map]
  have h1 : (fun k => decide (∀ j, labelCount (extendA L) i j ≤ labelCount (extendA L) i k)) ∘ Fin.castSucc =
      fun k => decide (∀ j, labelCount L i j ≤ labelCount L i k) := by
    funext a
    simp only [Function.comp, Fin.forall_fin_succ', labelCount_extendA, labelCount_extendA_last, Nat.zero_le, and_true]
  have h2 : [Fin.last K].filter (fun k => decide (∀ j, labelCount (extendA L) i j ≤ labelCount (extendA L) i k)) = [] := by
    rw [List.filter_eq_nil_iff]
    intro a ha
    obtain rfl := List.mem_singleton.mp ha
    rw [decide_eq_true_iff]
    intro hall
    have := hall k.castSucc
    rw [labelCount_extendA, labelCount_extendA_last] at this
    omega
  rw [h1, h2, List.append_nil]

omit [Field F] in
theorem keepMax_castSucc {s : Fin K → F} {s' : Fin (K + 1) → F} (h : ∀ k, s' k.castSucc = s k) (l : List (Fin K)) :
    keepMax s' (l.map Fin.castSucc) = (keepMax s l).map Fin.castSucc := by
  unfold keepMax
  rw [List.filter_map]
  congr 2
  funext k
  simp [Function.comp, h]

omit [Field F] in
theorem tieBreak_castSucc {s : Fin K → F} {s' : Fin (K + 1) → F} (h : ∀ k, s' k.castSucc = s k) (l : List (Fin K)) :
    tieBreak s' (l.map Fin.castSucc) = (tieBreak s l).map Fin.castSucc := by
  unfold tieBreak
  rw [List.length_map, keepMax_castSucc h]
  split_ifs <;> rfl

theorem afterFrequency_extendA (L : Annotations n M K) (P : Option (Fin n → Fin K → F)) (i : Fin n)
    (h : ∃ m, L i m ≠ none) :
    afterFrequency (extendA L) (P.map extendP) i = (afterFrequency L P i).map Fin.castSucc := by
  have hp : afterPredProbs (extendA L) (P.map extendP) i = (afterPredProbs L P i).map Fin.castSucc := by
    cases P with
    | none => exact modes_extendA L i h
    | some P =>
      show tieBreak (extendP P i) (modes (extendA L) i) = (tieBreak (P i) (modes L i)).map Fin.castSucc
      rw [modes_extendA L i h]
      exact tieBreak_castSucc (fun k => extendP_castSucc P i k) _
  unfold afterFrequency
  rw [hp]
  refine tieBreak_castSucc (fun k => ?_) _
  unfold classFrequency
  simp only [labelCount_extendA]

omit [LinearOrder F] in
theorem initialAgreement_extendA (L : Annotations n M K) (hL : ∀ i, ∃ m, L i m ≠ none) (m : Fin M) :
    initialAgreement (F := F) (extendA L) m = initialAgreement L m := by
  have h1 : ∀ i, (extendA L i m == (modes (extendA L) i).head?) = (L i m == (modes L i).head?) := by
    intro i
    rw [modes_extendA L i (hL i), List.head?_map]
    unfold extendA
    rw [Bool.eq_iff_iff, beq_iff_eq, beq_iff_eq]
    exact (Option.map_injective (Fin.castSucc_injective K)).eq_iff
  have h2 : ∀ i, (modes (extendA L) i).length = (modes L i).length := by
    intro i
    rw [modes_extendA L i (hL i), List.length_map]
  unfold initialAgreement nontiedIdx
  simp only [h1, h2, extendA_isSome]

omit [LinearOrder F] in
theorem annotatorsScore_extendA (L : Annotations n M K) (hL : ∀ i, ∃ m, L i m ≠ none) (i : Fin n) (k : Fin K) :
    annotatorsScore (F := F) (extendA L) i k.castSucc = annotatorsScore L i k := by
  unfold annotatorsScore imputedAgreement
  simp only [initialAgreement_extendA L hL, extendA_beq]

theorem afterAnnotators_extendA (L : Annotations n M K) (hL : ∀ i, ∃ m, L i m ≠ none) (P : Option (Fin n → Fin K → F))
    (i : Fin n) : afterAnnotators (extendA L) (P.map extendP) i = (afterAnnotators L P i).map Fin.castSucc := by
  unfold afterAnnotators
  dsimp only
  rw [afterFrequency_extendA L P i (hL i), List.length_map]
  split_ifs
  · rfl
  · rw [List.filter_map]
    congr 2
    funext k
    simp only [Function.comp_def, List.all_map, annotatorsScore_extendA L hL]

theorem getMod_map {α β : Type} (g : α → β) {l : List α} {l' : List β} (h : l' = l.map g) (r : ℕ) (hl : 0 < l.length)
    (hl' : 0 < l'.length) : l'[r % l'.length]'(Nat.mod_lt _ hl') = g (l[r % l.length]'(Nat.mod_lt _ hl)) := by
  subst h; simp

/-- **C244.** The majority vote labels are the same if a class is added that nobody uses, provided every example has a label. -/
theorem C244_majority_vote (L : Annotations n M K) (hL : ∀ i, ∃ m, L i m ≠ none) (P : Option (Fin n → Fin K → F))
    (rand : Fin n → ℕ) :
    majorityVote (extendA L) (P.map extendP) rand = (majorityVote L P rand).map extendL := by
  unfold majorityVote
  have hlen : ∀ i, (afterAnnotators (extendA L) (P.map extendP) i).length = (afterAnnotators L P i).length := by
    intro i
    rw [afterAnnotators_extendA L hL, List.length_map]
  by_cases hp : ∀ i, 0 < (afterAnnotators L P i).length
  · have hp' : ∀ i, 0 < (afterAnnotators (extendA L) (P.map extendP) i).length := fun i => by rw [hlen]; exact hp i
    rw [dif_pos hp, dif_pos hp']
    dsimp only [Except.map]
    congr 1
    funext i
    exact getMod_map Fin.castSucc (afterAnnotators_extendA L hL P i) (rand i) (hp i) (hp' i)
  · have hp' : ¬∀ i, 0 < (afterAnnotators (extendA L) (P.map extendP) i).length := by simpa only [hlen] using hp
    rw [dif_neg hp, dif_neg hp']
    rfl

/-! ### Weights and agreement -/

omit [LinearOrder F] in
/-- **C244.** The agreement of the annotators with the consensus is the same. -/
theorem C244_agreement (L : Annotations n M K) (c : Fin n → Fin K) :
    agreementWithConsensus (F := F) (extendA L) (extendL c) = agreementWithConsensus L c := by
  funext i
  unfold agreementWithConsensus
  rw [numAnnotations_extendA]
  unfold extendL
  simp only [extendA_beq]

omit [LinearOrder F] in
theorem agreementWithAnnotators_extendA (L : Annotations n M K) (m : Fin M) :
    agreementWithAnnotators (F := F) (extendA L) m = agreementWithAnnotators L m := by
  have h1 : ∀ i m m', (extendA L i m == extendA L i m') = (L i m == L i m') := by
    intro i m m'
    unfold extendA
    rw [Bool.eq_iff_iff, beq_iff_eq, beq_iff_eq]
    exact (Option.map_injective (Fin.castSucc_injective K)).eq_iff
  unfold agreementWithAnnotators singleAgreement agreementPerExample
  simp only [numAnnotations_extendA, extendA_isSome, h1]

variable [NeZero K]

theorem argmax_castSucc {α : Type} [LinearOrder α] (f : Fin (K + 1) → α) (h : ∀ k : Fin K, f (Fin.last K) ≤ f k.castSucc) :
    argmax f = (argmax (fun k : Fin K => f k.castSucc)).castSucc := by
  rw [argmax_eq_iff]
  refine ⟨fun j => ?_, fun j hj => ?_⟩
  · refine Fin.lastCases ?_ (fun j => ?_) j
    · exact h _
    · exact le_argmax (fun k : Fin K => f k.castSucc) j
  · revert hj
    refine Fin.lastCases ?_ (fun j => ?_) j
    · intro hj
      exact absurd hj (not_lt.mpr (Fin.le_last _))
    · intro hj
      exact lt_argmax (fun k : Fin K => f k.castSucc) j (Fin.castSucc_lt_castSucc_iff.mp hj)

omit [NeZero K] in
theorem multiRows_extendA (L : Annotations n M K) : multiRows (extendA L) = multiRows L := by
  unfold multiRows
  simp only [numAnnotations_extendA]

theorem mostLikely_extendA (L : Annotations n M K) (c : Fin n → Fin K) :
    mostLikelyClassError (F := F) (extendA L) (extendL c) = mostLikelyClassError L c := by
  unfold mostLikelyClassError
  dsimp only
  rw [multiRows_extendA]
  have h0 : (multiRows L).countP (fun i => decide (extendL c i = Fin.last K)) = 0 :=
    List.countP_eq_zero.mpr (fun i _ => by
      rw [decide_eq_true_iff]; exact (Fin.castSucc_lt_last (c i)).ne)
  rw [argmax_castSucc (fun k => (multiRows L).countP (fun i => decide (extendL c i = k)))
    (fun k => by rw [h0]; exact Nat.zero_le _)]
  unfold extendL
  simp only [Fin.castSucc_inj, ne_eq]

theorem modelWeight_extendA (L : Annotations n M K) (c : Fin n → Fin K) (P : Fin n → Fin K → F)
    (hP : ∀ i k, 0 ≤ P i k) (root : F) :
    modelWeight (extendA L) (extendL c) (extendP P) root = modelWeight L c P root := by
  have h : ∀ i, argmax (extendP P i) = (argmax (P i)).castSucc := by
    intro i
    rw [argmax_castSucc (extendP P i) (fun k => by rw [extendP_last, extendP_castSucc]; exact hP i k)]
    simp only [extendP_castSucc]
  unfold modelWeight
  dsimp only
  rw [multiRows_extendA, mostLikely_extendA]
  unfold extendL
  simp only [h, ne_eq, Fin.castSucc_inj]

/-- **C244.** The weights of the model and of the annotators are the same if a class is added that nobody uses, and they can be
computed in one case exactly if they can in the other. -/
theorem C244_weights (L : Annotations n M K) (c : Fin n → Fin K) (P : Fin n → Fin K → F) (hP : ∀ i k, 0 ≤ P i k)
    (root : F) :
    (postCrowdlab (extendA L) (extendL c) (extendP P) root).map (fun p => (p.modelWeight, p.annWeight)) =
      (postCrowdlab L c P root).map (fun p => (p.modelWeight, p.annWeight)) := by
  unfold postCrowdlab
  rw [multiRows_extendA, C244_agreement]
  cases mean? ((multiRows L).map (agreementWithConsensus (F := F) L c)) with
  | none => rfl
  | some cl =>
    dsimp only
    simp only [agreementWithAnnotators_extendA, modelWeight_extendA L c P hP]
    unfold adjustedAgreement
    simp only [mostLikely_extendA]
    by_cases hs : ∀ m, (agreementWithAnnotators (F := F) L m).isSome
    · rw [dif_pos hs, dif_pos hs]; rfl
    · rw [dif_neg hs, dif_neg hs]; rfl

/-- Two examples of four annotators, with a third class: the same labels. -/
example : (majorityVote (F := ℚ) (K := 3) (n := 2) (M := 4)
    (extendA ![![some 0, some 0, some 0, some 1], ![some 1, none, some 1, some 1]]) none (fun _ => 0)) =
      .ok ![0, 1] := by
  refine ok_of_toOption ?_
  decide +kernel

/-! ### Quality scores -/

theorem postCrowdlab_inv (L : Annotations n M K) (c : Fin n → Fin K) (P : Fin n → Fin K → F) (root : F)
    (p : Posterior n M K F) (h : postCrowdlab L c P root = .ok p) :
    ∃ cl, mean? ((multiRows L).map (agreementWithConsensus (F := F) L c)) = some cl ∧
      p.post = posterior L P cl p.modelWeight p.annWeight ∧ p.modelWeight = modelWeight L c P root ∧
      ∀ m, lowerBound ≤ p.annWeight m := by
  unfold postCrowdlab at h
  cases hm : mean? ((multiRows L).map (agreementWithConsensus (F := F) L c)) with
  | none => rw [hm] at h; cases h
  | some cl =>
    rw [hm] at h
    dsimp only at h
    split_ifs at h with hs
    obtain rfl := Except.ok.inj h
    exact ⟨cl, rfl, rfl, rfl, fun m => le_max_right _ _⟩

/-- **C245, the part that holds.** With one more class that nobody uses the quality of a consensus label is never higher, and
it is the same where all annotators of the example chose the consensus label. -/
theorem C245_lower_partial [IsStrictOrderedRing F] (hK : 2 ≤ K) (L : Annotations n M K) (c : Fin n → Fin K)
    (P : Fin n → Fin K → F) (hP : ∀ i k, 0 ≤ P i k) (root : F) (hroot : 0 ≤ root) (r : Result n M K F)
    (r' : Result n M (K + 1) F) (hr : consensusStats L P c root = .ok r)
    (hr' : consensusStats (extendA L) (extendP P) (extendL c) root = .ok r') (i : Fin n) :
    r'.quality i ≤ r.quality i ∧ ((∀ m, L i m = none ∨ L i m = some (c i)) → r'.quality i = r.quality i) := by
  have hw := C244_weights L c P hP root
  unfold consensusStats at hr hr'
  cases hp : postCrowdlab L c P root with
  | error e => rw [hp] at hr; cases hr
  | ok p =>
    cases hp' : postCrowdlab (extendA L) (extendL c) (extendP P) root with
    | error e => rw [hp'] at hr'; cases hr'
    | ok p' =>
      rw [hp] at hr; rw [hp'] at hr'
      obtain rfl := Except.ok.inj hr
      obtain rfl := Except.ok.inj hr'
      rw [hp, hp'] at hw
      have hw2 : p'.modelWeight = p.modelWeight ∧ p'.annWeight = p.annWeight := Prod.mk.inj (Except.ok.inj hw)
      obtain ⟨cl, hcl, hpost, hmw, haw⟩ := postCrowdlab_inv L c P root p hp
      obtain ⟨cl', hcl', hpost', -, -⟩ := postCrowdlab_inv (extendA L) (extendL c) (extendP P) root p' hp'
      rw [multiRows_extendA, C244_agreement, hcl] at hcl'
      obtain rfl := Option.some.inj hcl'
      have hcl1 : cl ≤ 1 := by
        refine (mean?_range _ cl hcl ?_).2
        intro x hx v hv
        obtain ⟨a, -, rfl⟩ := List.mem_map.mp hx
        unfold agreementWithConsensus at hv
        split_ifs at hv with h0
        obtain rfl := Option.some.inj hv
        refine ⟨by positivity, ?_⟩
        have hpos : (0 : F) < numAnnotations L a := by exact_mod_cast Nat.pos_of_ne_zero h0
        rw [div_le_one hpos]
        have hle : (List.finRange M).countP (fun m => L a m == some (c a)) ≤ numAnnotations L a := by
          unfold numAnnotations
          refine List.countP_mono_left (fun m _ hm => ?_)
          rw [beq_iff_eq.mp hm]; rfl
        exact_mod_cast hle
      have haw0 : ∀ m, 0 ≤ p.annWeight m := fun m => (lowerBound_pos (F := F)).le.trans (haw m)
      have hmw0 : 0 ≤ p.modelWeight := by
        rw [hmw]
        unfold modelWeight
        exact mul_nonneg ((lowerBound_pos (F := F)).le.trans (le_max_right _ _)) hroot
      have hK1 : (0 : F) < (K : F) - 1 := by
        have : (2 : F) ≤ K := by exact_mod_cast hK
        linarith
      have hncl : (1 - cl) / (((K + 1 : ℕ) : F) - 1) ≤ (1 - cl) / ((K : F) - 1) := by
        refine div_le_div_of_nonneg_left (by linarith) hK1 ?_
        push_cast
        linarith
      have htot : 0 ≤ (∑ m, if (L i m).isSome then p.annWeight m else 0) + p.modelWeight := by
        refine add_nonneg (Finset.sum_nonneg (fun m _ => ?_)) hmw0
        split_ifs
        · exact haw0 m
        · exact le_rfl
      have e1 : selfConfidence (extendL c) p'.post i = p'.post i (c i).castSucc := rfl
      have e2 : selfConfidence c p.post i = p.post i (c i) := rfl
      dsimp only
      rw [e1, e2, hpost, hpost', hw2.1, hw2.2]
      unfold posterior
      dsimp only
      simp only [extendA_isSome, extendP_castSucc]
      constructor
      · refine div_le_div_of_nonneg_right (add_le_add le_rfl (Finset.sum_le_sum (fun m _ => ?_))) htot
        unfold extendA
        cases L i m with
        | none => exact le_rfl
        | some l =>
          dsimp only [Option.map]
          simp only [Fin.castSucc_inj]
          split_ifs
          · exact le_rfl
          · exact mul_le_mul_of_nonneg_left hncl (haw0 m)
      · intro hall
        congr 2
        refine Finset.sum_congr rfl (fun m _ => ?_)
        unfold extendA
        rcases hall m with h | h
        · rw [h]; rfl
        · rw [h]; simp

/-- Two examples of four annotators; the root of the mean number of annotations is 2. -/
def fourL : Annotations 2 4 2 := ![![some 0, some 0, some 0, some 1], ![some 1, some 1, some 1, some 1]]

/-- The predictions for the two examples. -/
def fourP : Fin 2 → Fin 2 → ℚ := ![![3 / 4, 1 / 4], ![1 / 4, 3 / 4]]

/-- The root that belongs to these annotations. -/
example : rootMeanAnnotations fourL = 2 := by
  have h : ∀ i, numAnnotations fourL i = 4 := by decide +kernel
  unfold rootMeanAnnotations
  simp only [h, Finset.sum_const, Finset.card_univ, Fintype.card_fin, nsmul_eq_mul]
  rw [show ((2 : ℕ) : ℝ) * ((4 : ℕ) : ℝ) / ((2 : ℕ) : ℝ) = 2 ^ 2 by norm_num]
  exact Real.sqrt_sq (by norm_num)

/-- **C245 does not hold**: `non_consensus_likelihood` is divided among the other classes, so a class nobody uses, with
predicted probability 0, lowers the quality of a consensus label that one annotator of four did not choose. -/
theorem C245_not_quality :
    ((labelQualityMultiannotator (extendA fourL) (extendP fourP) (fun _ => 0) 2 .majorityVote).toOption.map
        (fun r => (r.consensus 0, r.quality 0))).any
      (fun q' => ((labelQualityMultiannotator fourL fourP (fun _ => 0) 2 .majorityVote).toOption.map
        (fun r => (r.consensus 0, r.quality 0))).any
        (fun q => decide (q'.1 = q.1.castSucc ∧ q'.2 < q.2))) = true := by
  decide +kernel

end Cleanlab.Props
