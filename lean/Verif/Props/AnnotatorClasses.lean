import Verif.Props.AnnotatorOrder
import Verif.Props.ClassNumbering

/-!
# C188, C189: the numbering of the classes in the multi-annotator functions

All labels and the columns of the probabilities are renumbered by a permutation `τ` of the classes.
-/

namespace Cleanlab.Props

open Np Cleanlab.Util Cleanlab.Rank Cleanlab.Multiannotator

variable {n M K : ℕ} {F : Type} [Field F] [LinearOrder F]

/-- The annotations in the new numbering. -/
def relabel (τ : Equiv.Perm (Fin K)) (L : Annotations n M K) : Annotations n M K := fun i m => (L i m).map τ

/-! ### Candidates -/

theorem beq_map_some (τ : Equiv.Perm (Fin K)) (o : Option (Fin K)) (k : Fin K) : (o.map τ == some (τ k)) = (o == some k) := by
  cases o with
  | none => rfl
  | some l => simp [τ.injective.eq_iff]

theorem beq_map (τ : Equiv.Perm (Fin K)) (o o' : Option (Fin K)) : (o.map τ == o'.map τ) = (o == o') := by
  cases o' with
  | none => cases o <;> rfl
  | some k => exact beq_map_some τ o k

theorem filter_relabel (τ : Equiv.Perm (Fin K)) (p q : Fin K → Bool) (h : ∀ k, q (τ k) = p k) :
    ((List.finRange K).filter q).Perm (((List.finRange K).filter p).map τ) := by
  have hp : p = fun k => q (τ k) := funext fun k => (h k).symm
  rw [hp]
  exact (filter_comp_perm τ q).symm

theorem numAnnotations_relabel (τ : Equiv.Perm (Fin K)) (L : Annotations n M K) (i : Fin n) :
    numAnnotations (relabel τ L) i = numAnnotations L i := by
  unfold numAnnotations relabel
  simp only [Option.isSome_map]

theorem labelCount_relabel (τ : Equiv.Perm (Fin K)) (L : Annotations n M K) (i : Fin n) (k : Fin K) :
    labelCount (relabel τ L) i (τ k) = labelCount L i k := by
  unfold labelCount relabel
  simp only [beq_map_some]

theorem modes_relabel (τ : Equiv.Perm (Fin K)) (L : Annotations n M K) (i : Fin n) :
    (modes (relabel τ L) i).Perm ((modes L i).map τ) := by
  unfold modes
  refine filter_relabel τ _ _ fun k => ?_
  rw [decide_eq_decide]
  constructor
  · intro h j
    have := h (τ j)
    rwa [labelCount_relabel, labelCount_relabel] at this
  · intro h j
    have h1 := h (τ.symm j)
    have h2 := labelCount_relabel τ L i (τ.symm j)
    rw [Equiv.apply_symm_apply] at h2
    rw [labelCount_relabel, h2]
    exact h1

omit [Field F] in
theorem keepMax_relabel (τ : Equiv.Perm (Fin K)) (s s' : Fin K → F) (hs : ∀ k, s' (τ k) = s k) (c c' : List (Fin K))
    (h : c'.Perm (c.map τ)) : (keepMax s' c').Perm ((keepMax s c).map τ) := by
  unfold keepMax
  refine (h.filter _).trans ?_
  rw [List.filter_map]
  apply List.Perm.of_eq
  congr 1
  apply List.filter_congr
  intro k _
  rw [Function.comp_apply, decide_eq_decide]
  constructor
  · intro hh j hj
    have := hh (τ j) (h.mem_iff.mpr (List.mem_map_of_mem hj))
    rwa [hs, hs] at this
  · intro hh j hj
    obtain ⟨j', hj', rfl⟩ := List.mem_map.mp (h.mem_iff.mp hj)
    rw [hs, hs]
    exact hh j' hj'

omit [Field F] in
theorem tieBreak_relabel (τ : Equiv.Perm (Fin K)) (s s' : Fin K → F) (hs : ∀ k, s' (τ k) = s k) (c c' : List (Fin K))
    (h : c'.Perm (c.map τ)) : (tieBreak s' c').Perm ((tieBreak s c).map τ) := by
  unfold tieBreak
  rw [h.length_eq, List.length_map]
  split_ifs
  · exact h
  · exact keepMax_relabel τ s s' hs c c' h

theorem classFrequency_relabel (τ : Equiv.Perm (Fin K)) (L : Annotations n M K) (k : Fin K) :
    classFrequency (relabel τ L) (τ k) = classFrequency L k := by
  unfold classFrequency
  simp only [labelCount_relabel]

omit [Field F] in
theorem afterPredProbs_relabel (τ : Equiv.Perm (Fin K)) (L : Annotations n M K) (P : Option (Fin n → Fin K → F)) (i : Fin n) :
    (afterPredProbs (relabel τ L) (P.map (renumberP τ)) i).Perm ((afterPredProbs L P i).map τ) := by
  cases P with
  | none => exact modes_relabel τ L i
  | some P => exact tieBreak_relabel τ _ _ (fun k => by unfold renumberP; rw [Equiv.symm_apply_apply]) _ _ (modes_relabel τ L i)

theorem afterFrequency_relabel (τ : Equiv.Perm (Fin K)) (L : Annotations n M K) (P : Option (Fin n → Fin K → F)) (i : Fin n) :
    (afterFrequency (relabel τ L) (P.map (renumberP τ)) i).Perm ((afterFrequency L P i).map τ) :=
  tieBreak_relabel τ _ _ (fun k => by rw [classFrequency_relabel]) _ _ (afterPredProbs_relabel τ L P i)

omit [LinearOrder F] in
theorem initialAgreement_relabel (τ : Equiv.Perm (Fin K)) (L : Annotations n M K) (m : Fin M) :
    initialAgreement (F := F) (relabel τ L) m = initialAgreement L m := by
  have hlen : ∀ i, (modes (relabel τ L) i).length = (modes L i).length := fun i => by
    rw [(modes_relabel τ L i).length_eq, List.length_map]
  have hrows : (nontiedIdx (relabel τ L)).filter (fun i => (relabel τ L i m).isSome) =
      (nontiedIdx L).filter (fun i => (L i m).isSome) := by
    unfold nontiedIdx relabel
    simp only [Option.isSome_map]
    congr 1
    apply List.filter_congr
    intro i _
    have := hlen i
    unfold relabel at this
    rw [this]
  have hcount : ((nontiedIdx L).filter (fun i => (L i m).isSome)).countP
      (fun i => relabel τ L i m == (modes (relabel τ L) i).head?) =
      ((nontiedIdx L).filter (fun i => (L i m).isSome)).countP (fun i => L i m == (modes L i).head?) := by
    apply List.countP_congr
    intro i hi
    have h1 : (modes L i).length = 1 := by
      have := (List.mem_filter.mp (List.mem_filter.mp hi).1).2
      simpa using this
    obtain ⟨k, hk⟩ := List.length_eq_one_iff.mp h1
    have h2 : modes (relabel τ L) i = [τ k] := by
      have := modes_relabel τ L i
      rw [hk] at this
      exact List.perm_singleton.mp this
    rw [hk, h2]
    show (_ = true) ↔ (_ = true)
    unfold relabel
    rw [List.head?_cons, List.head?_cons, beq_map_some]
  unfold initialAgreement
  dsimp only
  rw [hrows, hcount]

omit [LinearOrder F] in
theorem imputedAgreement_relabel (τ : Equiv.Perm (Fin K)) (L : Annotations n M K) (m : Fin M) :
    imputedAgreement (F := F) (relabel τ L) m = imputedAgreement L m := by
  unfold imputedAgreement
  simp only [initialAgreement_relabel]

omit [LinearOrder F] in
theorem annotatorsScore_relabel (τ : Equiv.Perm (Fin K)) (L : Annotations n M K) (i : Fin n) (k : Fin K) :
    annotatorsScore (F := F) (relabel τ L) i (τ k) = annotatorsScore L i k := by
  unfold annotatorsScore
  simp only [imputedAgreement_relabel]
  have h : (fun m => relabel τ L i m == some (τ k)) = fun m => L i m == some k := funext fun m => beq_map_some τ (L i m) k
  rw [h]

theorem afterAnnotators_relabel (τ : Equiv.Perm (Fin K)) (L : Annotations n M K) (P : Option (Fin n → Fin K → F)) (i : Fin n) :
    (afterAnnotators (relabel τ L) (P.map (renumberP τ)) i).Perm ((afterAnnotators L P i).map τ) := by
  have h := afterFrequency_relabel τ L P i
  unfold afterAnnotators
  dsimp only
  rw [h.length_eq, List.length_map]
  split_ifs
  · exact h
  · refine (h.filter _).trans ?_
    rw [List.filter_map]
    apply List.Perm.of_eq
    congr 1
    apply List.filter_congr
    intro k _
    rw [Function.comp_apply, Bool.eq_iff_iff, List.all_eq_true, List.all_eq_true]
    constructor
    · intro hh j hj
      have := hh (τ j) (h.mem_iff.mpr (List.mem_map_of_mem hj))
      rwa [annotatorsScore_relabel, annotatorsScore_relabel] at this
    · intro hh j hj
      obtain ⟨j', hj', rfl⟩ := List.mem_map.mp (h.mem_iff.mp hj)
      rw [annotatorsScore_relabel, annotatorsScore_relabel]
      exact hh j' hj'

/-- **C188.** If ties are left at the end, the choice is by random numbers: for suitable ones the majority vote labels are the
renumbered ones. The call fails in one numbering if it fails in the other. -/
theorem C188_majority_vote (τ : Equiv.Perm (Fin K)) (L : Annotations n M K) (P : Option (Fin n → Fin K → F)) (rand : Fin n → ℕ) :
    ∃ rand', majorityVote (relabel τ L) (P.map (renumberP τ)) rand' = (majorityVote L P rand).map (renumber τ) := by
  have hlen : ∀ i, (afterAnnotators (relabel τ L) (P.map (renumberP τ)) i).length = (afterAnnotators L P i).length := fun i => by
    rw [(afterAnnotators_relabel τ L P i).length_eq, List.length_map]
  unfold majorityVote
  by_cases h : ∀ i, 0 < (afterAnnotators L P i).length
  · have h' : ∀ i, 0 < (afterAnnotators (relabel τ L) (P.map (renumberP τ)) i).length := fun i => by rw [hlen]; exact h i
    have hidx : ∀ i, ∃ r, ∃ hr : r < (afterAnnotators (relabel τ L) (P.map (renumberP τ)) i).length,
        (afterAnnotators (relabel τ L) (P.map (renumberP τ)) i)[r] =
          τ ((afterAnnotators L P i)[rand i % (afterAnnotators L P i).length]'(Nat.mod_lt _ (h i))) := fun i => by
      have hm : τ ((afterAnnotators L P i)[rand i % (afterAnnotators L P i).length]'(Nat.mod_lt _ (h i))) ∈
          afterAnnotators (relabel τ L) (P.map (renumberP τ)) i :=
        (afterAnnotators_relabel τ L P i).mem_iff.mpr (List.mem_map_of_mem (List.getElem_mem _))
      exact List.mem_iff_getElem.mp hm
    choose r hr he using hidx
    refine ⟨r, ?_⟩
    rw [dif_pos h, dif_pos h']
    dsimp only [Except.map]
    congr 1
    funext i
    unfold renumber
    rw [← he i]
    congr 1
    exact Nat.mod_eq_of_lt (hr i)
  · have h' : ¬∀ i, 0 < (afterAnnotators (relabel τ L) (P.map (renumberP τ)) i).length := fun h' => h fun i => by
      rw [← hlen]; exact h' i
    refine ⟨rand, ?_⟩
    rw [dif_neg h, dif_neg h']
    rfl

/-- Nothing is left to chance: one candidate remains for each example. -/
def Settled (L : Annotations n M K) (P : Option (Fin n → Fin K → F)) : Prop := ∀ i, (afterAnnotators L P i).length = 1

theorem vote_settled {L : Annotations n M K} {P : Option (Fin n → Fin K → F)} (h : Settled L P) (rand rand' : Fin n → ℕ) :
    majorityVote L P rand = majorityVote L P rand' := by
  have h0 : ∀ i, 0 < (afterAnnotators L P i).length := fun i => by rw [h i]; exact one_pos
  unfold majorityVote
  rw [dif_pos h0, dif_pos h0]
  congr 1
  funext i
  congr 1
  rw [h i, Nat.mod_one, Nat.mod_one]

/-- **C188.** If no tie is left, the random numbers play no role. -/
theorem C188_settled (τ : Equiv.Perm (Fin K)) (L : Annotations n M K) (P : Option (Fin n → Fin K → F)) (h : Settled L P)
    (rand rand' : Fin n → ℕ) :
    majorityVote (relabel τ L) (P.map (renumberP τ)) rand' = (majorityVote L P rand).map (renumber τ) := by
  have h' : Settled (relabel τ L) (P.map (renumberP τ)) := fun i => by
    rw [(afterAnnotators_relabel τ L P i).length_eq, List.length_map]; exact h i
  obtain ⟨r, hr⟩ := C188_majority_vote τ L P rand
  rw [← hr]
  exact vote_settled h' _ _

/-! ### CROWDLAB -/

theorem assertValidInputs_relabel (τ : Equiv.Perm (Fin K)) (L : Annotations n M K) :
    assertValidInputs (relabel τ L) = assertValidInputs L := by
  unfold assertValidInputs
  simp only [numAnnotations_relabel]
  unfold relabel
  simp only [Option.map_eq_none_iff]

omit [LinearOrder F] in
theorem agreementWithConsensus_relabel (τ : Equiv.Perm (Fin K)) (L : Annotations n M K) (c : Fin n → Fin K) :
    agreementWithConsensus (F := F) (relabel τ L) (renumber τ c) = agreementWithConsensus L c := by
  funext i
  unfold agreementWithConsensus
  rw [numAnnotations_relabel]
  unfold relabel renumber
  simp only [beq_map_some]

omit [LinearOrder F] in
theorem agreementPerExample_relabel (τ : Equiv.Perm (Fin K)) (L : Annotations n M K) (m : Fin M) (i : Fin n) :
    agreementPerExample (F := F) (relabel τ L) m i = agreementPerExample L m i := by
  unfold agreementPerExample
  rw [numAnnotations_relabel]
  unfold relabel
  simp only [beq_map]

omit [LinearOrder F] in
theorem agreementWithAnnotators_relabel (τ : Equiv.Perm (Fin K)) (L : Annotations n M K) (m : Fin M) :
    agreementWithAnnotators (F := F) (relabel τ L) m = agreementWithAnnotators L m := by
  have h : ∀ m, singleAgreement (F := F) (relabel τ L) m = singleAgreement L m := by
    intro m
    unfold singleAgreement
    simp only [numAnnotations_relabel, agreementPerExample_relabel]
    unfold relabel
    simp only [Option.isSome_map]
  unfold agreementWithAnnotators
  simp only [h]

theorem multiRows_relabel (τ : Equiv.Perm (Fin K)) (L : Annotations n M K) : multiRows (relabel τ L) = multiRows L := by
  unfold multiRows
  simp only [numAnnotations_relabel]

variable [NeZero K]

theorem countP_ne_top (rows : List (Fin n)) (c : Fin n → Fin K) :
    rows.countP (fun i => decide (c i ≠ argmax (fun k => rows.countP (fun i => decide (c i = k))))) =
      rows.length - rows.countP (fun i => decide (c i = argmax (fun k => rows.countP (fun i => decide (c i = k))))) := by
  have h := List.length_eq_countP_add_countP
    (fun i => decide (c i = argmax (fun k => rows.countP (fun i => decide (c i = k))))) (l := rows)
  have e : rows.countP (fun i => decide (c i ≠ argmax (fun k => rows.countP (fun i => decide (c i = k))))) =
      rows.countP (fun a => decide ¬(decide (c a = argmax (fun k => rows.countP (fun i => decide (c i = k))))) = true) := by
    apply List.countP_congr
    intro i _
    simp
  omega

/-- Ties between the most frequent classes do not matter: only the number of examples of such a class is used. -/
theorem mostLikely_relabel (τ : Equiv.Perm (Fin K)) (L : Annotations n M K) (c : Fin n → Fin K) :
    mostLikelyClassError (F := F) (relabel τ L) (renumber τ c) = mostLikelyClassError L c := by
  unfold mostLikelyClassError
  dsimp only
  rw [multiRows_relabel, countP_ne_top (multiRows L) c, countP_ne_top (multiRows L) (renumber τ c)]
  have hk : ∀ k, (multiRows L).countP (fun i => decide (renumber τ c i = τ k)) = (multiRows L).countP (fun i => decide (c i = k)) := by
    intro k
    apply List.countP_congr
    intro i _
    unfold renumber
    rw [decide_eq_true_eq, decide_eq_true_eq, τ.injective.eq_iff]
  have hmax : (multiRows L).countP (fun i => decide (renumber τ c i =
        argmax (fun k => (multiRows L).countP (fun i => decide (renumber τ c i = k))))) =
      (multiRows L).countP (fun i => decide (c i = argmax (fun k => (multiRows L).countP (fun i => decide (c i = k))))) := by
    apply le_antisymm
    · obtain ⟨k, hk'⟩ := τ.surjective (argmax (fun k => (multiRows L).countP (fun i => decide (renumber τ c i = k))))
      rw [← hk', hk]
      exact le_argmax (fun k => (multiRows L).countP (fun i => decide (c i = k))) k
    · rw [← hk]
      exact le_argmax (fun k => (multiRows L).countP (fun i => decide (renumber τ c i = k))) _
  rw [hmax]

/-- The model prefers one class for each example that several annotators labelled. -/
def ClearModel (L : Annotations n M K) (P : Fin n → Fin K → F) : Prop :=
  ∀ i, numAnnotations L i ≠ 1 → ∃ k, ∀ j, j ≠ k → P i j < P i k

omit [Field F] in
theorem argmax_renumberP (τ : Equiv.Perm (Fin K)) (P : Fin n → Fin K → F) (i : Fin n) (h : ∃ k, ∀ j, j ≠ k → P i j < P i k) :
    argmax (renumberP τ P i) = τ (argmax (P i)) := by
  obtain ⟨k, hk⟩ := h
  have h1 : argmax (P i) = k := by
    by_contra hne
    exact absurd (le_argmax (P i) k) (not_le.mpr (hk _ hne))
  rw [h1]
  by_contra hne
  have h2 := le_argmax (renumberP τ P i) (τ k)
  unfold renumberP at h2 hne
  rw [Equiv.symm_apply_apply] at h2
  exact absurd h2 (not_le.mpr (hk _ (fun e => hne (by rw [← e, Equiv.apply_symm_apply]))))

theorem modelWeight_relabel (τ : Equiv.Perm (Fin K)) (L : Annotations n M K) (c : Fin n → Fin K) (P : Fin n → Fin K → F) (root : F)
    (h : ClearModel L P) :
    modelWeight (relabel τ L) (renumber τ c) (renumberP τ P) root = modelWeight L c P root := by
  unfold modelWeight
  dsimp only
  rw [mostLikely_relabel, multiRows_relabel]
  have hc : (multiRows L).countP (fun i => decide (argmax (renumberP τ P i) ≠ renumber τ c i)) =
      (multiRows L).countP (fun i => decide (argmax (P i) ≠ c i)) := by
    apply List.countP_congr
    intro i hi
    have hi' : numAnnotations L i ≠ 1 := by simpa [multiRows] using hi
    rw [argmax_renumberP τ P i (h i hi')]
    unfold renumber
    rw [decide_eq_true_eq, decide_eq_true_eq, ne_eq, ne_eq, τ.injective.eq_iff]
  rw [hc]

omit [LinearOrder F] [NeZero K] in
theorem posterior_relabel (τ : Equiv.Perm (Fin K)) (L : Annotations n M K) (P : Fin n → Fin K → F) (cl mw : F) (aw : Fin M → F) :
    posterior (relabel τ L) (renumberP τ P) cl mw aw = renumberP τ (posterior L P cl mw aw) := by
  funext i k
  unfold posterior renumberP relabel
  dsimp only
  simp only [Option.isSome_map]
  congr 2
  refine Finset.sum_congr rfl fun m _ => ?_
  cases L i m with
  | none => rfl
  | some l =>
    show (if τ l = k then _ else _) = if l = τ.symm k then _ else _
    simp only [Equiv.eq_symm_apply]

/-- Posterior and weights in the new numbering. -/
def relabelPost (τ : Equiv.Perm (Fin K)) (p : Posterior n M K F) : Posterior n M K F := { p with post := renumberP τ p.post }

theorem postCrowdlab_relabel (τ : Equiv.Perm (Fin K)) (L : Annotations n M K) (c : Fin n → Fin K) (P : Fin n → Fin K → F) (root : F)
    (h : ClearModel L P) :
    postCrowdlab (relabel τ L) (renumber τ c) (renumberP τ P) root = (postCrowdlab L c P root).map (relabelPost τ) := by
  unfold postCrowdlab
  rw [agreementWithConsensus_relabel, multiRows_relabel]
  cases mean? ((multiRows L).map (agreementWithConsensus (F := F) L c)) with
  | none => rfl
  | some cl =>
    dsimp only
    have ha : agreementWithAnnotators (F := F) (relabel τ L) = agreementWithAnnotators L :=
      funext (agreementWithAnnotators_relabel τ L)
    rw [ha]
    split_ifs with hs
    · dsimp only [Except.map]
      have haw : (fun m => adjustedAgreement (relabel τ L) (renumber τ c) ((agreementWithAnnotators (F := F) L m).get (hs m))) =
          fun m => adjustedAgreement L c ((agreementWithAnnotators L m).get (hs m)) := by
        funext m
        unfold adjustedAgreement
        rw [mostLikely_relabel]
      rw [haw, modelWeight_relabel τ L c P root h, posterior_relabel]
      rfl
    · rfl

/-- The tables in the new numbering: consensus labels and the columns of the posterior change, everything else stays. -/
def relabelResult (τ : Equiv.Perm (Fin K)) (r : Result n M K F) : Result n M K F :=
  { r with consensus := renumber τ r.consensus, posterior := relabelPost τ r.posterior }

theorem consensusStats_relabel (τ : Equiv.Perm (Fin K)) (L : Annotations n M K) (P : Fin n → Fin K → F) (c : Fin n → Fin K) (root : F)
    (h : ClearModel L P) :
    consensusStats (relabel τ L) (renumberP τ P) (renumber τ c) root = (consensusStats L P c root).map (relabelResult τ) := by
  unfold consensusStats
  rw [postCrowdlab_relabel τ L c P root h, agreementWithConsensus_relabel]
  cases postCrowdlab L c P root with
  | error e => rfl
  | ok p =>
    dsimp only [Except.map, bind, Except.bind, pure, Except.pure]
    unfold relabelResult
    congr 2
    · funext i
      show renumberP τ p.post i (τ (c i)) = p.post i (c i)
      unfold renumberP
      rw [Equiv.symm_apply_apply]
    · funext i m
      show ((L i m).map τ).map (renumberP τ p.post i) = (L i m).map (p.post i)
      rw [Option.map_map]
      congr 1
      funext k
      unfold renumberP
      rw [Function.comp_apply, Equiv.symm_apply_apply]

omit [Field F] in
theorem bestQuality_relabel (τ : Equiv.Perm (Fin K)) (post : Fin n → Fin K → F) (mv : Fin n → Fin K) :
    bestQuality (renumberP τ post) (renumber τ mv) = renumber τ (bestQuality post mv) := by
  funext i
  have h := keepMax_relabel τ (post i) (renumberP τ post i) (fun k => by unfold renumberP; rw [Equiv.symm_apply_apply])
    (List.finRange K) (List.finRange K) (by simpa using filter_relabel τ (fun _ => true) (fun _ => true) (fun _ => rfl))
  unfold renumber bestQuality
  rcases hk : keepMax (post i) (List.finRange K) with _ | ⟨k, _ | ⟨k2, l⟩⟩
  · rw [hk] at h
    rw [List.perm_nil.mp h]
  · rw [hk] at h
    rw [List.perm_singleton.mp h]
  · rw [hk] at h
    have hl := h.length_eq
    rcases hk' : keepMax (renumberP τ post i) (List.finRange K) with _ | ⟨a, _ | ⟨b, l'⟩⟩
    · rfl
    · rw [hk'] at hl; simp at hl
    · rfl

/-- **C188.** Consensus labels are renumbered; their qualities, the agreement, the detailed label qualities and the weights stay
as they are, for both consensus methods and suitable random numbers; an input refused in one numbering is refused in the other. -/
theorem C188_label_quality (τ : Equiv.Perm (Fin K)) (L : Annotations n M K) (P : Fin n → Fin K → F) (rand : Fin n → ℕ) (root : F)
    (method : ConsensusMethod) (h : ClearModel L P) :
    ∃ rand', labelQualityMultiannotator (relabel τ L) (renumberP τ P) rand' root method =
      (labelQualityMultiannotator L P rand root method).map (relabelResult τ) := by
  obtain ⟨rand', hr⟩ := C188_majority_vote τ L (some P) rand
  refine ⟨rand', ?_⟩
  dsimp only [Option.map] at hr
  unfold labelQualityMultiannotator
  rw [assertValidInputs_relabel, hr]
  cases assertValidInputs L with
  | error e => rfl
  | ok u =>
    cases majorityVote L (some P) rand with
    | error e => rfl
    | ok mv =>
      dsimp only [Except.map, bind, Except.bind]
      rw [consensusStats_relabel τ L P mv root h]
      cases consensusStats L P mv root with
      | error e => rfl
      | ok r =>
        cases method with
        | majorityVote => rfl
        | bestQuality =>
          dsimp only [Except.map]
          have hb : bestQuality (relabelResult τ r).posterior.post (renumber τ mv) =
            renumber τ (bestQuality r.posterior.post mv) := bestQuality_relabel τ r.posterior.post mv
          rw [hb]
          exact consensusStats_relabel τ L P (bestQuality r.posterior.post mv) root h

/-- **C188.** If no tie is left to chance, the same holds for all random numbers. -/
theorem C188_label_quality_settled (τ : Equiv.Perm (Fin K)) (L : Annotations n M K) (P : Fin n → Fin K → F) (rand rand' : Fin n → ℕ)
    (root : F) (method : ConsensusMethod) (h : ClearModel L P) (hs : Settled L (some P)) :
    labelQualityMultiannotator (relabel τ L) (renumberP τ P) rand' root method =
      (labelQualityMultiannotator L P rand root method).map (relabelResult τ) := by
  obtain ⟨r, hr⟩ := C188_label_quality τ L P rand root method h
  rw [← hr]
  have h1 := C188_settled τ L (some P) hs rand rand'
  have h2 := C188_settled τ L (some P) hs rand r
  dsimp only [Option.map] at h1 h2
  unfold labelQualityMultiannotator
  rw [h1, h2]

omit [LinearOrder F] [NeZero K] in
/-- **C188.** So do the qualities of the annotators and their agreement with the consensus. -/
theorem C188_annotators (τ : Equiv.Perm (Fin K)) (L : Annotations n M K) (c : Fin n → Fin K) (p : Posterior n M K F) (m : Fin M) :
    annotatorQuality (relabel τ L) (renumber τ c) (relabelPost τ p) m = annotatorQuality L c p m ∧
    statsAgreement (F := F) (relabel τ L) (renumber τ c) m = statsAgreement L c m := by
  have hbeq : ∀ i, (relabel τ L i m == some (renumber τ c i)) = (L i m == some (c i)) := fun i => beq_map_some τ (L i m) (c i)
  have hsome : ∀ i, (relabel τ L i m).isSome = (L i m).isSome := fun i => Option.isSome_map
  have hlqs : annotatorLqs (relabel τ L) (relabelPost τ p).post m = annotatorLqs L p.post m := by
    unfold annotatorLqs
    simp only [hsome]
    congr 1
    apply List.map_congr_left
    intro i _
    show ((L i m).map τ).map (renumberP τ p.post i) = (L i m).map (p.post i)
    rw [Option.map_map]
    congr 1
    funext k
    unfold renumberP
    rw [Function.comp_apply, Equiv.symm_apply_apply]
  have hagr : agreementOnMulti (F := F) (relabel τ L) (renumber τ c) m = agreementOnMulti L c m := by
    unfold agreementOnMulti
    simp only [hsome, hbeq, multiRows_relabel]
  constructor
  · unfold annotatorQuality
    rw [hlqs, hagr]
    simp only [numAnnotations_relabel]
    rfl
  · unfold statsAgreement
    simp only [hsome, hbeq]

omit [NeZero K] in
/-- **C188.** And so do the scores for active learning, of labelled and of unlabelled examples. -/
theorem C188_active_learning [NeZero K] (τ : Equiv.Perm (Fin K)) (L : Annotations n M K) (quality : Fin n → F) (aw : Fin M → F) (mw avg : F)
    (i : Fin n) (p : Fin K → F) :
    activeScore K (relabel τ L) quality aw mw i = activeScore K L quality aw mw i ∧
    activeScoreUnlabeled (renumberV τ p) mw avg = activeScoreUnlabeled p mw avg := by
  constructor
  · unfold activeScore relabel
    simp only [Option.isSome_map]
  · unfold activeScoreUnlabeled
    have : renumberV τ p (argmax (renumberV τ p)) = p (argmax p) := by
      apply le_antisymm
      · exact le_argmax p _
      · have := le_argmax (renumberV τ p) (τ (argmax p))
        unfold renumberV at this ⊢
        rwa [Equiv.symm_apply_apply] at this
    rw [this]

/-- Two examples, three annotators, three classes renumbered cyclically: the consensus labels follow, the qualities stay. -/
example : Settled (F := ℚ) (n := 2) (M := 3) (K := 3) (fun i m => if i = 0 then (if m = 2 then some 1 else some 0) else some 2)
    (some fun i k => if i = 0 then (if k = 0 then 8 / 10 else 1 / 10) else (if k = 2 then 8 / 10 else 1 / 10)) ∧
    ClearModel (F := ℚ) (n := 2) (M := 3) (K := 3) (fun i m => if i = 0 then (if m = 2 then some 1 else some 0) else some 2)
      (fun i k => if i = 0 then (if k = 0 then 8 / 10 else 1 / 10) else (if k = 2 then 8 / 10 else 1 / 10)) := by
  constructor
  · unfold Settled; decide +kernel
  · unfold ClearModel; decide +kernel

/-! ## C189 -/

/-- Four annotators agree that the only example is in class 0. -/
def fourVotes : Annotations 1 4 2 := fun _ _ => some 0

/-- **C189 fails.** The model cannot decide between the two classes. If all annotators say 0, its first class, it counts as
right; if the classes are numbered the other way round it counts as wrong, and its weight is a millionth: the quality of
the consensus label rises from 5/6 to almost 1. (The square root of the mean number of annotations is 2.) -/
theorem C189_not_undecided :
    ((labelQualityMultiannotator fourVotes (fun _ _ => (1 / 2 : ℚ)) (fun _ => 0) 2 .majorityVote).map
      (fun r => (r.quality 0, r.posterior.modelWeight))).toOption = some (5 / 6, 2) ∧
    ((labelQualityMultiannotator (relabel (Equiv.swap 0 1) fourVotes) (renumberP (Equiv.swap 0 1) (fun _ _ => (1 / 2 : ℚ)))
      (fun _ => 0) 2 .majorityVote).map (fun r => (r.quality 0, r.posterior.modelWeight))).toOption =
      some (4000001 / 4000002, 1 / 500000) := by
  constructor
  · decide +kernel
  · decide +kernel

/-- **C189, the part that holds.** Whatever the model predicts, by majority vote the consensus labels are renumbered, and
their agreement and the weights of the annotators stay as they are. (What is missing: the weight of the model, and with it the
qualities and the posterior; C188 has them for models that prefer one class.) -/
theorem C189_majority_vote_partial (τ : Equiv.Perm (Fin K)) (L : Annotations n M K) (P : Fin n → Fin K → F) (rand : Fin n → ℕ) (root : F) :
    ∃ rand', (labelQualityMultiannotator (relabel τ L) (renumberP τ P) rand' root .majorityVote).map
        (fun r => (r.consensus, r.agreement, r.posterior.annWeight)) =
      (labelQualityMultiannotator L P rand root .majorityVote).map
        (fun r => (renumber τ r.consensus, r.agreement, r.posterior.annWeight)) := by
  obtain ⟨rand', hr⟩ := C188_majority_vote τ L (some P) rand
  refine ⟨rand', ?_⟩
  dsimp only [Option.map] at hr
  unfold labelQualityMultiannotator
  rw [assertValidInputs_relabel, hr]
  cases assertValidInputs L with
  | error e => rfl
  | ok u =>
    cases majorityVote L (some P) rand with
    | error e => rfl
    | ok mv =>
      dsimp only [Except.map, bind, Except.bind]
      unfold consensusStats postCrowdlab
      rw [agreementWithConsensus_relabel, multiRows_relabel]
      cases mean? ((multiRows L).map (agreementWithConsensus (F := F) L mv)) with
      | none => rfl
      | some cl =>
        dsimp only
        have ha : agreementWithAnnotators (F := F) (relabel τ L) = agreementWithAnnotators L :=
          funext (agreementWithAnnotators_relabel τ L)
        rw [ha]
        split_ifs with hs
        · dsimp only [bind, Except.bind, pure, Except.pure]
          congr 3
          funext m
          unfold adjustedAgreement
          rw [mostLikely_relabel]
        · rfl

end Cleanlab.Props
