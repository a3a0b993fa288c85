import Verif.Props.ExampleOrder
import Verif.Props.Crowdlab
import Verif.Props.ValueCounts
import Verif.Model.ActiveLearning

/-!
# C122: the order of annotators and examples does not matter to the multi-annotator functions

`arrange σ π L` has the rows of the array in the order of `σ` and its columns in the order of `π`. The random numbers that
break the last ties stay with their example.
-/

namespace Cleanlab.Props

open Np Cleanlab.Rank Cleanlab.Multiannotator

variable {n M K : ℕ} {F : Type} [Field F] [LinearOrder F]

/-- Examples and annotators in another order. -/
def arrange (σ : Equiv.Perm (Fin n)) (π : Equiv.Perm (Fin M)) (L : Annotations n M K) : Annotations n M K :=
  fun i m => L (σ i) (π m)

/-! ### Sums and means over lists in another order -/

theorem filter_countP_comp (σ : Equiv.Perm (Fin n)) (p q : Fin n → Bool) :
    ((List.finRange n).filter (fun i => p (σ i))).countP (fun i => q (σ i)) = ((List.finRange n).filter p).countP q := by
  have h := (filter_comp_perm σ p).countP_eq q
  rwa [List.countP_map] at h

theorem filter_length_comp (σ : Equiv.Perm (Fin n)) (p : Fin n → Bool) :
    ((List.finRange n).filter (fun i => p (σ i))).length = ((List.finRange n).filter p).length := by
  simpa using (filter_comp_perm σ p).length_eq

theorem filterMap_comp {α : Type} (σ : Equiv.Perm (Fin n)) (f : Fin n → Option α) :
    ((List.finRange n).filterMap (fun i => f (σ i))).Perm ((List.finRange n).filterMap f) := by
  have h := (filter_comp_perm σ (fun _ => true)).filterMap f
  simpa [List.filterMap_map, Function.comp_def] using h

omit [LinearOrder F] in
theorem mapM_sum_perm {α : Type} {l l' : List α} (h : l.Perm l') (f : α → Option F) :
    (l.mapM f).map List.sum = (l'.mapM f).map List.sum := by
  induction h with
  | nil => rfl
  | cons x _ ih =>
    rw [List.mapM_cons, List.mapM_cons]
    cases f x with
    | none => rfl
    | some a =>
      rename_i l₁ l₂ _
      revert ih
      cases l₁.mapM f <;> cases l₂.mapM f <;> intro ih
      · rfl
      · cases ih
      · cases ih
      · have := Option.some.inj ih
        simp [this]
  | swap x y l =>
    rw [List.mapM_cons, List.mapM_cons, List.mapM_cons, List.mapM_cons]
    cases f x <;> cases f y <;> cases l.mapM f <;> try rfl
    simp [add_left_comm]
  | trans _ _ ih1 ih2 => exact ih1.trans ih2

omit [LinearOrder F] in
theorem mean?_perm {xs ys : List (Option F)} (h : xs.Perm ys) : mean? xs = mean? ys := by
  have hs := mapM_sum_perm h (fun x : Option F => x)
  unfold mean?
  rw [h.length_eq]
  split_ifs
  · rfl
  · have e : ∀ zs : List (Option F), (zs.mapM id).map (fun s => s.sum / (ys.length : F)) =
        ((zs.mapM (fun x => x)).map List.sum).map (· / (ys.length : F)) := by
      intro zs
      rw [Option.map_map]
      rfl
    rw [e, e, hs]

/-! ### Counting labels -/

theorem numAnnotations_arrange (σ : Equiv.Perm (Fin n)) (π : Equiv.Perm (Fin M)) (L : Annotations n M K) (i : Fin n) :
    numAnnotations (arrange σ π L) i = numAnnotations L (σ i) :=
  countP_comp π (fun m => (L (σ i) m).isSome)

theorem labelCount_arrange (σ : Equiv.Perm (Fin n)) (π : Equiv.Perm (Fin M)) (L : Annotations n M K) (i : Fin n)
    (k : Fin K) : labelCount (arrange σ π L) i k = labelCount L (σ i) k :=
  countP_comp π (fun m => L (σ i) m == some k)

theorem modes_arrange (σ : Equiv.Perm (Fin n)) (π : Equiv.Perm (Fin M)) (L : Annotations n M K) (i : Fin n) :
    modes (arrange σ π L) i = modes L (σ i) := by
  unfold modes
  simp only [labelCount_arrange]

/-- **C122.** The input checks accept or refuse (with the same message) whatever the order. -/
theorem C122_checks (σ : Equiv.Perm (Fin n)) (π : Equiv.Perm (Fin M)) (L : Annotations n M K) :
    assertValidInputs (arrange σ π L) = assertValidInputs L := by
  have h1 : (∃ i, ∀ m, arrange σ π L i m = none) ↔ ∃ i, ∀ m, L i m = none :=
    ⟨fun ⟨i, h⟩ => ⟨σ i, fun m => by simpa [arrange] using h (π.symm m)⟩,
      fun ⟨i, h⟩ => ⟨σ.symm i, fun m => by simpa [arrange] using h (π m)⟩⟩
  have h2 : (∃ m, ∀ i, arrange σ π L i m = none) ↔ ∃ m, ∀ i, L i m = none :=
    ⟨fun ⟨m, h⟩ => ⟨π m, fun i => by simpa [arrange] using h (σ.symm i)⟩,
      fun ⟨m, h⟩ => ⟨π.symm m, fun i => by simpa [arrange] using h (σ i)⟩⟩
  have h3 : (∀ i, numAnnotations (arrange σ π L) i = 1) ↔ ∀ i, numAnnotations L i = 1 := by
    simp only [numAnnotations_arrange]
    exact ⟨fun h i => by simpa using h (σ.symm i), fun h i => h (σ i)⟩
  unfold assertValidInputs
  simp only [h1, h2, h3]

/-! ### Majority vote -/

theorem classFrequency_arrange (σ : Equiv.Perm (Fin n)) (π : Equiv.Perm (Fin M)) (L : Annotations n M K) (k : Fin K) :
    classFrequency (arrange σ π L) k = classFrequency L k := by
  unfold classFrequency
  simp only [labelCount_arrange]
  exact Equiv.sum_comp σ (fun i => labelCount L i k)

/-- The probabilities in another order. -/
def arrangeP (σ : Equiv.Perm (Fin n)) (P : Option (Fin n → Fin K → F)) : Option (Fin n → Fin K → F) :=
  P.map (fun P i => P (σ i))

theorem afterFrequency_arrange (σ : Equiv.Perm (Fin n)) (π : Equiv.Perm (Fin M)) (L : Annotations n M K)
    (P : Option (Fin n → Fin K → F)) (i : Fin n) :
    afterFrequency (arrange σ π L) (arrangeP σ P) i = afterFrequency L P (σ i) := by
  unfold afterFrequency
  simp only [classFrequency_arrange]
  congr 1
  unfold afterPredProbs arrangeP
  cases P with
  | none => exact modes_arrange σ π L i
  | some P => dsimp only [Option.map]; rw [modes_arrange]

omit [LinearOrder F] in
theorem initialAgreement_arrange (σ : Equiv.Perm (Fin n)) (π : Equiv.Perm (Fin M)) (L : Annotations n M K) (m : Fin M) :
    initialAgreement (F := F) (arrange σ π L) m = initialAgreement L (π m) := by
  unfold initialAgreement nontiedIdx
  simp only [List.filter_filter, modes_arrange]
  unfold arrange
  rw [filter_length_comp σ (fun i => (L i (π m)).isSome && decide ((modes L i).length = 1)),
    filter_countP_comp σ (fun i => (L i (π m)).isSome && decide ((modes L i).length = 1))
      (fun i => L i (π m) == (modes L i).head?)]

omit [LinearOrder F] in
theorem imputedAgreement_arrange (σ : Equiv.Perm (Fin n)) (π : Equiv.Perm (Fin M)) (L : Annotations n M K) (m : Fin M) :
    imputedAgreement (F := F) (arrange σ π L) m = imputedAgreement L (π m) := by
  unfold imputedAgreement
  simp only [initialAgreement_arrange]
  have h := filterMap_comp π (fun m => initialAgreement (F := F) L m)
  rw [h.sum_eq, h.length_eq]

omit [LinearOrder F] in
theorem annotatorsScore_arrange (σ : Equiv.Perm (Fin n)) (π : Equiv.Perm (Fin M)) (L : Annotations n M K) (i : Fin n)
    (k : Fin K) : annotatorsScore (F := F) (arrange σ π L) i k = annotatorsScore L (σ i) k := by
  unfold annotatorsScore
  simp only [imputedAgreement_arrange]
  have hp := filter_comp_perm π (fun m => L (σ i) m == some k)
  have hl := filter_length_comp π (fun m => L (σ i) m == some k)
  have hs := mapM_sum_perm hp (fun m => imputedAgreement (F := F) L m)
  rw [List.mapM_map] at hs
  show (if ((List.finRange M).filter (fun m => L (σ i) (π m) == some k)).length = 0 then none else
    (((List.finRange M).filter (fun m => L (σ i) (π m) == some k)).mapM (fun m => imputedAgreement (F := F) L (π m))).map
      (fun s => s.sum / (((List.finRange M).filter (fun m => L (σ i) (π m) == some k)).length : F))) = _
  rw [hl]
  split_ifs
  · rfl
  · have e : ∀ o : Option (List F), o.map (fun s => s.sum / (((List.finRange M).filter (fun m => L (σ i) m == some k)).length : F)) =
        (o.map List.sum).map (· / (((List.finRange M).filter (fun m => L (σ i) m == some k)).length : F)) := by
      intro o; rw [Option.map_map]; rfl
    rw [e, e]
    congr 1

theorem afterAnnotators_arrange (σ : Equiv.Perm (Fin n)) (π : Equiv.Perm (Fin M)) (L : Annotations n M K)
    (P : Option (Fin n → Fin K → F)) (i : Fin n) :
    afterAnnotators (arrange σ π L) (arrangeP σ P) i = afterAnnotators L P (σ i) := by
  unfold afterAnnotators
  simp only [afterFrequency_arrange, annotatorsScore_arrange]

theorem getMod_congr {α : Type} {l l' : List α} (h : l = l') (r : ℕ) (hl : 0 < l.length) (hl' : 0 < l'.length) :
    l[r % l.length]'(Nat.mod_lt _ hl) = l'[r % l'.length]'(Nat.mod_lt _ hl') := by
  subst h; rfl

/-- **C122.** The majority vote label of every example is the same whatever the order of examples and annotators, and the
call fails in one order if it fails in the other. -/
theorem C122_majority_vote (σ : Equiv.Perm (Fin n)) (π : Equiv.Perm (Fin M)) (L : Annotations n M K)
    (P : Option (Fin n → Fin K → F)) (rand : Fin n → ℕ) :
    majorityVote (arrange σ π L) (arrangeP σ P) (fun i => rand (σ i)) =
      (majorityVote L P rand).map (fun c i => c (σ i)) := by
  unfold majorityVote
  by_cases h : ∀ i, 0 < (afterAnnotators L P i).length
  · have h' : ∀ i, 0 < (afterAnnotators (arrange σ π L) (arrangeP σ P) i).length := by
      intro i
      rw [afterAnnotators_arrange]
      exact h (σ i)
    rw [dif_pos h, dif_pos h']
    dsimp only [Except.map]
    congr 1
    funext i
    exact getMod_congr (afterAnnotators_arrange σ π L P i) (rand (σ i)) (h' i) (h (σ i))
  · have h' : ¬∀ i, 0 < (afterAnnotators (arrange σ π L) (arrangeP σ P) i).length := by
      intro h'
      refine h (fun i => ?_)
      have := h' (σ.symm i)
      rw [afterAnnotators_arrange] at this
      simpa using this
    rw [dif_neg h, dif_neg h']
    rfl

/-! ### CROWDLAB -/

omit [LinearOrder F] in
theorem agreement_arrange (σ : Equiv.Perm (Fin n)) (π : Equiv.Perm (Fin M)) (L : Annotations n M K) (c : Fin n → Fin K)
    (i : Fin n) : agreementWithConsensus (F := F) (arrange σ π L) (fun i => c (σ i)) i =
      agreementWithConsensus L c (σ i) := by
  unfold agreementWithConsensus
  rw [numAnnotations_arrange]
  have h := countP_comp π (fun m => L (σ i) m == some (c (σ i)))
  unfold arrange
  rw [h]

omit [LinearOrder F] in
theorem agreementPerExample_arrange (σ : Equiv.Perm (Fin n)) (π : Equiv.Perm (Fin M)) (L : Annotations n M K)
    (m : Fin M) (i : Fin n) :
    agreementPerExample (F := F) (arrange σ π L) m i = agreementPerExample L (π m) (σ i) := by
  unfold agreementPerExample
  rw [numAnnotations_arrange]
  have h := countP_comp π (fun m' => L (σ i) (π m) == L (σ i) m')
  unfold arrange
  rw [h]

omit [LinearOrder F] in
theorem singleAgreement_arrange (σ : Equiv.Perm (Fin n)) (π : Equiv.Perm (Fin M)) (L : Annotations n M K) (m : Fin M) :
    singleAgreement (F := F) (arrange σ π L) m = singleAgreement L (π m) := by
  unfold singleAgreement
  simp only [numAnnotations_arrange, agreementPerExample_arrange]
  have h1 := map_filter_comp σ (fun i => (L i (π m)).isSome) (fun i => numAnnotations L i - 1)
  have h2 := map_filter_comp σ (fun i => (L i (π m)).isSome)
    (fun i => agreementPerExample (F := F) L (π m) i * ((numAnnotations L i : F) - 1))
  unfold arrange
  rw [h1.sum_eq, h2.sum_eq]

omit [LinearOrder F] in
theorem agreementWithAnnotators_arrange (σ : Equiv.Perm (Fin n)) (π : Equiv.Perm (Fin M)) (L : Annotations n M K)
    (m : Fin M) : agreementWithAnnotators (F := F) (arrange σ π L) m = agreementWithAnnotators L (π m) := by
  unfold agreementWithAnnotators
  simp only [singleAgreement_arrange]
  have h := filterMap_comp π (fun m => singleAgreement (F := F) L m)
  rw [h.sum_eq, h.length_eq]

theorem multiRows_countP (σ : Equiv.Perm (Fin n)) (π : Equiv.Perm (Fin M)) (L : Annotations n M K) (q : Fin n → Bool) :
    (multiRows (arrange σ π L)).countP (fun i => q (σ i)) = (multiRows L).countP q := by
  unfold multiRows
  simp only [numAnnotations_arrange]
  exact filter_countP_comp σ (fun i => decide (numAnnotations L i ≠ 1)) q

theorem multiRows_length (σ : Equiv.Perm (Fin n)) (π : Equiv.Perm (Fin M)) (L : Annotations n M K) :
    (multiRows (arrange σ π L)).length = (multiRows L).length := by
  unfold multiRows
  simp only [numAnnotations_arrange]
  exact filter_length_comp σ (fun i => decide (numAnnotations L i ≠ 1))

variable [NeZero K]

theorem mostLikely_arrange (σ : Equiv.Perm (Fin n)) (π : Equiv.Perm (Fin M)) (L : Annotations n M K) (c : Fin n → Fin K) :
    mostLikelyClassError (F := F) (arrange σ π L) (fun i => c (σ i)) = mostLikelyClassError L c := by
  unfold mostLikelyClassError
  dsimp only
  have h : ∀ k, (multiRows (arrange σ π L)).countP (fun i => decide (c (σ i) = k)) =
      (multiRows L).countP (fun i => decide (c i = k)) := fun k => multiRows_countP σ π L (fun i => decide (c i = k))
  simp only [h, multiRows_length]
  have h2 : ∀ k, (multiRows (arrange σ π L)).countP (fun i => decide (c (σ i) ≠ k)) =
      (multiRows L).countP (fun i => decide (c i ≠ k)) := fun k => multiRows_countP σ π L (fun i => decide (c i ≠ k))
  rw [h2]

theorem modelWeight_arrange (σ : Equiv.Perm (Fin n)) (π : Equiv.Perm (Fin M)) (L : Annotations n M K) (c : Fin n → Fin K)
    (P : Fin n → Fin K → F) (root : F) :
    modelWeight (arrange σ π L) (fun i => c (σ i)) (fun i => P (σ i)) root = modelWeight L c P root := by
  unfold modelWeight
  dsimp only
  rw [mostLikely_arrange, multiRows_length, multiRows_countP σ π L (fun i => decide (argmax (P i) ≠ c i))]

omit [LinearOrder F] [NeZero K] in
theorem posterior_arrange (σ : Equiv.Perm (Fin n)) (π : Equiv.Perm (Fin M)) (L : Annotations n M K)
    (P : Fin n → Fin K → F) (cl mw : F) (aw : Fin M → F) :
    posterior (arrange σ π L) (fun i => P (σ i)) cl mw (fun m => aw (π m)) =
      fun i => posterior L P cl mw aw (σ i) := by
  funext i k
  unfold posterior arrange
  dsimp only
  rw [Equiv.sum_comp π (fun m => if (L (σ i) m).isSome then aw m else 0)]
  congr 2
  exact Equiv.sum_comp π (fun m => match L (σ i) m with
      | none => (0 : F)
      | some l => if l = k then aw m * cl else aw m * ((1 - cl) / ((K : F) - 1)))

/-- A posterior with its weights in another order. -/
def arrangePost (σ : Equiv.Perm (Fin n)) (π : Equiv.Perm (Fin M)) (p : Posterior n M K F) : Posterior n M K F :=
  { post := fun i => p.post (σ i), modelWeight := p.modelWeight, annWeight := fun m => p.annWeight (π m) }

theorem postCrowdlab_arrange (σ : Equiv.Perm (Fin n)) (π : Equiv.Perm (Fin M)) (L : Annotations n M K)
    (c : Fin n → Fin K) (P : Fin n → Fin K → F) (root : F) :
    postCrowdlab (arrange σ π L) (fun i => c (σ i)) (fun i => P (σ i)) root =
      (postCrowdlab L c P root).map (arrangePost σ π) := by
  have hmean : mean? ((multiRows (arrange σ π L)).map (agreementWithConsensus (F := F) (arrange σ π L) (fun i => c (σ i)))) =
      mean? ((multiRows L).map (agreementWithConsensus (F := F) L c)) := by
    refine mean?_perm ?_
    have hf : agreementWithConsensus (F := F) (arrange σ π L) (fun i => c (σ i)) =
      fun i => agreementWithConsensus (F := F) L c (σ i) := funext (agreement_arrange σ π L c)
    rw [hf]
    unfold multiRows
    simp only [numAnnotations_arrange]
    exact map_filter_comp σ (fun i => decide (numAnnotations L i ≠ 1)) (agreementWithConsensus (F := F) L c)
  unfold postCrowdlab
  rw [hmean]
  cases mean? ((multiRows L).map (agreementWithConsensus (F := F) L c)) with
  | none => rfl
  | some cl =>
    dsimp only
    by_cases h : ∀ m, (agreementWithAnnotators (F := F) L m).isSome
    · have h' : ∀ m, (agreementWithAnnotators (F := F) (arrange σ π L) m).isSome := by
        intro m
        rw [agreementWithAnnotators_arrange]
        exact h (π m)
      rw [dif_pos h, dif_pos h']
      have haw : (fun m => adjustedAgreement (arrange σ π L) (fun i => c (σ i))
          ((agreementWithAnnotators (arrange σ π L) m).get (h' m))) =
          fun m => adjustedAgreement L c ((agreementWithAnnotators (F := F) L (π m)).get (h (π m))) := by
        funext m
        unfold adjustedAgreement
        rw [mostLikely_arrange]
        have hg : ∀ (o o' : Option F) (e : o = o') (a : o.isSome) (b : o'.isSome), o.get a = o'.get b := by
          rintro o _ rfl a b; rfl
        rw [hg _ _ (agreementWithAnnotators_arrange σ π L m) (h' m) (h (π m))]
      rw [haw, modelWeight_arrange]
      dsimp only [Except.map]
      rw [posterior_arrange σ π L P cl _ (fun m => adjustedAgreement L c ((agreementWithAnnotators (F := F) L m).get (h m)))]
      rfl
    · have h' : ¬∀ m, (agreementWithAnnotators (F := F) (arrange σ π L) m).isSome := by
        intro h'
        refine h (fun m => ?_)
        have := h' (π.symm m)
        rw [agreementWithAnnotators_arrange] at this
        simpa using this
      rw [dif_neg h, dif_neg h']
      rfl

/-- The tables in another order. -/
def arrangeResult (σ : Equiv.Perm (Fin n)) (π : Equiv.Perm (Fin M)) (r : Result n M K F) : Result n M K F :=
  { consensus := fun i => r.consensus (σ i), quality := fun i => r.quality (σ i), agreement := fun i => r.agreement (σ i),
    detailed := fun i m => r.detailed (σ i) (π m), posterior := arrangePost σ π r.posterior }

theorem consensusStats_arrange (σ : Equiv.Perm (Fin n)) (π : Equiv.Perm (Fin M)) (L : Annotations n M K)
    (P : Fin n → Fin K → F) (c : Fin n → Fin K) (root : F) :
    consensusStats (arrange σ π L) (fun i => P (σ i)) (fun i => c (σ i)) root =
      (consensusStats L P c root).map (arrangeResult σ π) := by
  unfold consensusStats
  rw [postCrowdlab_arrange]
  have hf : agreementWithConsensus (F := F) (arrange σ π L) (fun i => c (σ i)) =
    fun i => agreementWithConsensus (F := F) L c (σ i) := funext (agreement_arrange σ π L c)
  rw [hf]
  cases postCrowdlab L c P root <;> rfl

/-- **C122.** The consensus labels, their qualities, the agreement, the detailed label qualities and the weights stay with
their example and annotator, for both consensus methods; an input refused in one order is refused in the other. -/
theorem C122_label_quality (σ : Equiv.Perm (Fin n)) (π : Equiv.Perm (Fin M)) (L : Annotations n M K)
    (P : Fin n → Fin K → F) (rand : Fin n → ℕ) (root : F) (method : ConsensusMethod) :
    labelQualityMultiannotator (arrange σ π L) (fun i => P (σ i)) (fun i => rand (σ i)) root method =
      (labelQualityMultiannotator L P rand root method).map (arrangeResult σ π) := by
  unfold labelQualityMultiannotator
  rw [C122_checks]
  have hmv := C122_majority_vote σ π L (some P) rand
  unfold arrangeP at hmv
  dsimp only [Option.map] at hmv
  rw [hmv]
  cases assertValidInputs L with
  | error e => rfl
  | ok u =>
    cases majorityVote L (some P) rand with
    | error e => rfl
    | ok mv =>
      dsimp only [Except.map, bind, Except.bind]
      rw [consensusStats_arrange]
      cases consensusStats L P mv root with
      | error e => rfl
      | ok r =>
        cases method with
        | majorityVote => rfl
        | bestQuality =>
          dsimp only [Except.map]
          have hb : bestQuality (arrangeResult σ π r).posterior.post (fun i => mv (σ i)) =
            fun i => bestQuality r.posterior.post mv (σ i) := rfl
          rw [hb]
          exact consensusStats_arrange σ π L P (bestQuality r.posterior.post mv) root

/-! ### Statistics about the annotators -/

omit [NeZero K] [LinearOrder F] in
theorem statsAgreement_arrange (σ : Equiv.Perm (Fin n)) (π : Equiv.Perm (Fin M)) (L : Annotations n M K)
    (c : Fin n → Fin K) (m : Fin M) :
    statsAgreement (F := F) (arrange σ π L) (fun i => c (σ i)) m = statsAgreement L c (π m) := by
  unfold statsAgreement arrange
  dsimp only
  rw [filter_length_comp σ (fun i => (L i (π m)).isSome),
    filter_countP_comp σ (fun i => (L i (π m)).isSome) (fun i => L i (π m) == some (c i))]

omit [NeZero K] [LinearOrder F] in
theorem agreementOnMulti_arrange (σ : Equiv.Perm (Fin n)) (π : Equiv.Perm (Fin M)) (L : Annotations n M K)
    (c : Fin n → Fin K) (m : Fin M) :
    agreementOnMulti (F := F) (arrange σ π L) (fun i => c (σ i)) m = agreementOnMulti L c (π m) := by
  unfold agreementOnMulti multiRows
  simp only [List.filter_filter, numAnnotations_arrange]
  unfold arrange
  rw [filter_length_comp σ (fun i => (L i (π m)).isSome && decide (numAnnotations L i ≠ 1)),
    filter_countP_comp σ (fun i => (L i (π m)).isSome && decide (numAnnotations L i ≠ 1))
      (fun i => L i (π m) == some (c i))]

omit [NeZero K] [LinearOrder F] in
theorem annotatorLqs_arrange (σ : Equiv.Perm (Fin n)) (π : Equiv.Perm (Fin M)) (L : Annotations n M K)
    (post : Fin n → Fin K → F) (m : Fin M) :
    annotatorLqs (arrange σ π L) (fun i => post (σ i)) m = annotatorLqs L post (π m) := by
  unfold annotatorLqs
  exact mean?_perm (map_filter_comp σ (fun i => (L i (π m)).isSome) (fun i => (L i (π m)).map (post i)))

omit [NeZero K] [LinearOrder F] in
theorem groupMean_arrange (σ : Equiv.Perm (Fin n)) (π : Equiv.Perm (Fin M)) (L : Annotations n M K) (m : Fin M)
    (k : Fin K) (f : Fin n → F) : groupMean (arrange σ π L) m k (fun i => f (σ i)) = groupMean L (π m) k f := by
  unfold groupMean arrange
  dsimp only
  rw [(map_filter_comp σ (fun i => L i (π m) == some k) f).sum_eq, filter_length_comp σ (fun i => L i (π m) == some k)]

omit [NeZero K] in
/-- **C122.** The statistics of every annotator stay the same: how many examples they labelled, their agreement with the
consensus, their quality and their worst class. -/
theorem C122_annotator_stats (σ : Equiv.Perm (Fin n)) (π : Equiv.Perm (Fin M)) (L : Annotations n M K)
    (r : Result n M K F) (m : Fin M) :
    (List.finRange n).countP (fun i => (arrange σ π L i m).isSome) = (List.finRange n).countP (fun i => (L i (π m)).isSome) ∧
    statsAgreement (F := F) (arrange σ π L) (arrangeResult σ π r).consensus m = statsAgreement L r.consensus (π m) ∧
    annotatorQuality (arrange σ π L) (arrangeResult σ π r).consensus (arrangeResult σ π r).posterior m =
      annotatorQuality L r.consensus r.posterior (π m) ∧
    worstClass (arrange σ π L) (arrangeResult σ π r).consensus (arrangeResult σ π r).quality m =
      worstClass L r.consensus r.quality (π m) := by
  refine ⟨countP_comp σ (fun i => (L i (π m)).isSome), statsAgreement_arrange σ π L r.consensus m, ?_, ?_⟩
  · unfold annotatorQuality
    have h1 : annotatorLqs (arrange σ π L) (arrangeResult σ π r).posterior.post m = annotatorLqs L r.posterior.post (π m) :=
      annotatorLqs_arrange σ π L r.posterior.post m
    have h2 : agreementOnMulti (F := F) (arrange σ π L) (arrangeResult σ π r).consensus m =
      agreementOnMulti L r.consensus (π m) := agreementOnMulti_arrange σ π L r.consensus m
    have h3 : ∑ i, (numAnnotations (arrange σ π L) i : F) = ∑ i, (numAnnotations L i : F) := by
      simp only [numAnnotations_arrange]
      exact Equiv.sum_comp σ (fun i => (numAnnotations L i : F))
    have h4 : ∑ m, (arrangeResult σ π r).posterior.annWeight m = ∑ m, r.posterior.annWeight m :=
      Equiv.sum_comp π r.posterior.annWeight
    rw [h1, h2, h3, h4]
    rfl
  · unfold worstClass
    have h1 : ∀ k, (∃ i, arrange σ π L i m = some k) ↔ ∃ i, L i (π m) = some k := fun k =>
      ⟨fun ⟨i, h⟩ => ⟨σ i, h⟩, fun ⟨i, h⟩ => ⟨σ.symm i, by simpa [arrange] using h⟩⟩
    have h2 : ∀ k, groupMean (arrange σ π L) m k (fun i =>
        if arrange σ π L i m = some ((arrangeResult σ π r).consensus i) then (1 : F) else 0) =
        groupMean L (π m) k (fun i => if L i (π m) = some (r.consensus i) then (1 : F) else 0) := fun k =>
      groupMean_arrange σ π L m k (fun i => if L i (π m) = some (r.consensus i) then (1 : F) else 0)
    have h3 : ∀ k, groupMean (arrange σ π L) m k (arrangeResult σ π r).quality = groupMean L (π m) k r.quality :=
      fun k => groupMean_arrange σ π L m k r.quality
    have h4 : ∀ k, (List.finRange n).countP (fun i => arrange σ π L i m == some k) =
        (List.finRange n).countP (fun i => L i (π m) == some k) := fun k => countP_comp σ (fun i => L i (π m) == some k)
    simp only [h1, h2, h3, h4]

omit [NeZero K] [LinearOrder F] in
/-- **C122.** The active learning score of every labelled example stays the same. -/
theorem C122_active_scores (σ : Equiv.Perm (Fin n)) (π : Equiv.Perm (Fin M)) (L : Annotations n M K)
    (r : Result n M K F) (i : Fin n) :
    activeScore K (arrange σ π L) (arrangeResult σ π r).quality (arrangeResult σ π r).posterior.annWeight
        (arrangeResult σ π r).posterior.modelWeight i =
      activeScore K L r.quality r.posterior.annWeight r.posterior.modelWeight (σ i) := by
  unfold activeScore arrange arrangeResult arrangePost
  dsimp only
  rw [Equiv.sum_comp π r.posterior.annWeight,
    Equiv.sum_comp π (fun m => if (L (σ i) m).isSome then r.posterior.annWeight m else 0)]

/-- Three annotators, two examples: exchanging the examples and moving the last annotator to the front. -/
example : (labelQualityMultiannotator (F := ℚ) (K := 2) (n := 2) (M := 3)
    (arrange (Equiv.swap 0 1) (finRotate 3) ![![some 0, some 0, some 1], ![some 1, none, some 1]])
    (fun i => (![![3 / 4, 1 / 4], ![1 / 4, 3 / 4]] : Fin 2 → Fin 2 → ℚ) (Equiv.swap 0 1 i)) (fun _ => 0) 1
    .majorityVote).map (fun r => r.consensus) = .ok ![1, 0] := by
  rw [C122_label_quality (Equiv.swap 0 1) (finRotate 3) _ (![![3 / 4, 1 / 4], ![1 / 4, 3 / 4]] : Fin 2 → Fin 2 → ℚ) (fun _ => 0)]
  refine ok_of_toOption ?_
  decide +kernel

/-! ### Active learning -/

theorem valueCounts_perm (isInt : Bool) {x y : List ℕ} (h : x.Perm y) (k : Option ℕ) :
    Util.valueCounts isInt x k = Util.valueCounts isInt y k := by
  have hu : Util.npUnique x = Util.npUnique y :=
    sorted_nodup_ext (sorted_npUnique x) (sorted_npUnique y) (nodup_npUnique x) (nodup_npUnique y)
      (fun a => by rw [mem_npUnique, mem_npUnique, h.mem_iff])
  unfold Util.valueCounts Util.npUniqueCounts
  simp only [hu, h.count_eq]

theorem collect_comp {β : Type} (σ : Equiv.Perm (Fin n)) (f : Fin n → Except String β) :
    (collect (fun i => f (σ i))).toOption = (collect f).toOption.map (fun g i => g (σ i)) := by
  cases h : collect f with
  | ok g =>
    have hg := (collect_ok_iff f g).mp h
    rw [(collect_ok_iff (fun i => f (σ i)) (fun i => g (σ i))).mpr (fun i => hg (σ i))]
    rfl
  | error e =>
    cases h' : collect (fun i => f (σ i)) with
    | error e' => rfl
    | ok g =>
      have hg := (collect_ok_iff _ g).mp h'
      have : collect f = .ok (fun i => g (σ.symm i)) :=
        (collect_ok_iff f _).mpr (fun i => by simpa using hg (σ.symm i))
      rw [h] at this
      cases this

theorem collect_congr {β : Type} {J : ℕ} (f g : Fin J → Except String β) (h : ∀ j, (f j).toOption = (g j).toOption) :
    (collect f).toOption = (collect g).toOption := by
  have key : ∀ f g : Fin J → Except String β, (∀ j, (f j).toOption = (g j).toOption) → ∀ v, collect f = .ok v →
      collect g = .ok v := by
    intro f g h v hv
    refine (collect_ok_iff g v).mpr (fun j => ok_of_toOption ?_)
    rw [← h j, (collect_ok_iff f v).mp hv j]
    rfl
  cases hf : collect f with
  | ok v => rw [key f g h v hf]
  | error e =>
    cases hg : collect g with
    | ok v => rw [key g f (fun j => (h j).symm) v hg] at hf; cases hf
    | error e' => rfl

theorem mapM_toOption_congr {α β : Type} (f g : α → Except String β) (h : ∀ a, (f a).toOption = (g a).toOption)
    (l : List α) : (l.mapM f).toOption = (l.mapM g).toOption := by
  induction l with
  | nil => rfl
  | cons a l ih =>
    rw [List.mapM_cons, List.mapM_cons]
    have ha := h a
    cases hf : f a with
    | error e =>
      cases hg : g a with
      | error e' => rfl
      | ok b => rw [hf, hg] at ha; cases ha
    | ok b =>
      cases hg : g a with
      | error e' => rw [hf, hg] at ha; cases ha
      | ok b' =>
        rw [hf, hg] at ha
        obtain rfl := Option.some.inj ha
        revert ih
        dsimp only [bind, Except.bind]
        cases l.mapM f <;> cases l.mapM g <;> intro ih
        · rfl
        · cases ih
        · cases ih
        · have := Option.some.inj ih
          subst this
          rfl

omit [NeZero K] in
theorem softCrossEntropy_arrange (isInt : Bool) (σ : Equiv.Perm (Fin n)) (π : Equiv.Perm (Fin M))
    (L : Annotations n M K) (Q : Fin n → Fin K → ℝ) (i : Fin n) :
    softCrossEntropy isInt (arrange σ π L) (fun i => Q (σ i)) i = softCrossEntropy isInt L Q (σ i) := by
  have hp : ((List.finRange M).filterMap (fun m => arrange σ π L i m)).Perm
      ((List.finRange M).filterMap (fun m => L (σ i) m)) := filterMap_comp π (fun m => L (σ i) m)
  have hl := hp.length_eq
  have hv := valueCounts_perm isInt (hp.map Fin.val) (some K)
  unfold softCrossEntropy
  dsimp only
  rw [hv, hl]

omit [NeZero K] in
theorem meanEntropy_arrange (isInt : Bool) (σ : Equiv.Perm (Fin n)) (π : Equiv.Perm (Fin M))
    (L : Annotations n M K) (P : Fin n → Fin K → ℝ) (T : ℝ) :
    (meanEntropy isInt (arrange σ π L) (fun i => P (σ i)) T).toOption = (meanEntropy isInt L P T).toOption := by
  have hf : softCrossEntropy isInt (arrange σ π L) (fun i => softmaxLog T (P (σ i))) =
      fun i => softCrossEntropy isInt L (fun i => softmaxLog T (P i)) (σ i) :=
    funext (softCrossEntropy_arrange isInt σ π L (fun i => softmaxLog T (P i)))
  have hc := collect_comp σ (softCrossEntropy isInt L (fun i => softmaxLog T (P i)))
  unfold meanEntropy
  rw [hf]
  dsimp only [bind, Except.bind, pure, Except.pure]
  split_ifs
  · rfl
  · revert hc
    cases collect (fun i => softCrossEntropy isInt L (fun i => softmaxLog T (P i)) (σ i)) <;>
      cases collect (softCrossEntropy isInt L (fun i => softmaxLog T (P i))) <;> intro hc
    · rfl
    · cases hc
    · cases hc
    · rename_i a b
      have : a = fun i => b (σ i) := Option.some.inj hc
      subst this
      dsimp only [Except.toOption]
      rw [Equiv.sum_comp σ b]

omit [NeZero K] in
theorem bestTemp_arrange (isInt : Bool) (σ : Equiv.Perm (Fin n)) (π : Equiv.Perm (Fin M))
    (L : Annotations n M K) (P : Fin n → Fin K → ℝ) :
    (bestTemp isInt (arrange σ π L) (fun i => P (σ i))).toOption = (bestTemp isInt L P).toOption := by
  have h1 := collect_congr _ _ (fun j => meanEntropy_arrange isInt σ π L P (coarseRange j))
  unfold bestTemp
  dsimp only [bind, Except.bind]
  revert h1
  cases collect (fun j => meanEntropy isInt (arrange σ π L) (fun i => P (σ i)) (coarseRange j)) <;>
    cases collect (fun j => meanEntropy isInt L P (coarseRange j)) <;> intro h1
  · rfl
  · cases h1
  · cases h1
  · rename_i a b
    obtain rfl : a = b := Option.some.inj h1
    dsimp only
    have h2 := mapM_toOption_congr _ _ (meanEntropy_arrange isInt σ π L P) (fineRange (argmin a))
    revert h2
    cases (fineRange (argmin a)).mapM (meanEntropy isInt (arrange σ π L) (fun i => P (σ i))) <;>
      cases (fineRange (argmin a)).mapM (meanEntropy isInt L P) <;> intro h2
    · rfl
    · cases h2
    · cases h2
    · rename_i u v
      obtain rfl : u = v := Option.some.inj h2
      rfl

/-- **C122.** `get_active_learning_scores`: an example that is already labelled keeps its score whatever the order of the
labelled examples and of the annotators, unlabelled examples keep theirs, and a call that fails in one order fails in the
other. -/
theorem C122_active_learning {u : ℕ} (isInt : Bool) (σ : Equiv.Perm (Fin n)) (π : Equiv.Perm (Fin M))
    (L : Annotations n M K) (P : Fin n → Fin K → ℝ) (U : Option (Fin u → Fin K → ℝ)) (rand : Fin n → ℕ) :
    (activeLearningScores isInt (some (arrange σ π L)) (some (fun i => P (σ i))) U (fun i => rand (σ i))).toOption =
      (activeLearningScores isInt (some L) (some P) U rand).toOption.map
        (fun r => (r.1.map (fun s i => s (σ i)), r.2)) := by
  have key : (activeLabeled isInt (arrange σ π L) (fun i => P (σ i)) (fun i => rand (σ i))).toOption =
      (activeLabeled isInt L P rand).toOption.map (fun a => { a with scores := fun i => a.scores (σ i) }) := by
    have h3 : (∀ i, numAnnotations (arrange σ π L) i = 1) ↔ ∀ i, numAnnotations L i = 1 := by
      simp only [numAnnotations_arrange]
      exact ⟨fun h i => by simpa using h (σ.symm i), fun h i => h (σ i)⟩
    unfold activeLabeled
    by_cases h : ∀ i, numAnnotations L i = 1
    · rw [if_pos h, if_pos (h3.mpr h)]
      have h1 : (∃ i, ∀ m, arrange σ π L i m = none) ↔ ∃ i, ∀ m, L i m = none :=
        ⟨fun ⟨i, h⟩ => ⟨σ i, fun m => by simpa [arrange] using h (π.symm m)⟩,
          fun ⟨i, h⟩ => ⟨σ.symm i, fun m => by simpa [arrange] using h (π m)⟩⟩
      have h2 : (∃ m, ∀ i, arrange σ π L i m = none) ↔ ∃ m, ∀ i, L i m = none :=
        ⟨fun ⟨m, h⟩ => ⟨π m, fun i => by simpa [arrange] using h (σ.symm i)⟩,
          fun ⟨m, h⟩ => ⟨π.symm m, fun i => by simpa [arrange] using h (σ i)⟩⟩
      have hv : assertValidSingle (arrange σ π L) = assertValidSingle L := by
        unfold assertValidSingle
        simp only [h1, h2]
      have hmv := C122_majority_vote σ π L (some P) rand
      unfold arrangeP at hmv
      dsimp only [Option.map] at hmv
      rw [hv, hmv]
      cases assertValidSingle L with
      | error e => rfl
      | ok _ =>
        cases majorityVote L (some P) rand with
        | error e => rfl
        | ok c =>
          have hc : checkReal true (fun i => c (σ i)) (fun i => P (σ i)) = checkReal true c P := by
            have hr : (∃ i k, P (σ i) k < -(1 / 10 ^ 6) ∨ P (σ i) k > 1 + 1 / 10 ^ 6) ↔
                ∃ i k, P i k < -(1 / 10 ^ 6) ∨ P i k > 1 + 1 / 10 ^ 6 :=
              ⟨fun ⟨i, k, h⟩ => ⟨σ i, k, h⟩, fun ⟨i, k, h⟩ => ⟨σ.symm i, k, by simpa using h⟩⟩
            unfold checkReal
            simp only [hr, Bool.true_eq_false, false_and]
          dsimp only [Except.map, bind, Except.bind]
          rw [hc]
          cases checkReal true c P with
          | error e => rfl
          | ok _ =>
            dsimp only [pure, Except.pure, Except.toOption, Option.map]
            congr 2
            funext i
            unfold activeScore selfConfidence arrange
            dsimp only
            rw [Equiv.sum_comp π (fun m => if (L (σ i) m).isSome then (1 : ℝ) else 0)]
    · rw [if_neg h, if_neg (fun h' => h (h3.mp h'))]
      have hb := bestTemp_arrange isInt σ π L P
      revert hb
      cases bestTemp isInt (arrange σ π L) (fun i => P (σ i)) <;> cases bestTemp isInt L P <;> intro hb
      · rfl
      · cases hb
      · cases hb
      · rename_i T T'
        obtain rfl : T = T' := Option.some.inj hb
        have hroot : rootMeanAnnotations (arrange σ π L) = rootMeanAnnotations L := by
          unfold rootMeanAnnotations
          simp only [numAnnotations_arrange]
          rw [Equiv.sum_comp σ (fun i => (numAnnotations L i : ℝ))]
        have hq := C122_label_quality σ π L (fun i => tempScale T (P i)) rand (rootMeanAnnotations L) .bestQuality
        dsimp only [bind, Except.bind]
        rw [hroot, hq]
        cases labelQualityMultiannotator L (fun i => tempScale T (P i)) rand (rootMeanAnnotations L) .bestQuality with
        | error e => rfl
        | ok r =>
          dsimp only [Except.map, pure, Except.pure, Except.toOption, Option.map]
          have hs : ∑ m, (arrangeResult σ π r).posterior.annWeight m = ∑ m, r.posterior.annWeight m :=
            Equiv.sum_comp π r.posterior.annWeight
          rw [hs]
          congr 2
          funext i
          exact C122_active_scores σ π L r i
  unfold activeLearningScores
  dsimp only [bind, Except.bind]
  revert key
  cases activeLabeled isInt (arrange σ π L) (fun i => P (σ i)) (fun i => rand (σ i)) <;>
    cases activeLabeled isInt L P rand <;> intro key
  · rfl
  · cases key
  · cases key
  · rename_i a b
    have : a = { b with scores := fun i => b.scores (σ i) } := Option.some.inj key
    subst this
    rfl

end Cleanlab.Props
