import Verif.Props.AnnotatorOrder
import Verif.Props.Repetition

/-!
# C243: repeating the data does not matter to the multi-annotator functions

`copied σ L` has the rows `σ 0, σ 1, …` of the array `L`, where `σ` takes every value equally often (`Repeats`). The random
numbers that break the last ties are those of the original example.
-/

namespace Cleanlab.Props

open Np Cleanlab.Rank Cleanlab.Multiannotator

variable {n N M K t : ℕ} {F : Type} [Field F] [LinearOrder F]

/-- The rows of an array, repeated. -/
def copied (σ : Fin N → Fin n) (L : Annotations n M K) : Annotations N M K := fun j m => L (σ j) m

/-! ### Lists of repeated rows -/

theorem map_repeat_perm {σ : Fin N → Fin n} (h : Repeats t σ) :
    ((List.finRange N).map σ).Perm (List.replicate t (List.finRange n)).flatten := by
  classical
  rw [List.perm_iff_count]
  intro i
  have h1 : ((List.finRange N).map σ).count i = t := by
    rw [List.count, List.countP_map, ← h.2 i, List.countP_eq_length_filter,
      ← List.toFinset_card_of_nodup ((List.nodup_finRange N).filter _)]
    congr 1
    ext j
    simp
  rw [h1, List.count_flatten, List.map_replicate, List.sum_replicate,
    List.count_eq_one_of_mem (List.nodup_finRange n) (List.mem_finRange i), smul_eq_mul, mul_one]

theorem filter_repeat_perm {σ : Fin N → Fin n} (h : Repeats t σ) (p : Fin n → Bool) :
    (((List.finRange N).filter (fun j => p (σ j))).map σ).Perm
      (List.replicate t ((List.finRange n).filter p)).flatten := by
  have h1 := (map_repeat_perm h).filter p
  rwa [List.filter_map, List.filter_flatten, List.map_replicate] at h1

theorem filter_countP_repeat {σ : Fin N → Fin n} (h : Repeats t σ) (p q : Fin n → Bool) :
    ((List.finRange N).filter (fun j => p (σ j))).countP (fun j => q (σ j)) =
      t * ((List.finRange n).filter p).countP q := by
  have h1 := (filter_repeat_perm h p).countP_eq q
  rwa [List.countP_map, List.countP_flatten, List.map_replicate, List.sum_replicate, smul_eq_mul] at h1

theorem countP_repeat {σ : Fin N → Fin n} (h : Repeats t σ) (q : Fin n → Bool) :
    (List.finRange N).countP (fun j => q (σ j)) = t * (List.finRange n).countP q := by
  have h1 := (map_repeat_perm h).countP_eq q
  rwa [List.countP_map, List.countP_flatten, List.map_replicate, List.sum_replicate, smul_eq_mul] at h1

theorem filter_length_repeat {σ : Fin N → Fin n} (h : Repeats t σ) (p : Fin n → Bool) :
    ((List.finRange N).filter (fun j => p (σ j))).length = t * ((List.finRange n).filter p).length := by
  simpa using (filter_repeat_perm h p).length_eq

theorem filter_map_repeat {α : Type} {σ : Fin N → Fin n} (h : Repeats t σ) (p : Fin n → Bool) (f : Fin n → α) :
    (((List.finRange N).filter (fun j => p (σ j))).map (fun j => f (σ j))).Perm
      (List.replicate t (((List.finRange n).filter p).map f)).flatten := by
  have h1 := (filter_repeat_perm h p).map f
  rwa [List.map_map, List.map_flatten, List.map_replicate] at h1

theorem filter_sum_repeat {α : Type} [AddCommMonoid α] {σ : Fin N → Fin n} (h : Repeats t σ) (p : Fin n → Bool)
    (f : Fin n → α) : (((List.finRange N).filter (fun j => p (σ j))).map (fun j => f (σ j))).sum =
      t • (((List.finRange n).filter p).map f).sum := by
  rw [(filter_map_repeat h p f).sum_eq, List.sum_flatten, List.map_replicate, List.sum_replicate]

omit [Field F] [LinearOrder F] in
theorem mapM_replicate (t : ℕ) (xs : List (Option F)) (v : List F) (hv : xs.mapM id = some v) :
    (List.replicate t xs).flatten.mapM id = some (List.replicate t v).flatten := by
  induction t with
  | zero => rfl
  | succ t ih =>
    rw [List.replicate_succ, List.flatten_cons, List.mapM_append, hv, ih]
    rfl

omit [LinearOrder F] in
theorem mean?_replicate [CharZero F] (ht : 0 < t) (xs : List (Option F)) :
    mean? (List.replicate t xs).flatten = mean? xs := by
  have ht' : (t : F) ≠ 0 := by exact_mod_cast ht.ne'
  have hl : (List.replicate t xs).flatten.length = t * xs.length := by simp
  unfold mean?
  rw [hl]
  by_cases h0 : xs.length = 0
  · rw [if_pos h0, if_pos (by rw [h0, mul_zero])]
  · rw [if_neg h0, if_neg (Nat.mul_ne_zero ht.ne' h0)]
    cases hv : xs.mapM id with
    | some v =>
      rw [mapM_replicate t xs v hv]
      dsimp only [Option.map]
      rw [List.sum_flatten, List.map_replicate, List.sum_replicate, nsmul_eq_mul, Nat.cast_mul,
        mul_div_mul_left _ _ ht']
    | none =>
      obtain ⟨s, rfl⟩ : ∃ s, t = s + 1 := ⟨t - 1, by omega⟩
      rw [List.replicate_succ, List.flatten_cons, List.mapM_append, hv]
      rfl

omit [LinearOrder F] in
theorem ratio_repeat [CharZero F] (ht : 0 < t) (a b : ℕ) : ((t * a : ℕ) : F) / ((t * b : ℕ) : F) = (a : F) / b := by
  have ht' : (t : F) ≠ 0 := by exact_mod_cast ht.ne'
  rw [Nat.cast_mul, Nat.cast_mul, mul_div_mul_left _ _ ht']

omit [Field F] in
theorem keepMax_congr_le {s s' : Fin K → F} (h : ∀ j k, s' j ≤ s' k ↔ s j ≤ s k) (l : List (Fin K)) :
    keepMax s' l = keepMax s l := by
  unfold keepMax
  simp only [h]

/-! ### Checks and majority vote -/

/-- **C243.** The input checks accept or refuse (with the same message) the repeated data. -/
theorem C243_checks {σ : Fin N → Fin n} (h : Repeats t σ) (L : Annotations n M K) :
    assertValidInputs (copied σ L) = assertValidInputs L := by
  have h1 : (∃ j, ∀ m, copied σ L j m = none) ↔ ∃ i, ∀ m, L i m = none :=
    ⟨fun ⟨j, hj⟩ => ⟨σ j, hj⟩, fun ⟨i, hi⟩ => by obtain ⟨j, rfl⟩ := h.surj i; exact ⟨j, hi⟩⟩
  have h2 : (∃ m, ∀ j, copied σ L j m = none) ↔ ∃ m, ∀ i, L i m = none :=
    ⟨fun ⟨m, hm⟩ => ⟨m, fun i => by obtain ⟨j, rfl⟩ := h.surj i; exact hm j⟩, fun ⟨m, hm⟩ => ⟨m, fun j => hm (σ j)⟩⟩
  have h3 : (∀ j, numAnnotations (copied σ L) j = 1) ↔ ∀ i, numAnnotations L i = 1 :=
    ⟨fun hj i => by obtain ⟨j, rfl⟩ := h.surj i; exact hj j, fun hi j => hi (σ j)⟩
  unfold assertValidInputs
  simp only [h1, h2, h3]

theorem classFrequency_copied {σ : Fin N → Fin n} (h : Repeats t σ) (L : Annotations n M K) (k : Fin K) :
    classFrequency (copied σ L) k = t * classFrequency L k := by
  have := h.sum (fun i => labelCount L i k)
  rwa [smul_eq_mul] at this

theorem afterFrequency_copied [IsStrictOrderedRing F] {σ : Fin N → Fin n} (h : Repeats t σ) (L : Annotations n M K)
    (P : Option (Fin n → Fin K → F)) (j : Fin N) :
    afterFrequency (copied σ L) (P.map (fun P j => P (σ j))) j = afterFrequency L P (σ j) := by
  have ht : (0 : F) < t := by exact_mod_cast h.1
  have hp : afterPredProbs (copied σ L) (P.map (fun P j => P (σ j))) j = afterPredProbs L P (σ j) := by
    cases P <;> rfl
  unfold afterFrequency tieBreak
  rw [hp, keepMax_congr_le (s := fun k => -(classFrequency L k : F))]
  intro a b
  simp only [classFrequency_copied h, Nat.cast_mul, neg_le_neg_iff]
  exact mul_le_mul_iff_right₀ ht

omit [LinearOrder F] in
theorem initialAgreement_copied [CharZero F] {σ : Fin N → Fin n} (h : Repeats t σ) (L : Annotations n M K) (m : Fin M) :
    initialAgreement (F := F) (copied σ L) m = initialAgreement L m := by
  unfold initialAgreement nontiedIdx
  simp only [List.filter_filter]
  have hl := filter_length_repeat h (fun i => (L i m).isSome && decide ((modes L i).length = 1))
  have hc := filter_countP_repeat h (fun i => (L i m).isSome && decide ((modes L i).length = 1))
      (fun i => L i m == (modes L i).head?)
  have e : ∀ j, modes (copied σ L) j = modes L (σ j) := fun _ => rfl
  simp only [e]
  unfold copied
  rw [hl, hc, ratio_repeat h.1]
  simp only [Nat.mul_eq_zero, h.1.ne', false_or]

omit [LinearOrder F] in
theorem annotatorsScore_copied [CharZero F] {σ : Fin N → Fin n} (h : Repeats t σ) (L : Annotations n M K) (j : Fin N)
    (k : Fin K) : annotatorsScore (F := F) (copied σ L) j k = annotatorsScore L (σ j) k := by
  unfold annotatorsScore imputedAgreement
  simp only [initialAgreement_copied h]
  rfl

theorem afterAnnotators_copied [IsStrictOrderedRing F] {σ : Fin N → Fin n} (h : Repeats t σ) (L : Annotations n M K)
    (P : Option (Fin n → Fin K → F)) (j : Fin N) :
    afterAnnotators (copied σ L) (P.map (fun P j => P (σ j))) j = afterAnnotators L P (σ j) := by
  unfold afterAnnotators
  simp only [afterFrequency_copied h, annotatorsScore_copied h]

/-- **C243.** Every copy of an example gets the majority vote label of the example, and the call fails for the repeated data
exactly if it fails for the data. -/
theorem C243_majority_vote [IsStrictOrderedRing F] {σ : Fin N → Fin n} (h : Repeats t σ) (L : Annotations n M K)
    (P : Option (Fin n → Fin K → F)) (rand : Fin n → ℕ) :
    majorityVote (copied σ L) (P.map (fun P j => P (σ j))) (fun j => rand (σ j)) =
      (majorityVote L P rand).map (fun c j => c (σ j)) := by
  unfold majorityVote
  by_cases hp : ∀ i, 0 < (afterAnnotators L P i).length
  · have hp' : ∀ j, 0 < (afterAnnotators (copied σ L) (P.map (fun P j => P (σ j))) j).length := by
      intro j
      rw [afterAnnotators_copied h]
      exact hp (σ j)
    rw [dif_pos hp, dif_pos hp']
    dsimp only [Except.map]
    congr 1
    funext j
    exact getMod_congr (afterAnnotators_copied h L P j) (rand (σ j)) (hp' j) (hp (σ j))
  · have hp' : ¬∀ j, 0 < (afterAnnotators (copied σ L) (P.map (fun P j => P (σ j))) j).length := by
      intro hp'
      refine hp (fun i => ?_)
      obtain ⟨j, rfl⟩ := h.surj i
      have := hp' j
      rwa [afterAnnotators_copied h] at this
    rw [dif_neg hp, dif_neg hp']
    rfl

/-! ### CROWDLAB -/

omit [LinearOrder F] in
theorem singleAgreement_copied [CharZero F] {σ : Fin N → Fin n} (h : Repeats t σ) (L : Annotations n M K) (m : Fin M) :
    singleAgreement (F := F) (copied σ L) m = singleAgreement L m := by
  have ht' : (t : F) ≠ 0 := by exact_mod_cast h.1.ne'
  have h1 := filter_sum_repeat h (fun i => (L i m).isSome) (fun i => numAnnotations L i - 1)
  have h2 := filter_sum_repeat h (fun i => (L i m).isSome)
    (fun i => agreementPerExample (F := F) L m i * ((numAnnotations L i : F) - 1))
  have e1 : ∀ j, numAnnotations (copied σ L) j = numAnnotations L (σ j) := fun _ => rfl
  have e2 : ∀ j, agreementPerExample (F := F) (copied σ L) m j = agreementPerExample L m (σ j) := fun _ => rfl
  unfold singleAgreement
  simp only [e1, e2]
  unfold copied
  rw [h1, h2]
  simp only [smul_eq_mul, nsmul_eq_mul, Nat.cast_mul, mul_div_mul_left _ _ ht', Nat.mul_eq_zero, h.1.ne', false_or]

omit [LinearOrder F] in
theorem agreementWithAnnotators_copied [CharZero F] {σ : Fin N → Fin n} (h : Repeats t σ) (L : Annotations n M K)
    (m : Fin M) : agreementWithAnnotators (F := F) (copied σ L) m = agreementWithAnnotators L m := by
  unfold agreementWithAnnotators
  simp only [singleAgreement_copied h]

theorem multiRows_countP_copied {σ : Fin N → Fin n} (h : Repeats t σ) (L : Annotations n M K) (q : Fin n → Bool) :
    (multiRows (copied σ L)).countP (fun j => q (σ j)) = t * (multiRows L).countP q :=
  filter_countP_repeat h (fun i => decide (numAnnotations L i ≠ 1)) q

theorem multiRows_length_copied {σ : Fin N → Fin n} (h : Repeats t σ) (L : Annotations n M K) :
    (multiRows (copied σ L)).length = t * (multiRows L).length :=
  filter_length_repeat h (fun i => decide (numAnnotations L i ≠ 1))

/-- **C243.** The root in the weight of the model, the one irrational number of the computation, is the same. -/
theorem C243_root {σ : Fin N → Fin n} (h : Repeats t σ) (L : Annotations n M K) :
    rootMeanAnnotations (copied σ L) = rootMeanAnnotations L := by
  have ht' : (t : ℝ) ≠ 0 := by exact_mod_cast h.1.ne'
  have hN : (N : ℝ) = t * n := by exact_mod_cast h.total
  have hs := h.sum (fun i => (numAnnotations L i : ℝ))
  unfold rootMeanAnnotations
  have e : ∑ j, (numAnnotations (copied σ L) j : ℝ) = t • ∑ i, (numAnnotations L i : ℝ) := hs
  rw [e, hN, nsmul_eq_mul, mul_div_mul_left _ _ ht']

variable [NeZero K]

theorem argmax_repeat (ht : 0 < t) (f : Fin K → ℕ) : argmax (fun k => t * f k) = argmax f := by
  have h := (argmax_eq_iff f (argmax f)).mp rfl
  exact (argmax_eq_iff (fun k => t * f k) (argmax f)).mpr
    ⟨fun j => Nat.mul_le_mul_left t (h.1 j), fun j hj => Nat.mul_lt_mul_of_pos_left (h.2 j hj) ht⟩

theorem mostLikely_copied [CharZero F] {σ : Fin N → Fin n} (h : Repeats t σ) (L : Annotations n M K) (c : Fin n → Fin K) :
    mostLikelyClassError (F := F) (copied σ L) (fun j => c (σ j)) = mostLikelyClassError L c := by
  unfold mostLikelyClassError
  dsimp only
  have h1 : ∀ k, (multiRows (copied σ L)).countP (fun j => decide (c (σ j) = k)) =
      t * (multiRows L).countP (fun i => decide (c i = k)) :=
    fun k => multiRows_countP_copied h L (fun i => decide (c i = k))
  have h2 : ∀ k, (multiRows (copied σ L)).countP (fun j => decide (c (σ j) ≠ k)) =
      t * (multiRows L).countP (fun i => decide (c i ≠ k)) :=
    fun k => multiRows_countP_copied h L (fun i => decide (c i ≠ k))
  simp only [h1]
  rw [argmax_repeat h.1, h2, multiRows_length_copied h, ratio_repeat h.1]

theorem modelWeight_copied [CharZero F] {σ : Fin N → Fin n} (h : Repeats t σ) (L : Annotations n M K) (c : Fin n → Fin K)
    (P : Fin n → Fin K → F) (root : F) :
    modelWeight (copied σ L) (fun j => c (σ j)) (fun j => P (σ j)) root = modelWeight L c P root := by
  unfold modelWeight
  dsimp only
  rw [mostLikely_copied h, multiRows_length_copied h,
    multiRows_countP_copied h L (fun i => decide (argmax (P i) ≠ c i)), ratio_repeat h.1]

/-- A posterior of the repeated data. -/
def copiedPost (σ : Fin N → Fin n) (p : Posterior n M K F) : Posterior N M K F :=
  { post := fun j => p.post (σ j), modelWeight := p.modelWeight, annWeight := p.annWeight }

theorem postCrowdlab_copied [CharZero F] {σ : Fin N → Fin n} (h : Repeats t σ) (L : Annotations n M K)
    (c : Fin n → Fin K) (P : Fin n → Fin K → F) (root : F) :
    postCrowdlab (copied σ L) (fun j => c (σ j)) (fun j => P (σ j)) root =
      (postCrowdlab L c P root).map (copiedPost σ) := by
  have hmean : mean? ((multiRows (copied σ L)).map (agreementWithConsensus (F := F) (copied σ L) (fun j => c (σ j)))) =
      mean? ((multiRows L).map (agreementWithConsensus (F := F) L c)) := by
    rw [← mean?_replicate h.1 ((multiRows L).map (agreementWithConsensus (F := F) L c))]
    exact mean?_perm (filter_map_repeat h (fun i => decide (numAnnotations L i ≠ 1)) (agreementWithConsensus (F := F) L c))
  unfold postCrowdlab
  rw [hmean]
  cases mean? ((multiRows L).map (agreementWithConsensus (F := F) L c)) with
  | none => rfl
  | some cl =>
    dsimp only
    by_cases hs : ∀ m, (agreementWithAnnotators (F := F) L m).isSome
    · have hs' : ∀ m, (agreementWithAnnotators (F := F) (copied σ L) m).isSome := by
        intro m
        rw [agreementWithAnnotators_copied h]
        exact hs m
      rw [dif_pos hs, dif_pos hs']
      have haw : (fun m => adjustedAgreement (copied σ L) (fun j => c (σ j))
          ((agreementWithAnnotators (copied σ L) m).get (hs' m))) =
          fun m => adjustedAgreement L c ((agreementWithAnnotators (F := F) L m).get (hs m)) := by
        funext m
        unfold adjustedAgreement
        rw [mostLikely_copied h]
        have hg : ∀ (o o' : Option F) (e : o = o') (a : o.isSome) (b : o'.isSome), o.get a = o'.get b := by
          rintro o _ rfl a b; rfl
        rw [hg _ _ (agreementWithAnnotators_copied h L m) (hs' m) (hs m)]
      rw [haw, modelWeight_copied h]
      rfl
    · have hs' : ¬∀ m, (agreementWithAnnotators (F := F) (copied σ L) m).isSome := by
        intro hs'
        refine hs (fun m => ?_)
        have := hs' m
        rwa [agreementWithAnnotators_copied h] at this
      rw [dif_neg hs, dif_neg hs']
      rfl

/-- The tables of the repeated data. -/
def copiedResult (σ : Fin N → Fin n) (r : Result n M K F) : Result N M K F :=
  { consensus := fun j => r.consensus (σ j), quality := fun j => r.quality (σ j), agreement := fun j => r.agreement (σ j),
    detailed := fun j => r.detailed (σ j), posterior := copiedPost σ r.posterior }

theorem consensusStats_copied [CharZero F] {σ : Fin N → Fin n} (h : Repeats t σ) (L : Annotations n M K)
    (P : Fin n → Fin K → F) (c : Fin n → Fin K) (root : F) :
    consensusStats (copied σ L) (fun j => P (σ j)) (fun j => c (σ j)) root =
      (consensusStats L P c root).map (copiedResult σ) := by
  unfold consensusStats
  rw [postCrowdlab_copied h]
  cases postCrowdlab L c P root <;> rfl

/-- **C243.** Every copy of an example gets the consensus label, its quality, the agreement and the detailed label qualities of
the example, for both consensus methods, and all weights are the same; repeated data are refused exactly if the data are. -/
theorem C243_label_quality [IsStrictOrderedRing F] {σ : Fin N → Fin n} (h : Repeats t σ) (L : Annotations n M K)
    (P : Fin n → Fin K → F) (rand : Fin n → ℕ) (root : F) (method : ConsensusMethod) :
    labelQualityMultiannotator (copied σ L) (fun j => P (σ j)) (fun j => rand (σ j)) root method =
      (labelQualityMultiannotator L P rand root method).map (copiedResult σ) := by
  unfold labelQualityMultiannotator
  rw [C243_checks h]
  have hmv := C243_majority_vote h L (some P) rand
  dsimp only [Option.map] at hmv
  rw [hmv]
  cases assertValidInputs L with
  | error e => rfl
  | ok u =>
    cases majorityVote L (some P) rand with
    | error e => rfl
    | ok mv =>
      dsimp only [Except.map, bind, Except.bind]
      rw [consensusStats_copied h]
      cases consensusStats L P mv root with
      | error e => rfl
      | ok r =>
        cases method with
        | majorityVote => rfl
        | bestQuality =>
          dsimp only [Except.map]
          exact consensusStats_copied h L P (bestQuality r.posterior.post mv) root

/-! ### Statistics about the annotators -/

omit [NeZero K] [LinearOrder F] in
theorem groupMean_copied [CharZero F] {σ : Fin N → Fin n} (h : Repeats t σ) (L : Annotations n M K) (m : Fin M)
    (k : Fin K) (f : Fin n → F) : groupMean (copied σ L) m k (fun j => f (σ j)) = groupMean L m k f := by
  have ht' : (t : F) ≠ 0 := by exact_mod_cast h.1.ne'
  unfold groupMean copied
  dsimp only
  rw [filter_sum_repeat h (fun i => L i m == some k) f, filter_length_repeat h (fun i => L i m == some k), nsmul_eq_mul,
    Nat.cast_mul, mul_div_mul_left _ _ ht']

omit [NeZero K] in
/-- **C243.** Every annotator has labelled `t` times as many examples; agreement with the consensus, quality and worst class
stay the same. -/
theorem C243_annotator_stats [IsStrictOrderedRing F] {σ : Fin N → Fin n} (h : Repeats t σ) (L : Annotations n M K)
    (r : Result n M K F) (m : Fin M) :
    (List.finRange N).countP (fun j => (copied σ L j m).isSome) = t * (List.finRange n).countP (fun i => (L i m).isSome) ∧
    statsAgreement (F := F) (copied σ L) (copiedResult σ r).consensus m = statsAgreement L r.consensus m ∧
    annotatorQuality (copied σ L) (copiedResult σ r).consensus (copiedResult σ r).posterior m =
      annotatorQuality L r.consensus r.posterior m ∧
    worstClass (copied σ L) (copiedResult σ r).consensus (copiedResult σ r).quality m =
      worstClass L r.consensus r.quality m := by
  have ht : (0 : F) < t := by exact_mod_cast h.1
  refine ⟨countP_repeat h (fun i => (L i m).isSome), ?_, ?_, ?_⟩
  · unfold statsAgreement copied copiedResult
    dsimp only
    rw [filter_length_repeat h (fun i => (L i m).isSome),
      filter_countP_repeat h (fun i => (L i m).isSome) (fun i => L i m == some (r.consensus i)), ratio_repeat h.1]
    simp only [Nat.mul_eq_zero, h.1.ne', false_or]
  · have h1 : annotatorLqs (copied σ L) (copiedResult σ r).posterior.post m = annotatorLqs L r.posterior.post m := by
      unfold annotatorLqs
      rw [← mean?_replicate h.1 (((List.finRange n).filter (fun i => (L i m).isSome)).map _)]
      exact mean?_perm (filter_map_repeat h (fun i => (L i m).isSome) (fun i => (L i m).map (r.posterior.post i)))
    have h2 : agreementOnMulti (F := F) (copied σ L) (copiedResult σ r).consensus m =
        agreementOnMulti L r.consensus m := by
      have hl := filter_length_repeat h (fun i => (L i m).isSome && decide (numAnnotations L i ≠ 1))
      have hc := filter_countP_repeat h (fun i => (L i m).isSome && decide (numAnnotations L i ≠ 1))
        (fun i => L i m == some (r.consensus i))
      have e1 : ∀ j, numAnnotations (copied σ L) j = numAnnotations L (σ j) := fun _ => rfl
      unfold agreementOnMulti multiRows
      simp only [List.filter_filter, e1]
      unfold copied copiedResult
      dsimp only
      rw [hl, hc, ratio_repeat h.1]
      simp only [Nat.mul_eq_zero, h.1.ne', false_or]
    have h3 : (∑ j, (numAnnotations (copied σ L) j : F)) / N = (∑ i, (numAnnotations L i : F)) / n := by
      have e : ∑ j, (numAnnotations (copied σ L) j : F) = t • ∑ i, (numAnnotations L i : F) :=
        h.sum (fun i => (numAnnotations L i : F))
      have hN : (N : F) = t * n := by exact_mod_cast congrArg (Nat.cast (R := F)) h.total
      rw [e, hN, nsmul_eq_mul, mul_div_mul_left _ _ ht.ne']
    unfold annotatorQuality
    rw [h1, h2, h3]
    rfl
  · have h1 : ∀ k, (∃ j, copied σ L j m = some k) ↔ ∃ i, L i m = some k := fun k =>
      ⟨fun ⟨j, hj⟩ => ⟨σ j, hj⟩, fun ⟨i, hi⟩ => by obtain ⟨j, rfl⟩ := h.surj i; exact ⟨j, hi⟩⟩
    have h2 : ∀ k, groupMean (copied σ L) m k (fun j =>
        if copied σ L j m = some ((copiedResult σ r).consensus j) then (1 : F) else 0) =
        groupMean L m k (fun i => if L i m = some (r.consensus i) then (1 : F) else 0) := fun k =>
      groupMean_copied h L m k (fun i => if L i m = some (r.consensus i) then (1 : F) else 0)
    have h3 : ∀ k, groupMean (copied σ L) m k (copiedResult σ r).quality = groupMean L m k r.quality :=
      fun k => groupMean_copied h L m k r.quality
    have h4 : ∀ l, keepMax (fun k => ((List.finRange N).countP (fun j => copied σ L j m == some k) : F)) l =
        keepMax (fun k => ((List.finRange n).countP (fun i => L i m == some k) : F)) l := by
      intro l
      refine keepMax_congr_le (fun a b => ?_) l
      have e : ∀ k, (List.finRange N).countP (fun j => copied σ L j m == some k) =
        t * (List.finRange n).countP (fun i => L i m == some k) := fun k => countP_repeat h (fun i => L i m == some k)
      rw [e, e, Nat.cast_mul, Nat.cast_mul]
      exact mul_le_mul_iff_right₀ ht
    unfold worstClass
    simp only [h1, h2, h3, h4]

omit [NeZero K] [LinearOrder F] in
/-- **C243.** Every copy of an example gets the active learning score of the example. -/
theorem C243_active_scores (σ : Fin N → Fin n) (L : Annotations n M K) (r : Result n M K F) (j : Fin N) :
    activeScore K (copied σ L) (copiedResult σ r).quality (copiedResult σ r).posterior.annWeight
        (copiedResult σ r).posterior.modelWeight j =
      activeScore K L r.quality r.posterior.annWeight r.posterior.modelWeight (σ j) := rfl

/-- Two examples of three annotators, each twice: accepted, with the labels of the original examples. -/
example : (labelQualityMultiannotator (F := ℚ) (K := 2) (n := 4) (M := 3)
    (copied ![0, 1, 1, 0] ![![some 0, some 0, some 1], ![some 1, none, some 1]])
    (fun j => (![![3 / 4, 1 / 4], ![1 / 4, 3 / 4]] : Fin 2 → Fin 2 → ℚ) (![0, 1, 1, 0] j)) (fun _ => 0) 1
    .majorityVote).map (fun r => r.consensus) = .ok ![0, 1, 1, 0] := by
  rw [C243_label_quality (σ := ![0, 1, 1, 0]) (t := 2) (by unfold Repeats; decide +kernel) _
    (![![3 / 4, 1 / 4], ![1 / 4, 3 / 4]] : Fin 2 → Fin 2 → ℚ) (fun _ => 0)]
  refine ok_of_toOption ?_
  decide +kernel

end Cleanlab.Props
