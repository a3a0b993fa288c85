import Verif.Props.Crowdlab
import Verif.Props.CleanData

/-!
# C158–C160: what CROWDLAB computes, and what one more vote does
-/

namespace Cleanlab.Props

open Np Cleanlab.Util Cleanlab.Rank Cleanlab.Multiannotator Cleanlab.Spec Cleanlab.Count

variable {n M K : ℕ} {F : Type} [Field F] [LinearOrder F] [IsStrictOrderedRing F]

/-- The examples with at least two labels. -/
def several (L : Annotations n M K) : Finset (Fin n) := Finset.univ.filter (fun i => 2 ≤ numAnnotators L i)

/-- The fraction of the examples with at least two labels that have a property. -/
def share (L : Annotations n M K) (p : Fin n → Prop) [DecidablePred p] : F :=
  (((several L).filter p).card : F) / (several L).card

theorem mem_multiRows {L : Annotations n M K} (hv : ValidAnnotations L) (i : Fin n) :
    numAnnotations L i ≠ 1 ↔ 2 ≤ numAnnotators L i := by
  have := annotators_pos hv i
  rw [numAnnotations_eq]
  omega

theorem multiRows_eq {L : Annotations n M K} (hv : ValidAnnotations L) :
    multiRows L = (List.finRange n).filter (fun i => decide (2 ≤ numAnnotators L i)) := by
  unfold multiRows
  apply List.filter_congr
  intro i _
  rw [decide_eq_decide]
  exact mem_multiRows hv i

theorem countP_multiRows {L : Annotations n M K} (hv : ValidAnnotations L) (p : Fin n → Prop) [DecidablePred p] :
    (multiRows L).countP (fun i => decide (p i)) = ((several L).filter p).card := by
  rw [multiRows_eq hv, List.countP_filter, countP_finRange]
  unfold several
  rw [Finset.filter_filter]
  congr 1
  ext i
  simp [and_comm]

theorem length_multiRows {L : Annotations n M K} (hv : ValidAnnotations L) : (multiRows L).length = (several L).card := by
  rw [multiRows_eq hv, length_filter_finRange]
  unfold several
  simp

theorem several_pos {L : Annotations n M K} (hv : ValidAnnotations L) : 0 < (several L).card := by
  obtain ⟨i, hi⟩ := hv.2.2.2
  have := annotators_pos hv i
  exact Finset.card_pos.mpr ⟨i, by unfold several; simp only [Finset.mem_filter, Finset.mem_univ, true_and]; omega⟩

omit [Field F] [LinearOrder F] [IsStrictOrderedRing F] in
theorem mapM_some {α : Type} (l : List α) (f : α → F) : (l.map (fun i => some (f i))).mapM id = some (l.map f) := by
  induction l with
  | nil => rfl
  | cons a l ih => rw [List.map_cons, List.mapM_cons, ih]; rfl

/-- What is known about the annotators and the model: `q` is how often an annotator gives the consensus label, `e` the error of
the best constant guess, `a m` the agreement of annotator `m` with the others. -/
structure TrackRecord (L : Annotations n M K) (c : Fin n → Fin K) (q e : F) (a : Fin M → F) : Prop where
  likelihood : q = (∑ i ∈ several L, (numVotes L i (c i) : F) / numAnnotators L i) / (several L).card
  baseline : ∃ top, e = max (share L (fun i => c i ≠ top)) (1 / 1000000) ∧ ∀ k, share (F := F) L (fun i => c i ≠ top) ≤ share L (fun i => c i ≠ k)
  agreement : ∀ m, pairs L m ≠ 0 → a m = (agreeingPairs L m : F) / pairs L m
  range : ∀ m, 0 ≤ a m ∧ a m ≤ 1

theorem baseline_spec [NeZero K] {L : Annotations n M K} (hv : ValidAnnotations L) (c : Fin n → Fin K) :
    ∃ top, mostLikelyClassError (F := F) L c = max (share L (fun i => c i ≠ top)) (1 / 1000000) ∧
      ∀ k, share (F := F) L (fun i => c i ≠ top) ≤ share L (fun i => c i ≠ k) := by
  refine ⟨argmax (fun k => (multiRows L).countP (fun i => decide (c i = k))), ?_, fun k => ?_⟩
  · unfold mostLikelyClassError share lowerBound
    extract_lets rows top
    change max (((multiRows L).countP (fun i => decide (c i ≠ top)) : F) / ((multiRows L).length : F)) _ = _
    rw [countP_multiRows hv (fun i => c i ≠ top), length_multiRows hv]
  · have h := le_argmax (fun k => (multiRows L).countP (fun i => decide (c i = k))) k
    rw [countP_multiRows hv, countP_multiRows hv] at h
    have hsplit : ∀ k, ((several L).filter (fun i => c i = k)).card + ((several L).filter (fun i => c i ≠ k)).card = (several L).card :=
      fun k => Finset.card_filter_add_card_filter_not _
    have h1 := hsplit k
    have h2 := hsplit (argmax (fun k => (multiRows L).countP (fun i => decide (c i = k))))
    unfold share
    apply div_le_div_of_nonneg_right _ (Nat.cast_nonneg _)
    have : ((several L).filter (fun i => c i ≠ argmax (fun k => (multiRows L).countP (fun i => decide (c i = k))))).card ≤
        ((several L).filter (fun i => c i ≠ k)).card := by omega
    exact_mod_cast this

theorem likelihood_spec {L : Annotations n M K} (hv : ValidAnnotations L) (c : Fin n → Fin K) {q : F}
    (hq : mean? ((multiRows L).map (agreementWithConsensus (F := F) L c)) = some q) :
    q = (∑ i ∈ several L, (numVotes L i (c i) : F) / numAnnotators L i) / (several L).card := by
  have hmap : (multiRows L).map (agreementWithConsensus (F := F) L c) =
      (multiRows L).map (fun i => some ((numVotes L i (c i) : F) / numAnnotators L i)) := by
    apply List.map_congr_left
    intro i _
    obtain ⟨x, hx, he, -⟩ := C21_example_agreement (F := F) L c i (hv.1 i)
    rw [hx, he]
  rw [hmap] at hq
  unfold mean? at hq
  have hpos := several_pos hv
  rw [List.length_map, length_multiRows hv, if_neg hpos.ne', mapM_some] at hq
  rw [← Option.some.inj hq]
  have hs : ((multiRows L).map (fun i => (numVotes L i (c i) : F) / numAnnotators L i)).sum =
      ∑ i ∈ several L, (numVotes L i (c i) : F) / numAnnotators L i := by
    rw [multiRows_eq hv]
    rw [sum_filter_finRange]
    unfold several
    simp only [decide_eq_true_eq]
  exact congrArg (· / _) hs

omit [IsStrictOrderedRing F] in
theorem modelWeight_spec [NeZero K] {L : Annotations n M K} (hv : ValidAnnotations L) (c : Fin n → Fin K) (P : Fin n → Fin K → F)
    (root : F) : modelWeight L c P root =
      max (1 - share L (fun i => ¬ IsPrediction (P i) (c i)) / mostLikelyClassError L c) (1 / 1000000) * root := by
  have he : ((multiRows L).countP (fun i => decide (argmax (P i) ≠ c i)) : F) / ((multiRows L).length : F) =
      share L (fun i => ¬ IsPrediction (P i) (c i)) := by
    rw [countP_multiRows hv (fun i => argmax (P i) ≠ c i), length_multiRows hv]
    unfold share
    have : (several L).filter (fun i => argmax (P i) ≠ c i) = (several L).filter (fun i => ¬ IsPrediction (P i) (c i)) := by
      apply Finset.filter_congr
      intro i _
      exact not_congr (argmax_eq_iff (P i) (c i))
    rw [this]
  rw [← he]
  rfl

omit [LinearOrder F] [IsStrictOrderedRing F] in
theorem posterior_spec (L : Annotations n M K) (P : Fin n → Fin K → F) (q w : F) (a : Fin M → F) (i : Fin n) (k : Fin K) :
    posterior L P q w a i k = (w * P i k +
        ∑ m ∈ Finset.univ.filter (fun m => L i m ≠ none), a m * (if L i m = some k then q else (1 - q) / (K - 1))) /
      (w + ∑ m ∈ Finset.univ.filter (fun m => L i m ≠ none), a m) := by
  unfold posterior
  dsimp only
  rw [Finset.sum_filter, Finset.sum_filter]
  have h1 : (∑ m, match L i m with
      | none => 0
      | some l => if l = k then a m * q else a m * ((1 - q) / ((K : F) - 1))) =
      ∑ m, if L i m ≠ none then a m * (if L i m = some k then q else (1 - q) / (K - 1)) else 0 := by
    apply Finset.sum_congr rfl
    intro m _
    cases hl : L i m with
    | none => simp
    | some l =>
      by_cases hlk : l = k
      · simp [hlk]
      · simp [hlk]
  have h2 : (∑ m, if (L i m).isSome then a m else 0) = ∑ m, if L i m ≠ none then a m else 0 := by
    apply Finset.sum_congr rfl
    intro m _
    cases hl : L i m <;> simp
  rw [mul_comm w, add_comm w, ← h2, ← h1]
  rfl

/-- **C158.** The weights and posteriors behind the result of `get_label_quality_multiannotator`: an annotator weighs
`1 - (1 - a) / e`, where `a` is the fraction of other annotators' labels on the same examples that agree with theirs, the model weighs `1 - error / e` times the
square root of the mean number of labels per example, where its error is the fraction of examples with several labels whose consensus
label it does not predict, and both at least `1e-6`; here `e` is the error of guessing one class for all these examples. The
posterior of a class is the weighted mean of the model's probability and of `q` for every annotator who chose it, `(1 - q) / (K - 1)`
for every annotator who chose another one. -/
theorem C158_weights [NeZero K] (L : Annotations n M K) (P : Fin n → Fin K → F) (rand : Fin n → ℕ) (root : F)
    (method : ConsensusMethod) (r : Result n M K F) (h : labelQualityMultiannotator L P rand root method = .ok r) :
    ∃ (q e : F) (a : Fin M → F), TrackRecord L r.consensus q e a ∧
      (∀ m, r.posterior.annWeight m = max (1 - (1 - a m) / e) (1 / 1000000)) ∧
      r.posterior.modelWeight = max (1 - share L (fun i => ¬ IsPrediction (P i) (r.consensus i)) / e) (1 / 1000000) * root ∧
      (∀ i k, r.posterior.post i k = (r.posterior.modelWeight * P i k +
          ∑ m ∈ Finset.univ.filter (fun m => L i m ≠ none), r.posterior.annWeight m * (if L i m = some k then q else (1 - q) / (K - 1))) /
        (r.posterior.modelWeight + ∑ m ∈ Finset.univ.filter (fun m => L i m ≠ none), r.posterior.annWeight m)) ∧
      (∀ i, r.quality i = r.posterior.post i (r.consensus i)) ∧
      (∀ i m, r.detailed i m = (L i m).map (r.posterior.post i)) ∧
      (method = .majorityVote → majorityVote L (some P) rand = .ok r.consensus) := by
  unfold labelQualityMultiannotator at h
  have hv : ValidAnnotations L := by
    rw [← assertValidInputs_iff]
    cases hv : assertValidInputs L with
    | error e => rw [hv] at h; cases h
    | ok u => rfl
  rw [(assertValidInputs_iff L).mpr hv] at h
  obtain ⟨c, hc, hmaj⟩ : ∃ c, consensusStats L P c root = .ok r ∧
      (method = .majorityVote → majorityVote L (some P) rand = .ok c) := by
    cases hmv : majorityVote L (some P) rand with
    | error e => rw [hmv] at h; cases h
    | ok mv =>
      rw [hmv] at h
      cases hs : consensusStats L P mv root with
      | error e => simp [bind, Except.bind, hs] at h
      | ok r0 =>
        simp only [bind, Except.bind, hs] at h
        cases method with
        | majorityVote => simp only [pure, Except.pure, Except.ok.injEq] at h; exact ⟨mv, by rw [hs, h], fun _ => rfl⟩
        | bestQuality => exact ⟨_, h, fun hm => by cases hm⟩
  unfold consensusStats at hc
  cases hp : postCrowdlab L c P root with
  | error e => rw [hp] at hc; cases hc
  | ok p =>
    rw [hp] at hc
    obtain rfl := Except.ok.inj hc
    dsimp only
    unfold postCrowdlab at hp
    cases hq : mean? ((multiRows L).map (agreementWithConsensus (F := F) L c)) with
    | none => rw [hq] at hp; cases hp
    | some q =>
      rw [hq] at hp
      by_cases ha : ∀ m, (agreementWithAnnotators (F := F) L m).isSome
      · simp only [dif_pos ha] at hp
        obtain rfl := Except.ok.inj hp
        dsimp only
        refine ⟨q, mostLikelyClassError L c, fun m => (agreementWithAnnotators L m).get (ha m), ⟨?_, baseline_spec hv c, ?_, ?_⟩,
          fun m => rfl, ?_, ?_, fun i => rfl, fun i m => rfl, hmaj⟩
        · exact likelihood_spec hv c hq
        · intro m hm
          obtain ⟨x, hx, -, -, he, -⟩ := C21_annotator_agreement (F := F) L hv m
          simp only [hx, Option.get_some]
          exact he hm
        · intro m
          obtain ⟨x, hx, h0, h1, -⟩ := C21_annotator_agreement (F := F) L hv m
          simp only [hx, Option.get_some]
          exact ⟨h0, h1⟩
        · exact modelWeight_spec hv c P root
        · exact posterior_spec L P q _ _
      · simp only [dif_neg ha] at hp
        cases hp

/-- **C158, trust follows the track record.** An annotator who agrees more with the others does not weigh less; one who always agrees
weighs 1; and one whose disagreement is at least the error of a constant guess weighs `1e-6`. -/
theorem C158_trust {L : Annotations n M K} {c : Fin n → Fin K} {q e : F} {a : Fin M → F} (h : TrackRecord L c q e a) {w : Fin M → F}
    (hw : ∀ m, w m = max (1 - (1 - a m) / e) (1 / 1000000)) (m m' : Fin M) :
    (a m ≤ a m' → w m ≤ w m') ∧ (a m = 1 → w m = 1) ∧ (e ≤ 1 - a m → w m = 1 / 1000000) ∧ 0 < w m ∧ w m ≤ 1 := by
  obtain ⟨top, he, -⟩ := h.baseline
  have hpos : 0 < e := by rw [he]; exact lt_max_of_lt_right (by norm_num)
  rw [hw, hw]
  refine ⟨fun hle => ?_, fun h1 => ?_, fun hbad => ?_, lt_max_of_lt_right (by norm_num), ?_⟩
  · apply max_le_max _ le_rfl
    have : (1 - a m') / e ≤ (1 - a m) / e := div_le_div_of_nonneg_right (by linarith) hpos.le
    linarith
  · rw [h1, sub_self, zero_div, sub_zero]
    exact max_eq_left (by norm_num)
  · apply max_eq_right
    have : 1 ≤ (1 - a m) / e := by rw [le_div_iff₀ hpos]; linarith
    have h2 : (0 : F) ≤ 1 / 1000000 := by norm_num
    linarith
  · apply max_le _ (by norm_num)
    have := (h.range m).2
    have : 0 ≤ (1 - a m) / e := div_nonneg (by linarith) hpos.le
    linarith

/-- Four examples and three annotators; the third annotator sides once with the minority. -/
def exTrack : Annotations 4 3 2 := ![![some 0, none, none], ![some 0, some 0, none], ![some 0, some 0, some 1], ![some 1, some 1, some 1]]

/-- Predicted probabilities for `exTrack`. -/
def exTrackP : Fin 4 → Fin 2 → ℚ := ![![99/100, 1/100], ![99/100, 1/100], ![9/10, 1/10], ![1/10, 9/10]]

theorem exTrack_valid : ValidAnnotations exTrack := (assertValidInputs_iff _).mp (by decide +kernel)

theorem exTrack_run (P : Fin 4 → Fin 2 → ℚ) (hP : ∀ i, IsDistribution (P i)) (rand : Fin 4 → ℕ) :
    ∃ r, labelQualityMultiannotator exTrack P rand (3/2) .majorityVote = .ok r ∧
    ∀ i, r.consensus i = (![0, 0, 0, 1] : Fin 4 → Fin 2) i := by
  obtain ⟨mv, hmv⟩ := C19_returns_partial (F := ℚ) exTrack (some P) rand exTrack_valid
    ⟨0, (length_modes_eq_one _ _).mp (by decide +kernel)⟩
  obtain ⟨r, hr, -⟩ := C20_scores_in_range exTrack P rand (3/2) .majorityVote exTrack_valid hP
    (by norm_num) (by decide +kernel) mv hmv
  refine ⟨r, hr, fun i => ?_⟩
  obtain ⟨q, e, a, -, -, -, -, -, -, hm⟩ := C158_weights _ _ _ _ _ _ hr
  have hmode := C19_majority_vote_is_mode _ _ _ _ (hm rfl) i
  have hall : ∀ (i : Fin 4) (k : Fin 2), (∀ j, numVotes exTrack i j ≤ numVotes exTrack i k) → k = (![0, 0, 0, 1] : Fin 4 → Fin 2) i := by
    decide +kernel
  exact hall _ _ hmode

theorem exTrackP_distribution : ∀ i, IsDistribution (exTrackP i) :=
  fun i => ⟨by revert i; decide +kernel, by revert i; decide +kernel⟩

example (rand : Fin 4 → ℕ) : ∃ r, labelQualityMultiannotator exTrack exTrackP rand (3/2) .majorityVote = .ok r ∧
    several exTrack = {1, 2, 3} ∧ (pairs exTrack 2 = 4 ∧ agreeingPairs exTrack 2 = 2) ∧ pairs exTrack 0 = 5 ∧ agreeingPairs exTrack 0 = 4 := by
  obtain ⟨r, hr, -⟩ := exTrack_run exTrackP exTrackP_distribution rand
  exact ⟨r, hr, by decide +kernel, by decide +kernel, by decide +kernel, by decide +kernel⟩

/-- The annotations with a label added. -/
def addVote (L : Annotations n M K) (i : Fin n) (m : Fin M) (k : Fin K) : Annotations n M K :=
  fun i' m' => if i' = i ∧ m' = m then some k else L i' m'

theorem numVotes_addVote {L : Annotations n M K} {i : Fin n} {m : Fin M} (hm : L i m = none) (k j : Fin K) :
    numVotes (addVote L i m k) i j = numVotes L i j + if j = k then 1 else 0 := by
  unfold numVotes addVote
  by_cases hj : j = k
  · rw [if_pos hj, ← Finset.card_insert_of_notMem (a := m) (by simp [hm])]
    congr 1
    ext m'
    by_cases h : m' = m <;> simp [h, hj]
  · rw [if_neg hj, Nat.add_zero]
    congr 1
    ext m'
    by_cases h : m' = m
    · simp [h, hm, Ne.symm hj]
    · simp [h]

theorem numAnnotators_addVote {L : Annotations n M K} {i : Fin n} {m : Fin M} (hm : L i m = none) (k : Fin K) :
    numAnnotators (addVote L i m k) i = numAnnotators L i + 1 := by
  unfold numAnnotators addVote
  rw [← Finset.card_insert_of_notMem (a := m) (by simp [hm])]
  congr 1
  ext m'
  by_cases h : m' = m <;> simp [h]

theorem addVote_other (L : Annotations n M K) {i j : Fin n} (hj : j ≠ i) (m : Fin M) (k : Fin K) : addVote L i m k j = L j := by
  funext m'
  unfold addVote
  rw [if_neg (fun h => hj h.1)]

theorem valid_addVote {L : Annotations n M K} (hv : ValidAnnotations L) {i : Fin n} {m : Fin M} (hm : L i m = none) (k : Fin K) :
    ValidAnnotations (addVote L i m k) := by
  have hne : ∀ i' m', L i' m' ≠ none → addVote L i m k i' m' ≠ none := by
    intro i' m' h
    unfold addVote
    split_ifs
    · simp
    · exact h
  refine ⟨fun i' => (hv.1 i').imp (fun m' => hne i' m'), fun m' => (hv.2.1 m').imp (fun i' => hne i' m'), hv.2.2.1, i, ?_⟩
  have := annotators_pos hv i
  rw [numAnnotators_addVote hm]
  omega

/-- **C159.** If an annotator who has not labelled an example adds the majority label of that example, the majority vote still returns a
result, this example keeps its label and now has it as its only most frequent label, every other example whose most frequent label is unique keeps its label, and the
fraction of annotators who agree on the example grows, unless it was 1 already. No tie-break and no random number matters for this. -/
theorem C159_confirming_vote [NeZero K] (L : Annotations n M K) (P : Option (Fin n → Fin K → F)) (rand rand' : Fin n → ℕ)
    (hv : ValidAnnotations L) (c : Fin n → Fin K) (h : majorityVote L P rand = .ok c) (i : Fin n) (m : Fin M) (hm : L i m = none) :
    ∃ c', majorityVote (addVote L i m (c i)) P rand' = .ok c' ∧ c' i = c i ∧ (∀ k, IsMode (addVote L i m (c i)) i k ↔ k = c i) ∧
      (∀ j, (∃! k, IsMode L j k) → c' j = c j) ∧
      ∃ a a' : F, agreementWithConsensus L c i = some a ∧ agreementWithConsensus (addVote L i m (c i)) c' i = some a' ∧
        a ≤ a' ∧ (a ≠ 1 → a < a') := by
  have hmode := C19_majority_vote_is_mode L P rand c h
  have hvotes := numVotes_addVote hm (c i)
  have huniq : ∀ k, IsMode (addVote L i m (c i)) i k ↔ k = c i := by
    intro k
    constructor
    · intro hk
      have h1 := hk (c i)
      rw [hvotes, hvotes, if_pos rfl] at h1
      by_contra hne
      rw [if_neg hne] at h1
      have := hmode i k
      omega
    · rintro rfl j
      rw [hvotes, hvotes, if_pos rfl]
      have := hmode i j
      split_ifs <;> omega
  obtain ⟨c', hc'⟩ := C19_returns_partial (addVote L i m (c i)) P rand' (valid_addVote hv hm _) ⟨i, c i, (huniq _).mpr rfl, fun k hk => (huniq k).mp hk⟩
  have hmode' := C19_majority_vote_is_mode _ P rand' c' hc'
  have hi : c' i = c i := (huniq _).mp (hmode' i)
  refine ⟨c', hc', hi, huniq, ?_, ?_⟩
  · intro j hj
    by_cases hji : j = i
    · rw [hji, hi]
    · have h1 := hmode' j
      have h2 : IsMode L j (c' j) := by
        intro k
        have := h1 k
        unfold numVotes at this
        rw [addVote_other L hji] at this
        exact this
      exact hj.unique h2 (hmode j)
  · obtain ⟨a, ha, he, -, h1⟩ := C21_example_agreement (F := F) L c i (hv.1 i)
    obtain ⟨a', ha', he', -⟩ := C21_example_agreement (F := F) (addVote L i m (c i)) c' i ((valid_addVote hv hm _).1 i)
    have hpos : (0 : F) < numAnnotators L i := by exact_mod_cast annotators_pos hv i
    rw [hi, hvotes, if_pos rfl, numAnnotators_addVote hm] at he'
    push_cast at he'
    have hx : (numVotes L i (c i) : F) = a * numAnnotators L i := by rw [he]; field_simp
    refine ⟨a, a', ha, ha', ?_, fun hne => ?_⟩
    · rw [he', hx, le_div_iff₀ (by linarith)]
      linarith
    · have : a < 1 := lt_of_le_of_ne h1 hne
      rw [he', hx, lt_div_iff₀ (by linarith)]
      linarith

example : ValidAnnotations exTrack ∧ exTrack 1 2 = none ∧ ∃ c, majorityVote (F := ℚ) exTrack none (fun _ => 0) = .ok c := by
  refine ⟨exTrack_valid, rfl, C19_returns_partial _ _ _ exTrack_valid ⟨0, (length_modes_eq_one _ _).mp (by decide +kernel)⟩⟩

/-- Example `i'` has all labels of example `i`, and apart from them only further labels `k`. -/
def Confirms (L : Annotations n M K) (i i' : Fin n) (k : Fin K) : Prop :=
  ∀ m, L i' m = L i m ∨ (L i m = none ∧ L i' m = some k)

/-- The mean, over the examples with several labels, of the fraction of annotators who chose the consensus label. -/
def meanAgreement (L : Annotations n M K) (c : Fin n → Fin K) : F :=
  (∑ i ∈ several L, (numVotes L i (c i) : F) / numAnnotators L i) / (several L).card

omit [LinearOrder F] [IsStrictOrderedRing F] in
/-- Posteriors of two examples with the same predictions, one of which has further labels `k`: numerator and denominator grow by
the same weights, times `q` in the numerator. -/
theorem confirms_sums {L : Annotations n M K} {i i' : Fin n} {k : Fin K} (h : Confirms L i i' k) (w : Fin M → F) (q x : F) :
    ∃ s, s = (∑ m ∈ Finset.univ.filter (fun m => L i m = none ∧ L i' m = some k), w m) ∧
      ∑ m ∈ Finset.univ.filter (fun m => L i' m ≠ none), w m * (if L i' m = some k then q else x) =
        ∑ m ∈ Finset.univ.filter (fun m => L i m ≠ none), w m * (if L i m = some k then q else x) + s * q ∧
      ∑ m ∈ Finset.univ.filter (fun m => L i' m ≠ none), w m = ∑ m ∈ Finset.univ.filter (fun m => L i m ≠ none), w m + s := by
  refine ⟨_, rfl, ?_, ?_⟩
  · rw [Finset.sum_mul, Finset.sum_filter, Finset.sum_filter, Finset.sum_filter, ← Finset.sum_add_distrib]
    apply Finset.sum_congr rfl
    intro m _
    rcases h m with he | ⟨h1, h2⟩
    · rw [he]
      have : ¬ (L i m = none ∧ L i m = some k) := fun h => by rw [h.1] at h; simp at h
      rw [if_neg this, add_zero]
    · simp [h1, h2]
  · rw [Finset.sum_filter, Finset.sum_filter, Finset.sum_filter, ← Finset.sum_add_distrib]
    apply Finset.sum_congr rfl
    intro m _
    rcases h m with he | ⟨h1, h2⟩
    · rw [he]
      have : ¬ (L i m = none ∧ L i m = some k) := fun h => by rw [h.1] at h; simp at h
      rw [if_neg this, add_zero]
    · simp [h1, h2]

/-- **C160 (partial).** Of two examples with the same predicted probabilities, the one with additional labels `k` has at least
the same quality of `k`, provided the model gives `k` at most the probability `q` with which annotators choose the consensus label, and
`q` is not below chance. Missing: a model that is more confident than the annotators are consistent, see `C160_model_surer`. -/
theorem C160_more_votes_partial [NeZero K] (L : Annotations n M K) (P : Fin n → Fin K → F) (rand : Fin n → ℕ) (root : F)
    (hroot : 0 < root) (method : ConsensusMethod) (r : Result n M K F) (h : labelQualityMultiannotator L P rand root method = .ok r)
    (i i' : Fin n) (k : Fin K) (hP : P i' = P i) (hL : Confirms L i i' k) (hq : P i k ≤ meanAgreement L r.consensus)
    (hx : (1 - meanAgreement L r.consensus : F) / (K - 1) ≤ meanAgreement L r.consensus) :
    r.posterior.post i k ≤ r.posterior.post i' k := by
  obtain ⟨q, e, a, ht, hw, hmw, hpost, -⟩ := C158_weights L P rand root method r h
  have hqe : q = meanAgreement L r.consensus := ht.likelihood
  rw [← hqe] at hq hx
  obtain ⟨s, hs, h1, h2⟩ := confirms_sums hL r.posterior.annWeight q ((1 - q) / (K - 1))
  have hw0 : ∀ m, 0 < r.posterior.annWeight m := fun m => by rw [hw m]; exact lt_max_of_lt_right (by norm_num)
  have hmw0 : 0 < r.posterior.modelWeight := by rw [hmw]; exact mul_pos (lt_max_of_lt_right (by norm_num)) hroot
  have hs0 : 0 ≤ s := by rw [hs]; exact Finset.sum_nonneg (fun m _ => (hw0 m).le)
  have hD : 0 ≤ ∑ m ∈ Finset.univ.filter (fun m => L i m ≠ none), r.posterior.annWeight m := Finset.sum_nonneg (fun m _ => (hw0 m).le)
  have hN : ∑ m ∈ Finset.univ.filter (fun m => L i m ≠ none), r.posterior.annWeight m * (if L i m = some k then q else (1 - q) / (K - 1)) ≤
      (∑ m ∈ Finset.univ.filter (fun m => L i m ≠ none), r.posterior.annWeight m) * q := by
    rw [Finset.sum_mul]
    apply Finset.sum_le_sum
    intro m _
    apply mul_le_mul_of_nonneg_left _ (hw0 m).le
    split_ifs
    · exact le_rfl
    · exact hx
  have hPk := mul_le_mul_of_nonneg_left hq hmw0.le
  rw [hpost, hpost, hP, h1, h2]
  set N := ∑ m ∈ Finset.univ.filter (fun m => L i m ≠ none), r.posterior.annWeight m * (if L i m = some k then q else (1 - q) / (K - 1))
  set D := ∑ m ∈ Finset.univ.filter (fun m => L i m ≠ none), r.posterior.annWeight m
  rw [div_le_div_iff₀ (by linarith) (by linarith)]
  have := mul_le_mul_of_nonneg_right (show r.posterior.modelWeight * P i k + N ≤ (r.posterior.modelWeight + D) * q by linarith) hs0
  nlinarith

/-- **C160, the other case.** If all labels of an example agree and the model is surer of that label than `q`, every further label that agrees makes
the quality of the label smaller. -/
theorem C160_model_surer [NeZero K] (L : Annotations n M K) (P : Fin n → Fin K → F) (rand : Fin n → ℕ) (root : F)
    (hroot : 0 < root) (method : ConsensusMethod) (r : Result n M K F) (h : labelQualityMultiannotator L P rand root method = .ok r)
    (i i' : Fin n) (k : Fin K) (hP : P i' = P i) (hL : Confirms L i i' k) (hall : ∀ m, L i m = none ∨ L i m = some k)
    (hmore : ∃ m, L i m = none ∧ L i' m = some k) (hq : meanAgreement L r.consensus < P i k) :
    r.posterior.post i' k < r.posterior.post i k := by
  obtain ⟨q, e, a, ht, hw, hmw, hpost, -⟩ := C158_weights L P rand root method r h
  have hqe : q = meanAgreement L r.consensus := ht.likelihood
  rw [← hqe] at hq
  obtain ⟨s, hs, h1, h2⟩ := confirms_sums hL r.posterior.annWeight q ((1 - q) / (K - 1))
  have hw0 : ∀ m, 0 < r.posterior.annWeight m := fun m => by rw [hw m]; exact lt_max_of_lt_right (by norm_num)
  have hmw0 : 0 < r.posterior.modelWeight := by rw [hmw]; exact mul_pos (lt_max_of_lt_right (by norm_num)) hroot
  have hs0 : 0 < s := by
    rw [hs]
    obtain ⟨m, hm⟩ := hmore
    exact Finset.sum_pos (fun m _ => hw0 m) ⟨m, by simpa using hm⟩
  have hD : 0 ≤ ∑ m ∈ Finset.univ.filter (fun m => L i m ≠ none), r.posterior.annWeight m := Finset.sum_nonneg (fun m _ => (hw0 m).le)
  have hN : ∑ m ∈ Finset.univ.filter (fun m => L i m ≠ none), r.posterior.annWeight m * (if L i m = some k then q else (1 - q) / (K - 1)) =
      (∑ m ∈ Finset.univ.filter (fun m => L i m ≠ none), r.posterior.annWeight m) * q := by
    rw [Finset.sum_mul]
    apply Finset.sum_congr rfl
    intro m hm
    rw [if_pos ((hall m).resolve_left (Finset.mem_filter.mp hm).2)]
  have hPk := mul_lt_mul_of_pos_left hq hmw0
  rw [hpost, hpost, hP, h1, h2, hN]
  set D := ∑ m ∈ Finset.univ.filter (fun m => L i m ≠ none), r.posterior.annWeight m
  rw [div_lt_div_iff₀ (by linarith) (by linarith)]
  have := mul_lt_mul_of_pos_right hPk hs0
  nlinarith

theorem exTrack_agreement (c : Fin 4 → Fin 2) (hc : ∀ i, c i = (![0, 0, 0, 1] : Fin 4 → Fin 2) i) : meanAgreement (F := ℚ) exTrack c = 8 / 9 := by
  have : c = ![0, 0, 0, 1] := funext hc
  rw [this]
  decide +kernel

/-- With a less certain model the second example has the larger quality. -/
example (rand : Fin 4 → ℕ) : ∃ r, labelQualityMultiannotator (F := ℚ) exTrack (fun _ => ![3/5, 2/5]) rand (3/2) .majorityVote = .ok r ∧
    r.posterior.post 0 0 ≤ r.posterior.post 1 0 := by
  obtain ⟨r, hr, hc⟩ := exTrack_run (fun _ => ![3/5, 2/5]) (fun i => ⟨by decide +kernel, by decide +kernel⟩) rand
  exact ⟨r, hr, C160_more_votes_partial _ _ _ _ (by norm_num) _ r hr 0 1 0 rfl (by unfold Confirms; decide +kernel)
    (by rw [exTrack_agreement _ hc]; decide +kernel) (by rw [exTrack_agreement _ hc]; decide +kernel)⟩

/-- **C160 (refuted as stated).** Two examples with the same predicted probabilities, labelled 0 by one and by two annotators: the
second one has the smaller consensus quality. -/
theorem C160_not_monotone : ¬ ∀ (n M K : ℕ) (_ : NeZero K) (L : Annotations n M K) (P : Fin n → Fin K → ℚ) (rand : Fin n → ℕ) (root : ℚ)
    (method : ConsensusMethod) (r : Result n M K ℚ), (∀ i, IsDistribution (P i)) → 0 < root → root * root = (∑ i, (numAnnotators L i : ℚ)) / n →
    labelQualityMultiannotator L P rand root method = .ok r → ∀ i i', P i' = P i → r.consensus i' = r.consensus i →
    Confirms L i i' (r.consensus i) → r.quality i ≤ r.quality i' := by
  intro hall
  obtain ⟨r, hr, hc⟩ := exTrack_run exTrackP exTrackP_distribution (fun _ => 0)
  have hle := hall 4 3 2 _ exTrack exTrackP _ _ _ r exTrackP_distribution
    (by norm_num) (by decide +kernel) hr 0 1 rfl (by rw [hc, hc]; rfl) (by rw [hc]; unfold Confirms; decide +kernel)
  have hlt := C160_model_surer exTrack exTrackP _ _ (by norm_num) _ r hr 0 1 0 rfl (by unfold Confirms; decide +kernel)
    (by decide +kernel) ⟨1, by decide +kernel⟩ (by rw [exTrack_agreement _ hc]; decide +kernel)
  obtain ⟨q, e, a, -, -, -, -, hq, -⟩ := C158_weights _ _ _ _ _ _ hr
  rw [hq, hq, hc, hc] at hle
  exact absurd hle (not_le.mpr hlt)

end Cleanlab.Props
