import Verif.Lemmas.Multiannotator
import Verif.Props.MajorityVote

/-!
# C20, C21, C22, C60: agreement, CROWDLAB posteriors, active learning, worst class
-/

namespace Cleanlab.Props

open Np Cleanlab.Util Cleanlab.Rank Cleanlab.Multiannotator Cleanlab.Spec Cleanlab.Count

variable {n M K : ℕ} {F : Type} [Field F] [LinearOrder F] [IsStrictOrderedRing F]

/-! ## C21 -/

/-- **C21**: the agreement of an annotated example is the fraction of its annotators who gave the consensus label,
so it lies in `[0, 1]`. -/
theorem C21_example_agreement (L : Annotations n M K) (c : Fin n → Fin K) (i : Fin n) (hi : ∃ m, L i m ≠ none) :
    ∃ a : F, agreementWithConsensus L c i = some a ∧ a = (numVotes L i (c i) : F) / numAnnotators L i ∧
      0 ≤ a ∧ a ≤ 1 := by
  have hpos : 0 < numAnnotators L i := by
    obtain ⟨m, hm⟩ := hi
    exact Finset.card_pos.mpr ⟨m, by simp [hm]⟩
  have hle : numVotes L i (c i) ≤ numAnnotators L i := by
    apply Finset.card_le_card
    intro m hm
    simp only [Finset.mem_filter, Finset.mem_univ, true_and] at hm ⊢
    rw [hm]; simp
  refine ⟨_, ?_, rfl, by positivity, ?_⟩
  · unfold agreementWithConsensus
    rw [numAnnotations_eq, if_neg hpos.ne', ← labelCount_eq]
    rfl
  · rw [div_le_one (by exact_mod_cast hpos)]
    exact_mod_cast hle

theorem filter_isSome (L : Annotations n M K) (m : Fin M) :
    (Finset.univ.filter (fun i => (L i m).isSome = true)) = Finset.univ.filter (fun i => L i m ≠ none) := by
  ext i
  simp [Option.isSome_iff_ne_none]

theorem length_filter_finRange (p : Fin n → Bool) :
    ((List.finRange n).filter p).length = (Finset.univ.filter (fun i => p i = true)).card := by
  rw [← List.countP_eq_length_filter, countP_finRange]

/-- The number of other annotators of an example that `m` labelled. -/
theorem card_others (L : Annotations n M K) (m : Fin M) (i : Fin n) (hm : L i m ≠ none) :
    (Finset.univ.filter (fun m' => m' ≠ m ∧ L i m ≠ none ∧ L i m' ≠ none)).card + 1 = numAnnotations L i := by
  rw [numAnnotations_eq]
  unfold numAnnotators
  have h : Finset.univ.filter (fun m' => m' ≠ m ∧ L i m ≠ none ∧ L i m' ≠ none) =
      (Finset.univ.filter (fun m' => L i m' ≠ none)).erase m := by
    ext m'
    simp [hm]
  rw [h, Finset.card_erase_of_mem (by simp [hm])]
  have : 0 < (Finset.univ.filter (fun m' => L i m' ≠ none)).card := Finset.card_pos.mpr ⟨m, by simp [hm]⟩
  omega

theorem card_agreeing (L : Annotations n M K) (m : Fin M) (i : Fin n) (hm : L i m ≠ none) :
    (Finset.univ.filter (fun m' => m' ≠ m ∧ L i m ≠ none ∧ L i m' = L i m)).card + 1 =
      (List.finRange M).countP (fun m' => L i m == L i m') := by
  rw [countP_finRange]
  have h : Finset.univ.filter (fun m' => m' ≠ m ∧ L i m ≠ none ∧ L i m' = L i m) =
      (Finset.univ.filter (fun m' => (L i m == L i m') = true)).erase m := by
    ext m'
    simp only [Finset.mem_filter, Finset.mem_univ, true_and, Finset.mem_erase, beq_iff_eq]
    exact ⟨fun h => ⟨h.1, h.2.2.symm⟩, fun h => ⟨h.1, hm, h.2.symm⟩⟩
  rw [h, Finset.card_erase_of_mem (by simp)]
  have : 0 < (Finset.univ.filter (fun m' => (L i m == L i m') = true)).card := Finset.card_pos.mpr ⟨m, by simp⟩
  omega

theorem sum_rows {α : Type} [AddCommMonoid α] (L : Annotations n M K) (m : Fin M) (f : Fin n → α) :
    (((List.finRange n).filter (fun i => (L i m).isSome)).map f).sum =
      ∑ i ∈ Finset.univ.filter (fun i => L i m ≠ none), f i := by
  rw [sum_filter_finRange, filter_isSome]

theorem pairs_eq (L : Annotations n M K) (m : Fin M) :
    (((List.finRange n).filter (fun i => (L i m).isSome)).map (fun i => numAnnotations L i - 1)).sum = pairs L m := by
  rw [sum_rows, Finset.sum_filter]
  unfold pairs
  apply Finset.sum_congr rfl
  intro i _
  by_cases h : L i m ≠ none
  · rw [if_pos h, ← card_others L m i h]; simp
  · rw [if_neg h]; symm
    rw [Finset.card_eq_zero, Finset.filter_eq_empty_iff]
    intro m' _ h'
    exact h h'.2.1

theorem agreeingPairs_eq (L : Annotations n M K) (m : Fin M) :
    (((List.finRange n).filter (fun i => (L i m).isSome)).map
      (fun i => agreementPerExample (F := F) L m i * ((numAnnotations L i : F) - 1))).sum = agreeingPairs L m := by
  rw [sum_rows, Finset.sum_filter]
  unfold agreeingPairs
  push_cast
  apply Finset.sum_congr rfl
  intro i _
  by_cases h : L i m ≠ none
  · rw [if_pos h]
    have h1 := card_agreeing L m i h
    have h2 := card_others L m i h
    unfold agreementPerExample
    split_ifs with h3
    · have h4 : (numAnnotations L i : F) - 1 ≠ 0 := by
        have : (1 : F) < numAnnotations L i := by exact_mod_cast h3
        linarith
      rw [div_mul_cancel₀ _ h4, ← h1]
      push_cast
      ring
    · have h5 : (Finset.univ.filter (fun m' => m' ≠ m ∧ L i m ≠ none ∧ L i m' = L i m)).card ≤
          (Finset.univ.filter (fun m' => m' ≠ m ∧ L i m ≠ none ∧ L i m' ≠ none)).card := by
        apply Finset.card_le_card
        intro m' hm'
        simp only [Finset.mem_filter, Finset.mem_univ, true_and] at hm' ⊢
        exact ⟨hm'.1, hm'.2.1, by rw [hm'.2.2]; exact hm'.2.1⟩
      have : (Finset.univ.filter (fun m' => m' ≠ m ∧ L i m ≠ none ∧ L i m' = L i m)).card = 0 := by omega
      rw [this]; simp
  · rw [if_neg h]; symm
    rw [Nat.cast_eq_zero, Finset.card_eq_zero, Finset.filter_eq_empty_iff]
    intro m' _ h'
    exact h h'.2.1

theorem agreeingPairs_le (L : Annotations n M K) (m : Fin M) : agreeingPairs L m ≤ pairs L m := by
  unfold agreeingPairs pairs
  apply Finset.sum_le_sum
  intro i _
  apply Finset.card_le_card
  intro m' hm'
  simp only [Finset.mem_filter, Finset.mem_univ, true_and] at hm' ⊢
  exact ⟨hm'.1, hm'.2.1, by rw [hm'.2.2]; exact hm'.2.1⟩

theorem singleAgreement_eq (L : Annotations n M K) (m : Fin M) :
    singleAgreement (F := F) L m = if pairs L m = 0 then none else some ((agreeingPairs L m : F) / pairs L m) := by
  unfold singleAgreement
  simp only [pairs_eq, agreeingPairs_eq]

theorem singleAgreement_range (L : Annotations n M K) (m : Fin M) (a : F) (h : singleAgreement L m = some a) :
    0 ≤ a ∧ a ≤ 1 := by
  rw [singleAgreement_eq] at h
  split_ifs at h with h0
  cases h
  refine ⟨by positivity, ?_⟩
  rw [div_le_one (by exact_mod_cast Nat.pos_of_ne_zero h0)]
  exact_mod_cast agreeingPairs_le L m

theorem list_mean_range (l : List F) (h : ∀ x ∈ l, 0 ≤ x ∧ x ≤ 1) (hne : l.length ≠ 0) :
    0 ≤ l.sum / l.length ∧ l.sum / l.length ≤ 1 := by
  have h0 : 0 ≤ l.sum := List.sum_nonneg (fun x hx => (h x hx).1)
  have h1 : l.sum ≤ l.length := by
    have := List.sum_le_card_nsmul l 1 (fun x hx => (h x hx).2)
    simpa using this
  have hp : (0 : F) < l.length := by exact_mod_cast Nat.pos_of_ne_zero hne
  exact ⟨by positivity, by rwa [div_le_one hp]⟩

/-- **C21**: the agreement of an annotator with the others is the fraction of agreeing pairs among all pairs of
one of their labels and a label another annotator gave to the same example; it is `1` if they agree with everybody;
an annotator without such pairs gets the average of the others. For valid annotations it exists and lies in
`[0, 1]`. -/
theorem C21_annotator_agreement (L : Annotations n M K) (hv : ValidAnnotations L) (m : Fin M) :
    ∃ a : F, agreementWithAnnotators L m = some a ∧ 0 ≤ a ∧ a ≤ 1 ∧
      (pairs L m ≠ 0 → a = (agreeingPairs L m : F) / pairs L m) ∧
      (pairs L m ≠ 0 → (∀ i m', L i m ≠ none → L i m' ≠ none → L i m' = L i m) → a = 1) := by
  unfold agreementWithAnnotators
  cases hs : singleAgreement (F := F) L m with
  | some a =>
    have hr := singleAgreement_range L m a hs
    rw [singleAgreement_eq] at hs
    split_ifs at hs with h0
    cases hs
    refine ⟨_, rfl, hr.1, hr.2, fun _ => rfl, fun _ hall => ?_⟩
    have : agreeingPairs L m = pairs L m := by
      unfold agreeingPairs pairs
      apply Finset.sum_congr rfl
      intro i _
      congr 1
      ext m'
      simp only [Finset.mem_filter, Finset.mem_univ, true_and]
      exact ⟨fun h => ⟨h.1, h.2.1, by rw [h.2.2]; exact h.2.1⟩, fun h => ⟨h.1, h.2.1, hall i m' h.2.1 h.2.2⟩⟩
    rw [this]
    exact div_self (by exact_mod_cast h0)
  | none =>
    rw [singleAgreement_eq] at hs
    have h0 : pairs L m = 0 := by
      by_contra h0
      rw [if_neg h0] at hs
      cases hs
    simp only
    have hne : ((List.finRange M).filterMap (fun m => singleAgreement (F := F) L m)).length ≠ 0 := by
      intro hz
      obtain ⟨i, hi⟩ := hv.2.2.2
      obtain ⟨m0, hm0⟩ := hv.1 i
      have h1 : pairs L m0 ≠ 0 := by
        intro hp
        unfold pairs at hp
        have h2 := card_others L m0 i hm0
        have h3 := (Finset.sum_eq_zero_iff_of_nonneg (fun _ _ => Nat.zero_le _)).mp hp i (Finset.mem_univ i)
        rw [numAnnotations_eq] at h2
        omega
      have : (agreeingPairs L m0 : F) / pairs L m0 ∈
          (List.finRange M).filterMap (fun m => singleAgreement (F := F) L m) :=
        List.mem_filterMap.mpr ⟨m0, List.mem_finRange _, by rw [singleAgreement_eq, if_neg h1]⟩
      rw [List.length_eq_zero_iff.mp hz] at this
      cases this
    rw [if_neg hne]
    have := list_mean_range ((List.finRange M).filterMap (fun m => singleAgreement (F := F) L m)) (by
      intro x hx
      obtain ⟨m', -, hm'⟩ := List.mem_filterMap.mp hx
      exact singleAgreement_range L m' x hm') hne
    exact ⟨_, rfl, this.1, this.2, fun h => absurd h0 h, fun h => absurd h0 h⟩

example : ValidAnnotations exVotes ∧ pairs exVotes 1 = 3 ∧ agreeingPairs exVotes 1 = 1 :=
  ⟨(assertValidInputs_iff _).mp (by decide +kernel), by decide +kernel, by decide +kernel⟩

omit [LinearOrder F] [IsStrictOrderedRing F] in
/-- **C21**, the `agreement_with_consensus` statistic of an annotator: the fraction of their labels that equal the
consensus label. -/
theorem C21_stats_agreement (L : Annotations n M K) (c : Fin n → Fin K) (m : Fin M) (hm : ∃ i, L i m ≠ none) :
    statsAgreement (F := F) L c m = some ((numAgreeing L c m : F) / numLabelled L m) := by
  have h1 : ((List.finRange n).filter (fun i => (L i m).isSome)).length = numLabelled L m := by
    rw [length_filter_finRange, filter_isSome]; rfl
  have h0 : numLabelled L m ≠ 0 := by
    obtain ⟨i, hi⟩ := hm
    exact (Finset.card_pos.mpr ⟨i, by simp [hi]⟩).ne'
  have h2 : ((List.finRange n).filter (fun i => (L i m).isSome)).countP (fun i => L i m == some (c i)) =
      numAgreeing L c m := by
    rw [List.countP_filter, countP_finRange]
    unfold numAgreeing
    congr 1
    ext i
    simp only [Finset.mem_filter, Finset.mem_univ, true_and, Bool.and_eq_true, beq_iff_eq, and_iff_left_iff_imp]
    intro h
    rw [h]; rfl
  unfold statsAgreement
  simp only [h1, h2, if_neg h0]

/-! ## C20 -/

theorem mean?_range (xs : List (Option F)) (a : F) (h : mean? xs = some a)
    (hx : ∀ x ∈ xs, ∀ v, x = some v → 0 ≤ v ∧ v ≤ 1) : 0 ≤ a ∧ a ≤ 1 := by
  unfold mean? at h
  split_ifs at h with h0
  cases hm : xs.mapM id with
  | none => rw [hm] at h; cases h
  | some l =>
    rw [hm] at h
    cases h
    have hsome : ∀ x ∈ xs, (id x).isSome := by
      intro x hxs
      by_contra hn
      have hn : x = none := by simpa using hn
      subst hn
      have : ∀ (ys : List (Option F)), none ∈ ys → ys.mapM id = none := by
        intro ys hy
        induction ys with
        | nil => cases hy
        | cons y ys ih =>
          rw [List.mapM_cons]
          rcases List.mem_cons.mp hy with rfl | hy
          · rfl
          · rw [ih hy]
            cases y <;> rfl
      rw [this xs hxs] at hm
      cases hm
    obtain ⟨r, hr, hlen, hmem⟩ := mapM_isSome id xs hsome
    rw [hm] at hr
    cases hr
    have := list_mean_range l (fun v hv => by
      obtain ⟨x, hxs, hxv⟩ := hmem v hv
      exact hx x hxs v hxv) (by omega)
    rw [hlen] at this
    exact this

omit [LinearOrder F] [IsStrictOrderedRing F] in
theorem mean?_isSome (xs : List (Option F)) (hne : xs.length ≠ 0) (h : ∀ x ∈ xs, x.isSome) : (mean? xs).isSome := by
  unfold mean?
  rw [if_neg hne]
  obtain ⟨r, hr, -⟩ := mapM_isSome id xs h
  rw [hr]; rfl

theorem lowerBound_pos : (0 : F) < lowerBound := by unfold lowerBound; positivity

theorem mostLikelyClassError_pos [NeZero K] (L : Annotations n M K) (c : Fin n → Fin K) :
    (0 : F) < mostLikelyClassError L c := lt_max_of_lt_right lowerBound_pos

/-- One class: everybody who labels gives that class. -/
theorem consensus_one_class (hK : K = 1) (L : Annotations n M K) (hv : ValidAnnotations L) (c : Fin n → Fin K)
    (cl : F) (h : mean? ((multiRows L).map (agreementWithConsensus (F := F) L c)) = some cl) : cl = 1 := by
  subst hK
  have hall : ∀ i, agreementWithConsensus (F := F) L c i = some 1 := by
    intro i
    obtain ⟨a, ha, he, -⟩ := C21_example_agreement (F := F) L c i (hv.1 i)
    have : numVotes L i (c i) = numAnnotators L i := by
      unfold numVotes numAnnotators
      congr 1
      ext m
      simp only [Finset.mem_filter, Finset.mem_univ, true_and]
      constructor
      · intro h; rw [h]; simp
      · intro h
        obtain ⟨l, hl⟩ := Option.ne_none_iff_exists'.mp h
        rw [hl, Subsingleton.elim l (c i)]
    have hp : numAnnotators L i ≠ 0 := by
      obtain ⟨m, hm⟩ := hv.1 i
      exact (Finset.card_pos.mpr ⟨m, by simp [hm]⟩).ne'
    rw [ha, he, this, div_self (by exact_mod_cast hp)]
  have h1 : (multiRows L).map (agreementWithConsensus (F := F) L c) = (multiRows L).map (fun _ => some 1) :=
    List.map_congr_left (fun i _ => hall i)
  rw [h1] at h
  unfold mean? at h
  split_ifs at h with h0
  have h2 : ∀ l : List (Fin n), (l.map (fun _ => (some 1 : Option F))).mapM id = some (l.map (fun _ => (1 : F))) := by
    intro l
    induction l with
    | nil => rfl
    | cons a l ih => rw [List.map_cons, List.mapM_cons, ih]; rfl
  rw [h2] at h
  have h3 := Option.some.inj h
  rw [← h3]
  simp only [List.map_const', List.sum_replicate, List.length_replicate, nsmul_eq_mul, mul_one]
  have : ((multiRows L).length : F) ≠ 0 := by
    intro hz
    apply h0
    have : (multiRows L).length = 0 := by exact_mod_cast hz
    simpa using this
  simpa using div_self this

/-- The model posterior is a convex combination. -/
theorem posterior_isDistribution (L : Annotations n M K) (P : Fin n → Fin K → F) (cl mw : F) (aw : Fin M → F)
    (i : Fin n) (hP : IsDistribution (P i)) (hcl0 : 0 ≤ cl) (hcl1 : cl ≤ 1) (hone : K = 1 → cl = 1)
    (hmw : 0 < mw) (haw : ∀ m, 0 < aw m) : IsDistribution (posterior L P cl mw aw i) := by
  have hK : K ≠ 0 := by
    rintro rfl
    have := hP.2
    simp at this
  have hncl : 0 ≤ (1 - cl) / ((K : F) - 1) := by
    have : (1 : F) ≤ K := by exact_mod_cast Nat.one_le_iff_ne_zero.mpr hK
    exact div_nonneg (by linarith) (by linarith)
  have htot : 0 < (∑ m, if (L i m).isSome then aw m else 0) + mw := by
    have : 0 ≤ ∑ m, if (L i m).isSome then aw m else 0 :=
      Finset.sum_nonneg (fun m _ => by split_ifs; exacts [(haw m).le, le_rfl])
    linarith
  refine ⟨fun k => ?_, ?_⟩
  · unfold posterior
    refine div_nonneg (add_nonneg (mul_nonneg (hP.1 k) hmw.le) (Finset.sum_nonneg (fun m _ => ?_))) htot.le
    cases L i m with
    | none => exact le_rfl
    | some l =>
      simp only
      split_ifs
      · exact mul_nonneg (haw m).le hcl0
      · exact mul_nonneg (haw m).le hncl
  · unfold posterior
    simp only
    rw [← Finset.sum_div, div_eq_one_iff_eq htot.ne', Finset.sum_add_distrib, ← Finset.sum_mul, hP.2, one_mul,
      Finset.sum_comm, add_comm]
    congr 1
    apply Finset.sum_congr rfl
    intro m _
    cases hL : L i m with
    | none => simp
    | some l =>
      simp only [Option.isSome_some, if_true]
      rw [← Finset.add_sum_erase _ _ (Finset.mem_univ l), if_pos rfl]
      have h1 : ∑ k ∈ Finset.univ.erase l, (if l = k then aw m * cl else aw m * ((1 - cl) / ((K : F) - 1))) =
          ((K : F) - 1) * (aw m * ((1 - cl) / ((K : F) - 1))) := by
        rw [Finset.sum_congr rfl (fun k hk => if_neg (Finset.ne_of_mem_erase hk).symm), Finset.sum_const,
          Finset.card_erase_of_mem (Finset.mem_univ l), Finset.card_univ, Fintype.card_fin, nsmul_eq_mul,
          Nat.cast_sub (Nat.one_le_iff_ne_zero.mpr hK), Nat.cast_one]
      rw [h1]
      by_cases hK1 : K = 1
      · rw [hone hK1]; simp
      · have : (K : F) - 1 ≠ 0 := by
          intro hz
          apply hK1
          have : (K : F) = 1 := by linarith
          exact_mod_cast this
        field_simp
        ring

/-- **C20**: for valid annotations and predicted probabilities the CROWDLAB computation has a result, the weights
of the model and of all annotators are positive (those of the annotators at most 1), and the posterior of every
example is a distribution. `root` is the square root of the mean number of annotations. -/
theorem C20_posterior_is_distribution [NeZero K] (L : Annotations n M K) (c : Fin n → Fin K) (P : Fin n → Fin K → F)
    (root : F) (hv : ValidAnnotations L) (hP : ∀ i, IsDistribution (P i)) (hroot0 : 0 ≤ root)
    (hroot : root * root = (∑ i, (numAnnotators L i : F)) / n) :
    ∃ p, postCrowdlab L c P root = .ok p ∧ (∀ i, IsDistribution (p.post i)) ∧ 0 < p.modelWeight ∧
      ∀ m, 0 < p.annWeight m ∧ p.annWeight m ≤ 1 := by
  have hn : 0 < n := by
    obtain ⟨i, -⟩ := hv.2.2.2
    exact Nat.pos_of_ne_zero (fun h => by subst h; exact i.elim0)
  have hrootpos : 0 < root := by
    rcases hroot0.lt_or_eq with h | h
    · exact h
    · exfalso
      rw [← h, mul_zero] at hroot
      have hs : 0 < ∑ i, (numAnnotators L i : F) := by
        apply Finset.sum_pos
        · intro i _
          obtain ⟨m, hm⟩ := hv.1 i
          have : 0 < numAnnotators L i := Finset.card_pos.mpr ⟨m, by simp [hm]⟩
          exact_mod_cast this
        · exact ⟨⟨0, hn⟩, Finset.mem_univ _⟩
      have : 0 < (∑ i, (numAnnotators L i : F)) / n := div_pos hs (by exact_mod_cast hn)
      linarith
  have hrows : (multiRows L).length ≠ 0 := by
    obtain ⟨i, hi⟩ := hv.2.2.2
    intro hz
    have : i ∈ multiRows L := by unfold multiRows; simp [numAnnotations_eq, hi]
    rw [List.length_eq_zero_iff.mp hz] at this
    cases this
  have hsome : (mean? ((multiRows L).map (agreementWithConsensus (F := F) L c))).isSome := by
    apply mean?_isSome
    · simpa using hrows
    · intro x hx
      obtain ⟨i, -, rfl⟩ := List.mem_map.mp hx
      obtain ⟨a, ha, -⟩ := C21_example_agreement (F := F) L c i (hv.1 i)
      rw [ha]; rfl
  obtain ⟨cl, hcl⟩ := Option.isSome_iff_exists.mp hsome
  have hclr := mean?_range _ cl hcl (by
    intro x hx v hxv
    obtain ⟨i, -, rfl⟩ := List.mem_map.mp hx
    obtain ⟨a, ha, -, h0, h1⟩ := C21_example_agreement (F := F) L c i (hv.1 i)
    rw [ha] at hxv
    cases hxv
    exact ⟨h0, h1⟩)
  have hann : ∀ m, (agreementWithAnnotators (F := F) L m).isSome := fun m => by
    obtain ⟨a, ha, -⟩ := C21_annotator_agreement (F := F) L hv m
    rw [ha]; rfl
  unfold postCrowdlab
  rw [hcl]
  simp only [dif_pos hann]
  have hmw : 0 < modelWeight L c P root := mul_pos (lt_max_of_lt_right lowerBound_pos) hrootpos
  have haw : ∀ a : F, 0 < adjustedAgreement L c a := fun a => lt_max_of_lt_right lowerBound_pos
  refine ⟨_, rfl, fun i => ?_, hmw, fun m => ⟨haw _, ?_⟩⟩
  · exact posterior_isDistribution L P cl _ _ i (hP i) hclr.1 hclr.2
      (fun hK => consensus_one_class hK L hv c cl hcl) hmw (fun m => haw _)
  · obtain ⟨a, ha, -, h1, -⟩ := C21_annotator_agreement (F := F) L hv m
    simp only [ha, Option.get_some]
    unfold adjustedAgreement
    refine max_le ?_ (by unfold lowerBound; rw [div_le_one] <;> norm_num)
    have : 0 ≤ (1 - a) / mostLikelyClassError L c :=
      div_nonneg (by linarith) (mostLikelyClassError_pos L c).le
    linarith

theorem dist_le_one (p : Fin K → F) (h : IsDistribution p) (k : Fin K) : p k ≤ 1 := by
  rw [← h.2]
  exact Finset.single_le_sum (fun j _ => h.1 j) (Finset.mem_univ k)

/-- The run of one consensus method. -/
theorem consensusStats_spec [NeZero K] (L : Annotations n M K) (c : Fin n → Fin K) (P : Fin n → Fin K → F)
    (root : F) (hv : ValidAnnotations L) (hP : ∀ i, IsDistribution (P i)) (hroot0 : 0 ≤ root)
    (hroot : root * root = (∑ i, (numAnnotators L i : F)) / n) :
    ∃ r, consensusStats L P c root = .ok r ∧ r.consensus = c ∧ (∀ i, IsDistribution (r.posterior.post i)) ∧
      (∀ i, r.quality i = r.posterior.post i (c i)) ∧
      (∀ i m, r.detailed i m = (L i m).map (r.posterior.post i)) ∧ 0 < r.posterior.modelWeight ∧
      ∀ m, 0 < r.posterior.annWeight m ∧ r.posterior.annWeight m ≤ 1 := by
  obtain ⟨p, hp, h1, h2, h3⟩ := C20_posterior_is_distribution L c P root hv hP hroot0 hroot
  unfold consensusStats
  rw [hp]
  exact ⟨_, rfl, rfl, h1, fun _ => rfl, fun _ _ => rfl, h2, h3⟩

/-- **C20**: whenever the majority vote exists, `get_label_quality_multiannotator` returns a table in which the
consensus quality is in `[0, 1]`, exactly the given labels have a quality, which is in `[0, 1]` too, and a label
that equals the consensus has the quality of the consensus. -/
theorem C20_scores_in_range [NeZero K] (L : Annotations n M K) (P : Fin n → Fin K → F) (rand : Fin n → ℕ)
    (root : F) (method : ConsensusMethod) (hv : ValidAnnotations L) (hP : ∀ i, IsDistribution (P i))
    (hroot0 : 0 ≤ root) (hroot : root * root = (∑ i, (numAnnotators L i : F)) / n) (mv : Fin n → Fin K)
    (hmv : majorityVote L (some P) rand = .ok mv) :
    ∃ r, labelQualityMultiannotator L P rand root method = .ok r ∧
      (∀ i, 0 ≤ r.quality i ∧ r.quality i ≤ 1) ∧
      (∀ i m, r.detailed i m = none ↔ L i m = none) ∧
      (∀ i m q, r.detailed i m = some q → 0 ≤ q ∧ q ≤ 1) ∧
      ∀ i m, L i m = some (r.consensus i) → r.detailed i m = some (r.quality i) := by
  have key : ∀ c : Fin n → Fin K, ∃ r, consensusStats L P c root = .ok r ∧
      (∀ i, 0 ≤ r.quality i ∧ r.quality i ≤ 1) ∧ (∀ i m, r.detailed i m = none ↔ L i m = none) ∧
      (∀ i m q, r.detailed i m = some q → 0 ≤ q ∧ q ≤ 1) ∧
      ∀ i m, L i m = some (r.consensus i) → r.detailed i m = some (r.quality i) := by
    intro c
    obtain ⟨r, hr, hc, hd, hq, hdet, -⟩ := consensusStats_spec L c P root hv hP hroot0 hroot
    refine ⟨r, hr, fun i => ?_, fun i m => ?_, fun i m q h => ?_, fun i m h => ?_⟩
    · rw [hq]; exact ⟨(hd i).1 _, dist_le_one _ (hd i) _⟩
    · rw [hdet]; simp
    · rw [hdet] at h
      obtain ⟨k, -, rfl⟩ := Option.map_eq_some_iff.mp h
      exact ⟨(hd i).1 _, dist_le_one _ (hd i) _⟩
    · rw [hdet, h, hq, hc]; rfl
  unfold labelQualityMultiannotator
  rw [(assertValidInputs_iff L).mpr hv, hmv]
  obtain ⟨r, hr, h⟩ := key mv
  cases method with
  | majorityVote => exact ⟨r, by simp [bind, Except.bind, hr, pure, Except.pure], h⟩
  | bestQuality =>
    obtain ⟨r', hr', h'⟩ := key (bestQuality r.posterior.post mv)
    exact ⟨r', by simp [bind, Except.bind, hr, hr'], h'⟩

omit [Field F] [IsStrictOrderedRing F] in
/-- The consensus label chosen by `best_quality`. -/
theorem bestQuality_spec [NeZero K] (post : Fin n → Fin K → F) (mv : Fin n → Fin K) (i : Fin n) :
    (∀ j, post i j ≤ post i (bestQuality post mv i)) ∨
      (bestQuality post mv i = mv i ∧ ∃ a b, a ≠ b ∧ (∀ j, post i j ≤ post i a) ∧ ∀ j, post i j ≤ post i b) := by
  have hne := keepMax_ne_nil (post i) (List.finRange K) (List.ne_nil_of_mem (List.mem_finRange (0 : Fin K)))
  have hmem : ∀ k, k ∈ keepMax (post i) (List.finRange K) → ∀ j, post i j ≤ post i k := by
    intro k hk j
    exact ((mem_keepMax _ _ _).mp hk).2 j (List.mem_finRange j)
  have hnd : (keepMax (post i) (List.finRange K)).Nodup := (List.nodup_finRange K).filter _
  unfold bestQuality
  match h : keepMax (post i) (List.finRange K) with
  | [] => exact absurd h hne
  | [k] => left; exact hmem k (by rw [h]; simp)
  | a :: b :: l =>
    right
    rw [h] at hnd
    refine ⟨rfl, a, b, ?_, hmem a (by rw [h]; simp), hmem b (by rw [h]; simp)⟩
    rintro rfl
    simp at hnd

omit [IsStrictOrderedRing F] in
/-- **C20**, what holds of the `best_quality` consensus: for every example, its consensus label either is a most
probable class under the posterior that the *majority vote* run returns (so there its quality is at least that of
the majority vote label), or it is the majority vote label and two classes tie for the largest posterior.
Missing: the returned scores are those of a second run (see `C20_not_best_quality`). -/
theorem C20_best_quality_partial [NeZero K] (L : Annotations n M K) (P : Fin n → Fin K → F) (rand : Fin n → ℕ)
    (root : F) (r0 r : Result n M K F) (h0 : labelQualityMultiannotator L P rand root .majorityVote = .ok r0)
    (h : labelQualityMultiannotator L P rand root .bestQuality = .ok r) (i : Fin n) :
    (∀ j, r0.posterior.post i j ≤ r0.posterior.post i (r.consensus i)) ∨
      (r.consensus i = r0.consensus i ∧ ∃ a b, a ≠ b ∧ (∀ j, r0.posterior.post i j ≤ r0.posterior.post i a) ∧
        ∀ j, r0.posterior.post i j ≤ r0.posterior.post i b) := by
  have hc : ∀ c (r : Result n M K F), consensusStats L P c root = .ok r → r.consensus = c := by
    intro c r h
    unfold consensusStats at h
    cases hp : postCrowdlab L c P root with
    | error e => rw [hp] at h; cases h
    | ok p => rw [hp] at h; cases h; rfl
  unfold labelQualityMultiannotator at h0 h
  cases hv : assertValidInputs L with
  | error e => rw [hv] at h0; cases h0
  | ok u =>
    cases hmv : majorityVote L (some P) rand with
    | error e => rw [hv, hmv] at h0; cases h0
    | ok mv =>
      cases hs : consensusStats L P mv root with
      | error e => simp [hv, hmv, bind, Except.bind, hs] at h0
      | ok r1 =>
        simp only [hv, hmv, bind, Except.bind, hs, pure, Except.pure, Except.ok.injEq] at h0 h
        subst h0
        rw [hc _ _ h, hc _ _ hs]
        exact bestQuality_spec _ _ _

omit [IsStrictOrderedRing F] in
theorem postCrowdlab_eq [NeZero K] (L : Annotations n M K) (c : Fin n → Fin K) (P : Fin n → Fin K → F) (root cl : F)
    (a : Fin M → F) (mw : F) (aw : Fin M → F)
    (hcl : mean? ((multiRows L).map (agreementWithConsensus (F := F) L c)) = some cl)
    (ha : ∀ m, agreementWithAnnotators (F := F) L m = some (a m)) (hmw : modelWeight L c P root = mw)
    (haw : ∀ m, adjustedAgreement L c (a m) = aw m) :
    postCrowdlab L c P root = .ok { post := posterior L P cl mw aw, modelWeight := mw, annWeight := aw } := by
  have h : ∀ m, (agreementWithAnnotators (F := F) L m).isSome := fun m => by rw [ha]; rfl
  unfold postCrowdlab
  rw [hcl]
  simp only [dif_pos h]
  simp only [ha, Option.get_some, haw, hmw]

/-- Three examples, four annotators, three classes. -/
def exL : Annotations 3 4 3 :=
  ![![some 1, some 1, some 0, some 1], ![some 0, some 2, some 2, some 1], ![some 0, some 2, some 2, some 0]]

/-- Predicted probabilities for `exL`. -/
def exP : Fin 3 → Fin 3 → ℚ := ![![1/2, 0, 1/2], ![3/5, 0, 2/5], ![3/5, 1/10, 3/10]]

/-- Agreements of the annotators of `exL` with each other. -/
def exAgr : Fin 4 → ℚ := ![1/3, 4/9, 2/9, 1/3]

theorem exL_valid : ValidAnnotations exL := (assertValidInputs_iff _).mp (by decide +kernel)

theorem exL_majority (rand : Fin 3 → ℕ) : majorityVote exL (some exP) rand = .ok ![1, 2, 0] := by
  have h : ∀ i, afterAnnotators exL (some exP) i = [(![1, 2, 0] : Fin 3 → Fin 3) i] := by decide +kernel
  unfold majorityVote
  rw [dif_pos (fun i => by rw [h]; simp)]
  congr 1
  funext i
  simp only [h]
  simp

theorem exL_run1 (rand : Fin 3 → ℕ) : labelQualityMultiannotator exL exP rand 2 .bestQuality =
    consensusStats exL exP ![1, 2, 2] 2 := by
  have hp := postCrowdlab_eq exL ![1, 2, 0] exP 2 (7 / 12) exAgr (1 / 500000) ![1/1000000, 1/6, 1/1000000, 1/1000000]
    (by decide +kernel) (by decide +kernel) (by decide +kernel) (by decide +kernel)
  have hb : bestQuality (posterior exL exP (7 / 12) (1 / 500000) ![1/1000000, 1/6, 1/1000000, 1/1000000])
      ![1, 2, 0] = ![1, 2, 2] := by decide +kernel
  unfold labelQualityMultiannotator
  rw [(assertValidInputs_iff _).mpr exL_valid, exL_majority]
  conv_lhs => unfold consensusStats
  simp only [bind, Except.bind, hp, pure, Except.pure, hb]
  rfl

/-- **C20** fails for the `best_quality` consensus: here it chooses, for the first example, a label whose returned
quality (`47/144`) is below the returned quality (`53/144`) of the label of the third annotator. The consensus is
chosen with the scores of a first run, but the returned scores are computed again afterwards. -/
theorem C20_not_best_quality : ∃ (L : Annotations 3 4 3) (P : Fin 3 → Fin 3 → ℚ) (root : ℚ),
    ValidAnnotations L ∧ (∀ i, IsDistribution (P i)) ∧ 0 ≤ root ∧
      root * root = (∑ i, (numAnnotators L i : ℚ)) / (3 : ℕ) ∧ ∀ rand, ∃ r,
        labelQualityMultiannotator L P rand root .bestQuality = .ok r ∧
        ∃ i m q, r.detailed i m = some q ∧ r.quality i < q := by
  refine ⟨exL, exP, 2, exL_valid, fun i => ⟨by revert i; decide +kernel, by revert i; decide +kernel⟩,
    by norm_num, by decide +kernel, fun rand => ?_⟩
  have hp := postCrowdlab_eq exL ![1, 2, 2] exP 2 (7 / 12) exAgr (1 / 500000)
    ![1/1000000, 1/1000000, 1/1000000, 1/1000000]
    (by decide +kernel) (by decide +kernel) (by decide +kernel) (by decide +kernel)
  rw [exL_run1]
  unfold consensusStats
  simp only [bind, Except.bind, hp, pure, Except.pure]
  refine ⟨_, rfl, 0, 2, 53 / 144, ?_, ?_⟩
  · decide +kernel
  · decide +kernel

/-- **C20**: the quality of an annotator, where it exists, lies in `[0, 1]`; it exists for every annotator who
labelled an example that somebody else labelled too. -/
theorem C20_annotator_quality (L : Annotations n M K) (c : Fin n → Fin K) (p : Posterior n M K F)
    (hp : ∀ i, IsDistribution (p.post i)) (hmw : 0 < p.modelWeight) (haw : ∀ m, 0 ≤ p.annWeight m) (m : Fin M) :
    (∀ q, annotatorQuality L c p m = some q → 0 ≤ q ∧ q ≤ 1) ∧
      ((∃ i, L i m ≠ none ∧ numAnnotators L i ≠ 1) → ∃ q, annotatorQuality L c p m = some q) := by
  constructor
  · intro q hq
    unfold annotatorQuality at hq
    simp only [Option.bind_eq_bind, Option.bind_eq_some_iff] at hq
    obtain ⟨lqs, hl, agr, ha, hq⟩ := hq
    have hlr : 0 ≤ lqs ∧ lqs ≤ 1 := by
      refine mean?_range _ lqs hl (fun x hx v hv => ?_)
      obtain ⟨i, -, rfl⟩ := List.mem_map.mp hx
      obtain ⟨k, -, rfl⟩ := Option.map_eq_some_iff.mp hv
      exact ⟨(hp i).1 k, dist_le_one _ (hp i) k⟩
    have har : 0 ≤ agr ∧ agr ≤ 1 := by
      unfold agreementOnMulti at ha
      simp only at ha
      split_ifs at ha with h0
      cases ha
      refine ⟨by positivity, ?_⟩
      have h0' : 0 < ((multiRows L).filter (fun i => (L i m).isSome)).length := Nat.pos_of_ne_zero h0
      rw [div_le_one (by exact_mod_cast h0')]
      exact_mod_cast List.countP_le_length
    have hadj : 0 ≤ (∑ m, p.annWeight m) * ((∑ i, (numAnnotations L i : F)) / n / M) :=
      mul_nonneg (Finset.sum_nonneg (fun m _ => haw m)) (by positivity)
    have hw0 : 0 ≤ p.modelWeight / (p.modelWeight + (∑ m, p.annWeight m) * ((∑ i, (numAnnotations L i : F)) / n / M)) :=
      div_nonneg hmw.le (by linarith)
    have hw1 : p.modelWeight / (p.modelWeight + (∑ m, p.annWeight m) * ((∑ i, (numAnnotations L i : F)) / n / M)) ≤ 1 := by
      rw [div_le_one (by linarith)]; linarith
    have hq : _ = q := Option.some.inj hq
    rw [← hq]
    generalize p.modelWeight / (p.modelWeight + (∑ m, p.annWeight m) * ((∑ i, (numAnnotations L i : F)) / n / M)) = w
      at hw0 hw1
    have h1 := mul_nonneg hw0 hlr.1
    have h2 := mul_nonneg (sub_nonneg.mpr hw1) har.1
    have h3 := mul_le_mul_of_nonneg_left hlr.2 hw0
    have h4 := mul_le_mul_of_nonneg_left har.2 (sub_nonneg.mpr hw1)
    exact ⟨by linarith, by linarith⟩
  · rintro ⟨i, hi, hn⟩
    have h1 : (annotatorLqs L p.post m).isSome := by
      apply mean?_isSome
      · rw [List.length_map]
        exact (List.length_pos_of_mem (List.mem_filter.mpr ⟨List.mem_finRange i,
          Option.isSome_iff_ne_none.mpr hi⟩)).ne'
      · intro x hx
        obtain ⟨j, hj, rfl⟩ := List.mem_map.mp hx
        have := (List.mem_filter.mp hj).2
        simpa using this
    have h2 : (agreementOnMulti (F := F) L c m).isSome := by
      unfold agreementOnMulti
      simp only
      rw [if_neg]
      · rfl
      · refine (List.length_pos_of_mem (a := i) (List.mem_filter.mpr ⟨?_, Option.isSome_iff_ne_none.mpr hi⟩)).ne'
        unfold multiRows
        simp [numAnnotations_eq, hn]
    obtain ⟨a, ha⟩ := Option.isSome_iff_exists.mp h1
    obtain ⟨b, hb⟩ := Option.isSome_iff_exists.mp h2
    unfold annotatorQuality
    rw [ha, hb]
    exact ⟨_, rfl⟩

example : ∃ i, exL i 0 ≠ none ∧ numAnnotators exL i ≠ 1 := ⟨0, by decide +kernel, by decide +kernel⟩

/-! ## C22 -/

/-- A weighted mean lies between its two values. -/
theorem weighted_mean_between (a b u v : F) (hu : 0 ≤ u) (hv : 0 ≤ v) (huv : 0 < u + v) (hab : a ≤ b) :
    a ≤ (a * u + b * v) / (u + v) ∧ (a * u + b * v) / (u + v) ≤ b := by
  constructor
  · rw [le_div_iff₀ huv]; nlinarith
  · rw [div_le_iff₀ huv]; nlinarith

/-- **C22**: the active learning score of a labelled example lies between its consensus quality and `1 / K`, hence
in `[0, 1]` when the quality does. -/
theorem C22_score_between (L : Annotations n M K) (quality : Fin n → F) (aw : Fin M → F) (mw : F)
    (hmw : 0 < mw) (haw : ∀ m, 0 ≤ aw m) (i : Fin n) :
    min (quality i) (1 / K) ≤ activeScore K L quality aw mw i ∧
      activeScore K L quality aw mw i ≤ max (quality i) (1 / K) := by
  have h1 : 0 ≤ ∑ m, if (L i m).isSome then aw m else 0 :=
    Finset.sum_nonneg (fun m _ => by split_ifs; exacts [haw m, le_rfl])
  have h2 : 0 ≤ (∑ m, aw m) / M := div_nonneg (Finset.sum_nonneg (fun m _ => haw m)) (by positivity)
  unfold activeScore
  simp only
  rcases le_total (quality i) (1 / K) with h | h
  · rw [min_eq_left h, max_eq_right h]
    exact weighted_mean_between _ _ _ _ (by linarith) h2 (by linarith) h
  · rw [min_eq_right h, max_eq_left h]
    have := weighted_mean_between (1 / (K : F)) (quality i) _ _ h2 (by linarith : 0 ≤ (∑ m, if (L i m).isSome then aw m else 0) + mw) (by linarith) h
    rw [add_comm (1 / (K : F) * _), add_comm ((∑ m, aw m) / M)] at this
    exact this

/-- **C22**: of two labelled examples with the same consensus quality, above `1 / K`, the one whose annotators have the
larger total weight gets the higher score, that is, it is less in need of another label. -/
theorem C22_total_weight (L : Annotations n M K) (quality : Fin n → F) (aw : Fin M → F) (mw : F)
    (hmw : 0 < mw) (haw : ∀ m, 0 < aw m) (hM : 0 < M) (i j : Fin n) (hq : quality i = quality j)
    (hK : 1 / (K : F) < quality i) :
    activeScore K L quality aw mw i ≤ activeScore K L quality aw mw j ↔
      ∑ m ∈ Finset.univ.filter (fun m => L i m ≠ none), aw m ≤ ∑ m ∈ Finset.univ.filter (fun m => L j m ≠ none), aw m := by
  have hs : ∀ i, ∑ m ∈ Finset.univ.filter (fun m => L i m ≠ none), aw m = ∑ m, if (L i m).isSome then aw m else 0 := by
    intro i
    rw [Finset.sum_filter]
    refine Finset.sum_congr rfl fun m _ => if_congr ?_ rfl rfl
    exact Option.isSome_iff_ne_none.symm
  have h1 : ∀ i, 0 ≤ ∑ m, if (L i m).isSome then aw m else 0 := fun i =>
    Finset.sum_nonneg (fun m _ => by split_ifs; exacts [(haw m).le, le_rfl])
  have h2 : 0 < (∑ m, aw m) / M :=
    div_pos (Finset.sum_pos (fun m _ => haw m) ⟨⟨0, hM⟩, Finset.mem_univ _⟩) (by exact_mod_cast hM)
  rw [hs, hs]
  unfold activeScore
  simp only
  rw [hq] at hK ⊢
  have hi := h1 i
  have hj := h1 j
  generalize (∑ m, if (L i m).isSome then aw m else 0) = u at *
  generalize (∑ m, if (L j m).isSome then aw m else 0) = v at *
  generalize (∑ m, aw m) / (M : F) = a at *
  rw [div_le_div_iff₀ (by linarith) (by linarith)]
  have hp : 0 < a * (quality j - 1 / K) := mul_pos h2 (sub_pos.mpr hK)
  constructor
  · intro h
    by_contra hc
    have := mul_pos hp (sub_pos.mpr (not_le.mp hc))
    nlinarith
  · intro h
    have := mul_nonneg hp.le (sub_nonneg.mpr h)
    nlinarith

/-- **C22 (partial)**: of two labelled examples with the same consensus quality, at least `1 / K`, the one that was labelled
by all annotators of the other, and perhaps by more, scores at least as high. Missing: more annotators, but others, see
`C22_not_more_annotators`. -/
theorem C22_more_annotators_partial (L : Annotations n M K) (quality : Fin n → F) (aw : Fin M → F) (mw : F)
    (hmw : 0 < mw) (haw : ∀ m, 0 ≤ aw m) (i j : Fin n) (hq : quality i = quality j) (hK : 1 / (K : F) ≤ quality i)
    (hij : ∀ m, L i m ≠ none → L j m ≠ none) :
    activeScore K L quality aw mw i ≤ activeScore K L quality aw mw j := by
  have h1 : ∀ i, 0 ≤ ∑ m, if (L i m).isSome then aw m else 0 := fun i =>
    Finset.sum_nonneg (fun m _ => by split_ifs; exacts [haw m, le_rfl])
  have h2 : 0 ≤ (∑ m, aw m) / M := div_nonneg (Finset.sum_nonneg (fun m _ => haw m)) (by positivity)
  have h3 : (∑ m, if (L i m).isSome then aw m else 0) ≤ ∑ m, if (L j m).isSome then aw m else 0 := by
    apply Finset.sum_le_sum
    intro m _
    split_ifs with ha hb
    · exact le_rfl
    · exact absurd (Option.isSome_iff_ne_none.mpr (hij m (Option.isSome_iff_ne_none.mp ha))) hb
    · exact haw m
    · exact le_rfl
  unfold activeScore
  simp only
  rw [hq] at hK ⊢
  have hi := h1 i
  have hj := h1 j
  generalize (∑ m, if (L i m).isSome then aw m else 0) = u at *
  generalize (∑ m, if (L j m).isSome then aw m else 0) = v at *
  generalize (∑ m, aw m) / (M : F) = a at *
  rw [div_le_div_iff₀ (by linarith) (by linarith)]
  have := mul_nonneg (mul_nonneg (sub_nonneg.mpr h3) h2) (sub_nonneg.mpr hK)
  nlinarith

/-- **C22 fails for the number of annotators.** Two examples have the same quality; the one labelled by two annotators of low
weight scores lower than the one labelled by a single trusted annotator. -/
theorem C22_not_more_annotators :
    let L : Annotations 2 3 2 := ![![some 0, some 0, none], ![none, none, some 0]]
    numAnnotators L 1 < numAnnotators L 0 ∧
      activeScore 2 L (![9/10, 9/10] : Fin 2 → ℚ) ![1/10, 1/10, 1] 1 0 < activeScore 2 L ![9/10, 9/10] ![1/10, 1/10, 1] 1 1 := by
  decide +kernel

/-- **C22**: the active learning score of an unlabelled example lies between `1 / K` and its largest predicted
probability. -/
theorem C22_unlabeled_between [NeZero K] (p : Fin K → F) (hp : IsDistribution p) (mw avg : F) (hmw : 0 < mw)
    (havg : 0 ≤ avg) :
    1 / K ≤ activeScoreUnlabeled p mw avg ∧ ∃ k, activeScoreUnlabeled p mw avg ≤ p k := by
  have hmax : 1 / (K : F) ≤ p (argmax p) := by
    rw [div_le_iff₀ (by exact_mod_cast Nat.pos_of_ne_zero (NeZero.ne K)), ← hp.2]
    have := Finset.sum_le_card_nsmul Finset.univ p (p (argmax p)) (fun k _ => le_argmax p k)
    simpa [mul_comm] using this
  unfold activeScoreUnlabeled
  have := weighted_mean_between (1 / (K : F)) (p (argmax p)) avg mw havg hmw.le (by linarith) hmax
  rw [add_comm (1 / (K : F) * _), add_comm avg] at this
  exact ⟨this.1, argmax p, this.2⟩

/-- The hypotheses of the theorems above are met by a concrete example, and the bounds are strict there. -/
example : min ((![9/10, 1/2, 1/3] : Fin 3 → ℚ) 0) (1 / (3 : ℕ)) <
    activeScore 3 exL ![9/10, 1/2, 1/3] ![1/2, 1/2, 1/4, 1/4] (1/2) 0 ∧
    1 / (3 : ℕ) < activeScoreUnlabeled (![9/10, 1/20, 1/20] : Fin 3 → ℚ) (1/2) (3/8) := by
  constructor <;> decide +kernel

/-! ## C60 -/

/-- Number of examples that annotator `m` labelled `k`. -/
def timesUsed (L : Annotations n M K) (m : Fin M) (k : Fin K) : ℕ := (Finset.univ.filter (fun i => L i m = some k)).card

/-- Fraction of these whose consensus label is `k` too. -/
def classAgreement (L : Annotations n M K) (c : Fin n → Fin K) (m : Fin M) (k : Fin K) : ℚ :=
  ((Finset.univ.filter (fun i => L i m = some k ∧ c i = k)).card : ℚ) / timesUsed L m k

theorem groupMean_eq (L : Annotations n M K) (c : Fin n → Fin K) (m : Fin M) (k : Fin K) :
    groupMean L m k (fun i => if L i m = some (c i) then (1 : ℚ) else 0) = classAgreement L c m k := by
  unfold groupMean classAgreement timesUsed
  simp only
  rw [length_filter_finRange]
  congr 1
  · rw [sum_filter_finRange, Finset.sum_ite, Finset.sum_const, Finset.sum_const_zero, add_zero, nsmul_eq_mul, mul_one,
      Finset.filter_filter]
    congr 2
    ext i
    simp only [Finset.mem_filter, Finset.mem_univ, true_and, beq_iff_eq]
    constructor
    · rintro ⟨h1, h2⟩
      rw [h1] at h2
      exact ⟨h1, (Option.some.inj h2).symm⟩
    · rintro ⟨h1, h2⟩
      exact ⟨h1, by rw [h1, h2]⟩
  · simp

/-- **C60**: the `worst_class` of an annotator with labels is a class they used, no class they used has a lower
rate of agreement with the consensus, and among the classes with that rate none was used more often. -/
theorem C60_worst_class (L : Annotations n M K) (c : Fin n → Fin K) (quality : Fin n → ℚ) (m : Fin M)
    (hm : ∃ i, L i m ≠ none) :
    ∃ k, worstClass L c quality m = some k ∧ 0 < timesUsed L m k ∧
      (∀ j, 0 < timesUsed L m j → classAgreement L c m k ≤ classAgreement L c m j) ∧
      ∀ j, 0 < timesUsed L m j → classAgreement L c m j = classAgreement L c m k → timesUsed L m j ≤ timesUsed L m k := by
  have hused : ∀ k, 0 < timesUsed L m k ↔ ∃ i, L i m = some k := by
    intro k
    unfold timesUsed
    rw [Finset.card_pos]
    constructor
    · rintro ⟨i, hi⟩; exact ⟨i, by simpa using hi⟩
    · rintro ⟨i, hi⟩; exact ⟨i, by simpa using hi⟩
  have hcount : ∀ k, (List.finRange n).countP (fun i => L i m == some k) = timesUsed L m k := by
    intro k
    rw [countP_finRange]
    simp [timesUsed]
  unfold worstClass
  simp only [groupMean_eq, hcount]
  generalize hcl : (List.finRange K).filter (fun k => decide (∃ i, L i m = some k)) = classes
  have hmemcl : ∀ k, k ∈ classes ↔ 0 < timesUsed L m k := by
    intro k; rw [← hcl, hused]; simp
  have hclne : classes ≠ [] := by
    obtain ⟨i, hi⟩ := hm
    obtain ⟨k, hk⟩ := Option.ne_none_iff_exists'.mp hi
    exact List.ne_nil_of_mem ((hmemcl k).mpr ((hused k).mpr ⟨i, hk⟩))
  generalize hacc : keepMax (fun k => -classAgreement L c m k) classes = acc
  have hmemacc : ∀ k, k ∈ acc ↔ 0 < timesUsed L m k ∧ ∀ j, 0 < timesUsed L m j →
      classAgreement L c m k ≤ classAgreement L c m j := by
    intro k
    rw [← hacc, mem_keepMax, hmemcl]
    simp only [hmemcl, neg_le_neg_iff]
  have haccne : acc ≠ [] := by rw [← hacc]; exact keepMax_ne_nil _ _ hclne
  have hin : ∀ j k, k ∈ acc → 0 < timesUsed L m j → classAgreement L c m j = classAgreement L c m k → j ∈ acc := by
    intro j k hk hj he
    rw [hmemacc] at hk ⊢
    exact ⟨hj, fun l hl => he ▸ hk.2 l hl⟩
  have hhead : ∀ l : List (Fin K), l ≠ [] → ∃ k, l.head? = some k ∧ k ∈ l := by
    intro l hl
    cases l with
    | nil => exact absurd rfl hl
    | cons a l => exact ⟨a, rfl, by simp⟩
  have hcnt : ∀ k, k ∈ keepMax (fun k => (timesUsed L m k : ℚ)) acc → 0 < timesUsed L m k ∧
      (∀ j, 0 < timesUsed L m j → classAgreement L c m k ≤ classAgreement L c m j) ∧
      ∀ j, 0 < timesUsed L m j → classAgreement L c m j = classAgreement L c m k → timesUsed L m j ≤ timesUsed L m k := by
    intro k hk
    obtain ⟨hka, hkm⟩ := (mem_keepMax _ _ _).mp hk
    refine ⟨((hmemacc k).mp hka).1, ((hmemacc k).mp hka).2, fun j hj he => ?_⟩
    exact_mod_cast hkm j (hin j k hka hj he)
  split_ifs with h1 h2
  · obtain ⟨k, hk⟩ := List.length_eq_one_iff.mp h1
    refine ⟨k, by rw [hk]; rfl, ?_⟩
    have hka : k ∈ acc := by rw [hk]; simp
    refine ⟨((hmemacc k).mp hka).1, ((hmemacc k).mp hka).2, fun j hj he => ?_⟩
    have := hin j k hka hj he
    rw [hk] at this
    rw [List.mem_singleton.mp this]
  · obtain ⟨k, hk, hkm⟩ := hhead _ (keepMax_ne_nil (fun k => (timesUsed L m k : ℚ)) acc haccne)
    exact ⟨k, hk, hcnt k hkm⟩
  · obtain ⟨k, hk, hkm⟩ := hhead _ (keepMax_ne_nil (fun k => groupMean L m k quality) _
      (keepMax_ne_nil (fun k => (timesUsed L m k : ℚ)) acc haccne))
    exact ⟨k, hk, hcnt k ((mem_keepMax _ _ _).mp hkm).1⟩

example : worstClass exL ![1, 2, 0] (fun _ => (1 / 2 : ℚ)) 0 = some 0 ∧ classAgreement exL ![1, 2, 0] 0 0 = 1 / 2 ∧
    classAgreement exL ![1, 2, 0] 0 1 = 1 := by decide +kernel

end Cleanlab.Props
