import Verif.Model.Multiannotator
import Verif.Spec.Annotators
import Verif.Spec.Classification
import Verif.Lemmas.Count

/-! # Lemmas about the multi-annotator model -/

namespace Cleanlab.Multiannotator

open Np Cleanlab.Util Cleanlab.Rank Cleanlab.Spec Cleanlab.Count

variable {n M K : ℕ} {F : Type} [Field F] [LinearOrder F]

theorem numAnnotations_eq (L : Annotations n M K) (i : Fin n) : numAnnotations L i = numAnnotators L i := by
  unfold numAnnotations numAnnotators
  rw [countP_finRange]
  congr 1
  ext m
  simp [Option.isSome_iff_ne_none]

theorem labelCount_eq (L : Annotations n M K) (i : Fin n) (k : Fin K) : labelCount L i k = numVotes L i k := by
  unfold labelCount numVotes
  rw [countP_finRange]
  congr 1
  ext m
  simp

theorem assertValidInputs_iff (L : Annotations n M K) : assertValidInputs L = .ok () ↔ ValidAnnotations L := by
  unfold assertValidInputs ValidAnnotations
  simp only [numAnnotations_eq]
  split_ifs with h1 h2 h3 h4
  · simp only [false_iff]
    rintro ⟨h, -⟩
    obtain ⟨i, hi⟩ := h1
    obtain ⟨m, hm⟩ := h i
    exact hm (hi m)
  · simp only [false_iff]
    rintro ⟨-, h, -⟩
    obtain ⟨m, hm⟩ := h2
    obtain ⟨i, hi⟩ := h m
    exact hi (hm i)
  · simp only [false_iff]
    rintro ⟨-, -, h, -⟩
    omega
  · simp only [false_iff]
    rintro ⟨-, -, -, i, h⟩
    exact h (h4 i)
  · push Not at h1 h2 h4
    simp only [true_iff]
    exact ⟨h1, h2, by omega, h4⟩

omit [Field F] in
theorem mem_keepMax (score : Fin K → F) (cands : List (Fin K)) (k : Fin K) :
    k ∈ keepMax score cands ↔ k ∈ cands ∧ ∀ j ∈ cands, score j ≤ score k := by
  unfold keepMax
  simp [List.mem_filter]

omit [Field F] in
theorem keepMax_ne_nil (score : Fin K → F) (cands : List (Fin K)) (h : cands ≠ []) :
    keepMax score cands ≠ [] := by
  obtain ⟨k, hk, hmax⟩ := Finset.exists_max_image cands.toFinset score (by
    obtain ⟨a, ha⟩ := List.exists_mem_of_ne_nil _ h
    exact ⟨a, by simpa using ha⟩)
  exact List.ne_nil_of_mem ((mem_keepMax score cands k).mpr ⟨by simpa using hk, fun j hj => hmax j (by simpa using hj)⟩)

omit [Field F] in
theorem tieBreak_subset (score : Fin K → F) (cands : List (Fin K)) : tieBreak score cands ⊆ cands := by
  unfold tieBreak
  split_ifs
  · exact List.Subset.refl _
  · intro k hk; exact ((mem_keepMax _ _ _).mp hk).1

omit [Field F] in
theorem tieBreak_ne_nil (score : Fin K → F) (cands : List (Fin K)) (h : cands ≠ []) :
    tieBreak score cands ≠ [] := by
  unfold tieBreak
  split_ifs
  · exact h
  · exact keepMax_ne_nil _ _ h

theorem mem_modes (L : Annotations n M K) (i : Fin n) (k : Fin K) : k ∈ modes L i ↔ IsMode L i k := by
  unfold modes IsMode
  simp [List.mem_filter, labelCount_eq]

theorem modes_ne_nil [NeZero K] (L : Annotations n M K) (i : Fin n) : modes L i ≠ [] := by
  obtain ⟨k, -, hmax⟩ := Finset.exists_max_image (Finset.univ : Finset (Fin K)) (numVotes L i) ⟨0, Finset.mem_univ _⟩
  exact List.ne_nil_of_mem ((mem_modes L i k).mpr (fun j => hmax j (Finset.mem_univ j)))

omit [Field F] in
theorem afterPredProbs_subset (L : Annotations n M K) (P : Option (Fin n → Fin K → F)) (i : Fin n) :
    afterPredProbs L P i ⊆ modes L i := by
  unfold afterPredProbs
  cases P with
  | none => exact List.Subset.refl _
  | some P => exact tieBreak_subset _ _

theorem afterFrequency_subset (L : Annotations n M K) (P : Option (Fin n → Fin K → F)) (i : Fin n) :
    afterFrequency L P i ⊆ modes L i :=
  List.Subset.trans (tieBreak_subset _ _) (afterPredProbs_subset L P i)

theorem afterFrequency_ne_nil [NeZero K] (L : Annotations n M K) (P : Option (Fin n → Fin K → F)) (i : Fin n) :
    afterFrequency L P i ≠ [] := by
  apply tieBreak_ne_nil
  unfold afterPredProbs
  cases P with
  | none => exact modes_ne_nil L i
  | some P => exact tieBreak_ne_nil _ _ (modes_ne_nil L i)

theorem afterAnnotators_subset (L : Annotations n M K) (P : Option (Fin n → Fin K → F)) (i : Fin n) :
    afterAnnotators L P i ⊆ afterFrequency L P i := by
  unfold afterAnnotators
  simp only
  split_ifs
  · exact List.Subset.refl _
  · exact List.filter_subset_self _

/-- What a result of the majority vote tells. -/
theorem majorityVote_mem {L : Annotations n M K} {P : Option (Fin n → Fin K → F)} {rand : Fin n → ℕ}
    {r : Fin n → Fin K} (h : majorityVote L P rand = .ok r) (i : Fin n) : r i ∈ afterAnnotators L P i := by
  unfold majorityVote at h
  split_ifs at h with h1
  cases h
  exact List.getElem_mem _

theorem mapM_isSome {α β : Type} (f : α → Option β) (l : List α) (h : ∀ a ∈ l, (f a).isSome) :
    ∃ r, l.mapM f = some r ∧ r.length = l.length ∧ ∀ b ∈ r, ∃ a ∈ l, f a = some b := by
  induction l with
  | nil => exact ⟨[], rfl, rfl, by simp⟩
  | cons a l ih =>
    obtain ⟨r, hr, hl, hm⟩ := ih (fun b hb => h b (List.mem_cons_of_mem _ hb))
    obtain ⟨b, hb⟩ := Option.isSome_iff_exists.mp (h a List.mem_cons_self)
    refine ⟨b :: r, by simp [List.mapM_cons, hb, hr], by simp [hl], ?_⟩
    intro c hc
    rcases List.mem_cons.mp hc with rfl | hc
    · exact ⟨a, List.mem_cons_self, hb⟩
    · obtain ⟨a', ha', hf⟩ := hm c hc
      exact ⟨a', List.mem_cons_of_mem _ ha', hf⟩

theorem length_modes_eq_one (L : Annotations n M K) (i : Fin n) : (modes L i).length = 1 ↔ ∃! k, IsMode L i k := by
  rw [List.length_eq_one_iff]
  constructor
  · rintro ⟨k, hk⟩
    refine ⟨k, (mem_modes L i k).mp (by rw [hk]; simp), fun j hj => ?_⟩
    have := (mem_modes L i j).mpr hj
    rw [hk] at this
    simpa using this
  · rintro ⟨k, hk, hu⟩
    refine ⟨k, ?_⟩
    have hn : (modes L i).Nodup := (List.nodup_finRange K).filter _
    have hp : (modes L i).Perm [k] := (List.perm_ext_iff_of_nodup hn (by simp)).mpr (fun j => by
      rw [mem_modes]
      exact ⟨fun h => by simp [hu j h], fun h => by rw [List.mem_singleton.mp h]; exact hk⟩)
    exact List.perm_singleton.mp hp

omit [LinearOrder F] in
theorem imputedAgreement_isSome (L : Annotations n M K) (i0 : Fin n) (h0 : ∃! k, IsMode L i0 k)
    (m0 : Fin M) (hm0 : L i0 m0 ≠ none) (m : Fin M) : (imputedAgreement (F := F) L m).isSome := by
  have h1 : (initialAgreement (F := F) L m0).isSome := by
    unfold initialAgreement
    simp only
    rw [if_neg]
    · rfl
    · intro hz
      have : i0 ∈ (nontiedIdx L).filter (fun i => (L i m0).isSome) := by
        unfold nontiedIdx
        simp [List.mem_filter, (length_modes_eq_one L i0).mpr h0, Option.isSome_iff_ne_none, hm0]
      rw [List.length_eq_zero_iff.mp hz] at this
      cases this
  unfold imputedAgreement
  cases h2 : initialAgreement (F := F) L m with
  | some a => rfl
  | none =>
    simp only
    rw [if_neg]
    · rfl
    · intro hz
      obtain ⟨a, ha⟩ := Option.isSome_iff_exists.mp h1
      have : a ∈ (List.finRange M).filterMap (fun m => initialAgreement (F := F) L m) :=
        List.mem_filterMap.mpr ⟨m0, List.mem_finRange _, ha⟩
      rw [List.length_eq_zero_iff.mp hz] at this
      cases this

omit [LinearOrder F] in
theorem annotatorsScore_isSome (L : Annotations n M K) (h : ∀ m, (imputedAgreement (F := F) L m).isSome)
    (i : Fin n) (k : Fin K) (hk : 0 < numVotes L i k) : (annotatorsScore (F := F) L i k).isSome := by
  unfold annotatorsScore
  simp only
  have hw : ((List.finRange M).filter (fun m => L i m == some k)).length ≠ 0 := by
    rw [← List.countP_eq_length_filter]
    have := labelCount_eq L i k
    unfold labelCount at this
    rw [this]; omega
  rw [if_neg hw]
  obtain ⟨r, hr, -⟩ := mapM_isSome (fun m => imputedAgreement (F := F) L m)
    ((List.finRange M).filter (fun m => L i m == some k)) (fun m _ => h m)
  rw [hr]; rfl

theorem numVotes_pos_of_isMode (L : Annotations n M K) (i : Fin n) (k : Fin K) (hk : IsMode L i k)
    (m : Fin M) (hm : L i m ≠ none) : 0 < numVotes L i k := by
  obtain ⟨l, hl⟩ := Option.ne_none_iff_exists'.mp hm
  refine lt_of_lt_of_le ?_ (hk l)
  unfold numVotes
  exact Finset.card_pos.mpr ⟨m, by simp [hl]⟩

theorem afterAnnotators_ne_nil [NeZero K] (L : Annotations n M K) (P : Option (Fin n → Fin K → F)) (i : Fin n)
    (h : (afterFrequency L P i).length ≠ 1 → ∀ k ∈ afterFrequency L P i, (annotatorsScore (F := F) L i k).isSome) :
    afterAnnotators L P i ≠ [] := by
  have hne := afterFrequency_ne_nil L P i
  unfold afterAnnotators
  simp only
  split_ifs with h1
  · exact hne
  · have h := h h1
    obtain ⟨k, hk, hmax⟩ := Finset.exists_max_image (afterFrequency L P i).toFinset.attach
      (fun k => (annotatorsScore (F := F) L i k.1).get (h k.1 (List.mem_toFinset.mp k.2))) (by
        obtain ⟨a, ha⟩ := List.exists_mem_of_ne_nil _ hne
        exact ⟨⟨a, by simpa using ha⟩, Finset.mem_attach _ _⟩)
    refine List.ne_nil_of_mem (a := k.1) (List.mem_filter.mpr ⟨List.mem_toFinset.mp k.2, ?_⟩)
    rw [List.all_eq_true]
    intro j hj
    have := hmax ⟨j, by simpa using hj⟩ (Finset.mem_attach _ _)
    obtain ⟨a, ha⟩ := Option.isSome_iff_exists.mp (h j hj)
    obtain ⟨b, hb⟩ := Option.isSome_iff_exists.mp (h k.1 (List.mem_toFinset.mp k.2))
    rw [ha, hb]
    simp only [ha, hb, Option.get_some] at this
    simpa [leNaN] using this

end Cleanlab.Multiannotator
