import Verif.Model.Baselines
import Verif.Props.Validation
import Verif.Props.FilterChecked
import Verif.Props.ValueCounts
import Verif.Props.Token
import Mathlib.Tactic.Linarith
import Verif.Lemmas.Count
import Verif.Np.Lemmas

/-!
# C100: the baselines
-/

namespace Cleanlab.Props

open Np Cleanlab.Util Cleanlab.Count Cleanlab.Filter Cleanlab.Validation Cleanlab.Multilabel Cleanlab.Baselines

variable {n K : ℕ}

theorem checkInputs_iff (labels : Fin n → Fin K) (P : Fin n → Fin K → ℚ) :
    checkInputs labels P = .ok () ↔ (∃ i j, labels i ≠ labels j) ∧ InRange P := by
  rw [show checkInputs labels P = validate false labels P from rfl, validate_iff]
  constructor
  · rintro ⟨-, h, hP⟩
    exact ⟨h.resolve_left (by simp), hP⟩
  · rintro ⟨⟨i, j, h⟩, hP⟩
    exact ⟨i.pos, Or.inr ⟨i, j, h⟩, hP⟩

theorem error_of_not_ok {e : Except String Unit} (h : ¬e = .ok ()) : ∃ s, e = .error s := by
  cases e with
  | error s => exact ⟨s, rfl⟩
  | ok u => exact absurd rfl h

/-- **C100.** For valid inputs with at least two classes, `find_predicted_neq_given` flags exactly the examples for which
another class is predicted: a more probable class, or an equally probable class with a smaller number. -/
theorem C100_predicted_neq_given [NeZero K] (labels : Fin n → Fin K) (P : Fin n → Fin K → ℚ) (hl : ∃ i j, labels i ≠ labels j)
    (hP : InRange P) :
    ∃ mask, predictedNeqGiven labels P = .ok mask ∧
      ∀ i, mask i = true ↔ ∃ k, P i (labels i) < P i k ∨ (k < labels i ∧ P i (labels i) ≤ P i k) := by
  refine ⟨_, by unfold predictedNeqGiven; rw [(checkInputs_iff labels P).mpr ⟨hl, hP⟩]; rfl, ?_⟩
  intro i
  rw [decide_eq_true_iff, ne_eq, argmax_eq_iff]
  constructor
  · intro h
    by_contra hc
    push Not at hc
    exact h ⟨fun k => (hc k).1, fun k hk => (hc k).2 hk⟩
  · rintro ⟨k, hk | ⟨hk, hk'⟩⟩ ⟨h1, h2⟩
    · exact absurd (h1 k) (not_le.mpr hk)
    · exact absurd (h2 k hk) (not_lt.mpr hk')

theorem argmax_pair (p : ℚ) : argmax (![1 - p, p] : Fin 2 → ℚ) = 1 ↔ 1 / 2 < p := by
  rw [argmax_eq_iff]
  constructor
  · rintro ⟨-, h⟩
    have := h 0 (by decide)
    simp at this
    linarith
  · intro h
    refine ⟨fun i => ?_, fun i hi => ?_⟩
    · fin_cases i
      · simp; linarith
      · simp
    · have : i = 0 := Fin.lt_one_iff i |>.mp hi
      subst this
      simp
      linarith

theorem inRange_complement (P : Fin n → Fin K → ℚ) (hP : InRange P) (k : Fin K) : InRange (stackComplement P k) := by
  intro i j
  have := hP i k
  unfold stackComplement
  fin_cases j
  · simp; constructor <;> linarith
  · simpa using this

/-- **C100.** Multi-label data in which every class is given to some, but not to all examples: exactly the examples are flagged
for which some class is given with probability at most 1/2, or not given with probability above 1/2.
Missing: data with a class that no or every example has (`C100_not_multilabel`). -/
theorem C100_multilabel_partial (labels : List (List ℕ)) (P : Fin labels.length → Fin K → ℚ) (hP : InRange P)
    (hK : ∀ l ∈ labels, ∀ a ∈ l, a < K) (hne : ∃ l ∈ labels, l ≠ [])
    (hocc : ∀ k : Fin K, (∃ i, (k : ℕ) ∈ labels.get i) ∧ ∃ i, (k : ℕ) ∉ labels.get i) :
    ∃ mask, predictedNeqGivenMultilabel labels P = .ok mask ∧
      ∀ i, mask i = true ↔ ∃ k : Fin K, ((k : ℕ) ∈ labels.get i ∧ P i k ≤ 1 / 2) ∨ ((k : ℕ) ∉ labels.get i ∧ 1 / 2 < P i k) := by
  have hvalid : validMultilabel (labels.map (fun l => l.map (fun a : ℕ => (a : ℤ)))) (fun i k => some (P i k)) = .ok () := by
    rw [C96_multilabel_partial]
    · refine ⟨by simp, ?_, hP⟩
      intro l hl a ha
      obtain ⟨l', hl', rfl⟩ := List.mem_map.mp hl
      obtain ⟨a', ha', rfl⟩ := List.mem_map.mp ha
      exact_mod_cast hK l' hl' a' ha'
    · intro h
      obtain ⟨l, hl, hl'⟩ := hne
      rw [List.flatten_eq_nil_iff] at h
      exact hl' (List.map_eq_nil_iff.mp (h _ (List.mem_map.mpr ⟨l, hl, rfl⟩)))
    · intro a ha
      rw [List.mem_flatten] at ha
      obtain ⟨l, hl, ha⟩ := ha
      obtain ⟨l', hl', rfl⟩ := List.mem_map.mp hl
      obtain ⟨a', ha', rfl⟩ := List.mem_map.mp ha
      exact Int.natCast_nonneg a'
  have hcols : neqColumns (fun i k => decide ((k : ℕ) ∈ labels.get i)) P = .ok ((List.finRange K).map (fun k i =>
      decide (argmax (stackComplement P k i) ≠ binaryLabels (fun i k => decide ((k : ℕ) ∈ labels.get i)) k i))) := by
    refine mapM_eq_map _ _ _ ?_
    intro k _
    unfold predictedNeqGiven
    rw [(checkInputs_iff _ _).mpr ⟨?_, inRange_complement P hP k⟩]
    · rfl
    · obtain ⟨⟨i, hi⟩, j, hj⟩ := hocc k
      refine ⟨i, j, ?_⟩
      unfold binaryLabels
      rw [if_pos (decide_eq_true hi), if_neg (by simpa using hj)]
      decide
  refine ⟨_, by unfold predictedNeqGivenMultilabel; rw [hvalid]; dsimp only [bind, Except.bind]; rw [hcols]; rfl, ?_⟩
  intro i
  rw [decide_eq_true_iff, ge_iff_le, Nat.one_le_iff_ne_zero, Nat.ne_zero_iff_zero_lt, List.countP_pos_iff]
  constructor
  · rintro ⟨c, hc, hci⟩
    obtain ⟨k, -, rfl⟩ := List.mem_map.mp hc
    refine ⟨k, ?_⟩
    rw [decide_eq_true_iff] at hci
    unfold binaryLabels stackComplement at hci
    by_cases hk : (k : ℕ) ∈ labels.get i
    · rw [if_pos (decide_eq_true hk)] at hci
      exact Or.inl ⟨hk, not_lt.mp (fun h => hci ((argmax_pair _).mpr h))⟩
    · rw [if_neg (by simpa using hk)] at hci
      refine Or.inr ⟨hk, (argmax_pair _).mp ?_⟩
      exact Fin.eq_one_of_ne_zero _ hci
  · rintro ⟨k, h⟩
    refine ⟨_, List.mem_map.mpr ⟨k, List.mem_finRange k, rfl⟩, ?_⟩
    rw [decide_eq_true_iff]
    unfold binaryLabels stackComplement
    rcases h with ⟨hk, h⟩ | ⟨hk, h⟩
    · rw [if_pos (decide_eq_true hk)]
      exact fun e => absurd ((argmax_pair _).mp e) (not_lt.mpr h)
    · rw [if_neg (by simpa using hk), (argmax_pair _).mpr h]
      decide

theorem mapM_ok_of_mem {α β : Type} (f : α → Except String β) :
    ∀ (l : List α) (r : List β), l.mapM f = .ok r → ∀ x ∈ l, ∃ y, f x = .ok y := by
  intro l
  induction l with
  | nil => intro r _ x hx; cases hx
  | cons a l ih =>
    intro r h x hx
    rw [List.mapM_cons] at h
    cases ha : f a with
    | error e => rw [ha] at h; cases h
    | ok y =>
      cases hl : l.mapM f with
      | error e => rw [ha, hl] at h; cases h
      | ok ys =>
        rcases List.mem_cons.mp hx with rfl | hx
        · exact ⟨y, ha⟩
        · exact ih ys hl x hx

/-- **C100 is violated.** As soon as one of the classes is given to no example, or to every example, the multi-label function
raises, for otherwise valid data. -/
theorem C100_not_multilabel (labels : List (List ℕ)) (P : Fin labels.length → Fin K → ℚ) (k : Fin K)
    (hk : (∀ i, (k : ℕ) ∉ labels.get i) ∨ ∀ i, (k : ℕ) ∈ labels.get i) :
    ∃ e, predictedNeqGivenMultilabel labels P = .error e := by
  unfold predictedNeqGivenMultilabel
  cases validMultilabel (labels.map (fun l => l.map (fun a : ℕ => (a : ℤ)))) (fun i k => some (P i k)) with
  | error e => exact ⟨e, rfl⟩
  | ok u =>
    dsimp only [bind, Except.bind]
    cases hc : neqColumns (fun i k => decide ((k : ℕ) ∈ labels.get i)) P with
    | error e => exact ⟨e, rfl⟩
    | ok cols =>
      exfalso
      unfold neqColumns at hc
      obtain ⟨c, hc'⟩ := mapM_ok_of_mem _ _ _ hc k (List.mem_finRange k)
      unfold predictedNeqGiven at hc'
      cases hv : checkInputs (binaryLabels (fun i k => decide ((k : ℕ) ∈ labels.get i)) k) (stackComplement P k) with
      | error e => rw [hv] at hc'; cases hc'
      | ok u =>
        obtain ⟨⟨i, j, hij⟩, -⟩ := (checkInputs_iff _ _).mp hv
        apply hij
        unfold binaryLabels
        rcases hk with hk | hk
        · rw [if_neg (by simpa using hk i), if_neg (by simpa using hk j)]
        · rw [if_pos (decide_eq_true (hk i)), if_pos (decide_eq_true (hk j))]

/-! ## The confusion matrix -/

theorem foldl_confusion (rs cs : List ℕ) : ∀ (l : List (ℕ × ℕ)) (r : ℕ → ℕ → ℕ) (a b : ℕ),
    l.foldl (confusionStep rs cs) r a b = r a b + l.countP (fun p => decide (a = rs.idxOf p.1 ∧ b = cs.idxOf p.2)) := by
  intro l
  induction l with
  | nil => intro r a b; rfl
  | cons p l ih =>
    intro r a b
    rw [List.foldl_cons, ih, List.countP_cons]
    unfold confusionStep
    by_cases h : a = rs.idxOf p.1 ∧ b = cs.idxOf p.2
    · rw [if_pos h, if_pos (decide_eq_true h)]; omega
    · rw [if_neg h, if_neg (by simpa using h)]; omega

theorem idxOf_eq_iff_getElem? {l : List ℕ} (hn : l.Nodup) {a t x : ℕ} (ht : l[a]? = some t) : a = l.idxOf x ↔ x = t := by
  obtain ⟨ha, rfl⟩ := List.getElem?_eq_some_iff.mp ht
  constructor
  · rintro h
    have hx : l.idxOf x < l.length := h ▸ ha
    have := List.getElem_idxOf hx
    simp only [h, this]
  · rintro rfl
    exact (hn.idxOf_getElem a ha).symm

/-- **C100.** The confusion matrix of two label vectors of the same length: the rows stand for the distinct classes of the first
vector, the columns for those of the second one, both in ascending order, and the entry is the number of examples. -/
theorem C100_confusion (true pred : List ℕ) (h : true.length = pred.length) :
    ∃ (c : Confusion) (rowClasses colClasses : List ℕ), Baselines.confusionMatrix true pred = .ok c ∧
      rowClasses.Pairwise (· < ·) ∧ (∀ a, a ∈ rowClasses ↔ a ∈ true) ∧ c.rows = rowClasses.length ∧
      colClasses.Pairwise (· < ·) ∧ (∀ a, a ∈ colClasses ↔ a ∈ pred) ∧ c.cols = colClasses.length ∧
      ∀ (a b t p : ℕ), rowClasses[a]? = some t → colClasses[b]? = some p →
        c.entry a b = (true.zip pred).count (t, p) := by
  have hs : ∀ l : List ℕ, (npUnique l).Pairwise (· < ·) := fun l =>
    List.Pairwise.imp₂ (fun _ _ h1 h2 => lt_of_le_of_ne h1 h2) (sorted_npUnique l) (nodup_npUnique l)
  refine ⟨_, npUnique true, npUnique pred, if_neg (by simpa using h), hs true, mem_npUnique true, rfl, hs pred,
    mem_npUnique pred, rfl, ?_⟩
  intro a b t p ht hp
  dsimp only
  rw [foldl_confusion, Nat.zero_add]
  unfold List.count
  refine List.countP_congr ?_
  intro q _
  rw [decide_eq_true_iff, idxOf_eq_iff_getElem? (nodup_npUnique true) ht, idxOf_eq_iff_getElem? (nodup_npUnique pred) hp,
    beq_iff_eq, Prod.ext_iff]

/-- The number of examples with label `a` and prediction `b`. -/
def argmaxCount [NeZero K] (labels : Fin n → Fin K) (P : Fin n → Fin K → ℚ) (a b : Fin K) : ℕ :=
  (Finset.univ.filter (fun i => labels i = a ∧ argmax (P i) = b)).card

theorem npUnique_ofFn_range (f : Fin n → Fin K) (h : ∀ k, ∃ i, f i = k) :
    npUnique (List.ofFn (fun i => (f i : ℕ))) = List.range K := by
  apply npUnique_eq_range
  intro a
  rw [List.mem_ofFn]
  constructor
  · rintro ⟨i, rfl⟩; exact (f i).isLt
  · intro ha
    obtain ⟨i, hi⟩ := h ⟨a, ha⟩
    exact ⟨i, by rw [hi]⟩

theorem zip_ofFn {α β : Type} (f : Fin n → α) (g : Fin n → β) :
    (List.ofFn f).zip (List.ofFn g) = (List.finRange n).map (fun i => (f i, g i)) := by
  rw [List.ofFn_eq_map, List.ofFn_eq_map, List.zip_map', ]

/-- **C100.** If every class occurs among the labels and among the predictions, the baseline is `find_label_issues` with the
(calibrated) number of examples of each label and prediction as confident joint.
Missing: data in which a class is not predicted or not given (`C100_not_argmax`). -/
theorem C100_argmax_partial (A : ArgSort ℚ) [NeZero K] (labels : Fin n → Fin K) (P : Fin n → Fin K → ℚ) (hK : 2 ≤ K)
    (hP : InRange P) (hl : ∀ k, ∃ i, labels i = k) (hp : ∀ k, ∃ i, argmax (P i) = k) (calibrate : Bool) (filterBy : FilterBy) :
    argmaxIssues A labels P calibrate filterBy = findLabelIssues A labels P
      { filterBy := filterBy
        confidentJoint := some (if calibrate then
          fun a b => (calibrateConfidentJoint A (fun a b => (argmaxCount labels P a b : ℚ)) labels a b : ℚ)
          else fun a b => (argmaxCount labels P a b : ℚ)) } := by
  have hcheck : checkInputs labels P = .ok () := by
    rw [checkInputs_iff]
    refine ⟨?_, hP⟩
    obtain ⟨i, hi⟩ := hl ⟨0, by omega⟩
    obtain ⟨j, hj⟩ := hl ⟨1, by omega⟩
    exact ⟨i, j, by rw [hi, hj]; simp⟩
  have hu1 := npUnique_ofFn_range (fun i => argmax (P i)) hp
  have hu2 := npUnique_ofFn_range labels hl
  have hent : ∀ a b : Fin K, ((List.ofFn (fun i => ((argmax (P i) : Fin K) : ℕ))).zip (List.ofFn (fun i => (labels i : ℕ)))).foldl
      (confusionStep (List.range K) (List.range K)) (fun _ _ => 0) b a = argmaxCount labels P a b := by
    intro a b
    rw [foldl_confusion, Nat.zero_add, zip_ofFn, List.countP_map, countP_finRange]
    unfold argmaxCount
    congr 1
    ext i
    simp only [Finset.mem_filter, Finset.mem_univ, true_and, Function.comp_apply, decide_eq_true_iff]
    rw [idxOf_eq_iff_getElem? List.nodup_range (List.getElem?_range b.isLt),
      idxOf_eq_iff_getElem? List.nodup_range (List.getElem?_range a.isLt), and_comm]
    simp [Fin.ext_iff]
  unfold argmaxIssues Baselines.confusionMatrix
  rw [hcheck, if_neg (by simp), hu1, hu2]
  dsimp only [bind, Except.bind, Confusion.transpose]
  rw [if_neg (by simp)]
  have hj : (fun a b : Fin K => (((((List.ofFn (fun i => ((argmax (P i) : Fin K) : ℕ))).zip (List.ofFn (fun i => (labels i : ℕ)))).foldl
      (confusionStep (List.range K) (List.range K)) (fun _ _ => 0) b a : ℕ)) : ℚ)) = fun a b => (argmaxCount labels P a b : ℚ) := by
    funext a b
    rw [hent]
  rw [hj]

theorem card_npUnique_lt (f : Fin n → Fin K) (k : Fin K) (h : ∀ i, f i ≠ k) :
    (npUnique (List.ofFn (fun i => (f i : ℕ)))).length < K := by
  have hsub : ∀ a ∈ npUnique (List.ofFn (fun i => (f i : ℕ))), a ∈ (List.range K).erase k := by
    intro a ha
    rw [mem_npUnique, List.mem_ofFn] at ha
    obtain ⟨i, rfl⟩ := ha
    rw [List.Nodup.mem_erase_iff List.nodup_range]
    exact ⟨fun he => h i (Fin.ext he), List.mem_range.mpr (f i).isLt⟩
  have := (List.subperm_of_subset (nodup_npUnique _) hsub).length_le
  rw [List.length_erase_of_mem (List.mem_range.mpr k.isLt), List.length_range] at this
  have := k.isLt
  omega

/-- **C100 is violated.** With one of the pruning filters (the default) the baseline raises if some class is not among the
labels, or if some class is never predicted and either two classes are predicted or some class has two examples. -/
theorem C100_not_argmax (A : ArgSort ℚ) [NeZero K] (labels : Fin n → Fin K) (P : Fin n → Fin K → ℚ) (calibrate : Bool)
    (filterBy : FilterBy) (hf : filterBy = .pruneByNoiseRate ∨ filterBy = .pruneByClass ∨ filterBy = .both) (k : Fin K)
    (h : (∀ i, labels i ≠ k) ∨ ((∀ i, argmax (P i) ≠ k) ∧
      ((∃ i j, argmax (P i) ≠ argmax (P j)) ∨ ∃ i j, i ≠ j ∧ labels i = labels j))) :
    ∃ e, argmaxIssues A labels P calibrate filterBy = .error e := by
  unfold argmaxIssues
  cases checkInputs labels P with
  | error e => exact ⟨e, rfl⟩
  | ok u =>
    unfold Baselines.confusionMatrix
    rw [if_neg (by simp)]
    dsimp only [bind, Except.bind, Confusion.transpose]
    have hf' : filterBy ∈ [FilterBy.pruneByNoiseRate, .pruneByClass, .both] := by
      simpa using hf
    rcases h with h | ⟨h, h'⟩
    · have := card_npUnique_lt labels k h
      rw [if_pos ⟨hf', by omega⟩]
      unfold pruneBadShape
      rw [if_pos this]
      exact ⟨_, rfl⟩
    · have := card_npUnique_lt (fun i => argmax (P i)) k h
      rw [if_pos ⟨hf', by omega⟩]
      unfold pruneBadShape
      by_cases h1 : (npUnique (List.ofFn (fun i => (labels i : ℕ)))).length < K
      · rw [if_pos h1]; exact ⟨_, rfl⟩
      · rw [if_neg h1]
        by_cases h2 : (npUnique (List.ofFn (fun i => ((argmax (P i) : Fin K) : ℕ)))).length ≠ 1
        · rw [if_pos h2]; exact ⟨_, rfl⟩
        · rw [if_neg h2]
          push Not at h2
          obtain ⟨x, hx⟩ := List.length_eq_one_iff.mp h2
          have hall : ∀ i, ((argmax (P i) : Fin K) : ℕ) = x := by
            intro i
            have : ((argmax (P i) : Fin K) : ℕ) ∈ npUnique (List.ofFn (fun i => ((argmax (P i) : Fin K) : ℕ))) := by
              rw [mem_npUnique]; exact List.mem_ofFn.mpr ⟨i, rfl⟩
            rw [hx] at this
            simpa using this
          rcases h' with ⟨i, j, hij⟩ | ⟨i, j, hij, hl⟩
          · exact absurd (Fin.ext ((hall i).trans (hall j).symm)) hij
          · rw [if_pos]
            · exact ⟨_, rfl⟩
            · refine ⟨labels i, ?_⟩
              rw [labelCounts_eq]
              unfold Spec.numGiven
              exact Finset.one_lt_card.mpr ⟨i, by simp, j, by simp [hl], hij⟩

/-- **C100, one example of every class.** If every class has exactly one example and all examples are predicted to be of
the same class, the pruning filters do not raise and flag nothing, although all labels but one differ from the prediction. -/
theorem C100_one_each (A : ArgSort ℚ) [NeZero K] (labels : Fin n → Fin K) (P : Fin n → Fin K → ℚ) (calibrate : Bool)
    (filterBy : FilterBy) (hf : filterBy = .pruneByNoiseRate ∨ filterBy = .pruneByClass ∨ filterBy = .both) (hK : 2 ≤ K)
    (hok : checkInputs labels P = .ok ()) (hb : Function.Bijective labels) (c : Fin K) (hp : ∀ i, argmax (P i) = c) :
    argmaxIssues A labels P calibrate filterBy = .ok (fun _ => false) := by
  unfold argmaxIssues
  rw [hok]
  unfold Baselines.confusionMatrix
  rw [if_neg (by simp)]
  dsimp only [bind, Except.bind, Confusion.transpose]
  have hf' : filterBy ∈ [FilterBy.pruneByNoiseRate, .pruneByClass, .both] := by simpa using hf
  obtain ⟨i0, -⟩ := hb.2 c
  have hu1 : npUnique (List.ofFn (fun i => ((argmax (P i) : Fin K) : ℕ))) = [(c : ℕ)] := by
    have hmem : ∀ x, x ∈ npUnique (List.ofFn (fun i => ((argmax (P i) : Fin K) : ℕ))) ↔ x ∈ [(c : ℕ)] := by
      intro x
      rw [mem_npUnique, List.mem_ofFn]
      simp only [hp, List.mem_singleton]
      exact ⟨fun ⟨_, h⟩ => h.symm, fun h => ⟨i0, h.symm⟩⟩
    exact List.perm_singleton.mp ((List.perm_ext_iff_of_nodup (nodup_npUnique _) (List.nodup_singleton _)).mpr hmem)
  have hu2 : ¬ (npUnique (List.ofFn (fun i => (labels i : ℕ)))).length < K := by
    have hsub : ∀ a ∈ List.range K, a ∈ npUnique (List.ofFn (fun i => (labels i : ℕ))) := by
      intro a ha
      rw [mem_npUnique, List.mem_ofFn]
      obtain ⟨i, hi⟩ := hb.2 ⟨a, List.mem_range.mp ha⟩
      exact ⟨i, by rw [hi]⟩
    have := (List.subperm_of_subset List.nodup_range hsub).length_le
    rw [List.length_range] at this
    omega
  rw [hu1]
  rw [if_pos ⟨hf', by simp; omega⟩]
  unfold pruneBadShape
  rw [if_neg hu2, if_neg (by simp), if_neg]
  rintro ⟨k, hk⟩
  rw [labelCounts_eq] at hk
  unfold Spec.numGiven at hk
  obtain ⟨i, hi, j, hj, hij⟩ := Finset.one_lt_card.mp hk
  simp only [Finset.mem_filter, Finset.mem_univ, true_and] at hi hj
  exact hij (hb.1 (hi.trans hj.symm))

example (A : ArgSort ℚ) : argmaxIssues A ![(0 : Fin 3), 1, 2] (fun _ => ![1, 0, 0]) true .both = .ok (fun _ => false) :=
  C100_one_each A _ _ true _ (Or.inr (Or.inr rfl)) (by decide) (by decide +kernel) (by decide) 0 (by decide +kernel)

example : (predictedNeqGiven ![(0 : Fin 2), 1, 1] (fun i k => if i = 2 then 1 / 2 else if (i : ℕ) = k then 9 / 10 else 1 / 10)).toOption.map
    List.ofFn = some [false, false, true] := by decide +kernel

example : (predictedNeqGivenMultilabel (K := 2) [[0, 1], [1], [0]]
    (fun i k => if i = 0 then 4 / 5 else if (i : ℕ) = 1 then 3 / 5 else if k = 0 then 1 else 0)).toOption.map List.ofFn =
    some [false, true, false] := by decide +kernel

/-- Valid multi-label data in which every example has class 0. -/
example : ∃ e, predictedNeqGivenMultilabel (K := 2) [[0], [0, 1]] (fun _ _ => 1 / 2) = .error e :=
  C100_not_multilabel _ _ 0 (Or.inr (by decide))

example : (Baselines.confusionMatrix [5, 7, 7] [2, 9, 2]).toOption.map (fun c => (c.rows, c.cols, c.entry 1 0, c.entry 0 1)) =
    some (2, 2, 1, 0) := by decide +kernel

/-- Three classes with two examples each; class 2 is never predicted. -/
example (A : ArgSort ℚ) : ∃ e, argmaxIssues A ![(0 : Fin 3), 0, 1, 1, 2, 2] (fun i => if (i : ℕ) < 2 then ![1, 0, 0] else ![0, 1, 0])
    true .pruneByNoiseRate = .error e :=
  C100_not_argmax A _ _ true _ (Or.inl rfl) 2 (Or.inr ⟨by decide +kernel, Or.inl ⟨0, 2, by decide +kernel⟩⟩)

example (A : ArgSort ℚ) := C100_argmax_partial A ![(0 : Fin 2), 1, 1] (fun i => if i = 0 then ![1, 0] else ![0, 1]) (by decide)
  (by intro i k; fin_cases i <;> fin_cases k <;> norm_num) (by decide +kernel) (by decide +kernel) true .both

end Cleanlab.Props
