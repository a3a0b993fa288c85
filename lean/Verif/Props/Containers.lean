import Verif.Model.Containers
import Verif.Lemmas.Except
import Mathlib.Data.List.FinRange

/-!
# C139: every data set that is accepted is used correctly, whatever its type
-/

namespace Cleanlab.Props

open Cleanlab.Containers Cleanlab.CleanLearning

variable {n K : ℕ}

theorem lookup_iff (rows : ℕ) (idx l : List ℕ) : lookup rows idx = .ok l ↔ (∀ i ∈ idx, i < rows) ∧ l = idx := by
  unfold lookup
  by_cases h : ∀ i ∈ idx, i < rows
  · rw [if_pos h]
    exact ⟨fun e => ⟨h, (Except.ok.inj e).symm⟩, fun e => by rw [e.2]⟩
  · rw [if_neg h]
    exact ⟨fun e => by (cases e), fun e => absurd e.1 h⟩

/-- Which data sets are accepted together with labels: with predicted probabilities all, otherwise those of the right length
that can be indexed by lists. -/
theorem C139_accepted (d : Data) (rows : ℕ) (hasProbs : Bool) (hn : 0 < n) :
    checkData d rows n hasProbs = .ok () ↔ hasProbs = true ∨ (rows = n ∧ d ≠ .missing ∧ d ≠ .list) := by
  unfold checkData indexingWorks
  cases hasProbs with
  | true => simp
  | false =>
    by_cases hr : rows = n
    · subst hr
      have hl : lookup rows [0, rows - 1] = .ok [0, rows - 1] := by
        rw [lookup_iff]
        exact ⟨fun i hi => by
          simp only [List.mem_cons, List.not_mem_nil, or_false] at hi
          rcases hi with rfl | rfl <;> omega, rfl⟩
      cases d <;> simp [Data.get, hl, Except.toBool]
    · cases d <;> simp [hr]

/-- **C139.** Every data set that cross-validation accepts is split as requested: the model of a fold is trained on the rows
at the training positions, with their labels, and predicts the rows held out. -/
theorem C139_split (d : Data) (rows : ℕ) (hn : 0 < n) (h : checkData d rows n false = .ok ()) {α : Type} (labels : Fin n → α)
    (train holdout : List (Fin n)) :
    trainValSplit d rows labels train holdout =
      .ok (train.map (·.val), holdout.map (·.val), train.map labels, holdout.map labels) := by
  rw [C139_accepted d rows false hn] at h
  obtain ⟨rfl, h1, h2⟩ := h.resolve_left (by simp)
  have hl : ∀ l : List (Fin rows), lookup rows (l.map (·.val)) = .ok (l.map (·.val)) := by
    intro l
    rw [lookup_iff]
    refine ⟨fun i hi => ?_, rfl⟩
    obtain ⟨j, -, rfl⟩ := List.mem_map.mp hi
    exact j.isLt
  have hs : ∀ l : List (Fin rows), splitRows d rows (l.map (·.val)) = .ok (l.map (·.val)) := by
    intro l
    unfold splitRows
    cases d with
    | missing => exact absurd rfl h1
    | list => exact absurd rfl h2
    | array => simp only [Data.get, hl]
    | custom m => simp only [Data.get, hl]
    | frame => exact hl l
    | torch => exact hl l
  unfold trainValSplit
  rw [hs, hs]
  rfl

theorem range_filter_ofFn (mask : Fin n → Bool) :
    (List.range (List.ofFn mask).length).filter (fun i => (List.ofFn mask)[i]? == some true) =
      ((List.finRange n).filter mask).map (·.val) := by
  rw [List.length_ofFn, ← List.map_coe_finRange_eq_range, List.filter_map]
  congr 1
  apply List.filter_congr
  intro i _
  simp [List.getElem?_ofFn]

/-- **C139 (partial).** Of an accepted data set the final model is trained on exactly the rows that are not flagged, in
order, with their labels and the weights of their classes, for arrays, sparse matrices, data frames and torch data sets, and
for objects that can also be indexed by masks; labels in an array or a series. Missing: objects that support list-based
indexing only (`C139_not_integers`, `C139_not_refused`) and other labels (`C139_not_frame_labels`, `C56_not_list_labels`). -/
theorem C139_final_partial (d : Data) (rows : ℕ) (hn : 0 < n) (h : checkData d rows n false = .ok ())
    (hd : d ≠ .custom .integers ∧ d ≠ .custom .refuses) (kind : Labels) (hk : kind = .array ∨ kind = .series)
    (noise : Option (Mat K)) (labels : Fin n → Fin K) (flagged : Fin n → Bool) :
    let kept := (List.finRange n).filter (fun i => !flagged i)
    finalTraining d rows kind noise labels flagged = .ok (kept.map (·.val), kept.map labels,
      noise.map (fun m => kept.map (fun i => 1 / max (m (labels i) (labels i)) (1 / 1000)))) := by
  rw [C139_accepted d rows false hn] at h
  obtain ⟨rfl, h1, h2⟩ := h.resolve_left (by simp)
  have hx : subsetData d rows (List.ofFn (fun i => !flagged i)) =
      .ok (((List.finRange rows).filter (fun i => !flagged i)).map (·.val)) := by
    have hlen : (List.ofFn (fun i => !flagged i)).length = rows := List.length_ofFn
    unfold subsetData
    cases d with
    | missing => exact absurd rfl h1
    | list => exact absurd rfl h2
    | array => simp only [Data.getMask, if_pos hlen, range_filter_ofFn]
    | frame => simp only [Data.getMask, if_pos hlen, range_filter_ofFn]
    | torch =>
      simp only [range_filter_ofFn]
      rw [lookup_iff]
      refine ⟨fun i hi => ?_, rfl⟩
      obtain ⟨j, -, rfl⟩ := List.mem_map.mp hi
      exact j.isLt
    | custom m =>
      cases m with
      | rows => simp only [Data.getMask, if_pos hlen, range_filter_ofFn]
      | integers => exact absurd rfl hd.1
      | refuses => exact absurd rfl hd.2
  unfold finalTraining
  rw [hx]
  cases noise with
  | none => rfl
  | some m =>
    have hw : autoWeights kind m (((List.finRange rows).filter (fun i => !flagged i)).map labels) =
        .ok (((List.finRange rows).filter (fun i => !flagged i)).map
          (fun i => 1 / max (m (labels i) (labels i)) (1 / 1000))) := by
      unfold autoWeights
      rcases hk with rfl | rfl <;> simp only [List.map_map] <;> rfl
    simp only [bind, Except.bind, pure, Except.pure, hw]
    rfl

/-- **C139 fails for an object that supports `X[index_list]` and takes `True` and `False` for 1 and 0.** It is accepted and
cross-validated correctly; if no label is flagged, the final model is trained on `n` copies of the second row, with the
labels of all rows. -/
theorem C139_not_integers (hn : 2 ≤ n) (noise : Mat K) (labels : Fin n → Fin K) :
    checkData (.custom .integers) n n false = .ok () ∧
    finalTraining (.custom .integers) n .array (some noise) labels (fun _ => false) =
      .ok (List.replicate n 1, (List.finRange n).map labels,
        some ((List.finRange n).map (fun i => 1 / max (noise (labels i) (labels i)) (1 / 1000)))) := by
  refine ⟨(C139_accepted _ _ _ (by omega)).mpr (Or.inr ⟨rfl, by simp, by simp⟩), ?_⟩
  have hm : (List.ofFn (fun _ : Fin n => !false)).map (fun b => if b = true then 1 else 0) = List.replicate n 1 := by
    simp [List.ofFn_const]
  have hx : subsetData (.custom .integers) n (List.ofFn (fun _ : Fin n => !false)) = .ok (List.replicate n 1) := by
    have hl : lookup n (List.replicate n 1) = .ok (List.replicate n 1) :=
      (lookup_iff _ _ _).mpr ⟨fun i hi => by rw [List.eq_of_mem_replicate hi]; omega, rfl⟩
    unfold subsetData
    dsimp only [Data.getMask]
    rw [hm, hl]
  have hf : (List.finRange n).filter (fun _ => !false) = List.finRange n := by simp
  unfold finalTraining
  rw [hx, hf]
  simp only [autoWeights, bind, Except.bind, pure, Except.pure, List.map_map]
  rfl

/-- If some labels are flagged, the final model is given as many rows as there are examples but fewer labels. -/
theorem C139_not_integers_lengths (hn : 2 ≤ n) (labels : Fin n → Fin K) (flagged : Fin n → Bool)
    (hf : ∃ i, flagged i = true) (rows : List ℕ) (ys : List (Fin K)) (w : Option (List ℚ))
    (h : finalTraining (.custom .integers) n .array none labels flagged = .ok (rows, ys, w)) :
    rows.length = n ∧ ys.length < n ∧ ∀ r ∈ rows, r < 2 := by
  have hx : subsetData (.custom .integers) n (List.ofFn (fun i => !flagged i)) =
      .ok ((List.ofFn (fun i => !flagged i)).map (fun b => if b = true then 1 else 0)) := by
    unfold subsetData
    dsimp only [Data.getMask]
    have hl := (lookup_iff n ((List.ofFn (fun i => !flagged i)).map (fun b => if b = true then 1 else 0)) _).mpr
      ⟨fun i hi => by
        obtain ⟨b, -, rfl⟩ := List.mem_map.mp hi
        cases b <;> simp <;> omega, rfl⟩
    rw [hl]
  unfold finalTraining at h
  rw [hx] at h
  simp only [bind, Except.bind, pure, Except.pure] at h
  have h := Except.ok.inj h
  obtain ⟨h1, h2⟩ := Prod.mk.inj h
  obtain ⟨h2, -⟩ := Prod.mk.inj h2
  refine ⟨by rw [← h1]; simp, ?_, ?_⟩
  · rw [← h2, List.length_map]
    obtain ⟨i, hi⟩ := hf
    have := List.length_filter_lt_length_iff_exists (l := List.finRange n) (p := fun i => !flagged i) |>.mpr
      ⟨i, List.mem_finRange i, by simp [hi]⟩
    simpa using this
  · intro r hr
    rw [← h1] at hr
    obtain ⟨b, -, rfl⟩ := List.mem_map.mp hr
    cases b <;> simp

/-- **C139 fails for an object that supports `X[index_list]` but not masks.** It is accepted and cross-validated correctly,
and then `fit` raises. -/
theorem C139_not_refused (hn : 0 < n) (kind : Labels) (noise : Option (Mat K)) (labels : Fin n → Fin K)
    (flagged : Fin n → Bool) : checkData (.custom .refuses) n n false = .ok () ∧
      ∃ e, finalTraining (.custom .refuses) n kind noise labels flagged = .error e :=
  ⟨(C139_accepted _ _ _ hn).mpr (Or.inr ⟨rfl, by simp, by simp⟩), _, rfl⟩

/-- **C139 fails with given predicted probabilities**: then every data set is accepted, and only the final training fails
for a list of rows, no data or data of another length. -/
theorem C139_not_checked (d : Data) (rows : ℕ) (kind : Labels) (noise : Option (Mat K)) (labels : Fin n → Fin K)
    (flagged : Fin n → Bool) (hd : d = .list ∨ d = .missing ∨ ((d = .array ∨ d = .frame) ∧ rows ≠ n)) :
    checkData d rows n true = .ok () ∧ ∃ e, finalTraining d rows kind noise labels flagged = .error e := by
  refine ⟨rfl, ?_⟩
  have hlen : (List.ofFn (fun i => !flagged i)).length = n := List.length_ofFn
  rcases hd with rfl | rfl | ⟨rfl | rfl, hr⟩
  · exact ⟨_, rfl⟩
  · exact ⟨_, rfl⟩
  all_goals
    unfold finalTraining subsetData
    simp only [Data.getMask, hlen, if_neg (Ne.symm hr)]
    exact ⟨_, rfl⟩

/-- **C139 fails for labels in a data frame with one column**: they are accepted, but `fit` raises when it weights the
examples. -/
theorem C139_not_frame_labels (d : Data) (rows : ℕ) (noise : Mat K) (labels : Fin n → Fin K) (flagged : Fin n → Bool) :
    ∃ e, finalTraining d rows .frame (some noise) labels flagged = .error e := by
  unfold finalTraining
  cases subsetData d rows (List.ofFn (fun i => !flagged i)) with
  | error e => exact ⟨e, rfl⟩
  | ok x => exact ⟨_, rfl⟩

/-- Three rows of a data frame of which the second is flagged. -/
example : finalTraining (K := 2) .frame 3 .series (some ![![1 / 2, 0], ![1 / 2, 1]]) ![0, 1, 1] ![false, true, false] =
    .ok ([0, 2], [0, 1], some [2, 1]) := by
  have h := C139_final_partial (n := 3) .frame 3 (by decide) rfl (by simp) .series (Or.inr rfl)
    (some ![![1 / 2, 0], ![1 / 2, 1]]) ![(0 : Fin 2), 1, 1] ![false, true, false]
  rw [h]
  refine congrArg _ ?_
  decide +kernel

end Cleanlab.Props
