import Verif.Model.MnistCnn
import Mathlib.Data.List.Perm.Basic
import Mathlib.Data.List.Nodup
import Mathlib.Data.List.Perm.Subperm

/-!
# C114: the MNIST network as a scikit-learn classifier
-/

namespace Cleanlab.Props

open Cleanlab.MnistCnn

variable {Img Net Row : Type}

theorem batches_spec {β : Type} (b : ℕ) (hb : 0 < b) : ∀ (f : ℕ) (l : List β), l.length ≤ f →
    (batches b f l).flatten = l ∧ ∀ x ∈ batches b f l, x ≠ [] ∧ x.length ≤ b
  | 0, l, h => by
    have : l = [] := List.length_eq_zero_iff.mp (by omega)
    subst this
    exact ⟨rfl, fun x hx => by cases hx⟩
  | f + 1, [], _ => ⟨rfl, fun x hx => by cases hx⟩
  | f + 1, x :: l, h => by
    obtain ⟨h1, h2⟩ := batches_spec b hb f ((x :: l).drop b) (by
      rw [List.length_drop, List.length_cons] at *
      omega)
    refine ⟨?_, ?_⟩
    · show (x :: l).take b ++ (batches b f ((x :: l).drop b)).flatten = _
      rw [h1, List.take_append_drop]
    · intro y hy
      rcases List.mem_cons.mp hy with rfl | hy
      · refine ⟨?_, ?_⟩
        · intro hc
          have := congrArg List.length hc
          rw [List.length_take, List.length_cons, List.length_nil] at this
          omega
        · rw [List.length_take]; omega
      · exact h2 y hy

theorem lookup_zip_reverse {idx : List ℕ} {l : List ℤ} (hn : idx.Nodup) (hl : idx.length = l.length) {p : ℕ × ℤ} (hp : p ∈ idx.zip l) :
    ((idx.zip l).reverse).lookup p.1 = some p.2 := by
  have key : ∀ (m : List (ℕ × ℤ)), (m.map Prod.fst).Nodup → p ∈ m → m.lookup p.1 = some p.2 := by
    intro m
    induction m with
    | nil => intro _ h; cases h
    | cons q m ih =>
      intro hm h
      rw [List.map_cons, List.nodup_cons] at hm
      obtain ⟨a, b⟩ := q
      rw [List.lookup_cons]
      rcases List.mem_cons.mp h with rfl | h'
      · simp
      · have : (p.1 == a) = false := by
          rw [beq_eq_false_iff_ne]
          intro hc
          exact hm.1 (List.mem_map.mpr ⟨p, h', hc⟩)
        rw [this]
        exact ih hm.2 h'
  apply key
  · rw [List.map_reverse, List.nodup_reverse]
    rw [List.map_fst_zip (by omega)]
    exact hn
  · exact List.mem_reverse.mpr hp

/-- The label of every index, if no index is repeated. -/
theorem map_sparseLabel {idx : List ℕ} {l : List ℤ} (hn : idx.Nodup) (hl : idx.length = l.length) :
    idx.map (fun i => (i, sparseLabel idx l i)) = idx.zip l := by
  have h1 : (idx.zip l).map (fun p => (p.1, sparseLabel idx l p.1)) = idx.zip l := by
    conv_rhs => rw [← List.map_id (idx.zip l)]
    apply List.map_congr_left
    intro p hp
    unfold sparseLabel
    rw [lookup_zip_reverse hn hl hp]
    rfl
  rw [← h1]
  conv_lhs => rw [← List.map_fst_zip (l₁ := idx) (l₂ := l) (by omega)]
  rw [List.map_map]
  simp only [List.map_fst_zip (l₁ := idx) (l₂ := l) (by omega)]
  rfl

/-- The pairs of images and labels of an epoch. -/
def pairsOf (s : List (Sample Img)) : List (Img × ℤ) := s.map (fun x => (x.image, x.label))

theorem epochData_pairs (E : Env Img Net Row) (hE : ∀ e l, (E.shuffle e l).Perm l) (d : Source) (ld : Loader)
    (idx : List ℕ) (l : List ℤ) (w : Option (List ℚ)) (hn : idx.Nodup) (hl : idx.length = l.length) (e : ℕ) :
    (pairsOf (epochData E d ld idx (some l) w e)).Perm ((idx.zip l).map (fun p => (E.image d ld p.1, p.2))) := by
  unfold pairsOf epochData
  rw [List.map_map]
  refine ((hE e idx).map _).trans ?_
  conv_rhs => rw [← map_sparseLabel hn hl]
  rw [List.map_map]
  exact List.Perm.refl _

/-- Epochs as one fold over batches. -/
theorem epochs_fold (E : Env Img Net Row) (b : ℕ) (hb : 0 < b) : ∀ (data : List (List (Sample Img))) (net : Net),
    ∃ bs : List (List (Sample Img)), data.foldl (runEpoch E b) net = bs.foldl E.step net ∧ bs.flatten = data.flatten ∧
      ∀ x ∈ bs, x ≠ [] ∧ x.length ≤ b
  | [], net => ⟨[], rfl, rfl, fun x hx => by cases hx⟩
  | d :: data, net => by
    obtain ⟨bs, h1, h2, h3⟩ := epochs_fold E b hb data (runEpoch E b net d)
    obtain ⟨g1, g2⟩ := batches_spec b hb d.length d le_rfl
    refine ⟨batches b d.length d ++ bs, ?_, ?_, ?_⟩
    · rw [List.foldl_cons, h1, List.foldl_append]
      rfl
    · rw [List.flatten_append, g1, h2, List.flatten_cons]
    · intro x hx
      rcases List.mem_append.mp hx with hx | hx
      · exact g2 x hx
      · exact h3 x hx

/-- What a successful `fit` did. -/
theorem cnnFit_ok {E : Env Img Net Row} {c c' : Cnn Net} {idx : List ℕ} {labels : Option (List ℤ)}
    {w : Option (List ℚ)} {ld : Loader} (h : fit E c idx labels w ld = .ok c') :
    c'.model = List.foldl (runEpoch E c.batchSize) c.model
      (List.map (epochData E c.dataset (c.loader.getD ld) idx labels w) (List.range c.epochs)) ∧ (∀ l, labels = some l → idx.length = l.length) ∧
    ∀ i ∈ idx, i < size c.dataset (c.loader.getD ld) := by
  unfold fit at h
  dsimp only at h
  split at h
  · cases h
  · rename_i hl
    split at h
    · cases h
    · split at h
      · cases h
      · rename_i hi
        split at h
        · cases h
        · refine ⟨by rw [← Except.ok.inj h], ?_, ?_⟩
          · rintro l rfl
            simpa using hl
          · intro i hi'
            by_contra hc
            exact hi ⟨i, hi', by omega⟩

/-- **C114 (partial).** If no index is repeated, `fit` updates the network by batches of at most `batch_size` examples;
together the batches contain every given index once per epoch, as its image with its given label. Only the order within an
epoch is random. -/
theorem C114_trains_on_given_partial (E : Env Img Net Row) (hE : ∀ e l, (E.shuffle e l).Perm l) (c c' : Cnn Net)
    (hb : 0 < c.batchSize) (idx : List ℕ) (l : List ℤ) (w : Option (List ℚ)) (ld : Loader) (hn : idx.Nodup)
    (h : fit E c idx (some l) w ld = .ok c') :
    ∃ bs : List (List (Sample Img)), c'.model = bs.foldl E.step c.model ∧ (∀ x ∈ bs, x ≠ [] ∧ x.length ≤ c.batchSize) ∧
      (pairsOf bs.flatten).Perm ((List.replicate c.epochs
        ((idx.zip l).map (fun p => (E.image c.dataset (c.loader.getD ld) p.1, p.2)))).flatten) := by
  obtain ⟨hm, hl, -⟩ := cnnFit_ok h
  obtain ⟨bs, h1, h2, h3⟩ := epochs_fold E c.batchSize hb
    ((List.range c.epochs).map (epochData E c.dataset (c.loader.getD ld) idx (some l) w)) c.model
  refine ⟨bs, hm.trans h1, h3, ?_⟩
  rw [h2]
  have key : ∀ m : ℕ, (pairsOf ((List.range m).map
      (epochData E c.dataset (c.loader.getD ld) idx (some l) w)).flatten).Perm ((List.replicate m
        ((idx.zip l).map (fun p => (E.image c.dataset (c.loader.getD ld) p.1, p.2)))).flatten) := by
    intro m
    induction m with
    | zero => exact List.Perm.refl _
    | succ m ih =>
      rw [List.range_succ, List.map_append, List.flatten_append, List.replicate_succ', List.flatten_append]
      unfold pairsOf at ih ⊢
      rw [List.map_append]
      refine ih.append ?_
      simp only [List.map_cons, List.map_nil, List.flatten_cons, List.flatten_nil, List.append_nil]
      exact epochData_pairs E hE _ _ idx l w hn (hl l rfl) m
  exact key c.epochs

/-- **C114.** Without weights, training succeeds exactly if there is one label for each index, all indices are in the data
set, and labels are digits; without labels, if all indices are in the data set. -/
theorem C114_fit_iff (E : Env Img Net Row) (c : Cnn Net) (idx : List ℕ) (labels : Option (List ℤ)) (ld : Loader) :
    (∃ c', fit E c idx labels none ld = .ok c') ↔
      (∀ i ∈ idx, i < size c.dataset (c.loader.getD ld)) ∧
      ∀ l, labels = some l → l.length = idx.length ∧ ∀ y ∈ l, 0 ≤ y ∧ y < 10 := by
  unfold fit
  dsimp only
  cases labels with
  | none =>
    simp only [Option.any_none, Bool.false_eq_true, if_false, reduceCtorEq, false_implies, implies_true, and_true]
    split_ifs with h
    · simp only [exists_false, false_iff]
      obtain ⟨i, hi, hs⟩ := h
      exact fun hc => absurd (hc i hi) (by omega)
    · simp only [Except.ok.injEq, exists_eq', true_iff]
      exact fun i hi => by by_contra hc; exact h ⟨i, hi, by omega⟩
  | some l =>
    simp only [Option.any_some, decide_eq_true_eq, Option.some.injEq, forall_eq']
    split_ifs with h1 h2 h3
    · simp only [exists_false, false_iff]
      exact fun hc => h1 hc.2.1.symm
    · simp only [exists_false, false_iff]
      obtain ⟨i, hi, hs⟩ := h2
      exact fun hc => absurd (hc.1 i hi) (by omega)
    · simp only [exists_false, false_iff]
      obtain ⟨y, hy, hs⟩ := h3
      exact fun hc => by have := hc.2.2 y hy; omega
    · simp only [Except.ok.injEq, exists_eq', true_iff]
      refine ⟨fun i hi => ?_, (not_not.mp h1).symm, fun y hy => ?_⟩
      · by_contra hc
        exact h2 ⟨i, hi, by omega⟩
      · by_contra hc
        exact h3 ⟨y, hy, by omega⟩

/-- **C114.** Without labels every epoch trains on every given index once, with the label of the data set. -/
theorem C114_own_labels (E : Env Img Net Row) (hE : ∀ e l, (E.shuffle e l).Perm l) (d : Source) (ld : Loader) (idx : List ℕ)
    (w : Option (List ℚ)) (e : ℕ) :
    (epochData E d ld idx none w e).Perm (idx.map (fun i => ⟨E.image d ld i, E.target d ld i, none⟩)) := by
  unfold epochData
  exact (hE e idx).map _

theorem lookup_zip_eq {labels : List ℤ} {w : List ℚ} (hw : ∀ p ∈ labels.zip w, ∀ q ∈ labels.zip w, p.1 = q.1 → p.2 = q.2)
    {p : ℤ × ℚ} (hp : p ∈ labels.zip w) : (labels.zip w).lookup p.1 = some p.2 := by
  cases h : (labels.zip w).lookup p.1 with
  | none =>
    rw [List.lookup_eq_none_iff] at h
    have := h p hp
    simp at this
  | some x =>
    rw [List.lookup_eq_some_iff] at h
    obtain ⟨l1, l2, h, -⟩ := h
    have : (p.1, x) ∈ labels.zip w := by rw [h]; simp
    rw [hw _ hp _ this rfl]

/-- **C114 (partial).** If the examples of each class have equal sample weights (and no index is repeated), every example
is trained on with its weight. -/
theorem C114_weights_partial (E : Env Img Net Row) (hE : ∀ e l, (E.shuffle e l).Perm l) (d : Source) (ld : Loader)
    (idx : List ℕ) (l : List ℤ) (w : List ℚ) (hn : idx.Nodup) (hl : idx.length = l.length) (hlw : l.length = w.length)
    (hw : ∀ p ∈ l.zip w, ∀ q ∈ l.zip w, p.1 = q.1 → p.2 = q.2) (e : ℕ) :
    (epochData E d ld idx (some l) (some w) e).Perm
      ((idx.zip (l.zip w)).map (fun p => ⟨E.image d ld p.1, p.2.1, some p.2.2⟩)) := by
  unfold epochData
  refine ((hE e idx).map _).trans ?_
  have h1 : idx = (idx.zip (l.zip w)).map Prod.fst :=
    (List.map_fst_zip (by rw [List.length_zip]; omega)).symm
  have h2 : ∀ f : ℕ → Sample Img, idx.map f = (idx.zip (l.zip w)).map (fun p => f p.1) := by
    intro f
    conv_lhs => rw [h1]
    rw [List.map_map]
    rfl
  rw [h2]
  apply List.Perm.of_eq
  apply List.map_congr_left
  intro p hp
  have hp1 : (p.1, p.2.1) ∈ idx.zip l := by
    obtain ⟨i, hi, hi'⟩ := List.mem_iff_getElem.mp hp
    rw [List.length_zip, List.length_zip] at hi
    rw [List.getElem_zip, List.getElem_zip] at hi'
    rw [← hi']
    exact List.mem_iff_getElem.mpr ⟨i, by rw [List.length_zip]; omega, List.getElem_zip⟩
  have hp2 : p.2 ∈ l.zip w := List.of_mem_zip hp |>.2
  have e1 : sparseLabel idx l p.1 = p.2.1 := by
    unfold sparseLabel
    rw [lookup_zip_reverse hn hl hp1]
    rfl
  simp only [e1, classWeight, lookup_zip_eq hw hp2]

/-- **C114 fails.** The weight of an example is the weight of the first example of its class. -/
theorem C114_not_weights (E : Env Img Net Row) (hE : E.shuffle 0 = id) :
    ((epochData E .digits .train [0, 1, 2, 3, 4, 5, 6, 7, 8, 9, 10] (some [0, 1, 2, 3, 4, 5, 6, 7, 8, 9, 0])
      (some [1, 1, 1, 1, 1, 1, 1, 1, 1, 1, 5]) 0).map (fun s => (s.label, s.weight)))[10]? = some (0, some 1) := by
  unfold epochData
  rw [hE, List.map_map]
  simp only [id]
  rfl

/-- **C114 fails.** With sample weights, training always fails if one of the ten classes is missing from the labels. -/
theorem C114_not_missing_class (E : Env Img Net Row) (c : Cnn Net) (idx : List ℕ) (l : List ℤ) (w : List ℚ) (ld : Loader)
    (h : l.dedup.length < 10) : ∃ e, fit E c idx (some l) (some w) ld = .error e := by
  unfold fit
  dsimp only
  split_ifs <;> first | exact ⟨_, rfl⟩ | skip
  all_goals (rename_i h1; first | exact ⟨_, rfl⟩ | omega)

/-- **C114 fails.** If an index is repeated, all its occurrences are trained on with the label of the last one. -/
theorem C114_not_repeated (E : Env Img Net Row) (hE : E.shuffle 0 = id) :
    (epochData E .digits .train [3, 3] (some [1, 2]) none 0).map (·.label) = [2, 2] := by
  unfold epochData
  rw [hE, List.map_map]
  rfl

/-- **C114 (partial).** With fewer or more indices than the data set has images, and unless the indices are exactly
`0 .. test_size - 1`, row `r` of the result is the prediction for training image `idx[r]`. -/
theorem C114_predicts_given_partial (E : Env Img Net Row) (c : Cnn Net) (hc : c.loader = none) (idx : List ℕ)
    (hne : idx ≠ []) (hr : ∀ i ∈ idx, i < size c.dataset .train) (hl : idx.length ≠ size c.dataset .train)
    (ht : idx ≠ List.range (size c.dataset .test)) :
    predictProba E c (some idx) none = .ok (idx.map (fun i => E.output c.model (E.image c.dataset .train i))) := by
  have h1 : chooseLoader c (some idx) none = .train := by
    unfold chooseLoader
    rw [hc]
    simp [ht]
  unfold predictProba
  dsimp only
  rw [h1, if_pos hl, if_neg (by rintro ⟨i, hi, h⟩; have := hr i hi; omega), if_neg hne]

/-- **C114.** The same for an explicit `loader`. -/
theorem C114_predicts_loader_partial (E : Env Img Net Row) (c : Cnn Net) (hc : c.loader = none) (ld : Loader)
    (idx : List ℕ) (hne : idx ≠ []) (hr : ∀ i ∈ idx, i < size c.dataset ld) (hl : idx.length ≠ size c.dataset ld) :
    predictProba E c (some idx) (some ld) = .ok (idx.map (fun i => E.output c.model (E.image c.dataset ld i))) := by
  have h1 : chooseLoader c (some idx) (some ld) = ld := by
    unfold chooseLoader
    rw [hc]
  unfold predictProba
  dsimp only
  rw [h1, if_pos hl, if_neg (by rintro ⟨i, hi, h⟩; have := hr i hi; omega), if_neg hne]

/-- **C114.** Which images there are: the predictions of a single image are returned exactly for these indices. -/
theorem C114_images (E : Env Img Net Row) (c : Cnn Net) (hc : c.loader = none) (i : ℕ) :
    (c.dataset = .mnist → ((∃ r, predictProba E c (some [i]) (some .train) = .ok r) ↔ i < 60000) ∧
      ((∃ r, predictProba E c (some [i]) (some .test) = .ok r) ↔ i < 10000)) ∧
    (c.dataset = .digits → ((∃ r, predictProba E c (some [i]) (some .train) = .ok r) ↔ i < 1247) ∧
      ((∃ r, predictProba E c (some [i]) (some .test) = .ok r) ↔ i < 550)) := by
  have key : ∀ ld, (∃ r, predictProba E c (some [i]) (some ld) = .ok r) ↔ i < size c.dataset ld := by
    intro ld
    have hl : [i].length ≠ size c.dataset ld := by
      cases c.dataset <;> cases ld <;> simp [size]
    have h1 : chooseLoader c (some [i]) (some ld) = ld := by
      unfold chooseLoader
      rw [hc]
    constructor
    · rintro ⟨r, hr⟩
      by_contra hlt
      unfold predictProba at hr
      dsimp only at hr
      rw [h1, if_pos hl, if_pos ⟨i, by simp, by omega⟩] at hr
      cases hr
    · intro hlt
      exact ⟨_, C114_predicts_loader_partial E c hc ld [i] (by simp) (by simpa using hlt) hl⟩
  refine ⟨fun h => ⟨?_, ?_⟩, fun h => ⟨?_, ?_⟩⟩ <;> rw [key, h, size]

/-- **C114 fails.** With as many indices as the data set has images the indices are ignored: for the indices in reverse
order the rows are not in the order of the indices. -/
theorem C114_not_full_length (E : Env Img Net Row) (c : Cnn Net) (ld : Loader) (hc : c.loader = none)
    (hinj : ∀ i j, E.output c.model (E.image c.dataset ld i) = E.output c.model (E.image c.dataset ld j) → i = j) :
    ∃ (idx : List ℕ) (rows : List Row), idx.Perm (List.range (size c.dataset ld)) ∧
      predictProba E c (some idx) (some ld) = .ok rows ∧
      rows ≠ idx.map (fun i => E.output c.model (E.image c.dataset ld i)) := by
  have h1 : ∀ idx, chooseLoader c idx (some ld) = ld := by
    intro idx
    unfold chooseLoader
    rw [hc]
  refine ⟨(List.range (size c.dataset ld)).reverse,
    (List.range (size c.dataset ld)).map (fun i => E.output c.model (E.image c.dataset ld i)), List.reverse_perm _, ?_, ?_⟩
  · unfold predictProba
    dsimp only
    rw [h1, if_neg (by simp)]
  · intro h
    have h2 : 1 < size c.dataset ld := by
      cases c.dataset <;> cases ld <;> decide
    have h3 := congrArg (fun l : List Row => l[0]?) h
    simp only [List.getElem?_map, List.getElem?_range (show 0 < size c.dataset ld by omega), Option.map_some] at h3
    rw [List.getElem?_reverse (by rw [List.length_range]; omega), List.length_range,
      List.getElem?_range (by omega), Option.map_some] at h3
    have := hinj _ _ (Option.some.inj h3)
    omega

/-- **C114 fails.** A network trained on the training images predicts the test images for the indices
`0 .. test_size - 1`. -/
theorem C114_not_training_images (E : Env Img Net Row) (c : Cnn Net) (hc : c.loader = none) :
    predictProba E c (some (List.range (size c.dataset .test))) none =
      .ok ((List.range (size c.dataset .test)).map (fun i => E.output c.model (E.image c.dataset .test i))) := by
  have h1 : chooseLoader c (some (List.range (size c.dataset .test))) none = .test := by
    unfold chooseLoader
    rw [hc]
    simp
  unfold predictProba
  dsimp only
  rw [h1, if_neg (by simp)]

/-- **C114.** A clone has the same batch sizes, number of epochs and data set, and a new network. -/
theorem C114_clone (E : Env Img Net Row) (c : Cnn Net) : (clone E c).batchSize = c.batchSize ∧
    (clone E c).epochs = c.epochs ∧ (clone E c).testBatchSize = c.testBatchSize ∧ (clone E c).dataset = c.dataset :=
  ⟨rfl, rfl, rfl, rfl⟩

/-- **C114 fails.** A clone never has the `loader` and the `seed` of the original: it uses the defaults `None` and 1. -/
theorem C114_not_clone (E : Env Img Net Row) (c : Cnn Net) : (clone E c).loader = none ∧ (clone E c).seed = 1 ∧
    (clone E c).model = E.init 1 := ⟨rfl, rfl, rfl⟩

/-- A network that remembers the batches it was trained on. -/
def recEnv : Env ℕ (List (List (Sample ℕ))) ℕ :=
  { image := fun _ _ i => i, target := fun _ _ i => i % 10, init := fun _ => [], step := fun n b => n ++ [b],
    output := fun _ i => i, shuffle := fun _ => id }

/-- **C114 fails.** A second `fit` continues to train the network of the first. -/
theorem C114_not_fresh : ∃ c1 c2 : Cnn (List (List (Sample ℕ))),
    fit recEnv (new recEnv { dataset := .digits, epochs := 1 }) [4, 7] (some [1, 2]) none .train = .ok c1 ∧
    fit recEnv c1 [5] (some [3]) none .train = .ok c2 ∧
    (c1.model.map pairsOf) = [[(4, 1), (7, 2)]] ∧ c2.model.map pairsOf = [[(4, 1), (7, 2)], [(5, 3)]] := by
  refine ⟨{ new recEnv { dataset := .digits, epochs := 1 } with model := [[⟨4, 1, none⟩, ⟨7, 2, none⟩]] },
    { new recEnv { dataset := .digits, epochs := 1 } with model := [[⟨4, 1, none⟩, ⟨7, 2, none⟩], [⟨5, 3, none⟩]] }, ?_, ?_, rfl, rfl⟩
  · unfold fit
    simp [new, size, recEnv, runEpoch, epochData, batches, sparseLabel, List.lookup]
  · unfold fit
    simp [new, size, recEnv, runEpoch, epochData, batches, sparseLabel, List.lookup]

example : predictProba recEnv (new recEnv { dataset := .digits }) (some [4, 7, 7]) none = .ok [4, 7, 7] :=
  C114_predicts_given_partial recEnv _ rfl _ (by decide) (by decide) (by decide) (by
    intro h
    have := congrArg List.length h
    rw [List.length_range] at this
    revert this
    decide)

end Cleanlab.Props
