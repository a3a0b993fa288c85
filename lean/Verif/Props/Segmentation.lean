import Verif.Model.Segmentation
import Verif.Props.BatchedFind
import Verif.Props.MultilabelScore

/-!
# C29, C30, C65: semantic segmentation
-/

namespace Cleanlab.Props

open Np Cleanlab.Util Cleanlab.Count Cleanlab.Rank Cleanlab.Batched Cleanlab.Segmentation Cleanlab.Spec

variable {N K h w d : ℕ}

/-- Position of a pixel in the flattened stack. -/
def flatIdx (n : Fin N) (i : Fin h) (j : Fin w) : ℕ := n.val * (h * w) + (i.val * w + j.val)

theorem inner_lt (i : Fin h) (j : Fin w) : i.val * w + j.val < h * w := by
  calc i.val * w + j.val < i.val * w + w := by omega
    _ = (i.val + 1) * w := by ring
    _ ≤ h * w := Nat.mul_le_mul_right w i.isLt

theorem flatIdx_lt (n : Fin N) (i : Fin h) (j : Fin w) : flatIdx n i j < N * (h * w) := by
  have := inner_lt i j
  unfold flatIdx
  calc n.val * (h * w) + (i.val * w + j.val) < n.val * (h * w) + h * w := by omega
    _ = (n.val + 1) * (h * w) := by ring
    _ ≤ N * (h * w) := Nat.mul_le_mul_right _ n.isLt

theorem div_mod_add (a b m : ℕ) (hb : b < m) : (a * m + b) / m = a ∧ (a * m + b) % m = b := by
  have hm : 0 < m := by omega
  constructor
  · rw [Nat.add_comm, Nat.add_mul_div_right _ _ hm, Nat.div_eq_of_lt hb, Nat.zero_add]
  · rw [Nat.add_comm, Nat.add_mul_mod_self_right, Nat.mod_eq_of_lt hb]

theorem coords_eq_iff (n : Fin N) (i : Fin h) (j : Fin w) (r : ℕ) :
    coords h w r = (n.val, i.val, j.val) ↔ r = flatIdx n i j := by
  unfold coords
  constructor
  · intro he
    simp only [Prod.mk.injEq] at he
    obtain ⟨h1, h2, h3⟩ := he
    unfold flatIdx
    have e1 := Nat.div_add_mod r (h * w)
    have e2 := Nat.div_add_mod (r % (h * w)) w
    rw [h1] at e1
    rw [h2, h3] at e2
    rw [← e1, ← e2]
    ring
  · rintro rfl
    unfold flatIdx
    rw [(div_mod_add n.val _ (h * w) (inner_lt i j)).1, (div_mod_add n.val _ (h * w) (inner_lt i j)).2,
      (div_mod_add i.val _ w j.isLt).1, (div_mod_add i.val _ w j.isLt).2]

/-- All pixels in the order of the code. -/
def allPixels (labels : Stack N h w (Fin K)) (P : Stack N h w (Fin K → ℚ)) : List (Ex K) :=
  ((List.finRange N).map (imagePixels labels P)).flatten

theorem allPixels_eq (labels : Stack N h w (Fin K)) (P : Stack N h w (Fin K → ℚ)) :
    allPixels labels P = List.ofFn (fun r : Fin (N * (h * w)) =>
      (labels r.divNat r.modNat.divNat r.modNat.modNat, P r.divNat r.modNat.divNat r.modNat.modNat)) := by
  unfold allPixels
  rw [List.ofFn_mul, ← List.ofFn_eq_map]
  congr 1
  congr 1
  funext n
  unfold imagePixels
  rw [List.ofFn_mul]
  congr 1
  congr 1
  funext i
  congr 1
  funext j
  have e1 : ∀ q, (⟨n.val * (h * w) + (i.val * w + j.val), q⟩ : Fin (N * (h * w))).divNat = n := by
    intro q; apply Fin.ext; exact (div_mod_add n.val _ (h * w) (inner_lt i j)).1
  have e2 : ∀ q, (⟨n.val * (h * w) + (i.val * w + j.val), q⟩ : Fin (N * (h * w))).modNat =
      ⟨i.val * w + j.val, inner_lt i j⟩ := by
    intro q; apply Fin.ext; exact (div_mod_add n.val _ (h * w) (inner_lt i j)).2
  have e3 : (⟨i.val * w + j.val, inner_lt i j⟩ : Fin (h * w)).divNat = i := by
    apply Fin.ext; exact (div_mod_add i.val _ w j.isLt).1
  have e4 : (⟨i.val * w + j.val, inner_lt i j⟩ : Fin (h * w)).modNat = j := by
    apply Fin.ext; exact (div_mod_add i.val _ w j.isLt).2
  simp only [e1, e2, e3, e4]

theorem length_allPixels (labels : Stack N h w (Fin K)) (P : Stack N h w (Fin K → ℚ)) :
    (allPixels labels P).length = N * (h * w) := by rw [allPixels_eq, List.length_ofFn]

theorem allPixels_get (labels : Stack N h w (Fin K)) (P : Stack N h w (Fin K → ℚ)) (n : Fin N) (i : Fin h) (j : Fin w)
    (hr : flatIdx n i j < (allPixels labels P).length) :
    (allPixels labels P)[flatIdx n i j] = (labels n i j, P n i j) := by
  have e1 : ∀ q, (⟨flatIdx n i j, q⟩ : Fin (N * (h * w))).divNat = n := by
    intro q; apply Fin.ext; exact (div_mod_add n.val _ (h * w) (inner_lt i j)).1
  have e2 : ∀ q, (⟨flatIdx n i j, q⟩ : Fin (N * (h * w))).modNat = ⟨i.val * w + j.val, inner_lt i j⟩ := by
    intro q; apply Fin.ext; exact (div_mod_add n.val _ (h * w) (inner_lt i j)).2
  have e3 : (⟨i.val * w + j.val, inner_lt i j⟩ : Fin (h * w)).divNat = i := by
    apply Fin.ext; exact (div_mod_add i.val _ w j.isLt).1
  have e4 : (⟨i.val * w + j.val, inner_lt i j⟩ : Fin (h * w)).modNat = j := by
    apply Fin.ext; exact (div_mod_add i.val _ w j.isLt).2
  simp only [allPixels_eq, List.getElem_ofFn, e1, e2, e3, e4]

theorem mem_allPixels (labels : Stack N h w (Fin K)) (P : Stack N h w (Fin K → ℚ)) (e : Ex K) :
    e ∈ allPixels labels P ↔ ∃ n i j, e = (labels n i j, P n i j) := by
  constructor
  · rw [allPixels_eq, List.mem_ofFn]
    rintro ⟨r, rfl⟩
    exact ⟨_, _, _, rfl⟩
  · rintro ⟨n, i, j, rfl⟩
    rw [← allPixels_get labels P n i j (by rw [length_allPixels]; exact flatIdx_lt n i j)]
    exact List.getElem_mem _

/-- The image batches of one run. -/
theorem ranked_eq (A : ArgSort ℚ) [NeZero K] (jobs : ℕ → Jobs) (batchSize : ℕ) (labels : Stack N h w (Fin K))
    (P : Stack N h w (Fin K → ℚ)) (hne : 0 < N * (h * w)) :
    ∃ bs : List (List (Ex K)), bs.flatten = allPixels labels P ∧
      rankedIssues A jobs batchSize labels P = .ok ((findTopIssues A
        ((allPixels labels P).map (selfConfidenceScore (bs.foldl updateThresholds {}).thr)).get
        (some ((allPixels labels P).countP
          (fun e => decide (IsOffDiagonal (bs.foldl updateThresholds {}).thr e))))).map Fin.val) := by
  have hip : 0 < imagesPerBatch K h w batchSize := lt_max_of_lt_right Nat.one_pos
  obtain ⟨imgs, himgs⟩ := loopBatches_isSome (imagesPerBatch K h w batchSize) (List.finRange N).length hip
    (List.finRange N) le_rfl
  have hf := loopBatches_flatten _ _ _ _ himgs
  have hflat : (imgs.map (fun b => (b.map (imagePixels labels P)).flatten)).flatten = allPixels labels P := by
    unfold allPixels
    rw [← hf]
    clear hf himgs
    induction imgs with
    | nil => rfl
    | cons b imgs ih => simp [ih]
  refine ⟨_, hflat, ?_⟩
  have hd : allPixels labels P ≠ [] := by
    rw [← List.length_pos_iff_ne_nil, length_allPixels]; exact hne
  unfold rankedIssues batches
  rw [himgs]
  exact inspect_issues A selfConfidenceScore jobs _ _ hflat hd

/-- What `rankedIssues` reports: the pixels with the lowest self-confidence. -/
theorem ranked_spec (A : ArgSort ℚ) [NeZero K] (jobs : ℕ → Jobs) (batchSize : ℕ) (labels : Stack N h w (Fin K))
    (P : Stack N h w (Fin K → ℚ)) (hne : 0 < N * (h * w)) :
    ∃ (idx : List ℕ) (bs : List (List (Ex K))), rankedIssues A jobs batchSize labels P = .ok idx ∧ idx.Nodup ∧
      bs.flatten = allPixels labels P ∧
      idx.length ≤ (allPixels labels P).countP (fun e => decide (IsOffDiagonal (bs.foldl updateThresholds {}).thr e)) ∧
      (∀ r ∈ idx, r < N * (h * w)) ∧
      ∀ n i j n' i' j', flatIdx n i j ∈ idx → flatIdx n' i' j' ∉ idx →
        P n i j (labels n i j) ≤ P n' i' j' (labels n' i' j') := by
  obtain ⟨bs, hf, hr⟩ := ranked_eq A jobs batchSize labels P hne
  set thr := (bs.foldl updateThresholds {}).thr
  set T := (allPixels labels P).countP (fun e => decide (IsOffDiagonal thr e))
  have hlen : ((allPixels labels P).map (selfConfidenceScore thr)).length = N * (h * w) := by
    rw [List.length_map, length_allPixels]
  have hget : ∀ n i j, ∀ q : flatIdx n i j < ((allPixels labels P).map (selfConfidenceScore thr)).length,
      ((allPixels labels P).map (selfConfidenceScore thr)).get ⟨flatIdx n i j, q⟩ = P n i j (labels n i j) := by
    intro n i j q
    simp only [List.get_eq_getElem, List.getElem_map, allPixels_get]
    rfl
  obtain ⟨t1, t2, -, t4⟩ := C15_top_issues A ((allPixels labels P).map (selfConfidenceScore thr)).get T
  refine ⟨_, bs, hr, t2.map Fin.val_injective, hf, ?_, ?_, ?_⟩
  · rw [List.length_map, t1]; exact min_le_left _ _
  · intro r hr
    obtain ⟨q, -, rfl⟩ := List.mem_map.mp hr
    rw [← hlen]; exact q.isLt
  · intro n i j n' i' j' h1 h2
    obtain ⟨q, hq, hqe⟩ := List.mem_map.mp h1
    have hlt : flatIdx n' i' j' < ((allPixels labels P).map (selfConfidenceScore thr)).length := by
      rw [hlen]; exact flatIdx_lt _ _ _
    have h2' : (⟨flatIdx n' i' j', hlt⟩ : Fin _) ∉
        findTopIssues A ((allPixels labels P).map (selfConfidenceScore thr)).get (some T) :=
      fun hm => h2 (List.mem_map.mpr ⟨_, hm, rfl⟩)
    have := t4 q hq _ h2'
    have hq' : q = ⟨flatIdx n i j, by rw [hlen]; exact flatIdx_lt _ _ _⟩ := Fin.ext hqe
    rw [hq', hget, hget] at this
    exact this

theorem agrees_iff [NeZero K] (labels : Stack N h w (Fin K)) (P : Stack N h w (Fin K → ℚ)) (n : Fin N) (i : Fin h)
    (j : Fin w) : agrees labels P n i j = true ↔ IsPrediction (P n i j) (labels n i j) := by
  unfold agrees
  rw [decide_eq_true_eq, argmax_eq_iff_isPrediction]

theorem mem_map_coords (n : Fin N) (i : Fin h) (j : Fin w) (l : List ℕ) :
    (n.val, i.val, j.val) ∈ l.map (coords h w) ↔ flatIdx n i j ∈ l := by
  rw [List.mem_map]
  constructor
  · rintro ⟨r, hr, he⟩
    rw [(coords_eq_iff n i j r).mp he] at hr
    exact hr
  · intro hm
    exact ⟨_, hm, (coords_eq_iff n i j _).mpr rfl⟩

theorem issueBatches_eq (batchSize : ℕ) (hb : 1 ≤ batchSize) (idx : List ℕ) :
    ∃ bs, issueBatches batchSize idx = .ok bs ∧ bs.flatten = idx := by
  obtain ⟨bs, hbs⟩ := loopBatches_isSome batchSize idx.length hb idx le_rfl
  exact ⟨bs, by unfold issueBatches batches; rw [hbs], loopBatches_flatten _ _ _ _ hbs⟩

theorem foldl_mark_unmark [NeZero K] (labels : Stack N h w (Fin K)) (P : Stack N h w (Fin K → ℚ)) (bs : List (List ℕ))
    (m0 : Stack N h w Bool) (n : Fin N) (i : Fin h) (j : Fin w) :
    bs.foldl (fun mask b => unmark labels P (mark mask b) b) m0 n i j =
      if flatIdx n i j ∈ bs.flatten then !(agrees labels P n i j) else m0 n i j := by
  induction bs generalizing m0 with
  | nil => simp
  | cons b bs ih =>
    rw [List.foldl_cons, ih, List.flatten_cons]
    simp only [List.mem_append]
    by_cases h1 : flatIdx n i j ∈ bs.flatten
    · simp [h1]
    · simp only [h1, or_false, if_false]
      unfold unmark mark
      simp only [mem_map_coords]
      by_cases h2 : flatIdx n i j ∈ b
      · cases agrees labels P n i j <;> simp [h2]
      · simp [h2]

theorem findIssues_eq (A : ArgSort ℚ) [NeZero K] (jobs : ℕ → Jobs) (batchSize : ℕ) (hb : 1 ≤ batchSize)
    (labels : Stack N h w (Fin K)) (P : Stack N h w (Fin K → ℚ)) (idx : List ℕ)
    (hr : rankedIssues A jobs batchSize labels P = .ok idx) :
    findIssues A jobs batchSize labels P = .ok (fun n i j => decide (flatIdx n i j ∈ idx) && !(agrees labels P n i j)) := by
  obtain ⟨bs, h1, h2⟩ := issueBatches_eq batchSize hb idx
  unfold findIssues validBatchSize
  rw [if_neg (by omega)]
  simp only [bind, Except.bind, hr, h1, pure, Except.pure]
  congr 1
  funext n i j
  rw [foldl_mark_unmark, h2]
  by_cases hm : flatIdx n i j ∈ idx <;> simp [hm]

/-! ## C29 -/

/-- **C29**: without down-sampling, for every batch size and number of workers the function returns; every flagged
pixel disagrees with its prediction; a disagreeing pixel that is not flagged has a self-confidence no lower than any
flagged one. -/
theorem C29_flagged_disagree_partial (A : ArgSort ℚ) [NeZero K] (jobs : ℕ → Jobs) (batchSize : ℕ) (hb : 1 ≤ batchSize)
    (labels : Stack N h w (Fin K)) (P : Stack N h w (Fin K → ℚ)) (hne : 0 < N * (h * w)) :
    ∃ mask, findIssues A jobs batchSize labels P = .ok mask ∧
      (∀ n i j, mask n i j = true → ¬ IsPrediction (P n i j) (labels n i j)) ∧
      ∀ n i j n' i' j', mask n i j = true → mask n' i' j' = false → ¬ IsPrediction (P n' i' j') (labels n' i' j') →
        P n i j (labels n i j) ≤ P n' i' j' (labels n' i' j') := by
  obtain ⟨idx, bs, hr, -, -, -, -, hlow⟩ := ranked_spec A jobs batchSize labels P hne
  refine ⟨_, findIssues_eq A jobs batchSize hb labels P idx hr, ?_, ?_⟩
  · intro n i j hm
    rw [Bool.and_eq_true, Bool.not_eq_true'] at hm
    rw [← agrees_iff, hm.2]
    simp
  · intro n i j n' i' j' hm hm' hp
    rw [Bool.and_eq_true, decide_eq_true_eq] at hm
    rw [← agrees_iff, Bool.not_eq_true] at hp
    rw [hp] at hm'
    simp only [Bool.not_false, Bool.and_true, decide_eq_false_iff_not] at hm'
    exact hlow _ _ _ _ _ _ hm.1 hm'

theorem up_val_iff (c a : ℕ) (ha : a < d) (y : Fin (h * d)) : y.val = c * d + a ↔ c = y.divNat.val ∧ a = y.val % d := by
  constructor
  · intro he
    have := div_mod_add c a d ha
    rw [← he] at this
    exact ⟨this.1.symm, this.2.symm⟩
  · rintro ⟨rfl, rfl⟩
    have := Nat.div_add_mod y.val d
    exact this.symm.trans (congrArg (· + y.val % d) (Nat.mul_comm d (y.val / d)))

theorem foldl_clear {α : Type} (c : α → Prop) [DecidablePred c] (l : List α) (b : Bool) :
    l.foldl (fun m x => if c x then false else m) b = if ∃ x ∈ l, c x then false else b := by
  induction l generalizing b with
  | nil => simp
  | cons x l ih =>
    rw [List.foldl_cons, ih]
    by_cases h1 : ∃ y ∈ l, c y
    · rw [if_pos h1, if_pos (by obtain ⟨y, hy, hc⟩ := h1; exact ⟨y, by simp [hy], hc⟩)]
    · rw [if_neg h1]
      by_cases h2 : c x
      · rw [if_pos h2, if_pos ⟨x, by simp, h2⟩]
      · rw [if_neg h2, if_neg]
        rintro ⟨y, hy, hc⟩
        rcases List.mem_cons.mp hy with rfl | hy
        · exact h2 hc
        · exact h1 ⟨y, hy, hc⟩

theorem foldl_apply {α β : Type} (f : (β → Bool) → α → β → Bool) (g : β → Bool → α → Bool)
    (hfg : ∀ m a b, f m a b = g b (m b) a) (l : List α) (m : β → Bool) (b : β) :
    l.foldl f m b = l.foldl (g b) (m b) := by
  induction l generalizing m with
  | nil => rfl
  | cons a l ih => rw [List.foldl_cons, List.foldl_cons, ih, hfg]

theorem unmarkBlocks_apply [NeZero K] (labels : Stack N (h * d) (w * d) (Fin K)) (P : Stack N (h * d) (w * d) (Fin K → ℚ))
    (mask : Stack N (h * d) (w * d) Bool) (batch : List ℕ) (n : Fin N) (y : Fin (h * d)) (x : Fin (w * d)) :
    unmarkBlocks labels P mask batch n y x =
      if flatIdx n y.divNat x.divNat ∈ batch ∧ agrees labels P n y x = true then false else mask n y x := by
  unfold unmarkBlocks
  have hstep : ∀ (l : List (ℕ × ℕ)) (m : Stack N (h * d) (w * d) Bool),
      l.foldl (fun mask ab n y x =>
        if (n.val, y.val, x.val) ∈ (batch.map (coords h w)).map (fun c => (c.1, c.2.1 * d + ab.1, c.2.2 * d + ab.2)) ∧
          agrees labels P n y x = true then false else mask n y x) m n y x =
      l.foldl (fun b ab => if (n.val, y.val, x.val) ∈ (batch.map (coords h w)).map
          (fun c => (c.1, c.2.1 * d + ab.1, c.2.2 * d + ab.2)) ∧ agrees labels P n y x = true then false else b)
        (m n y x) := by
    intro l
    induction l with
    | nil => intro m; rfl
    | cons a l ih => intro m; rw [List.foldl_cons, List.foldl_cons, ih]
  rw [hstep, foldl_clear]
  have hdpos : 0 < d := by
    rcases Nat.eq_zero_or_pos d with hd | hd
    · subst hd; exact absurd y.isLt (by simp)
    · exact hd
  congr 1
  apply propext
  constructor
  · rintro ⟨ab, hab, hmem, hag⟩
    refine ⟨?_, hag⟩
    rw [List.mem_flatMap] at hab
    obtain ⟨a, ha, hab⟩ := hab
    obtain ⟨b, hbb, rfl⟩ := List.mem_map.mp hab
    rw [List.mem_range] at ha hbb
    obtain ⟨c, hc, he⟩ := List.mem_map.mp hmem
    simp only [Prod.mk.injEq] at he
    obtain ⟨e1, e2, e3⟩ := he
    have e2' := (up_val_iff c.2.1 a ha y).mp e2.symm
    have e3' := (up_val_iff c.2.2 b hbb x).mp e3.symm
    rw [← mem_map_coords]
    have : c = (n.val, y.divNat.val, x.divNat.val) := by
      ext
      · exact e1
      · exact e2'.1
      · exact e3'.1
    rwa [this] at hc
  · rintro ⟨hm, hag⟩
    refine ⟨(y.val % d, x.val % d), ?_, ?_, hag⟩
    · rw [List.mem_flatMap]
      exact ⟨y.val % d, List.mem_range.mpr (Nat.mod_lt _ hdpos), List.mem_map.mpr
        ⟨x.val % d, List.mem_range.mpr (Nat.mod_lt _ hdpos), rfl⟩⟩
    · rw [← mem_map_coords] at hm
      refine List.mem_map.mpr ⟨_, hm, ?_⟩
      simp only [Prod.mk.injEq, true_and]
      exact ⟨((up_val_iff _ _ (Nat.mod_lt _ hdpos) y).mpr ⟨rfl, rfl⟩).symm,
        ((up_val_iff _ _ (Nat.mod_lt _ hdpos) x).mpr ⟨rfl, rfl⟩).symm⟩

theorem foldl_mark (bs : List (List ℕ)) (m0 : Stack N h w Bool) (n : Fin N) (i : Fin h) (j : Fin w) :
    bs.foldl mark m0 n i j = if flatIdx n i j ∈ bs.flatten then true else m0 n i j := by
  induction bs generalizing m0 with
  | nil => simp
  | cons b bs ih =>
    rw [List.foldl_cons, ih, List.flatten_cons]
    unfold mark
    simp only [mem_map_coords, List.mem_append]
    by_cases h1 : flatIdx n i j ∈ bs.flatten <;> by_cases h2 : flatIdx n i j ∈ b <;> simp [h1, h2]

theorem foldl_unmarkBlocks [NeZero K] (labels : Stack N (h * d) (w * d) (Fin K))
    (P : Stack N (h * d) (w * d) (Fin K → ℚ)) (bs : List (List ℕ)) (m0 : Stack N (h * d) (w * d) Bool) (n : Fin N)
    (y : Fin (h * d)) (x : Fin (w * d)) :
    bs.foldl (unmarkBlocks labels P) m0 n y x =
      if flatIdx n y.divNat x.divNat ∈ bs.flatten ∧ agrees labels P n y x = true then false else m0 n y x := by
  induction bs generalizing m0 with
  | nil => simp
  | cons b bs ih =>
    rw [List.foldl_cons, ih, List.flatten_cons, unmarkBlocks_apply]
    simp only [List.mem_append]
    by_cases h1 : flatIdx n y.divNat x.divNat ∈ bs.flatten <;>
      by_cases h2 : flatIdx n y.divNat x.divNat ∈ b <;> cases agrees labels P n y x <;> simp [h1, h2]

theorem findIssuesDown_eq (A : ArgSort ℚ) [NeZero K] (jobs : ℕ → Jobs) (batchSize : ℕ) (hb : 1 ≤ batchSize) (hd : 0 < d)
    (labels : Stack N (h * d) (w * d) (Fin K)) (P : Stack N (h * d) (w * d) (Fin K → ℚ))
    (hnan : ∀ n (i : Fin h) (j : Fin w), ∑ k, blockProbs P n i j k ≠ 0) (idx : List ℕ)
    (hr : rankedIssues A jobs batchSize (smallLabels (h := h) (w := w) labels) (smallProbs P) = .ok idx) :
    findIssuesDown A jobs batchSize labels P =
      .ok (fun n y x => decide (flatIdx n y.divNat x.divNat ∈ idx) && !(agrees labels P n y x)) := by
  obtain ⟨bs, h1, h2⟩ := issueBatches_eq batchSize hb idx
  unfold findIssuesDown validBatchSize
  rw [if_neg (by omega)]
  have hne : ¬ ∃ n, ∃ (i : Fin h), ∃ (j : Fin w), ∑ k, blockProbs P n i j k = 0 := by
    rintro ⟨n, i, j, h0⟩; exact hnan n i j h0
  simp only [bind, Except.bind, if_neg (show d ≠ 0 by omega), if_neg hne, hr, h1, pure, Except.pure]
  congr 1
  funext n y x
  rw [foldl_unmarkBlocks, h2]
  unfold repeatMask
  rw [foldl_mark, h2]
  by_cases hm : flatIdx n y.divNat x.divNat ∈ idx <;> cases agrees labels P n y x <;> simp [hm]

theorem smallProbs_eq (hd : 0 < d) (P : Stack N (h * d) (w * d) (Fin K → ℚ)) (n : Fin N) (i : Fin h) (j : Fin w) (k : Fin K) :
    smallProbs P n i j k = (∑ a : Fin d, ∑ b : Fin d, P n (up i a) (up j b) k) /
      (∑ k, ∑ a : Fin d, ∑ b : Fin d, P n (up i a) (up j b) k) := by
  have hd' : (d : ℚ) * d ≠ 0 := by positivity
  unfold smallProbs blockProbs blockMean
  rw [← Finset.sum_div, div_div_div_cancel_right₀ hd']

theorem smallLabels_eq [NeZero K] (labels : Stack N (h * d) (w * d) (Fin K)) (n : Fin N) (i : Fin h) (j : Fin w) :
    ((smallLabels labels n i j).val : ℤ) =
      rint ((∑ a : Fin d, ∑ b : Fin d, ((labels n (up i a) (up j b)).val : ℚ)) / (d * d)) := by
  show (((rint (blockMean (fun y x => ((labels n y x).val : ℚ)) i j)).toNat : ℕ) : ℤ) = _
  have h0 : (0 : ℚ) ≤ blockMean (fun y x => ((labels n y x).val : ℚ)) i j := by
    unfold blockMean
    positivity
  have h1 := rint_mono h0
  rw [← Int.cast_zero (R := ℚ), rint_intCast] at h1
  rw [Int.toNat_of_nonneg h1]
  rfl

/-- **C29**: with down-sampling by `d`, a set of blocks is flagged, those with the lowest probability of the rounded mean label
(among the totals of the probabilities of the block), and a pixel is flagged exactly if its block is flagged and it disagrees
with its own prediction. -/
theorem C29_downsample_partial (A : ArgSort ℚ) [NeZero K] (jobs : ℕ → Jobs) (batchSize : ℕ) (hb : 1 ≤ batchSize)
    (hd : 0 < d) (labels : Stack N (h * d) (w * d) (Fin K)) (P : Stack N (h * d) (w * d) (Fin K → ℚ))
    (hnan : ∀ n (i : Fin h) (j : Fin w), ∑ k, blockProbs P n i j k ≠ 0) (hne : 0 < N * (h * w)) :
    ∃ (mask : Stack N (h * d) (w * d) Bool) (blocks : Stack N h w Bool) (block : Stack N h w (Fin K)),
      findIssuesDown A jobs batchSize labels P = .ok mask ∧
      (∀ n i j (a b : Fin d), mask n (up i a) (up j b) = true ↔
        blocks n i j = true ∧ ¬ IsPrediction (P n (up i a) (up j b)) (labels n (up i a) (up j b))) ∧
      (∀ n i j, ((block n i j).val : ℤ) = rint ((∑ a : Fin d, ∑ b : Fin d, ((labels n (up i a) (up j b)).val : ℚ)) / (d * d))) ∧
      ∀ n i j n' i' j', blocks n i j = true → blocks n' i' j' = false →
        (∑ a : Fin d, ∑ b : Fin d, P n (up i a) (up j b) (block n i j)) /
            (∑ k, ∑ a : Fin d, ∑ b : Fin d, P n (up i a) (up j b) k) ≤
          (∑ a : Fin d, ∑ b : Fin d, P n' (up i' a) (up j' b) (block n' i' j')) /
            (∑ k, ∑ a : Fin d, ∑ b : Fin d, P n' (up i' a) (up j' b) k) := by
  obtain ⟨idx, bs, hr, -, -, -, -, hlow⟩ := ranked_spec A jobs batchSize (smallLabels (h := h) (w := w) labels)
    (smallProbs P) hne
  refine ⟨_, fun n i j => decide (flatIdx n i j ∈ idx), smallLabels labels,
    findIssuesDown_eq A jobs batchSize hb hd labels P hnan idx hr, ?_, smallLabels_eq labels, ?_⟩
  · intro n i j a b
    have e : ∀ {m : ℕ} (i : Fin m) (a : Fin d), (up i a).divNat = i := by
      intro m i a
      apply Fin.ext
      exact (div_mod_add i.val _ d a.isLt).1
    rw [Bool.and_eq_true, e, e, Bool.not_eq_true', ← agrees_iff, Bool.not_eq_true]
  · intro n i j n' i' j' h1 h2
    rw [← smallProbs_eq hd, ← smallProbs_eq hd]
    exact hlow _ _ _ _ _ _ (by simpa using h1) (by simpa using h2)

/-- **C29**, what holds about batches: if every given label has predicted probability at least `2e-6`, the result
does not depend on batch size, workers and completion order. -/
theorem C29_batch_size_partial (A : ArgSort ℚ) [NeZero K] (jobs jobs' : ℕ → Jobs) (b b' : ℕ) (hb : 1 ≤ b) (hb' : 1 ≤ b')
    (labels : Stack N h w (Fin K)) (P : Stack N h w (Fin K → ℚ)) (hne : 0 < N * (h * w))
    (hp : ∀ n i j, 2 / 1000000 ≤ P n i j (labels n i j)) :
    findIssues A jobs b labels P = findIssues A jobs' b' labels P := by
  obtain ⟨bs, hf, hr⟩ := ranked_eq A jobs b labels P hne
  obtain ⟨bs', hf', hr'⟩ := ranked_eq A jobs' b' labels P hne
  have hd : allPixels labels P ≠ [] := by
    rw [← List.length_pos_iff_ne_nil, length_allPixels]; exact hne
  have hp' : ∀ e ∈ allPixels labels P, 2 / 1000000 ≤ e.2 e.1 := by
    intro e he
    obtain ⟨n, i, j, rfl⟩ := (mem_allPixels labels P e).mp he
    exact hp n i j
  have hthr : (bs.foldl updateThresholds {}).thr = (bs'.foldl updateThresholds {}).thr := by
    funext k
    rw [streaming_thresholds _ hd hp' bs hf k, streaming_thresholds _ hd hp' bs' hf' k]
  rw [findIssues_eq A jobs b hb labels P _ hr, findIssues_eq A jobs' b' hb' labels P _ hr', hthr]

/-- Three images of one pixel. -/
def exSegLabels : Stack 3 1 1 (Fin 3) := fun n _ _ => ![0, 0, 1] n

/-- Their predicted probabilities. -/
def exSegProbs : Stack 3 1 1 (Fin 3 → ℚ) := fun n _ _ =>
  ![![0, 0, 1], ![1, 0, 0], ![4999995 / 10000000, 3 / 10, 2000005 / 10000000]] n

/-- **C29** fails: `batch_size` is documented not to affect results, but here a batch size of 1 and of 10000 flag
different pixels. -/
theorem C29_not_batch_size :
    ((findIssues (stableSort ℚ) (fun _ => .one) 1 exSegLabels exSegProbs).toOption.map
      (fun m => (List.finRange 3).map (fun n => m n 0 0))) = some [true, false, false] ∧
    ((findIssues (stableSort ℚ) (fun _ => .one) 10000 exSegLabels exSegProbs).toOption.map
      (fun m => (List.finRange 3).map (fun n => m n 0 0))) = some [true, false, true] := by
  decide +kernel

/-- The hypotheses of the down-sampling theorem can be met: two images of `2 × 2` pixels. -/
example : ∀ n (i : Fin 1) (j : Fin 1), ∑ k, blockProbs (N := 2) (d := 2) (K := 2) (fun _ _ _ => ![1/4, 3/4]) n i j k ≠ 0 := by
  decide +kernel

/-! ## C30 -/

/-- **C30**, what holds: the images are sorted by score, every image below the threshold is returned, and at most one
other image, with the lowest score among the rest. -/
theorem C30_below_threshold_partial (A : ArgSort ℚ) (scores : Fin N → ℚ) (t : ℚ) (h0 : 0 ≤ t) (h1 : t ≤ 1) :
    ∃ l, issuesFromScores A scores t = .ok l ∧ l.Nodup ∧ l.Pairwise (fun i j => scores i ≤ scores j) ∧
      (∀ i, scores i < t → i ∈ l) ∧
      l.length ≤ (Finset.univ.filter (fun i => scores i < t)).card + 1 ∧
      ∀ i ∈ l, ∀ j ∉ l, scores i ≤ scores j := by
  unfold issuesFromScores
  rw [if_neg (by push Not; exact ⟨h0, h1⟩)]
  simp only [List.countP_map]
  have hcount : (A.indices scores).countP ((fun s => decide (s < t)) ∘ scores) =
      (Finset.univ.filter (fun i => scores i < t)).card := by
    rw [(A.perm_indices scores).countP_eq, countP_finRange]
    simp
  have hsplit := List.take_append_drop ((A.indices scores).countP ((fun s => decide (s < t)) ∘ scores) + 1)
    (A.indices scores)
  set c := (A.indices scores).countP ((fun s => decide (s < t)) ∘ scores) with hc
  have hsorted := A.pairwise_indices scores
  have hcross : ∀ i ∈ (A.indices scores).take (c + 1), ∀ j ∈ (A.indices scores).drop (c + 1), scores i ≤ scores j := by
    rw [← hsplit] at hsorted
    exact (List.pairwise_append.mp hsorted).2.2
  have hdrop : ∀ j, j ∉ (A.indices scores).take (c + 1) → j ∈ (A.indices scores).drop (c + 1) := by
    intro j hj
    have := A.mem_indices scores j
    rw [← hsplit, List.mem_append] at this
    exact this.resolve_left hj
  refine ⟨_, rfl, (A.nodup_indices scores).sublist (List.take_sublist _ _),
    hsorted.sublist (List.take_sublist _ _), ?_, ?_, fun i hi j hj => hcross i hi j (hdrop j hj)⟩
  · intro i hi
    by_contra hni
    have hd := hdrop i hni
    have hall : ∀ j ∈ (A.indices scores).take (c + 1), scores j < t := fun j hj => lt_of_le_of_lt (hcross j hj i hd) hi
    have h2 : ((A.indices scores).take (c + 1)).countP ((fun s => decide (s < t)) ∘ scores) = c + 1 := by
      have hlen : ((A.indices scores).take (c + 1)).length = c + 1 := by
        rw [List.length_take]
        have : 0 < ((A.indices scores).drop (c + 1)).length := List.length_pos_of_mem hd
        rw [List.length_drop] at this
        omega
      refine (List.countP_eq_length.mpr (fun j hj => ?_)).trans hlen
      simpa using hall j hj
    have h3 : ((A.indices scores).take (c + 1)).countP ((fun s => decide (s < t)) ∘ scores) ≤ c := by
      rw [hc]
      exact (List.take_sublist _ _).countP_le
    omega
  · rw [← hcount]
    exact List.length_take_le _ _

/-- **C30** fails whenever some image is not below the threshold: the result then contains such an image. -/
theorem C30_not_exact (A : ArgSort ℚ) (scores : Fin N → ℚ) (t : ℚ) (h0 : 0 ≤ t) (h1 : t ≤ 1) (hex : ∃ i, t ≤ scores i) :
    ∃ l, issuesFromScores A scores t = .ok l ∧ ∃ i ∈ l, t ≤ scores i := by
  unfold issuesFromScores
  rw [if_neg (by push Not; exact ⟨h0, h1⟩)]
  simp only [List.countP_map]
  refine ⟨_, rfl, ?_⟩
  by_contra hcon
  push Not at hcon
  set c := (A.indices scores).countP ((fun s => decide (s < t)) ∘ scores) with hc
  obtain ⟨i, hi⟩ := hex
  have hlt : c < (A.indices scores).length := by
    rw [hc]
    refine lt_of_le_of_ne List.countP_le_length (fun he => ?_)
    rw [List.countP_eq_length] at he
    have := he i (A.mem_indices scores i)
    simp at this
    linarith
  have h2 : ((A.indices scores).take (c + 1)).countP ((fun s => decide (s < t)) ∘ scores) = c + 1 := by
    have hlen : ((A.indices scores).take (c + 1)).length = c + 1 := by
      rw [List.length_take]; omega
    refine (List.countP_eq_length.mpr (fun j hj => ?_)).trans hlen
    simpa using hcon j hj
  have h3 : ((A.indices scores).take (c + 1)).countP ((fun s => decide (s < t)) ∘ scores) ≤ c := by
    rw [hc]
    exact (List.take_sublist _ _).countP_le
  omega

/-- With pixel scores the result is exactly the pixels below the threshold. -/
theorem C30_pixels (scores : Stack N h w ℚ) (t : ℚ) (h0 : 0 ≤ t) (h1 : t ≤ 1) :
    ∃ mask, issuesFromPixelScores scores t = .ok mask ∧ ∀ n i j, mask n i j = true ↔ scores n i j < t := by
  refine ⟨fun n i j => decide (scores n i j < t), ?_, fun n i j => by simp⟩
  unfold issuesFromPixelScores
  rw [if_neg (by push Not; exact ⟨h0, h1⟩)]

example : (issuesFromScores (stableSort ℚ) ![9/10, 1/20, 1/2] (1/10)).toOption = some [1, 2] := by decide +kernel

/-! ## C65 -/

/-- **C65**: both methods give each pixel the predicted probability of its given label. -/
theorem C65_pixel_scores (labels : Stack N h w (Fin K)) (P : Stack N h w (Fin K → ℚ)) (n : Fin N) (i : Fin h) (j : Fin w) :
    pixelScoresMasked labels P n i j = P n i j (labels n i j) ∧ pixelScores labels P n i j = P n i j (labels n i j) := by
  refine ⟨?_, rfl⟩
  unfold pixelScoresMasked
  simp

/-- **C65**: the image score of `softmin` lies between the lowest pixel score and the mean of the pixel scores, so
within `[0, 1]` for probabilities. -/
theorem C65_softmin_image (labels : Stack N h w (Fin K)) (P : Stack N h w (Fin K → ℝ)) (T : ℝ) (hT : T ≠ 0)
    (hne : 0 < h * w) (n : Fin N) (hP : ∀ i j k, 0 ≤ P n i j k ∧ P n i j k ≤ 1) :
    ∃ s, imageScoreSoftmin (pixelScores labels P) T n = .ok s ∧ 0 ≤ s ∧ s ≤ 1 ∧
      (∃ i j, P n i j (labels n i j) ≤ s) ∧ (∃ i j, s ≤ P n i j (labels n i j)) ∧
      s ≤ (∑ i, ∑ j, P n i j (labels n i j)) / (h * w) := by
  have : NeZero (h * w) := ⟨by omega⟩
  obtain ⟨⟨lo, hlo⟩, hmean, hi, hhi⟩ := C23_softmin_between
    (fun r : Fin (h * w) => pixelScores labels P n r.divNat r.modNat) T
  refine ⟨_, ?_, ?_, ?_, ⟨_, _, hlo⟩, ⟨_, _, hhi⟩, ?_⟩
  · unfold imageScoreSoftmin
    rw [dif_neg (by omega), if_neg hT]
  · exact le_trans (hP _ _ _).1 hlo
  · exact le_trans hhi (hP _ _ _).2
  · refine hmean.trans (le_of_eq ?_)
    push_cast
    congr 1
    have := (finProdFinEquiv (m := h) (n := w)).symm.sum_comp (fun p => P n p.1 p.2 (labels n p.1 p.2))
    rw [Fintype.sum_prod_type] at this
    exact this

/-- **C65**: the image score of `num_pixel_issues` is 1 minus the fraction of flagged pixels and lies in `[0, 1]`. -/
theorem C65_num_pixel_issues (mask : Stack N h w Bool) (n : Fin N) (hne : 0 < h * w) :
    imageScoresNum mask n =
      1 - ((Finset.univ.filter (fun p : Fin h × Fin w => mask n p.1 p.2 = true)).card : ℚ) / (h * w) ∧
    0 ≤ imageScoresNum mask n ∧ imageScoresNum mask n ≤ 1 := by
  have h1 : (∑ i, ∑ j, if mask n i j then (1 : ℚ) else 0) =
      ((Finset.univ.filter (fun p : Fin h × Fin w => mask n p.1 p.2 = true)).card : ℚ) := by
    rw [← Fintype.sum_prod_type' (f := fun i j => if mask n i j then (1 : ℚ) else 0), Finset.sum_boole]
  have hpos : (0 : ℚ) < h * w := by exact_mod_cast hne
  have hle : ((Finset.univ.filter (fun p : Fin h × Fin w => mask n p.1 p.2 = true)).card : ℚ) ≤ h * w := by
    have : (Finset.univ.filter (fun p : Fin h × Fin w => mask n p.1 p.2 = true)).card ≤ h * w :=
      (Finset.card_filter_le _ _).trans (by simp)
    exact_mod_cast this
  have e : imageScoresNum mask n =
      1 - ((Finset.univ.filter (fun p : Fin h × Fin w => mask n p.1 p.2 = true)).card : ℚ) / (h * w) := by
    unfold imageScoresNum; rw [h1]
  refine ⟨e, ?_, ?_⟩
  · rw [e]
    have := (div_le_one hpos).mpr hle
    linarith
  · rw [e]
    have : 0 ≤ ((Finset.univ.filter (fun p : Fin h × Fin w => mask n p.1 p.2 = true)).card : ℚ) / (h * w) := by positivity
    linarith

example : imageScoresNum (N := 1) (h := 2) (w := 2) (fun _ i j => decide (i = 0 ∧ j = 1)) 0 = 3 / 4 := by decide +kernel

/-- **C29.** Memory: the images of a batch have at most `batch_size` probabilities together, unless a batch is a single image,
and one more image would exceed `batch_size`. -/
theorem C29_batch_memory (batchSize : ℕ) (hpos : 0 < K * h * w) (imgs : List (List (Fin N)))
    (hb : batches (imagesPerBatch K h w batchSize) (List.finRange N) = some imgs) (b : List (Fin N)) (hm : b ∈ imgs) :
    (b.length ≤ 1 ∨ b.length * (K * h * w) ≤ batchSize) ∧ batchSize < (imagesPerBatch K h w batchSize + 1) * (K * h * w) := by
  have key : ∀ (bs fuel : ℕ) (l : List (Fin N)) (r : List (List (Fin N))), loopBatches bs fuel l = some r →
      ∀ b ∈ r, b.length ≤ bs := by
    intro bs fuel
    induction fuel with
    | zero =>
      intro l r hr b hb
      unfold loopBatches at hr
      split_ifs at hr
      rw [← Option.some.inj hr] at hb
      simp at hb
    | succ fuel ih =>
      intro l r hr b hb
      unfold loopBatches at hr
      by_cases hl : l = []
      · rw [if_pos hl] at hr
        rw [← Option.some.inj hr] at hb
        simp at hb
      · rw [if_neg hl] at hr
        obtain ⟨r', h1, rfl⟩ := Option.map_eq_some_iff.mp hr
        rcases List.mem_cons.mp hb with rfl | hb
        · rw [List.length_take]; exact min_le_left _ _
        · exact ih _ _ h1 b hb
  have hlen := key _ _ _ _ hb b hm
  unfold imagesPerBatch at hlen ⊢
  constructor
  · rcases le_max_iff.mp hlen with hq | hq
    · right
      exact (Nat.mul_le_mul_right _ hq).trans (Nat.div_mul_le_self _ _)
    · exact Or.inl hq
  · have h1 := Nat.lt_div_mul_add hpos (a := batchSize)
    have h2 : batchSize / (K * h * w) ≤ max (batchSize / (K * h * w)) 1 := le_max_left _ _
    calc batchSize < batchSize / (K * h * w) * (K * h * w) + K * h * w := h1
      _ = (batchSize / (K * h * w) + 1) * (K * h * w) := by ring
      _ ≤ _ := Nat.mul_le_mul_right _ (by omega)

example : imagesPerBatch 3 10 20 2500 = 4 ∧ imagesPerBatch 3 10 20 100 = 1 := by decide

/-- **C29**: a batch size of 0 is refused by name. -/
theorem C29_batch_size (A : ArgSort ℚ) [NeZero K] (jobs : ℕ → Jobs) (labels : Stack N h w (Fin K)) (P : Stack N h w (Fin K → ℚ)) :
    findIssues A jobs 0 labels P = .error "Batch size must be greater than 0" := by
  unfold findIssues validBatchSize
  rw [if_pos le_rfl]
  rfl

end Cleanlab.Props
