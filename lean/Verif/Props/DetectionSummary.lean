import Verif.Model.DetectionSummary
import Verif.Np.Lemmas
import Mathlib.Tactic.Linarith
import Mathlib.Tactic.Positivity
import Mathlib.Tactic.FieldSimp
import Mathlib.Tactic.Ring
import Mathlib.Data.List.Nodup
import Mathlib.Algebra.Order.BigOperators.Group.List

/-!
# C92: object detection summaries
-/

namespace Cleanlab.Props

open Np Cleanlab.Detection

variable {K : ℕ} {N : Type} [DecidableEq N]

/-! ## Dictionaries -/

theorem lookup_upsert {V : Type} (d : List (N × V)) (k c : N) (f : Option V → V) :
    (upsert d k f).lookup c = if c = k then some (f (d.lookup k)) else d.lookup c := by
  induction d with
  | nil =>
    by_cases h : c = k
    · subst h; simp [upsert, List.lookup]
    · have : (c == k) = false := by simpa using h
      simp [upsert, List.lookup, this, h]
  | cons e t ih =>
    obtain ⟨k', v⟩ := e
    unfold upsert
    by_cases hk : k' = k
    · subst hk
      rw [if_pos rfl]
      by_cases h : c = k'
      · subst h; simp [List.lookup]
      · have : (c == k') = false := by simpa using h
        simp [List.lookup, this, h]
    · rw [if_neg hk]
      by_cases h : c = k'
      · subst h
        simp [List.lookup, hk]
      · have h1 : (c == k') = false := by simpa using h
        have h2 : (k == k') = false := by simpa using fun h => hk h.symm
        simp only [List.lookup, h1, h2]
        exact ih

theorem keys_upsert {V : Type} (d : List (N × V)) (k : N) (f : Option V → V) :
    (upsert d k f).map Prod.fst = if k ∈ d.map Prod.fst then d.map Prod.fst else d.map Prod.fst ++ [k] := by
  induction d with
  | nil => simp [upsert]
  | cons e t ih =>
    obtain ⟨k', v⟩ := e
    unfold upsert
    by_cases hk : k' = k
    · subst hk; simp
    · have hk' : ¬ k = k' := fun h => hk h.symm
      rw [if_neg hk, List.map_cons, ih]
      simp only [List.map_cons, List.mem_cons, hk', false_or]
      split_ifs <;> simp

theorem nodup_upsert {V : Type} (d : List (N × V)) (k : N) (f : Option V → V) (h : (d.map Prod.fst).Nodup) :
    ((upsert d k f).map Prod.fst).Nodup := by
  rw [keys_upsert]
  split_ifs with hk
  · exact h
  · rw [List.nodup_append]
    refine ⟨h, by simp, fun a ha b hb => ?_⟩
    rw [List.mem_singleton] at hb
    rintro rfl
    exact hk (hb ▸ ha)

/-- In a dictionary every entry is found. -/
theorem lookup_of_mem {V : Type} (d : List (N × V)) (h : (d.map Prod.fst).Nodup) (c : N) (v : V) :
    d.lookup c = some v ↔ (c, v) ∈ d := by
  induction d with
  | nil => simp
  | cons e t ih =>
    obtain ⟨k', w⟩ := e
    rw [List.map_cons, List.nodup_cons] at h
    by_cases hc : c = k'
    · subst hc
      simp only [List.lookup, beq_self_eq_true, Option.some.injEq, List.mem_cons, Prod.mk.injEq, true_and]
      constructor
      · exact fun h => Or.inl h.symm
      · rintro (h' | h')
        · exact h'.symm
        · exact absurd (List.mem_map.mpr ⟨_, h', rfl⟩) h.1
    · have : (c == k') = false := by simpa using hc
      simp only [List.lookup, this, List.mem_cons, Prod.mk.injEq, hc, false_and, false_or]
      exact ih h.2

/-! ## Counts -/

/-- **C92**: the counts are the numbers of annotated and of predicted boxes of each image. -/
theorem C92_counts (images : List (Image ℚ K)) :
    (objectCounts images).1.length = images.length ∧ (objectCounts images).2.length = images.length ∧
    ∀ i (h : i < images.length), (objectCounts images).1[i]? = some (images[i].labels.length) ∧
      (objectCounts images).2[i]? = some (∑ k, (images[i].preds k).length) := by
  refine ⟨by simp [objectCounts], by simp [objectCounts], fun i h => ⟨?_, ?_⟩⟩
  · simp [objectCounts, labBoxes, h]
  · simp only [objectCounts, List.getElem?_map, List.getElem?_eq_getElem h, Option.map_some, Option.some.injEq, predBoxes,
      List.length_flatMap, List.length_map]
    rw [← List.ofFn_eq_map, List.sum_ofFn]

theorem sortedCounts_perm (count : List ℕ) : (sortedCounts count).Perm (count.zipIdx.map Prod.swap) :=
  List.mergeSort_perm _ _

/-- **C92**: the sorted lists contain every image once with its count, in decreasing order; images with the same count
keep their order. -/
theorem C92_sorted_counts (count : List ℕ) :
    (∀ i c, (i, c) ∈ sortedCounts count ↔ count[i]? = some c) ∧ (sortedCounts count).length = count.length ∧
    (sortedCounts count).Pairwise (fun a b => b.2 ≤ a.2) ∧
    ∀ i j c, i < j → count[i]? = some c → count[j]? = some c → [(i, c), (j, c)].Sublist (sortedCounts count) := by
  have hmem : ∀ i c, (i, c) ∈ count.zipIdx.map Prod.swap ↔ count[i]? = some c := by
    intro i c
    rw [List.mem_map]
    constructor
    · rintro ⟨⟨a, b⟩, h, he⟩
      cases he
      exact List.mem_zipIdx_iff_getElem?.mp h
    · intro h
      exact ⟨(c, i), List.mem_zipIdx_iff_getElem?.mpr h, rfl⟩
  refine ⟨fun i c => (sortedCounts_perm count).mem_iff.trans (hmem i c), ?_, ?_, ?_⟩
  · rw [(sortedCounts_perm count).length_eq]; simp
  · refine (List.pairwise_mergeSort (le := fun a b : ℕ × ℕ => decide (b.2 ≤ a.2)) ?_ ?_ _).imp ?_
    · intro a b c h1 h2
      have h1 := of_decide_eq_true h1
      have h2 := of_decide_eq_true h2
      exact decide_eq_true (h2.trans h1)
    · intro a b
      rcases le_total b.2 a.2 with h | h <;> simp [h]
    · exact fun h => of_decide_eq_true h
  · intro i j c hij hi hj
    have hsub : [(i, c), (j, c)].Sublist (count.zipIdx.map Prod.swap) := by
      obtain ⟨hi', hi⟩ := List.getElem?_eq_some_iff.mp hi
      obtain ⟨hj', hj⟩ := List.getElem?_eq_some_iff.mp hj
      have hlen : (count.zipIdx.map Prod.swap).length = count.length := by simp
      rw [List.sublist_iff_exists_fin_orderEmbedding_get_eq]
      have hmono : StrictMono (fun a : Fin [(i, c), (j, c)].length =>
          (if a.1 = 0 then ⟨i, hlen ▸ hi'⟩ else ⟨j, hlen ▸ hj'⟩ : Fin (count.zipIdx.map Prod.swap).length)) := by
        intro a b hab
        have ha : a.1 = 0 := by have h1 := b.2; have h2 : a.1 < b.1 := hab; simp only [List.length_cons, List.length_nil] at h1; omega
        have hb : b.1 ≠ 0 := by omega
        simp only [ha, hb, if_true, if_false]
        exact hij
      refine ⟨OrderEmbedding.ofStrictMono _ hmono, ?_⟩
      intro a
      obtain ⟨a, ha⟩ := a
      have : a = 0 ∨ a = 1 := by simp at ha; omega
      rcases this with rfl | rfl
      · simp [OrderEmbedding.ofStrictMono, hi]
      · simp [OrderEmbedding.ofStrictMono, hj]
    apply List.sublist_mergeSort _ _ _ hsub
    · intro a b c h1 h2
      have h1 := of_decide_eq_true h1
      have h2 := of_decide_eq_true h2
      exact decide_eq_true (h2.trans h1)
    · intro a b
      rcases le_total b.2 a.2 with h | h <;> simp [h]
    · simp

/-- **C92**: `get_sorted_bbox_count_idxs` lists every image with the number of its annotated boxes, and every image with
the number of its predicted boxes, in decreasing order. -/
theorem C92_sorted_images (images : List (Image ℚ K)) :
    (∀ i c, (i, c) ∈ (sortedBoxCounts images).1 ↔ ∃ im, images[i]? = some im ∧ c = im.labels.length) ∧
    (∀ i c, (i, c) ∈ (sortedBoxCounts images).2 ↔ ∃ im, images[i]? = some im ∧ c = ∑ k, (im.preds k).length) ∧
    (sortedBoxCounts images).1.length = images.length ∧ (sortedBoxCounts images).2.length = images.length ∧
    (sortedBoxCounts images).1.Pairwise (fun a b => b.2 ≤ a.2) ∧
    (sortedBoxCounts images).2.Pairwise (fun a b => b.2 ≤ a.2) := by
  obtain ⟨l1, l2, hc⟩ := C92_counts images
  obtain ⟨a1, a2, a3, -⟩ := C92_sorted_counts (objectCounts images).1
  obtain ⟨b1, b2, b3, -⟩ := C92_sorted_counts (objectCounts images).2
  refine ⟨fun i c => (a1 i c).trans ?_, fun i c => (b1 i c).trans ?_, a2.trans l1, b2.trans l2, a3, b3⟩
  · by_cases hi : i < images.length
    · rw [(hc i hi).1, List.getElem?_eq_getElem hi]
      simp [eq_comm]
    · rw [List.getElem?_eq_none (by omega), List.getElem?_eq_none (by omega)]
      simp
  · by_cases hi : i < images.length
    · rw [(hc i hi).2, List.getElem?_eq_getElem hi]
      simp [eq_comm]
    · rw [List.getElem?_eq_none (by omega), List.getElem?_eq_none (by omega)]
      simp

/-! ## Sizes -/

/-- The sizes of the boxes with a name, in the order of the data. -/
def sizesOf (names : Fin K → Option N) (boxes : List (Fin K × Box ℚ)) (c : N) : List ℚ :=
  (boxes.filter (fun e => decide (names e.1 = some c))).map (fun e => (e.2.x2 - e.2.x1) * (e.2.y2 - e.2.y1))

theorem addAreas_spec (names : Fin K → Option N) (boxes : List (Fin K × Box ℚ)) (d : List (N × List ℚ))
    (hd : (d.map Prod.fst).Nodup) :
    ((addAreas names d boxes).map Prod.fst).Nodup ∧ ∀ c, (addAreas names d boxes).lookup c =
      if sizesOf names boxes c = [] then d.lookup c else some ((d.lookup c).getD [] ++ sizesOf names boxes c) := by
  induction boxes generalizing d with
  | nil => exact ⟨hd, fun c => by simp [addAreas, sizesOf]⟩
  | cons e t ih =>
    cases hn : names e.1 with
    | none =>
      have h1 : addAreas names d (e :: t) = addAreas names d t := by simp [addAreas, hn]
      have h2 : ∀ c, sizesOf names (e :: t) c = sizesOf names t c := fun c => by simp [sizesOf, hn]
      rw [h1]
      simp only [h2]
      exact ih d hd
    | some c' =>
      have h1 : addAreas names d (e :: t) = addAreas names (upsert d c' (fun v => v.getD [] ++ [e.2.area])) t := by
        simp [addAreas, hn]
      rw [h1]
      obtain ⟨i1, i2⟩ := ih _ (nodup_upsert d c' (fun v => v.getD [] ++ [e.2.area]) hd)
      refine ⟨i1, fun c => ?_⟩
      rw [i2 c, lookup_upsert]
      by_cases hc : c = c'
      · subst hc
        have h2 : sizesOf names (e :: t) c = e.2.area :: sizesOf names t c := by simp [sizesOf, hn, Box.area]
        rw [h2]
        simp only [if_true, Option.getD_some, reduceCtorEq, if_false]
        split_ifs with h <;> simp [h]
      · have h2 : sizesOf names (e :: t) c = sizesOf names t c := by
          have : ¬ c' = c := fun h => hc h.symm
          simp [sizesOf, hn, this]
        rw [h2]
        simp only [hc, if_false]

/-- The dictionaries before sorting. -/
theorem sizes_spec (names : Fin K → Option N) (f : Image ℚ K → List (Fin K × Box ℚ)) (images : List (Image ℚ K)) :
    ((images.foldl (fun d im => addAreas names d (f im)) []).map Prod.fst).Nodup ∧
    ∀ c v, (c, v) ∈ images.foldl (fun d im => addAreas names d (f im)) [] ↔
      v = sizesOf names (images.flatMap f) c ∧ v ≠ [] := by
  have h : images.foldl (fun d im => addAreas names d (f im)) [] = addAreas names [] (images.flatMap f) := by
    unfold addAreas
    rw [List.foldl_flatMap]
  rw [h]
  obtain ⟨h1, h2⟩ := addAreas_spec names (images.flatMap f) [] (by simp)
  refine ⟨h1, fun c v => ?_⟩
  rw [← lookup_of_mem _ h1, h2]
  split_ifs with he
  · rw [he]
    simp only [List.lookup_nil, reduceCtorEq, false_iff, not_and, not_not]
    exact id
  · simp only [List.lookup_nil, Option.getD_none, List.nil_append, Option.some.injEq]
    constructor
    · rintro rfl; exact ⟨rfl, he⟩
    · exact fun h => h.1.symm

omit [DecidableEq N] in
theorem sortByNumber_perm (d : List (N × List ℚ)) : (sortByNumber d).Perm d := List.mergeSort_perm _ _

/-- **C92**: the size distributions contain exactly the named classes with at least one box, once, with the sizes of all
their boxes in the order of the data; `sort` only changes the order, to a decreasing number of boxes. -/
theorem C92_sizes (names : Fin K → Option N) (sort : Bool) (images : List (Image ℚ K)) :
    (((sizeDistribution names sort images).1.map Prod.fst).Nodup ∧
      ((sizeDistribution names sort images).2.map Prod.fst).Nodup) ∧
    (∀ c v, (c, v) ∈ (sizeDistribution names sort images).1 ↔ v = sizesOf names (images.flatMap labBoxes) c ∧ v ≠ []) ∧
    (∀ c v, (c, v) ∈ (sizeDistribution names sort images).2 ↔ v = sizesOf names (images.flatMap predBoxes) c ∧ v ≠ []) ∧
    (sort = true → (sizeDistribution names sort images).1.Pairwise (fun a b => b.2.length ≤ a.2.length) ∧
      (sizeDistribution names sort images).2.Pairwise (fun a b => b.2.length ≤ a.2.length)) := by
  obtain ⟨l1, l2⟩ := sizes_spec names labBoxes images
  obtain ⟨p1, p2⟩ := sizes_spec names predBoxes images
  have hsorted : ∀ d : List (N × List ℚ), (sortByNumber d).Pairwise (fun a b => b.2.length ≤ a.2.length) := by
    intro d
    refine (List.pairwise_mergeSort (le := fun a b : N × List ℚ => decide (b.2.length ≤ a.2.length)) ?_ ?_ _).imp ?_
    · intro a b c h1 h2
      have h1 := of_decide_eq_true h1
      have h2 := of_decide_eq_true h2
      exact decide_eq_true (h2.trans h1)
    · intro a b
      rcases le_total b.2.length a.2.length with h | h <;> simp [h]
    · exact fun h => of_decide_eq_true h
  cases sort with
  | false => exact ⟨⟨l1, p1⟩, l2, p2, by simp⟩
  | true =>
    refine ⟨⟨((sortByNumber_perm _).map _).nodup_iff.mpr l1, ((sortByNumber_perm _).map _).nodup_iff.mpr p1⟩,
      fun c v => (sortByNumber_perm _).mem_iff.trans (l2 c v), fun c v => (sortByNumber_perm _).mem_iff.trans (p2 c v),
      fun _ => ⟨hsorted _, hsorted _⟩⟩

/-! ## Class frequencies -/

/-- The number of boxes with a name. -/
def numNamed (names : Fin K → Option N) (classes : List (Fin K)) (c : N) : ℕ :=
  classes.countP (fun k => decide (names k = some c))

theorem sum_upsert (d : List (N × ℕ)) (k : N) :
    ((upsert d k (fun v => v.getD 0 + 1)).map Prod.snd).sum = (d.map Prod.snd).sum + 1 := by
  induction d with
  | nil => simp [upsert]
  | cons e t ih =>
    obtain ⟨k', v⟩ := e
    unfold upsert
    split_ifs
    · simp only [List.map_cons, List.sum_cons, Option.getD_some]; omega
    · simp only [List.map_cons, List.sum_cons, ih]; omega

theorem addInstances_ok (names : Fin K → Option N) (classes : List (Fin K)) (d : List (N × ℕ))
    (hd : (d.map Prod.fst).Nodup) (hn : ∀ k ∈ classes, names k ≠ none) :
    ∃ d', addInstances names d classes = .ok d' ∧ (d'.map Prod.fst).Nodup ∧
      (d'.map Prod.snd).sum = (d.map Prod.snd).sum + classes.length ∧
      ∀ c, d'.lookup c = if numNamed names classes c = 0 then d.lookup c
        else some ((d.lookup c).getD 0 + numNamed names classes c) := by
  induction classes generalizing d with
  | nil => exact ⟨d, rfl, hd, by simp, fun c => by simp [numNamed]⟩
  | cons k t ih =>
    obtain ⟨c', hc'⟩ := Option.ne_none_iff_exists'.mp (hn k (by simp))
    obtain ⟨d', h1, h2, h3, h4⟩ := ih (upsert d c' (fun v => v.getD 0 + 1))
      (nodup_upsert d c' (fun v => v.getD 0 + 1) hd) (fun k hk => hn k (List.mem_cons_of_mem _ hk))
    refine ⟨d', ?_, h2, ?_, fun c => ?_⟩
    · rw [← h1]
      unfold addInstances
      rw [List.foldlM_cons, hc']
      rfl
    · rw [h3, sum_upsert, List.length_cons]; omega
    · rw [h4 c, lookup_upsert]
      by_cases hc : c = c'
      · subst hc
        have h5 : numNamed names (k :: t) c = numNamed names t c + 1 := by simp [numNamed, hc']
        rw [h5]
        simp only [if_true, Option.getD_some, Nat.add_eq_zero_iff, Nat.one_ne_zero, and_false, if_false]
        split_ifs with h
        · rw [h]
        · congr 1; omega
      · have : ¬ c' = c := fun h => hc h.symm
        have h5 : numNamed names (k :: t) c = numNamed names t c := by simp [numNamed, hc', this]
        rw [h5]
        simp only [hc, if_false]

theorem addInstances_error (names : Fin K → Option N) (classes : List (Fin K)) (d : List (N × ℕ))
    (hn : ∃ k ∈ classes, names k = none) : addInstances names d classes = .error "KeyError" := by
  induction classes generalizing d with
  | nil => simp at hn
  | cons k t ih =>
    unfold addInstances
    rw [List.foldlM_cons]
    cases hk : names k with
    | none => rfl
    | some c =>
      obtain ⟨k', hk', hk''⟩ := hn
      rcases List.mem_cons.mp hk' with rfl | hk'
      · rw [hk] at hk''; cases hk''
      · exact ih _ ⟨k', hk', hk''⟩

theorem foldlM_instances (names : Fin K → Option N) (f : Image ℚ K → List (Fin K)) (images : List (Image ℚ K))
    (d : List (N × ℕ)) :
    images.foldlM (fun d im => addInstances names d (f im)) d = addInstances names d (images.flatMap f) := by
  induction images generalizing d with
  | nil => rfl
  | cons im t ih =>
    rw [List.foldlM_cons, List.flatMap_cons]
    unfold addInstances
    rw [List.foldlM_append]
    congr 1
    funext d
    exact ih d

/-- The classes of all annotated boxes. -/
def labClasses (images : List (Image ℚ K)) : List (Fin K) := images.flatMap (fun im => im.labels.map Prod.snd)

/-- The classes of all predicted boxes. -/
def predClasses (images : List (Image ℚ K)) : List (Fin K) :=
  images.flatMap (fun im => (List.finRange K).flatMap (fun k => List.replicate (im.preds k).length k))

theorem labClasses_eq (images : List (Image ℚ K)) :
    images.flatMap (fun im => (labBoxes im).map Prod.fst) = labClasses images := by
  unfold labClasses labBoxes
  simp only [List.map_map]
  rfl

theorem predClasses_eq (images : List (Image ℚ K)) :
    images.flatMap (fun im => (predBoxes im).map Prod.fst) = predClasses images := by
  unfold predClasses predBoxes
  simp only [List.map_flatMap, List.map_map]
  congr 1
  funext im
  congr 1
  funext k
  rw [show (Prod.fst ∘ fun p : Pred ℚ => (k, p.box)) = (fun _ => k) from rfl, List.map_const']

theorem normalize_spec (d : List (N × ℕ)) (hd : (d.map Prod.fst).Nodup) (names : Fin K → Option N) (classes : List (Fin K))
    (hs : (d.map Prod.snd).sum = classes.length)
    (hl : ∀ c, d.lookup c = if numNamed names classes c = 0 then none else some (numNamed names classes c)) :
    ((normalizeByTotal d).map Prod.fst).Nodup ∧ (∀ c v, (c, v) ∈ normalizeByTotal d ↔ numNamed names classes c ≠ 0 ∧
      v = (rint (100 * ((numNamed names classes c : ℚ) / (classes.length + eps))) : ℚ) / 100) := by
  constructor
  · unfold normalizeByTotal
    rw [List.map_map]
    exact hd
  · intro c v
    unfold normalizeByTotal
    rw [List.mem_map, hs]
    constructor
    · rintro ⟨⟨c', m⟩, hm, he⟩
      cases he
      have := (lookup_of_mem d hd c' m).mpr hm
      rw [hl] at this
      split_ifs at this with h0
      exact ⟨h0, by rw [← Option.some.inj this]⟩
    · rintro ⟨h0, rfl⟩
      refine ⟨(c, numNamed names classes c), ?_, rfl⟩
      rw [← lookup_of_mem d hd, hl, if_neg h0]

/-- What the two dictionaries of class frequencies contain. -/
theorem classDistribution_spec (names : Fin K → Option N) (images : List (Image ℚ K))
    (h : ∀ k ∈ labClasses images ++ predClasses images, names k ≠ none) :
    ∃ out, classDistribution names images = .ok out ∧ (out.1.map Prod.fst).Nodup ∧ (out.2.map Prod.fst).Nodup ∧
      (∀ c v, (c, v) ∈ out.1 ↔ numNamed names (labClasses images) c ≠ 0 ∧
        v = (rint (100 * ((numNamed names (labClasses images) c : ℚ) / ((labClasses images).length + eps))) : ℚ) / 100) ∧
      (∀ c v, (c, v) ∈ out.2 ↔ numNamed names (predClasses images) c ≠ 0 ∧
        v = (rint (100 * ((numNamed names (predClasses images) c : ℚ) / ((predClasses images).length + eps))) : ℚ) / 100) := by
  obtain ⟨d, h1, h2, h3, h4⟩ := addInstances_ok names (labClasses images) [] (by simp)
    (fun k hk => h k (List.mem_append_left _ hk))
  obtain ⟨e, g1, g2, g3, g4⟩ := addInstances_ok names (predClasses images) [] (by simp)
    (fun k hk => h k (List.mem_append_right _ hk))
  simp only [List.lookup_nil, Option.getD_none, Nat.zero_add, List.map_nil, List.sum_nil] at h3 h4 g3 g4
  obtain ⟨n1, n2⟩ := normalize_spec d h2 names (labClasses images) h3 h4
  obtain ⟨m1, m2⟩ := normalize_spec e g2 names (predClasses images) g3 g4
  refine ⟨(normalizeByTotal d, normalizeByTotal e), ?_, n1, m1, n2, m2⟩
  unfold classDistribution
  rw [foldlM_instances names (fun im => (labBoxes im).map Prod.fst), labClasses_eq, h1]
  dsimp only [bind, Except.bind]
  rw [foldlM_instances names (fun im => (predBoxes im).map Prod.fst), predClasses_eq, g1]
  rfl

/-- **C92**: the class frequencies are refused if and only if a class in the data has no name (the size distribution
leaves such classes out). -/
theorem C92_unnamed (names : Fin K → Option N) (images : List (Image ℚ K)) :
    (∃ e, classDistribution names images = .error e) ↔ ∃ k ∈ labClasses images ++ predClasses images, names k = none := by
  constructor
  · rintro ⟨e, he⟩
    by_contra hc
    push Not at hc
    obtain ⟨out, ho, _⟩ := classDistribution_spec names images hc
    rw [ho] at he
    cases he
  · rintro ⟨k, hk, hn⟩
    refine ⟨"KeyError", ?_⟩
    unfold classDistribution
    rw [foldlM_instances names (fun im => (labBoxes im).map Prod.fst), labClasses_eq,
      foldlM_instances names (fun im => (predBoxes im).map Prod.fst), predClasses_eq]
    by_cases hl : ∃ k ∈ labClasses images, names k = none
    · rw [addInstances_error names _ _ hl]
      rfl
    · have hl' : ∀ k ∈ labClasses images, names k ≠ none := fun k hk h => hl ⟨k, hk, h⟩
      obtain ⟨d, h1, -⟩ := addInstances_ok names (labClasses images) [] (by simp) hl'
      rw [h1]
      dsimp only [bind, Except.bind]
      rw [addInstances_error names _ _ ⟨k, (List.mem_append.mp hk).resolve_left (fun h => hl ⟨k, h, hn⟩), hn⟩]

/-- The error of one rounded frequency. -/
theorem frequency_error (m t : ℕ) (hm : m ≤ t) (ht : 0 < t) :
    |(rint (100 * ((m : ℚ) / (t + eps))) : ℚ) / 100 - m / t| ≤ 1 / 200 + 1 / 1000000 := by
  have ht' : (0 : ℚ) < t := by exact_mod_cast ht
  have hm' : (m : ℚ) ≤ t := by exact_mod_cast hm
  have hm0 : (0 : ℚ) ≤ m := by positivity
  have he : (eps : ℚ) = 1 / 1000000 := rfl
  have h1 := abs_le.mp (abs_sub_rint_le (100 * ((m : ℚ) / (t + eps))))
  have h2 : (m : ℚ) / (t + eps) ≤ m / t := div_le_div_of_nonneg_left hm0 ht' (by rw [he]; linarith)
  have h3 : (m : ℚ) / t - m / (t + eps) ≤ 1 / 1000000 := by
    have hp : (0 : ℚ) < t + eps := by rw [he]; linarith
    rw [div_sub_div _ _ ht'.ne' hp.ne', div_le_iff₀ (by positivity), he]
    have h1t : (1 : ℚ) ≤ t := by exact_mod_cast ht
    nlinarith
  rw [abs_le]
  constructor <;> linarith [h1.1, h1.2]

/-- **C92**, partial: every class with a box has one entry, and its value differs from its share of the boxes by at most
0.005001. That the values are the shares, or sum to 1, is false. -/
theorem C92_distribution_partial (names : Fin K → Option N) (images : List (Image ℚ K)) (out : List (N × ℚ) × List (N × ℚ))
    (h : classDistribution names images = .ok out) :
    (out.1.map Prod.fst).Nodup ∧ (out.2.map Prod.fst).Nodup ∧
    (∀ c, c ∈ out.1.map Prod.fst ↔ ∃ k ∈ labClasses images, names k = some c) ∧
    (∀ c, c ∈ out.2.map Prod.fst ↔ ∃ k ∈ predClasses images, names k = some c) ∧
    (∀ c v, (c, v) ∈ out.1 → |v - (numNamed names (labClasses images) c : ℚ) / (labClasses images).length| ≤
      1 / 200 + 1 / 1000000) ∧
    (∀ c v, (c, v) ∈ out.2 → |v - (numNamed names (predClasses images) c : ℚ) / (predClasses images).length| ≤
      1 / 200 + 1 / 1000000) := by
  have hn : ∀ k ∈ labClasses images ++ predClasses images, names k ≠ none := by
    by_contra hc
    push Not at hc
    obtain ⟨e, he⟩ := (C92_unnamed names images).mpr hc
    rw [h] at he
    cases he
  obtain ⟨out', ho, n1, n2, m1, m2⟩ := classDistribution_spec names images hn
  rw [h] at ho
  cases Except.ok.inj ho
  have hpos : ∀ (cl : List (Fin K)) c, numNamed names cl c ≠ 0 ↔ ∃ k ∈ cl, names k = some c := by
    intro cl c
    rw [← Nat.pos_iff_ne_zero]
    unfold numNamed
    rw [List.countP_pos_iff]
    simp
  have key : ∀ (cl : List (Fin K)) (o : List (N × ℚ)), (∀ c v, (c, v) ∈ o ↔ numNamed names cl c ≠ 0 ∧
      v = (rint (100 * ((numNamed names cl c : ℚ) / (cl.length + eps))) : ℚ) / 100) →
      (∀ c, c ∈ o.map Prod.fst ↔ ∃ k ∈ cl, names k = some c) ∧
      (∀ c v, (c, v) ∈ o → |v - (numNamed names cl c : ℚ) / cl.length| ≤ 1 / 200 + 1 / 1000000) := by
    intro cl o ho
    constructor
    · intro c
      rw [← hpos, List.mem_map]
      constructor
      · rintro ⟨⟨c', v⟩, hm, rfl⟩
        exact ((ho c' v).mp hm).1
      · intro h0
        exact ⟨(c, _), (ho c _).mpr ⟨h0, rfl⟩, rfl⟩
    · intro c v hm
      obtain ⟨h0, rfl⟩ := (ho c v).mp hm
      have hle : numNamed names cl c ≤ cl.length := List.countP_le_length
      exact frequency_error _ _ hle (by omega)
  exact ⟨n1, n2, (key _ _ m1).1, (key _ _ m2).1, (key _ _ m1).2, (key _ _ m2).2⟩

/-- **C92** fails: a class with less than half a percent of the boxes has frequency 0 in the result. -/
theorem C92_not_rare (names : Fin K → Option N) (images : List (Image ℚ K)) (out : List (N × ℚ) × List (N × ℚ))
    (h : classDistribution names images = .ok out) (c : N) (v : ℚ) (hm : (c, v) ∈ out.1)
    (hr : 200 * numNamed names (labClasses images) c < (labClasses images).length) :
    0 < (numNamed names (labClasses images) c : ℚ) / (labClasses images).length ∧ v = 0 := by
  have hn : ∀ k ∈ labClasses images ++ predClasses images, names k ≠ none := by
    by_contra hc
    push Not at hc
    obtain ⟨e, he⟩ := (C92_unnamed names images).mpr hc
    rw [h] at he
    cases he
  obtain ⟨out', ho, -, -, m1, -⟩ := classDistribution_spec names images hn
  rw [h] at ho
  cases Except.ok.inj ho
  obtain ⟨h0, rfl⟩ := (m1 c v).mp hm
  have ht : 0 < (labClasses images).length := by omega
  have ht' : (0 : ℚ) < (labClasses images).length := by exact_mod_cast ht
  have hm0 : (0 : ℚ) < numNamed names (labClasses images) c := by exact_mod_cast Nat.pos_of_ne_zero h0
  refine ⟨by positivity, ?_⟩
  have he : (eps : ℚ) = 1 / 1000000 := rfl
  have hx : 100 * ((numNamed names (labClasses images) c : ℚ) / ((labClasses images).length + eps)) < 1 / 2 := by
    have hp : (0 : ℚ) < (labClasses images).length + eps := by rw [he]; linarith
    rw [← mul_div_assoc, div_lt_iff₀ hp, he]
    have : (200 : ℚ) * numNamed names (labClasses images) c < (labClasses images).length := by exact_mod_cast hr
    linarith
  have hx0 : 0 ≤ 100 * ((numNamed names (labClasses images) c : ℚ) / ((labClasses images).length + eps)) := by
    have hp : (0 : ℚ) < (labClasses images).length + eps := by rw [he]; linarith
    positivity
  have h1 := rint_nonneg hx0
  have h2 := rint_sub_le (100 * ((numNamed names (labClasses images) c : ℚ) / ((labClasses images).length + eps)))
  have h3 : rint (100 * ((numNamed names (labClasses images) c : ℚ) / ((labClasses images).length + eps))) < 1 := by
    have : ((rint (100 * ((numNamed names (labClasses images) c : ℚ) / ((labClasses images).length + eps))) : ℤ) : ℚ) < 1 := by
      linarith
    exact_mod_cast this
  have h4 : rint (100 * ((numNamed names (labClasses images) c : ℚ) / ((labClasses images).length + eps))) = 0 := by omega
  rw [h4]
  simp

/-- One image for each class with one annotated box. -/
def oneEach (K : ℕ) : List (Image ℚ K) := (List.finRange K).map (fun k => ⟨fun _ => [], [(⟨0, 0, 1, 1⟩, k)]⟩)

theorem oneEach_lab (K : ℕ) : labClasses (oneEach K) = List.finRange K := by
  unfold labClasses oneEach
  rw [List.flatMap_map]
  simp

theorem oneEach_count (K : ℕ) (k : Fin K) : numNamed some (labClasses (oneEach K)) k = 1 := by
  rw [oneEach_lab, numNamed]
  have := List.count_eq_one_of_mem (List.nodup_finRange K) (List.mem_finRange k)
  rw [← this, List.count]
  congr 1
  funext j
  rw [Bool.eq_iff_iff, decide_eq_true_iff, beq_iff_eq, Option.some_inj]

/-- **C92** fails: with 201 equally frequent classes all frequencies are 0; with three they sum to 0.99. -/
theorem C92_not_sum :
    (∃ out, classDistribution some (oneEach 201) = .ok out ∧ out.1.length = 201 ∧ ∀ e ∈ out.1, e.2 = 0) ∧
    (∃ out, classDistribution some (oneEach 3) = .ok out ∧ (out.1.map Prod.snd).sum = 99 / 100) := by
  constructor
  · have hne : ∀ k ∈ labClasses (oneEach 201) ++ predClasses (oneEach 201), some k ≠ none := fun _ _ => by simp
    obtain ⟨out, ho, n1, -, m1, -⟩ := classDistribution_spec some (oneEach 201) hne
    have hcount := oneEach_count 201
    refine ⟨out, ho, ?_, ?_⟩
    · have hall : (out.1.map Prod.fst).Perm (List.finRange 201) := by
        rw [List.perm_ext_iff_of_nodup n1 (List.nodup_finRange 201)]
        intro k
        simp only [List.mem_finRange, iff_true, List.mem_map]
        exact ⟨(k, _), (m1 k _).mpr ⟨by rw [hcount]; norm_num, rfl⟩, rfl⟩
      have := hall.length_eq
      simpa using this
    · rintro ⟨k, v⟩ hv
      exact (C92_not_rare some (oneEach 201) out ho k v hv (by rw [hcount, oneEach_lab]; simp)).2
  · exact ⟨_, rfl, by decide +kernel⟩

/-- Two images; sizes, counts and frequencies. -/
def twoImages : List (Image ℚ 2) :=
  [⟨fun _ => [], [(⟨0, 0, 2, 3⟩, 1)]⟩, ⟨![[⟨⟨0, 0, 1, 1⟩, 1/2⟩], []], [(⟨0, 0, 1, 1⟩, 0), (⟨0, 0, 1, 4⟩, 1)]⟩]

example : sizeDistribution some false twoImages = ([(1, [6, 4]), (0, [1])], [(0, [1])]) := by decide +kernel

example : sizeDistribution (fun k => if k = 1 then some "cat" else none) false twoImages = ([("cat", [6, 4])], []) := by
  decide +kernel

example : (classDistribution some twoImages).toOption = some ([(1, 67/100), (0, 33/100)], [(0, 1)]) := by decide +kernel

example : (objectCounts twoImages).1 = [1, 2] ∧ sortedCounts [1, 2] = [(1, 2), (0, 1)] :=
  ⟨by decide +kernel, by simp [sortedCounts, List.mergeSort, List.MergeSort.Internal.splitInTwo]⟩

end Cleanlab.Props
