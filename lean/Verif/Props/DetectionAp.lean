import Verif.Props.Detection

/-!
# C41, C72: average precision, confusion counts and metrics of object detection
-/

namespace Cleanlab.Props

open Np Cleanlab.Detection

variable {F : Type} [Field F] [LinearOrder F]

/-! ## C41 -/

omit [Field F] in
theorem mem_suffixMax (l : List F) : ∀ x ∈ suffixMax l, x ∈ l := by
  induction l with
  | nil => simp [suffixMax]
  | cons y ys ih =>
    cases ys with
    | nil => simp [suffixMax]
    | cons z zs =>
      intro x hx
      unfold suffixMax at hx
      cases hs : suffixMax (z :: zs) with
      | nil => rw [hs] at hx; simp at hx; simp [hx]
      | cons m ms =>
        rw [hs] at hx ih
        simp only at hx
        rcases List.mem_cons.mp hx with h | h
        · rcases max_choice y m with h2 | h2
          · rw [h, h2]; simp
          · rw [h, h2]
            exact List.mem_cons_of_mem _ (ih m (by simp))
        · exact List.mem_cons_of_mem _ (ih x h)

omit [Field F] in
theorem length_suffixMax (l : List F) : (suffixMax l).length = l.length := by
  induction l with
  | nil => rfl
  | cons y ys ih =>
    cases ys with
    | nil => rfl
    | cons z zs =>
      unfold suffixMax
      cases hs : suffixMax (z :: zs) with
      | nil => rw [hs] at ih; simp at ih
      | cons m ms =>
        rw [hs] at ih
        simp only [List.length_cons] at ih ⊢
        omega

/-- The sum of recall steps weighted by precision. -/
def apSum (r q : List F) : F :=
  (((r.zip (r.tail.zip q)).filter (fun x => x.2.1 ≠ x.1)).map (fun x => (x.2.1 - x.1) * x.2.2)).sum

theorem apSum_cons (r₀ r₁ : F) (rs : List F) (q₀ : F) (qs : List F) :
    apSum (r₀ :: r₁ :: rs) (q₀ :: qs) = (r₁ - r₀) * q₀ + apSum (r₁ :: rs) qs := by
  unfold apSum
  simp only [List.tail_cons, List.zip_cons_cons, List.filter_cons]
  by_cases h : r₁ = r₀
  · simp [h]
  · simp [h]

theorem apSum_short (r₀ : F) (q : List F) : apSum [r₀] q = 0 := by unfold apSum; simp

variable [IsStrictOrderedRing F]

theorem apSum_range (rs : List F) : ∀ (r₀ : F) (qs : List F), (r₀ :: rs).Pairwise (· ≤ ·) → (∀ x ∈ r₀ :: rs, x ≤ 1) →
    (∀ q ∈ qs, 0 ≤ q ∧ q ≤ 1) → 0 ≤ apSum (r₀ :: rs) qs ∧ apSum (r₀ :: rs) qs ≤ 1 - r₀ := by
  induction rs with
  | nil =>
    intro r₀ qs _ h1 _
    rw [apSum_short]
    exact ⟨le_rfl, sub_nonneg.mpr (h1 r₀ (by simp))⟩
  | cons r₁ rs ih =>
    intro r₀ qs hp h1 hq
    have hle : r₀ ≤ r₁ := (List.pairwise_cons.mp hp).1 r₁ (by simp)
    cases qs with
    | nil =>
      have : apSum (r₀ :: r₁ :: rs) ([] : List F) = 0 := by unfold apSum; simp
      rw [this]
      exact ⟨le_rfl, sub_nonneg.mpr (h1 r₀ (by simp))⟩
    | cons q₀ qs =>
      rw [apSum_cons]
      obtain ⟨i1, i2⟩ := ih r₁ qs (List.pairwise_cons.mp hp).2 (fun x hx => h1 x (by simp [hx]))
        (fun q hq' => hq q (by simp [hq']))
      obtain ⟨q1, q2⟩ := hq q₀ (by simp)
      have a1 := mul_nonneg (sub_nonneg.mpr hle) q1
      have a2 : (r₁ - r₀) * q₀ ≤ (r₁ - r₀) * 1 := mul_le_mul_of_nonneg_left q2 (sub_nonneg.mpr hle)
      constructor <;> linarith

/-- **C41.** For non-decreasing recalls in `[0, 1]` and precisions in `[0, 1]` the average precision lies in
`[0, 1]`. -/
theorem C41_range (recalls precisions : List F) (hmono : recalls.Pairwise (· ≤ ·))
    (hr : ∀ x ∈ recalls, 0 ≤ x ∧ x ≤ 1) (hp : ∀ x ∈ precisions, 0 ≤ x ∧ x ≤ 1) :
    0 ≤ averagePrecision recalls precisions ∧ averagePrecision recalls precisions ≤ 1 := by
  have h := apSum_range (recalls ++ [1]) 0 (suffixMax (0 :: (precisions ++ [0]))).tail ?_ ?_ ?_
  · rw [sub_zero] at h
    exact h
  · rw [List.pairwise_cons, List.pairwise_append]
    refine ⟨?_, hmono, List.pairwise_singleton _ _, ?_⟩
    · intro x hx
      rcases List.mem_append.mp hx with h | h
      · exact (hr x h).1
      · rw [List.mem_singleton.mp h]; exact zero_le_one
    · intro x hx y hy
      rw [List.mem_singleton.mp hy]
      exact (hr x hx).2
  · intro x hx
    rcases List.mem_cons.mp hx with h | h
    · rw [h]; exact zero_le_one
    · rcases List.mem_append.mp h with h | h
      · exact (hr x h).2
      · rw [List.mem_singleton.mp h]
  · intro q hq
    have := mem_suffixMax _ q (List.mem_of_mem_tail hq)
    rcases List.mem_cons.mp this with h | h
    · rw [h]; exact ⟨le_rfl, zero_le_one⟩
    · rcases List.mem_append.mp h with h | h
      · exact hp q h
      · rw [List.mem_singleton.mp h]; exact ⟨le_rfl, zero_le_one⟩

theorem suffixMax_ones (n : ℕ) : suffixMax (List.replicate (n + 1) (1 : F) ++ [0]) = List.replicate (n + 1) 1 ++ [0] := by
  induction n with
  | zero => simp [suffixMax]
  | succ n ih =>
    rw [List.replicate_succ, List.cons_append]
    have hcons : List.replicate (n + 1) (1 : F) ++ [0] = 1 :: (List.replicate n 1 ++ [0]) := by
      rw [List.replicate_succ, List.cons_append]
    rw [hcons] at ih ⊢
    unfold suffixMax
    rw [ih]
    simp

omit [IsStrictOrderedRing F] in
theorem apSum_ones (rs : List F) : ∀ (r₀ : F) (q : F), (r₀ :: rs).getLast (by simp) = 1 →
    apSum (r₀ :: (rs ++ [1])) (List.replicate rs.length 1 ++ [q]) = 1 - r₀ := by
  induction rs with
  | nil =>
    intro r₀ q h
    simp only [List.getLast_singleton] at h
    subst h
    simp [apSum]
  | cons r₁ rs ih =>
    intro r₀ q h
    rw [List.getLast_cons (by simp)] at h
    simp only [List.cons_append, List.length_cons, List.replicate_succ]
    rw [apSum_cons, ih r₁ q h]
    ring

/-- **C41, perfect ranking.** If every precision is 1 and the last recall is 1, the average precision is 1. -/
theorem C41_perfect (recalls : List F) (hne : recalls ≠ []) (hlast : recalls.getLast hne = 1) :
    averagePrecision recalls (List.replicate recalls.length 1) = 1 := by
  have h := apSum_ones recalls 0 0 (by rw [List.getLast_cons hne]; exact hlast)
  rw [sub_zero] at h
  refine Eq.trans ?_ h
  unfold averagePrecision apSum
  obtain ⟨n, hn⟩ : ∃ n, recalls.length = n + 1 := Nat.exists_eq_succ_of_ne_zero (by simpa using hne)
  have hs : (suffixMax (0 :: (List.replicate recalls.length (1 : F) ++ [0]))).tail =
      List.replicate recalls.length 1 ++ [0] := by
    rw [hn]
    have hcons : List.replicate (n + 1) (1 : F) ++ [0] = 1 :: (List.replicate n 1 ++ [0]) := by
      rw [List.replicate_succ, List.cons_append]
    have h1 := suffixMax_ones (F := F) n
    rw [hcons] at h1 ⊢
    unfold suffixMax
    rw [h1]
    rfl
  simp only
  rw [hs]

/-! ### The whole computation for a class -/

omit [LinearOrder F] [Field F] [IsStrictOrderedRing F] in
theorem cumTrue_spec (bs : List Bool) : ∀ c, (cumTrue c bs).Pairwise (· ≤ ·) ∧
    ∀ x ∈ cumTrue c bs, c ≤ x ∧ x ≤ c + bs.countP id := by
  induction bs with
  | nil => intro c; simp [cumTrue]
  | cons b bs ih =>
    intro c
    obtain ⟨h1, h2⟩ := ih (c + b.toNat)
    have hb : (b :: bs).countP id = bs.countP id + b.toNat := by cases b <;> simp
    unfold cumTrue
    rw [List.pairwise_cons, hb]
    refine ⟨⟨fun x hx => (h2 x hx).1, h1⟩, ?_⟩
    intro x hx
    rcases List.mem_cons.mp hx with h | h
    · rw [h]; omega
    · have := h2 x h
      omega

omit [IsStrictOrderedRing F] in
theorem flagged_countP {K : ℕ} (A : ArgSort F) (thr : F) (im : Image F K) (k : Fin K) :
    (flagged A thr im k).countP (fun x => x.2) =
      (List.finRange (im.preds k).length).countP (fun i => (matchImage A thr im k).tp i) := by
  unfold flagged
  rw [List.ofFn_eq_map, List.countP_map]
  rfl

theorem total_tp_le {K : ℕ} (A : ArgSort F) (thr : F) (images : List (Image F K)) (k : Fin K) :
    (images.flatMap (fun im => flagged A thr im k)).countP (fun x => x.2) ≤
      (images.map (fun im => (labelsOf im k).length)).sum := by
  induction images with
  | nil => simp
  | cons im ims ih =>
    rw [List.flatMap_cons, List.countP_append, List.map_cons, List.sum_cons, flagged_countP]
    have := (C40_counts A thr (overlaps (im.preds k) (labelsOf im k)) (fun i => ((im.preds k).get i).prob)).2
    have h2 : (List.finRange (im.preds k).length).countP (fun i => (matchImage A thr im k).tp i) ≤
        (labelsOf im k).length := by unfold matchImage; omega
    omega

/-- **C41, end to end.** Whatever the images, annotations, predictions and threshold, the average precision of every
class lies in `[0, 1]`. -/
theorem C41_class_range {K : ℕ} (A : ArgSort F) (thr : F) (images : List (Image F K)) (k : Fin K) :
    0 ≤ apOfClass A thr images k ∧ apOfClass A thr images k ≤ 1 := by
  have he : (0 : F) < eps32 := by unfold eps32; positivity
  unfold apOfClass recallsPrecisions
  simp only
  set sorted := (sortOn A (fun x : F × Bool => -x.1) (images.flatMap (fun im => flagged A thr im k))).map (fun x => x.2)
    with hsorted
  have hcount : sorted.countP id ≤ (images.map (fun im => (labelsOf im k).length)).sum := by
    rw [hsorted, List.countP_map]
    refine le_trans (le_of_eq ?_) (total_tp_le A thr images k)
    exact (sortOn_perm A _ _).countP_eq _
  have hpos : (0 : F) < max (((images.map (fun im => (labelsOf im k).length)).sum : ℕ) : F) eps32 :=
    lt_max_of_lt_right he
  have hc := cumTrue_spec sorted 0
  refine C41_range _ _ ?_ ?_ ?_
  · rw [List.pairwise_map]
    exact hc.1.imp (fun h => div_le_div_of_nonneg_right (by exact_mod_cast h) hpos.le)
  · intro x hx
    obtain ⟨t, ht, rfl⟩ := List.mem_map.mp hx
    refine ⟨div_nonneg (Nat.cast_nonneg _) hpos.le, (div_le_one hpos).mpr (le_max_of_le_left ?_)⟩
    have := (hc.2 t ht).2
    exact_mod_cast (by omega : t ≤ (images.map (fun im => (labelsOf im k).length)).sum)
  · intro x hx
    obtain ⟨t, ht, rfl⟩ := List.mem_map.mp hx
    have hp : (0 : F) < max ((t.1 : F) + (t.2 : F)) eps32 := lt_max_of_lt_right he
    refine ⟨div_nonneg (Nat.cast_nonneg _) hp.le, (div_le_one hp).mpr (le_max_of_le_left ?_)⟩
    have : (0 : F) ≤ (t.2 : F) := Nat.cast_nonneg _
    linarith

theorem sum_map_range {α : Type} (l : List α) (f : α → F) (h : ∀ x ∈ l, 0 ≤ f x ∧ f x ≤ 1) :
    0 ≤ (l.map f).sum ∧ (l.map f).sum ≤ l.length := by
  induction l with
  | nil => simp
  | cons x l ih =>
    obtain ⟨h1, h2⟩ := ih (fun y hy => h y (by simp [hy]))
    obtain ⟨h3, h4⟩ := h x (by simp)
    simp only [List.map_cons, List.sum_cons, List.length_cons]
    push_cast
    constructor <;> linarith

/-- **C41**: the class score used as issue threshold lies in `[0, 1/4]`. -/
theorem C41_per_class_ap_range {K : ℕ} (A : ArgSort F) (images : List (Image F K)) (k : Fin K) :
    0 ≤ perClassAp A images k ∧ perClassAp A images k ≤ 1 / 4 := by
  have h := sum_map_range (iouThresholds (F := F)) (fun thr => apOfClass A thr images k)
    (fun thr _ => C41_class_range A thr images k)
  have hl : ((iouThresholds (F := F)).length : F) = 10 := by simp [iouThresholds]
  rw [hl] at h
  unfold perClassAp
  constructor <;> linarith [h.1, h.2]

/-- An image with a correct box of class 0, a missed box of class 0 and a wrong prediction of class 1. -/
def exampleImage : Image ℚ 2 :=
  ⟨fun k => if k = 0 then [⟨⟨0, 0, 2, 2⟩, 9/10⟩, ⟨⟨9, 9, 10, 10⟩, 1/2⟩] else [⟨⟨0, 0, 2, 2⟩, 8/10⟩],
    [(⟨0, 0, 2, 2⟩, 0), (⟨5, 5, 6, 6⟩, 0)]⟩

example : apOfClass (stableSort ℚ) (1/2) [exampleImage] 0 = 1/2 := by decide +kernel

/-! ### The precision envelope -/

omit [Field F] [IsStrictOrderedRing F] in
theorem suffixMax_spec (l : List F) : (suffixMax l).Pairwise (· ≥ ·) ∧
    ∀ (i : ℕ) (h : i < l.length) (h' : i < (suffixMax l).length), l[i] ≤ (suffixMax l)[i] := by
  induction l with
  | nil => simp [suffixMax]
  | cons y ys ih =>
    cases ys with
    | nil => simp [suffixMax]
    | cons z zs =>
      have hlen := length_suffixMax (z :: zs)
      cases hs : suffixMax (z :: zs) with
      | nil => rw [hs] at hlen; simp at hlen
      | cons m ms =>
        rw [hs] at ih
        have hrec : suffixMax (y :: z :: zs) = max y m :: m :: ms := by
          conv_lhs => unfold suffixMax
          rw [hs]
        generalize suffixMax (y :: z :: zs) = L at hrec
        subst hrec
        constructor
        · rw [List.pairwise_cons]
          refine ⟨fun x hx => ?_, ih.1⟩
          rcases List.mem_cons.mp hx with h | h
          · rw [h]; exact le_max_right _ _
          · exact ((List.pairwise_cons.mp ih.1).1 x h).le.trans (le_max_right _ _)
        · intro i h h'
          cases i with
          | zero => exact le_max_left _ _
          | succ i => exact ih.2 i (by simpa using h) (by simpa using h')

theorem apSum_lower (rs : List F) : ∀ (r₀ : F) (qs : List F), (r₀ :: rs).Pairwise (· ≤ ·) → qs.Pairwise (· ≥ ·) →
    (∀ q ∈ qs, 0 ≤ q) → ∀ (i : ℕ) (hi : i < rs.length) (hi' : i < qs.length),
      (rs[i] - r₀) * qs[i] ≤ apSum (r₀ :: rs) qs := by
  have hnn : ∀ (rs : List F) (r₀ : F) (qs : List F), (r₀ :: rs).Pairwise (· ≤ ·) → (∀ q ∈ qs, 0 ≤ q) →
      0 ≤ apSum (r₀ :: rs) qs := by
    intro rs
    induction rs with
    | nil => intro r₀ qs _ _; rw [apSum_short]
    | cons r₁ rs ih =>
      intro r₀ qs hp hq
      cases qs with
      | nil => unfold apSum; simp
      | cons q₀ qs =>
        rw [apSum_cons]
        exact add_nonneg (mul_nonneg (sub_nonneg.mpr ((List.pairwise_cons.mp hp).1 r₁ (by simp))) (hq q₀ (by simp)))
          (ih r₁ qs (List.pairwise_cons.mp hp).2 (fun q h => hq q (by simp [h])))
  induction rs with
  | nil => intro r₀ qs _ _ _ i hi; simp at hi
  | cons r₁ rs ih =>
    intro r₀ qs hp hs hq i hi hi'
    cases qs with
    | nil => simp at hi'
    | cons q₀ qs =>
      rw [apSum_cons]
      have hle : r₀ ≤ r₁ := (List.pairwise_cons.mp hp).1 r₁ (by simp)
      cases i with
      | zero =>
        have := hnn rs r₁ qs (List.pairwise_cons.mp hp).2 (fun q h => hq q (by simp [h]))
        simp only [List.getElem_cons_zero]
        linarith
      | succ i =>
        have h1 := ih r₁ qs (List.pairwise_cons.mp hp).2 (List.pairwise_cons.mp hs).2 (fun q h => hq q (by simp [h])) i
          (by simpa using hi) (by simpa using hi')
        have hi2 : i < qs.length := by simpa using hi'
        have h2 : qs[i] ≤ q₀ := (List.pairwise_cons.mp hs).1 _ (List.getElem_mem hi2)
        have h3 := mul_le_mul_of_nonneg_left h2 (sub_nonneg.mpr hle)
        simp only [List.getElem_cons_succ]
        linarith

/-- **C41, interpolation.** The average precision is at least the recall times the precision at every cut-off: to each
recall belongs the best precision reached at this or a higher recall. -/
theorem C41_at_least_each_cutoff (recalls precisions : List F) (hmono : recalls.Pairwise (· ≤ ·))
    (hr : ∀ x ∈ recalls, 0 ≤ x ∧ x ≤ 1) (hp : ∀ x ∈ precisions, 0 ≤ x) (i : ℕ) (h1 : i < recalls.length)
    (h2 : i < precisions.length) : recalls[i] * precisions[i] ≤ averagePrecision recalls precisions := by
  have hs := suffixMax_spec (0 :: (precisions ++ [0]))
  have hlen := length_suffixMax (0 :: (precisions ++ [0]))
  simp only [List.length_cons, List.length_append, List.length_nil] at hlen
  have hi1 : i < (recalls ++ [1]).length := by simp; omega
  have hi2 : i < (suffixMax (0 :: (precisions ++ [0]))).tail.length := by rw [List.length_tail, hlen]; omega
  have key := apSum_lower (recalls ++ [1]) 0 (suffixMax (0 :: (precisions ++ [0]))).tail ?_
    (hs.1.sublist (List.tail_sublist _)) ?_ i hi1 hi2
  · have e1 : (recalls ++ [1])[i] = recalls[i] := List.getElem_append_left h1
    rw [e1, sub_zero] at key
    refine le_trans (mul_le_mul_of_nonneg_left ?_ (hr _ (List.getElem_mem h1)).1) key
    have h3 := hs.2 (i + 1) (by simp; omega) (by omega)
    rw [List.getElem_tail]
    refine le_trans (le_of_eq ?_) h3
    simp only [List.getElem_cons_succ]
    exact (List.getElem_append_left h2).symm
  · rw [List.pairwise_cons, List.pairwise_append]
    refine ⟨?_, hmono, List.pairwise_singleton _ _, ?_⟩
    · intro x hx
      rcases List.mem_append.mp hx with h | h
      · exact (hr x h).1
      · rw [List.mem_singleton.mp h]; exact zero_le_one
    · intro x hx y hy
      rw [List.mem_singleton.mp hy]
      exact (hr x hx).2
  · intro q hq
    have := mem_suffixMax _ _ (List.mem_of_mem_tail hq)
    rcases List.mem_cons.mp this with h | h
    · exact h.symm.le
    · rcases List.mem_append.mp h with h | h
      · exact hp q h
      · exact (List.mem_singleton.mp h).symm.le

omit [Field F] [LinearOrder F] [IsStrictOrderedRing F] in
theorem cumTrue_get (bs : List Bool) : ∀ (c i : ℕ) (h : i < (cumTrue c bs).length),
    (cumTrue c bs)[i] = c + (bs.take (i + 1)).countP id := by
  induction bs with
  | nil => intro c i h; simp [cumTrue] at h
  | cons b bs ih =>
    intro c i h
    cases i with
    | zero => cases b <;> simp [cumTrue]
    | succ i =>
      have := ih (c + b.toNat) i (by simpa [cumTrue] using h)
      simp only [cumTrue, List.getElem_cons_succ, this, List.take_succ_cons, List.countP_cons]
      cases b
      · simp
      · simp; omega

omit [Field F] [LinearOrder F] [IsStrictOrderedRing F] in
theorem length_cumTrue (bs : List Bool) : ∀ c, (cumTrue c bs).length = bs.length := by
  induction bs with
  | nil => intro c; rfl
  | cons b bs ih => intro c; simp [cumTrue, ih]

omit [Field F] [LinearOrder F] [IsStrictOrderedRing F] in
theorem trues_first (bs : List Bool) (h : bs.Pairwise (fun a b => b = true → a = true)) :
    ∀ b ∈ bs.take (bs.countP id), b = true := by
  induction bs with
  | nil => simp
  | cons b bs ih =>
    obtain ⟨h1, h2⟩ := List.pairwise_cons.mp h
    cases b with
    | true =>
      intro c hc
      rw [List.countP_cons_of_pos (by rfl), List.take_succ_cons] at hc
      rcases List.mem_cons.mp hc with rfl | hc
      · rfl
      · exact ih h2 c hc
    | false =>
      have : bs.countP id = 0 := by
        rw [List.countP_eq_zero]
        intro a ha hat
        exact absurd (h1 a ha hat) (by simp)
      rw [List.countP_cons_of_neg (by simp), this]
      simp

/-- **C41, perfect ranking.** If every annotated box of the class is found and every true positive is predicted with a
higher probability than every false positive, then the average precision of the class is 1. -/
theorem C41_perfect_ranking {K : ℕ} (A : ArgSort F) (thr : F) (images : List (Image F K)) (k : Fin K)
    (hall : (images.flatMap (fun im => flagged A thr im k)).countP (fun x => x.2) =
      (images.map (fun im => (labelsOf im k).length)).sum)
    (hpos : 0 < (images.map (fun im => (labelsOf im k).length)).sum)
    (hrank : ∀ x ∈ images.flatMap (fun im => flagged A thr im k), ∀ y ∈ images.flatMap (fun im => flagged A thr im k),
      x.2 = true → y.2 = false → y.1 < x.1) : apOfClass A thr images k = 1 := by
  refine le_antisymm (C41_class_range A thr images k).2 ?_
  have he : (0 : F) < eps32 := by unfold eps32; positivity
  have he1 : (eps32 : F) ≤ 1 := by
    unfold eps32
    rw [div_le_one (by positivity)]
    exact one_le_pow₀ (by norm_num)
  unfold apOfClass recallsPrecisions
  simp only
  set dets := images.flatMap (fun im => flagged A thr im k) with hdets
  set G := (images.map (fun im => (labelsOf im k).length)).sum with hG
  set sorted := (sortOn A (fun x : F × Bool => -x.1) dets).map (fun x => x.2) with hsorted
  have hcount : sorted.countP id = G := by
    rw [hsorted, List.countP_map, ← hall]
    exact (sortOn_perm A _ _).countP_eq _
  have hfirst : sorted.Pairwise (fun a b => b = true → a = true) := by
    rw [hsorted, List.pairwise_map]
    refine (sortOn_sorted A (fun x : F × Bool => -x.1) dets).imp_of_mem ?_
    intro x y hx hy hxy hyt
    by_contra hxf
    have := hrank y ((mem_sortOn A _ _ y).mp hy) x ((mem_sortOn A _ _ x).mp hx) hyt (by simpa using hxf)
    have : y.1 ≤ x.1 := by simpa using hxy
    linarith
  have htrue := trues_first sorted hfirst
  rw [hcount] at htrue
  have hle : G ≤ sorted.length := by rw [← hcount]; exact List.countP_le_length
  have hGpos : (0 : F) < (G : F) := by exact_mod_cast hpos
  have hG1 : (1 : F) ≤ (G : F) := by exact_mod_cast hpos
  have hmaxG : max (G : F) eps32 = (G : F) := max_eq_left (he1.trans hG1)
  have hc := cumTrue_spec sorted 0
  have hlen := length_cumTrue sorted 0
  have hlen' := length_cumTrue (sorted.map (fun b => !b)) 0
  rw [List.length_map] at hlen'
  have hi : G - 1 < sorted.length := by omega
  have htp : (cumTrue 0 sorted)[G - 1]'(by omega) = G := by
    rw [cumTrue_get, Nat.sub_add_cancel hpos, zero_add]
    rw [List.countP_eq_length.mpr (fun b hb => by simpa using htrue b hb), List.length_take]
    omega
  have hfp : (cumTrue 0 (sorted.map (fun b => !b)))[G - 1]'(by omega) = 0 := by
    rw [cumTrue_get, Nat.sub_add_cancel hpos, zero_add, List.countP_eq_zero]
    intro b hb
    rw [← List.map_take] at hb
    obtain ⟨a, ha, rfl⟩ := List.mem_map.mp hb
    simp [htrue a ha]
  have key := C41_at_least_each_cutoff
    ((cumTrue 0 sorted).map (fun t : ℕ => (t : F) / max (G : F) eps32))
    (((cumTrue 0 sorted).zip (cumTrue 0 (sorted.map (fun b => !b)))).map
      (fun x : ℕ × ℕ => (x.1 : F) / max ((x.1 : F) + (x.2 : F)) eps32)) ?_ ?_ ?_ (G - 1)
    (by rw [List.length_map]; omega) (by rw [List.length_map, List.length_zip]; omega)
  · refine le_trans (le_of_eq ?_) key
    rw [List.getElem_map, List.getElem_map, List.getElem_zip, htp]
    simp only [hfp]
    rw [Nat.cast_zero, add_zero, hmaxG, div_self hGpos.ne', one_mul]
  · rw [List.pairwise_map]
    exact hc.1.imp (fun h => div_le_div_of_nonneg_right (by exact_mod_cast h) (by rw [hmaxG]; exact hGpos.le))
  · intro x hx
    obtain ⟨t, ht, rfl⟩ := List.mem_map.mp hx
    rw [hmaxG]
    refine ⟨div_nonneg (Nat.cast_nonneg _) hGpos.le, (div_le_one hGpos).mpr ?_⟩
    have := (hc.2 t ht).2
    exact_mod_cast (by omega : t ≤ G)
  · intro x hx
    obtain ⟨t, ht, rfl⟩ := List.mem_map.mp hx
    exact div_nonneg (Nat.cast_nonneg _) (lt_max_of_lt_right he).le

/-- A correct box found with probability `9/10` before a wrong box with probability `1/2`. -/
example : apOfClass (stableSort ℚ) (1/2) [(⟨fun _ => [⟨⟨9, 9, 10, 10⟩, 1/2⟩, ⟨⟨0, 0, 2, 2⟩, 9/10⟩], [(⟨0, 0, 2, 2⟩, 0)]⟩ :
    Image ℚ 1)] 0 = 1 :=
  C41_perfect_ranking _ _ _ _ (by decide +kernel) (by decide +kernel) (by decide +kernel)

/-! ## C72 -/

/-- **C72, one threshold.** At each threshold true and false positives add up to the number of predictions of the
class, true positives and false negatives to the number of annotated boxes of the class. -/
theorem C72_counts {K : ℕ} (A : ArgSort F) (thr : F) (images : List (Image F K)) (k : Fin K) :
    (confusionOf A thr images k).tp + (confusionOf A thr images k).fp =
        (images.map (fun im => (im.preds k).length)).sum ∧
      (confusionOf A thr images k).tp + (confusionOf A thr images k).fn =
        (images.map (fun im => (im.labels.filter (fun x => x.2 = k)).length)).sum := by
  induction images with
  | nil => simp [confusionOf]
  | cons im ims ih =>
    obtain ⟨h1, h2⟩ := ih
    obtain ⟨h3, h4⟩ := C40_counts A thr (overlaps (im.preds k) (labelsOf im k)) (fun i => ((im.preds k).get i).prob)
    have hl : (labelsOf im k).length = (im.labels.filter (fun x => x.2 = k)).length := by simp [labelsOf]
    unfold confusionOf at h1 h2 ⊢
    simp only [List.map_cons, List.sum_cons] at h1 h2 ⊢
    unfold matchImage at h1 h2 ⊢
    rw [← hl]
    constructor
    · rw [← h1]
      refine Eq.trans ?_ (congrArg (· + _) h3)
      ring
    · rw [← h2]
      refine Eq.trans ?_ (congrArg (· + _) h4)
      ring

theorem sum_map_add_const (l : List F) (f g : F → ℕ) (c : ℕ) (h : ∀ x ∈ l, f x + g x = c) :
    (l.map (fun x => (f x : F))).sum + (l.map (fun x => (g x : F))).sum = l.length * c := by
  induction l with
  | nil => simp
  | cons x l ih =>
    have h1 := ih (fun y hy => h y (by simp [hy]))
    have h2 : (f x : F) + (g x : F) = c := by exact_mod_cast h x (by simp)
    simp only [List.map_cons, List.sum_cons, List.length_cons]
    push_cast
    rw [add_mul, one_mul, ← h1, ← h2]
    ring

/-- **C72 (partial).** The reported averages are the averages over thresholds divided once more by the number of
classes `K`: TP + FP is the number of predictions of the class over `K`, TP + FN the number of annotated boxes over
`K`. Missing: the documented average over the thresholds alone, which holds for `K = 1` only (`C72_not_average`). -/
theorem C72_average_partial {K : ℕ} (A : ArgSort F) (images : List (Image F K)) (k : Fin K) :
    (averageConfusion A images k).tp + (averageConfusion A images k).fp =
        ((images.map (fun im => (im.preds k).length)).sum : ℕ) / (K : F) ∧
      (averageConfusion A images k).tp + (averageConfusion A images k).fn =
        ((images.map (fun im => (im.labels.filter (fun x => x.2 = k)).length)).sum : ℕ) / (K : F) := by
  have hK : (K : F) ≠ 0 := by
    have := k.pos
    exact_mod_cast (by omega : K ≠ 0)
  have hl : ((iouThresholds (F := F)).length : F) = 10 := by simp [iouThresholds]
  have h1 := sum_map_add_const (iouThresholds (F := F)) _ _ _ (fun thr _ => (C72_counts A thr images k).1)
  have h2 := sum_map_add_const (iouThresholds (F := F)) _ _ _ (fun thr _ => (C72_counts A thr images k).2)
  rw [hl] at h1 h2
  unfold averageConfusion
  simp only
  rw [← add_div, ← add_div, h1, h2]
  push_cast
  constructor <;> field_simp

/-- **C72 (refuted as stated).** The reported numbers are not averages over the thresholds: with two classes and one
annotated box of class 0 that is matched at every threshold, the reported TP of class 0 is `1/2`. -/
theorem C72_not_average : ¬ ∀ (images : List (Image ℚ 2)) (k : Fin 2) (t : ℕ),
    (∀ thr ∈ iouThresholds (F := ℚ), (confusionOf (stableSort ℚ) thr images k).tp = t) →
      (averageConfusion (stableSort ℚ) images k).tp = t := by
  intro h
  let im : Image ℚ 2 := ⟨fun k => if k = 0 then [⟨⟨0, 0, 1, 1⟩, 1⟩] else [], [(⟨0, 0, 1, 1⟩, 0)]⟩
  have hc : ∀ thr ∈ iouThresholds (F := ℚ), (confusionOf (stableSort ℚ) thr [im] 0).tp = 1 := by decide +kernel
  have h1 := h [im] 0 1 hc
  have h2 : (averageConfusion (stableSort ℚ) [im] 0).tp =
      ((iouThresholds (F := ℚ)).map (fun thr => (((confusionOf (stableSort ℚ) thr [im] 0).tp : ℕ) : ℚ))).sum / 20 := by
    unfold averageConfusion
    norm_num
  rw [h2, List.map_congr_left (g := fun _ => (1 : ℚ)) (fun thr hthr => by rw [hc thr hthr]; norm_num)] at h1
  rw [List.map_const', List.sum_replicate] at h1
  norm_num [iouThresholds] at h1

theorem nonneg_average {K : ℕ} (A : ArgSort F) (images : List (Image F K)) (k : Fin K) :
    0 ≤ (averageConfusion A images k).tp ∧ 0 ≤ (averageConfusion A images k).fp ∧
      0 ≤ (averageConfusion A images k).fn := by
  have h : ∀ f : Confusion ℕ → ℕ,
      0 ≤ ((iouThresholds (F := F)).map (fun thr => (f (confusionOf A thr images k) : F))).sum / ((10 * K : ℕ) : F) := by
    intro f
    refine div_nonneg (List.sum_nonneg ?_) (Nat.cast_nonneg _)
    intro x hx
    obtain ⟨_, _, rfl⟩ := List.mem_map.mp hx
    exact Nat.cast_nonneg _
  exact ⟨h _, h _, h _⟩

/-- **C72, thresholds.** The counts are averages over the ten thresholds 0.5, 0.55, ..., 0.95 (and over the classes, see
above). -/
theorem C72_thresholds {K : ℕ} (A : ArgSort F) (images : List (Image F K)) (k : Fin K) (f : Confusion ℕ → ℕ) (g : Confusion F → F)
    (hfg : (f = Confusion.tp ∧ g = Confusion.tp) ∨ (f = Confusion.fp ∧ g = Confusion.fp) ∨ (f = Confusion.fn ∧ g = Confusion.fn)) :
    g (averageConfusion A images k) =
      (([1/2, 11/20, 12/20, 13/20, 14/20, 15/20, 16/20, 17/20, 18/20, 19/20] : List F).map
        (fun thr => (f (confusionOf A thr images k) : F))).sum / ((10 * K : ℕ) : F) := by
  have h : (iouThresholds (F := F)) = [1/2, 11/20, 12/20, 13/20, 14/20, 15/20, 16/20, 17/20, 18/20, 19/20] := by
    simp only [iouThresholds, show List.range 10 = [0, 1, 2, 3, 4, 5, 6, 7, 8, 9] from rfl, List.map_cons, List.map_nil]
    norm_num
  rw [← h]
  rcases hfg with ⟨rfl, rfl⟩ | ⟨rfl, rfl⟩ | ⟨rfl, rfl⟩ <;> rfl

/-- **C72, metrics.** Precision, recall and F1 score of every class lie in `[0, 1]`. -/
theorem C72_metrics_range {K : ℕ} (A : ArgSort F) (images : List (Image F K)) (k : Fin K) :
    let m := classMetrics A images k
    (0 ≤ m.1 ∧ m.1 ≤ 1) ∧ (0 ≤ m.2.1 ∧ m.2.1 ≤ 1) ∧ (0 ≤ m.2.2 ∧ m.2.2 ≤ 1) := by
  have ht : (0 : F) < tiny := by unfold tiny; positivity
  obtain ⟨h1, h2, h3⟩ := nonneg_average A images k
  have frac : ∀ a b : F, 0 ≤ a → 0 ≤ b → 0 ≤ a / (a + b + tiny) ∧ a / (a + b + tiny) ≤ 1 := by
    intro a b ha hb
    have hpos : 0 < a + b + tiny := by linarith
    exact ⟨div_nonneg ha hpos.le, (div_le_one hpos).mpr (by linarith)⟩
  have hp := frac _ _ h1 h2
  have hr := frac _ _ h1 h3
  refine ⟨hp, hr, ?_⟩
  show 0 ≤ 2 * (_ * _) / (_ + _ + tiny) ∧ 2 * (_ * _) / (_ + _ + tiny) ≤ 1
  generalize (averageConfusion A images k).tp / ((averageConfusion A images k).tp + (averageConfusion A images k).fp + tiny) = p at hp
  generalize (averageConfusion A images k).tp / ((averageConfusion A images k).tp + (averageConfusion A images k).fn + tiny) = r at hr
  have hpos : 0 < p + r + tiny := by linarith [hp.1, hr.1]
  have hpr := mul_nonneg hp.1 hr.1
  refine ⟨div_nonneg (by linarith) hpos.le, (div_le_one hpos).mpr ?_⟩
  have e1 : p * r ≤ p := mul_le_of_le_one_right hp.1 hr.2
  have e2 : p * r ≤ r := mul_le_of_le_one_left hr.1 hp.2
  linarith

/-- **C72, metrics.** Precision, recall and F1 score are computed from the averaged counts, with 1e-100 in the denominators. -/
theorem C72_metrics_formula {K : ℕ} (A : ArgSort F) (images : List (Image F K)) (k : Fin K) :
    let c := averageConfusion A images k
    let m := classMetrics A images k
    m.1 * (c.tp + c.fp + 1 / 10 ^ 100) = c.tp ∧ m.2.1 * (c.tp + c.fn + 1 / 10 ^ 100) = c.tp ∧
      m.2.2 * (m.1 + m.2.1 + 1 / 10 ^ 100) = 2 * (m.1 * m.2.1) := by
  intro c m
  obtain ⟨h1, h2, h3⟩ := nonneg_average A images k
  obtain ⟨r1, r2, -⟩ := C72_metrics_range A images k
  have ht : (0 : F) < 1 / 10 ^ 100 := by positivity
  refine ⟨div_mul_cancel₀ _ (ne_of_gt ?_), div_mul_cancel₀ _ (ne_of_gt ?_), div_mul_cancel₀ _ (ne_of_gt ?_)⟩
  · exact add_pos_of_nonneg_of_pos (add_nonneg h1 h2) ht
  · exact add_pos_of_nonneg_of_pos (add_nonneg h1 h3) ht
  · exact add_pos_of_nonneg_of_pos (add_nonneg r1.1 r2.1) ht

example : (confusionOf (stableSort ℚ) (1/2) [exampleImage] 0).tp = 1 ∧
    (confusionOf (stableSort ℚ) (1/2) [exampleImage] 0).fp = 1 ∧
    (confusionOf (stableSort ℚ) (1/2) [exampleImage] 0).fn = 1 := by decide +kernel

end Cleanlab.Props
