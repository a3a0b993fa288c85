import Verif.Props.FalseDetections

/-!
# C192: finding another object never lowers recall, precision and average precision
-/

namespace Cleanlab.Props

open Np Cleanlab.Detection

variable {F : Type} [Field F] [LinearOrder F] [IsStrictOrderedRing F] {K : ℕ}

/-! ### The area -/

theorem precisionAfter_mono (t f : ℕ) : precisionAfter (F := F) t f ≤ precisionAfter (t + 1) f := by
  unfold precisionAfter
  have he : (0 : F) < eps32 := by unfold eps32; positivity
  have he1 : (eps32 : F) ≤ 1 := by unfold eps32; norm_num
  have ht : (0 : F) ≤ t := Nat.cast_nonneg t
  have hf : (0 : F) ≤ f := Nat.cast_nonneg f
  rcases Nat.eq_zero_or_pos t with rfl | h
  · rw [Nat.cast_zero, zero_div]
    exact div_nonneg (Nat.cast_nonneg _) (lt_max_of_lt_right he).le
  · have h1 : (1 : F) ≤ t := by exact_mod_cast h
    push_cast
    rw [max_eq_left (by linarith), max_eq_left (by linarith), div_le_div_iff₀ (by linarith) (by linarith)]
    nlinarith

theorem bestLater_mono (bs : List Bool) : ∀ t f : ℕ, bestLater (F := F) t f bs ≤ bestLater (t + 1) f bs := by
  induction bs with
  | nil => intro t f; exact le_rfl
  | cons b bs ih =>
    intro t f
    unfold bestLater
    rw [show t + 1 + b.toNat = t + b.toNat + 1 by omega]
    exact max_le_max (precisionAfter_mono _ _) (ih _ _)

theorem areaAfter_mono {N : F} (hN : 0 ≤ N) (bs : List Bool) : ∀ t f : ℕ, areaAfter N t f bs ≤ areaAfter N (t + 1) f bs := by
  induction bs with
  | nil => intro t f; exact le_rfl
  | cons b bs ih =>
    intro t f
    have h := ih (t + b.toNat) (f + (!b).toNat)
    unfold areaAfter
    rw [show t + 1 + b.toNat = t + b.toNat + 1 by omega]
    have h2 := mul_le_mul_of_nonneg_left (bestLater_mono (F := F) (b :: bs) t f) (div_nonneg (Nat.cast_nonneg b.toNat) hN)
    linarith

omit [IsStrictOrderedRing F] in
theorem bestLater_nonneg (bs : List Bool) : ∀ t f : ℕ, 0 ≤ bestLater (F := F) t f bs := by
  induction bs with
  | nil => intro t f; exact le_rfl
  | cons b bs ih => intro t f; exact le_max_of_le_right (ih _ _)

theorem bestLater_found (u v : List Bool) : ∀ t f : ℕ, bestLater (F := F) t f (u ++ v) ≤ bestLater t f (u ++ true :: v) := by
  induction u with
  | nil => intro t f; exact le_max_of_le_right (bestLater_mono v t f)
  | cons b u ih => intro t f; exact max_le_max le_rfl (ih _ _)

/-- A further correct detection never lowers the area. -/
theorem areaAfter_found {N : F} (hN : 0 ≤ N) (u v : List Bool) : ∀ t f : ℕ,
    areaAfter N t f (u ++ v) ≤ areaAfter N t f (u ++ true :: v) := by
  induction u with
  | nil =>
    intro t f
    refine (areaAfter_mono hN v t f).trans ?_
    show areaAfter N (t + 1) f v ≤ ((1 : ℕ) : F) / N * bestLater t f (true :: v) + areaAfter N (t + 1) (f + 0) v
    have := mul_nonneg (div_nonneg (Nat.cast_nonneg (α := F) 1) hN) (bestLater_nonneg (F := F) (true :: v) t f)
    exact le_add_of_nonneg_left this
  | cons b u ih =>
    intro t f
    have h := ih (t + b.toNat) (f + (!b).toNat)
    have h2 := mul_le_mul_of_nonneg_left (bestLater_found (F := F) (b :: u) v t f) (div_nonneg (Nat.cast_nonneg (α := F) b.toNat) hN)
    show _ + _ ≤ _ + _
    exact add_le_add h2 h

/-! ### Adding a detection to an image -/

omit [IsStrictOrderedRing F] in
/-- A detection that overlaps a box most that no other detection overlaps enough is correct and does not affect the others. -/
theorem matchBoxes_found {p p' l : ℕ} (A : ArgSort F) (thr : F) {s : Fin p} {f : Fin p' → Fin p} (h : Without s f)
    (ious : Fin p → Fin l → F) (probs : Fin p → F) (hp : Function.Injective probs) (b : Fin l) (hs : thr ≤ ious s b)
    (hmost : ∀ j, j ≠ b → ious s j < ious s b) (hothers : ∀ i, i ≠ s → ious i b < thr) :
    (matchBoxes A thr (fun i => ious (f i)) (fun i => probs (f i))).tp = (fun i => (matchBoxes A thr ious probs).tp (f i)) ∧
    (matchBoxes A thr (fun i => ious (f i)) (fun i => probs (f i))).fp = (fun i => (matchBoxes A thr ious probs).fp (f i)) ∧
    (matchBoxes A thr (fun i => ious (f i)) (fun i => probs (f i))).fn =
      Function.update (matchBoxes A thr ious probs).fn b true ∧
    (matchBoxes A thr ious probs).fn b = false ∧
    (matchBoxes A thr ious probs).tp s = true ∧ (matchBoxes A thr ious probs).fp s = false := by
  cases l with
  | zero => exact b.elim0
  | succ l =>
    have hmax : argmax (ious s) = b := by
      by_contra hne
      exact absurd (le_argmax (ious s) b) (not_le.mpr (hmost _ hne))
    have key : ∀ (L : List (Fin p)) (L' : List (Fin p')) (st : MatchState p (l + 1)) (st' : MatchState p' (l + 1)),
        L.Nodup → L.filter (fun i => decide (i ≠ s)) = L'.map f → st'.covered = Function.update st.covered b false →
        st'.tp = (fun i => st.tp (f i)) → st'.fp = (fun i => st.fp (f i)) → st.fp s = false → (s ∈ L → st.covered b = false) →
        (s ∉ L → st.tp s = true ∧ st.covered b = true) →
        (L'.foldl (matchStep thr (fun i => ious (f i))) st').covered =
          Function.update (L.foldl (matchStep thr ious) st).covered b false ∧
        (L'.foldl (matchStep thr (fun i => ious (f i))) st').tp = (fun i => (L.foldl (matchStep thr ious) st).tp (f i)) ∧
        (L'.foldl (matchStep thr (fun i => ious (f i))) st').fp = (fun i => (L.foldl (matchStep thr ious) st).fp (f i)) ∧
        (L.foldl (matchStep thr ious) st).fp s = false ∧ (L.foldl (matchStep thr ious) st).tp s = true ∧
        (L.foldl (matchStep thr ious) st).covered b = true := by
      intro L
      induction L with
      | nil =>
        intro L' st st' _ hL hc ht hf h0 _ h2
        rw [List.filter_nil] at hL
        obtain rfl : L' = [] := by simpa using hL.symm
        obtain ⟨g1, g2⟩ := h2 List.not_mem_nil
        exact ⟨hc, ht, hf, h0, g1, g2⟩
      | cons i L ih =>
        intro L' st st' hnd hL hc ht hf h0 h1 h2
        rw [List.foldl_cons]
        obtain ⟨hiL, hnd'⟩ := List.nodup_cons.mp hnd
        have upd : ∀ (g : Fin p → Bool) (j : Fin p') (b : Bool), (fun i => Function.update g (f j) b (f i)) =
            Function.update (fun i => g (f i)) j b := by
          intro g j b
          funext i
          by_cases hij : i = j
          · subst hij; simp
          · rw [Function.update_of_ne (fun e => hij (h.injective e)), Function.update_of_ne hij]
        by_cases hi : i = s
        · subst hi
          rw [List.filter_cons_of_neg (by simp)] at hL
          have hcov : st.covered b = false := h1 (by simp)
          have hstep : matchStep thr ious st i =
              { st with covered := Function.update st.covered b true, tp := Function.update st.tp i true } := by
            unfold matchStep
            rw [hmax, if_pos hs]
            dsimp only
            rw [hcov]
            rfl
          rw [hstep]
          refine ih L' _ st' hnd' hL ?_ ?_ hf h0 (fun hh => absurd hh hiL) (fun _ => ⟨Function.update_self _ _ _, Function.update_self _ _ _⟩)
          · rw [hc]
            show _ = Function.update (Function.update st.covered b true) b false
            rw [Function.update_idem]
          · rw [ht]
            funext j
            exact (Function.update_of_ne ((h.range (f j)).mpr ⟨j, rfl⟩) _ _).symm
        · rw [List.filter_cons_of_pos (by simpa using hi)] at hL
          cases L' with
          | nil => simp at hL
          | cons j L' =>
            rw [List.map_cons, List.cons.injEq] at hL
            obtain ⟨rfl, hL⟩ := hL
            rw [List.foldl_cons]
            have hne : s ≠ f j := fun e => hi e.symm
            have hstep : (matchStep thr (fun i => ious (f i)) st' j).covered =
                  Function.update (matchStep thr ious st (f j)).covered b false ∧
                (matchStep thr (fun i => ious (f i)) st' j).tp = (fun i => (matchStep thr ious st (f j)).tp (f i)) ∧
                (matchStep thr (fun i => ious (f i)) st' j).fp = (fun i => (matchStep thr ious st (f j)).fp (f i)) ∧
                (matchStep thr ious st (f j)).fp s = false ∧ (matchStep thr ious st (f j)).tp s = st.tp s ∧
                (matchStep thr ious st (f j)).covered b = st.covered b := by
              unfold matchStep
              dsimp only
              by_cases g1 : ious (f j) (argmax (ious (f j))) ≥ thr
              · have hb : argmax (ious (f j)) ≠ b := fun e => absurd (e ▸ g1) (not_le.mpr (hothers (f j) hi))
                have hc' : st'.covered (argmax (ious (f j))) = st.covered (argmax (ious (f j))) := by
                  rw [hc, Function.update_of_ne hb]
                rw [if_pos g1, if_pos g1, hc']
                by_cases g2 : st.covered (argmax (ious (f j))) = true
                · rw [if_pos g2, if_pos g2]
                  dsimp only
                  refine ⟨hc, ht, ?_, ?_, rfl, rfl⟩
                  · rw [hf, upd]
                  · rw [Function.update_of_ne hne]; exact h0
                · rw [if_neg g2, if_neg g2]
                  dsimp only
                  refine ⟨?_, ?_, hf, h0, ?_, ?_⟩
                  · rw [hc, Function.update_comm hb]
                  · rw [ht, upd]
                  · rw [Function.update_of_ne hne]
                  · rw [Function.update_of_ne hb.symm]
              · rw [if_neg g1, if_neg g1]
                dsimp only
                refine ⟨hc, ht, ?_, ?_, rfl, rfl⟩
                · rw [hf, upd]
                · rw [Function.update_of_ne hne]; exact h0
            obtain ⟨g1, g2, g3, g4, g5, g6⟩ := hstep
            refine ih L' _ _ hnd' hL g1 g2 g3 g4 (fun hh => ?_) (fun hh => ?_)
            · rw [g6]; exact h1 (List.mem_cons_of_mem _ hh)
            · rw [g5, g6]
              exact h2 (by rw [List.mem_cons, not_or]; exact ⟨hne, hh⟩)
    have hneg : Function.Injective (fun i => -probs i) := fun a b e => hp (neg_injective e)
    obtain ⟨h1, h2, h3, h4, h5, h6⟩ := key (A.indices (fun i => -probs i)) (A.indices (fun i => -probs (f i)))
      ⟨fun _ => false, fun _ => false, fun _ => false⟩ ⟨fun _ => false, fun _ => false, fun _ => false⟩ (A.nodup_indices _)
      (indices_without A h _ hneg) (by funext j; by_cases hj : j = b <;> simp [Function.update, hj]) rfl rfl rfl (fun _ => rfl)
      (fun hh => absurd (A.mem_indices _ s) hh)
    refine ⟨h2, h3, ?_, ?_, h5, h4⟩
    · show (fun j => !_) = Function.update (fun j => !_) b true
      rw [h1]
      funext j
      by_cases hj : j = b
      · subst hj; simp
      · rw [Function.update_of_ne hj, Function.update_of_ne hj]
    · show (!_) = false
      rw [h6]
      rfl

/-- Detection `s` finds box `b`: it overlaps it by at least 95 % and more than the other boxes, and no other detection overlaps
this box by half. -/
structure OnlyFinder (preds : List (Pred F)) (labs : List (Box F)) (s : Fin preds.length) (b : Fin labs.length) : Prop where
  exact : 95 / 100 ≤ overlaps preds labs s b
  most : ∀ j, j ≠ b → overlaps preds labs s j < overlaps preds labs s b
  only : ∀ i, i ≠ s → overlaps preds labs i b < 1 / 2

omit [IsStrictOrderedRing F] in
theorem matchLists_found (A : ArgSort F) (thr : F) (h1 : 1 / 2 ≤ thr) (h2 : thr ≤ 95 / 100) (preds : List (Pred F))
    (labs : List (Box F)) (s : Fin preds.length) (b : Fin labs.length) (hd : (preds.map (fun p => p.prob)).Nodup)
    (hs : OnlyFinder preds labs s b) :
    (matchLists A thr (preds.eraseIdx s) labs).tp = (fun j => (matchLists A thr preds labs).tp (keptIndex preds s j)) ∧
    (matchLists A thr (preds.eraseIdx s) labs).fp = (fun j => (matchLists A thr preds labs).fp (keptIndex preds s j)) ∧
    (matchLists A thr (preds.eraseIdx s) labs).fn = Function.update (matchLists A thr preds labs).fn b true ∧
    (matchLists A thr preds labs).fn b = false ∧
    (matchLists A thr preds labs).tp s = true ∧ (matchLists A thr preds labs).fp s = false := by
  have hov : overlaps (preds.eraseIdx s) labs = fun j => overlaps preds labs (keptIndex preds s j) := by
    funext j m
    unfold overlaps
    rw [get_keptIndex]
  have hpr : (fun j => ((preds.eraseIdx s).get j).prob) = fun j => (preds.get (keptIndex preds s j)).prob := by
    funext j
    rw [get_keptIndex]
  have hinj : Function.Injective (fun i => (preds.get i).prob) := by
    intro a b hab
    have hn := List.nodup_iff_injective_get.mp hd
    have := @hn ⟨a.val, by rw [List.length_map]; exact a.isLt⟩ ⟨b.val, by rw [List.length_map]; exact b.isLt⟩ (by
      simp only [List.get_eq_getElem, List.getElem_map]
      exact hab)
    exact Fin.ext (Fin.mk.inj this)
  unfold matchLists
  rw [hov, hpr]
  exact matchBoxes_found A thr (keptIndex_without preds s) (overlaps preds labs) (fun i => (preds.get i).prob) hinj b
    (h2.trans hs.exact) hs.most (fun i hi => lt_of_lt_of_le (hs.only i hi) h1)

theorem countP_update_true {n : ℕ} (g : Fin n → Bool) (b : Fin n) (hb : g b = false) :
    (List.finRange n).countP (fun j => Function.update g b true j) = (List.finRange n).countP (fun j => g j) + 1 := by
  obtain ⟨u, v, huv⟩ := List.append_of_mem (List.mem_finRange b)
  have hnd := List.nodup_finRange n
  rw [huv] at hnd
  have hnot := List.nodup_middle.mp hnd
  rw [List.nodup_cons, List.mem_append, not_or] at hnot
  rw [huv, List.countP_append, List.countP_append, List.countP_cons, List.countP_cons, Function.update_self, hb]
  have e : ∀ l : List (Fin n), b ∉ l → l.countP (fun j => Function.update g b true j) = l.countP (fun j => g j) := by
    intro l hl
    apply List.countP_congr
    intro j hj
    have hne : j ≠ b := fun h => hl (h ▸ hj)
    rw [Function.update_of_ne hne]
  rw [e u hnot.1.1, e v hnot.1.2]
  simp only [if_true, Bool.false_eq_true, if_false]
  omega

omit [IsStrictOrderedRing F] in
theorem imageCounts_found (A : ArgSort F) (thr : F) (h1 : 1 / 2 ≤ thr) (h2 : thr ≤ 95 / 100) (preds : List (Pred F))
    (labs : List (Box F)) (s : Fin preds.length) (b : Fin labs.length) (hd : (preds.map (fun p => p.prob)).Nodup)
    (hs : OnlyFinder preds labs s b) :
    (imageCounts A thr preds labs).1 = (imageCounts A thr (preds.eraseIdx s) labs).1 + 1 ∧
    (imageCounts A thr preds labs).2.1 = (imageCounts A thr (preds.eraseIdx s) labs).2.1 ∧
    (imageCounts A thr preds labs).2.2 + 1 = (imageCounts A thr (preds.eraseIdx s) labs).2.2 := by
  obtain ⟨g1, g2, g3, g4, g5, g6⟩ := matchLists_found A thr h1 h2 preds labs s b hd hs
  unfold imageCounts
  dsimp only
  rw [g1, g2, g3, countP_ofFn_perm (keptIndex_without preds s) (fun i => (matchLists A thr preds labs).tp i),
    countP_ofFn_perm (keptIndex_without preds s) (fun i => (matchLists A thr preds labs).fp i), g5, g6,
    countP_update_true _ b g4]
  exact ⟨rfl, rfl, rfl⟩

omit [IsStrictOrderedRing F] in
/-- **C192, counts.** With the detection there is one true positive more and one false negative less, and as many false
positives, at every overlap threshold from 50 % to 95 %. -/
theorem C192_counts (A : ArgSort F) (thr : F) (h1 : 1 / 2 ≤ thr) (h2 : thr ≤ 95 / 100) (before after : List (Image F K))
    (im : Image F K) (k : Fin K) (s : Fin (im.preds k).length) (b : Fin (labelsOf im k).length)
    (hd : ((im.preds k).map (fun p => p.prob)).Nodup) (hs : OnlyFinder (im.preds k) (labelsOf im k) s b) :
    (confusionOf A thr (before ++ im :: after) k).tp = (confusionOf A thr (before ++ removeDetection im k s :: after) k).tp + 1 ∧
    (confusionOf A thr (before ++ im :: after) k).fp = (confusionOf A thr (before ++ removeDetection im k s :: after) k).fp ∧
    (confusionOf A thr (before ++ im :: after) k).fn + 1 = (confusionOf A thr (before ++ removeDetection im k s :: after) k).fn := by
  rw [confusionOf_counts, confusionOf_counts]
  have hp : (removeDetection im k s).preds k = (im.preds k).eraseIdx s := Function.update_self _ _ _
  have hl : labelsOf (removeDetection im k s) k = labelsOf im k := rfl
  obtain ⟨g1, g2, g3⟩ := imageCounts_found A thr h1 h2 (im.preds k) (labelsOf im k) s b hd hs
  simp only [List.map_append, List.map_cons, List.sum_append, List.sum_cons, hp, hl]
  omega

theorem iouThresholds_le (thr : F) (h : thr ∈ iouThresholds (F := F)) : thr ≤ 95 / 100 := by
  obtain ⟨i, hi, rfl⟩ := List.mem_map.mp h
  have : (i : F) ≤ 9 := by exact_mod_cast Nat.le_of_lt_succ (List.mem_range.mp hi)
  linarith

theorem ratio_mono {a a' b b' c : F} (ha : 0 ≤ a) (hb : 0 ≤ b') (hc : 0 < c) (h1 : a ≤ a') (h2 : b' ≤ b) :
    a / (a + b + c) ≤ a' / (a' + b' + c) := by
  rw [div_le_div_iff₀ (by linarith) (by linarith)]
  nlinarith [mul_nonneg (sub_nonneg.mpr h1) hc.le, mul_le_mul_of_nonneg_left h2 ha, mul_nonneg (sub_nonneg.mpr h1) (hb.trans h2)]

theorem f1_mono {p p' r r' c : F} (hp : 0 ≤ p) (hr : 0 ≤ r) (hc : 0 < c) (h1 : p ≤ p') (h2 : r ≤ r') :
    2 * (p * r) / (p + r + c) ≤ 2 * (p' * r') / (p' + r' + c) := by
  have hp' := hp.trans h1
  have hr' := hr.trans h2
  refine le_trans (b := 2 * (p' * r) / (p' + r + c)) ?_ ?_
  · rw [div_le_div_iff₀ (by linarith) (by linarith)]
    nlinarith [mul_nonneg hr (mul_nonneg hr (sub_nonneg.mpr h1)), mul_nonneg hr (mul_nonneg hc.le (sub_nonneg.mpr h1))]
  · rw [div_le_div_iff₀ (by linarith) (by linarith)]
    nlinarith [mul_nonneg hp' (mul_nonneg hp' (sub_nonneg.mpr h2)), mul_nonneg hp' (mul_nonneg hc.le (sub_nonneg.mpr h2))]

/-- **C192, metrics.** With the detection precision, recall and F1 of the class are at least as high. -/
theorem C192_metrics (A : ArgSort F) (before after : List (Image F K)) (im : Image F K) (k : Fin K)
    (s : Fin (im.preds k).length) (b : Fin (labelsOf im k).length) (hd : ((im.preds k).map (fun p => p.prob)).Nodup)
    (hs : OnlyFinder (im.preds k) (labelsOf im k) s b) :
    (classMetrics A (before ++ removeDetection im k s :: after) k).1 ≤ (classMetrics A (before ++ im :: after) k).1 ∧
    (classMetrics A (before ++ removeDetection im k s :: after) k).2.1 ≤ (classMetrics A (before ++ im :: after) k).2.1 ∧
    (classMetrics A (before ++ removeDetection im k s :: after) k).2.2 ≤ (classMetrics A (before ++ im :: after) k).2.2 := by
  have hc := fun thr (h : thr ∈ iouThresholds (F := F)) =>
    C192_counts A thr (iouThresholds_ge thr h) (iouThresholds_le thr h) before after im k s b hd hs
  have hK : (0 : F) ≤ ((10 * K : ℕ) : F) := Nat.cast_nonneg _
  obtain ⟨n1, n2, n3⟩ := nonneg_average A (before ++ removeDetection im k s :: after) k
  obtain ⟨m1, m2, m3⟩ := nonneg_average A (before ++ im :: after) k
  have a1 : (averageConfusion A (before ++ removeDetection im k s :: after) k).tp ≤ (averageConfusion A (before ++ im :: after) k).tp := by
    unfold averageConfusion
    dsimp only
    refine div_le_div_of_nonneg_right (List.sum_le_sum fun thr h => ?_) hK
    rw [(hc thr h).1]
    push_cast
    linarith
  have a2 : (averageConfusion A (before ++ removeDetection im k s :: after) k).fp = (averageConfusion A (before ++ im :: after) k).fp := by
    unfold averageConfusion
    dsimp only
    congr 2
    exact List.map_congr_left fun thr h => by rw [(hc thr h).2.1]
  have a3 : (averageConfusion A (before ++ im :: after) k).fn ≤ (averageConfusion A (before ++ removeDetection im k s :: after) k).fn := by
    unfold averageConfusion
    dsimp only
    refine div_le_div_of_nonneg_right (List.sum_le_sum fun thr h => ?_) hK
    rw [← (hc thr h).2.2]
    push_cast
    linarith
  have ht : (0 : F) < tiny := by unfold tiny; positivity
  have hprec := ratio_mono n1 m2 ht a1 a2.ge
  have hrec := ratio_mono n1 m3 ht a1 a3
  refine ⟨hprec, hrec, ?_⟩
  obtain ⟨⟨hp0, -⟩, ⟨hr0, -⟩, -⟩ := C72_metrics_range A (before ++ removeDetection im k s :: after) k
  exact f1_mono hp0 hr0 ht hprec hrec

omit [IsStrictOrderedRing F] in
theorem flaggedLists_found (A : ArgSort F) (thr : F) (h1 : 1 / 2 ≤ thr) (h2 : thr ≤ 95 / 100) (preds : List (Pred F))
    (labs : List (Box F)) (s : Fin preds.length) (b : Fin labs.length) (hd : (preds.map (fun p => p.prob)).Nodup)
    (hs : OnlyFinder preds labs s b) :
    (flaggedLists A thr preds labs).Perm (((preds.get s).prob, true) :: flaggedLists A thr (preds.eraseIdx s) labs) := by
  obtain ⟨g1, -, -, -, g5, -⟩ := matchLists_found A thr h1 h2 preds labs s b hd hs
  unfold flaggedLists
  rw [List.ofFn_eq_map, List.ofFn_eq_map]
  refine ((keptIndex_without preds s).perm.map _).trans ?_
  rw [List.map_cons, List.map_map, g5]
  refine List.Perm.cons _ (List.Perm.of_eq (List.map_congr_left fun j _ => ?_))
  rw [Function.comp_apply, g1, get_keptIndex]

theorem flags_found (A : ArgSort F) (thr : F) (h1 : 1 / 2 ≤ thr) (h2 : thr ≤ 95 / 100) (before after : List (Image F K))
    (im : Image F K) (k : Fin K) (s : Fin (im.preds k).length) (b : Fin (labelsOf im k).length)
    (hd : DistinctProbs (before ++ im :: after) k) (hs : OnlyFinder (im.preds k) (labelsOf im k) s b) :
    ∃ u v, sortOn A (fun x : F × Bool => -x.1) ((before ++ im :: after).flatMap (fun im => flagged A thr im k)) =
        u ++ (((im.preds k).get s).prob, true) :: v ∧
      sortOn A (fun x : F × Bool => -x.1) ((before ++ removeDetection im k s :: after).flatMap (fun im => flagged A thr im k)) = u ++ v := by
  have hd1 : ((im.preds k).map (fun p => p.prob)).Nodup := by
    unfold DistinctProbs at hd
    rw [List.flatMap_append, List.flatMap_cons, List.map_append, List.map_append] at hd
    exact (List.nodup_append.mp (List.nodup_append.mp hd).2.1).1
  have hp : (removeDetection im k s).preds k = (im.preds k).eraseIdx s := Function.update_self _ _ _
  have e1 : flagged A thr im k = flaggedLists A thr (im.preds k) (labelsOf im k) := rfl
  have e2 : flagged A thr (removeDetection im k s) k = flaggedLists A thr ((im.preds k).eraseIdx s) (labelsOf im k) := by
    have : flagged A thr (removeDetection im k s) k =
      flaggedLists A thr ((removeDetection im k s).preds k) (labelsOf im k) := rfl
    rw [this, hp]
  refine sortOn_insert A _ _ ?_ ?_
  · rw [List.flatMap_append, List.flatMap_cons, List.flatMap_append, List.flatMap_cons, e1, e2]
    have h3 := (flaggedLists_found A thr h1 h2 (im.preds k) (labelsOf im k) s b hd1 hs).append_right
      (after.flatMap (fun im => flagged A thr im k))
    exact (h3.append_left _).trans List.perm_middle
  · have e : ((before ++ im :: after).flatMap (fun im => flagged A thr im k)).map (fun x : F × Bool => -x.1) =
        (((before ++ im :: after).flatMap (fun im => im.preds k)).map (fun p => p.prob)).map (fun x => -x) := by
      rw [List.map_flatMap, List.map_flatMap, List.map_flatMap]
      congr 1
      funext im
      rw [← map_fst_flagged A thr im k, List.map_map]
      rfl
    rw [e]
    exact List.Nodup.map neg_injective hd

/-- **C192, average precision.** With the detection the average precision of its class is at least as high, at every overlap
threshold from 50 % to 95 %, and so is the mean over the thresholds. -/
theorem C192_average_precision (A : ArgSort F) (before after : List (Image F K)) (im : Image F K) (k : Fin K)
    (s : Fin (im.preds k).length) (b : Fin (labelsOf im k).length) (hd : DistinctProbs (before ++ im :: after) k)
    (hs : OnlyFinder (im.preds k) (labelsOf im k) s b) :
    (∀ thr, 1 / 2 ≤ thr → thr ≤ 95 / 100 →
      apOfClass A thr (before ++ removeDetection im k s :: after) k ≤ apOfClass A thr (before ++ im :: after) k) ∧
    perClassAp A (before ++ removeDetection im k s :: after) k ≤ perClassAp A (before ++ im :: after) k := by
  have he : (0 : F) < eps32 := by unfold eps32; positivity
  have h : ∀ thr, 1 / 2 ≤ thr → thr ≤ 95 / 100 →
      apOfClass A thr (before ++ removeDetection im k s :: after) k ≤ apOfClass A thr (before ++ im :: after) k := by
    intro thr h1 h2
    obtain ⟨u, v, g1, g2⟩ := flags_found A thr h1 h2 before after im k s b hd hs
    rw [apOfClass_area, apOfClass_area, g1, g2, numBoxes_remove, List.map_append (l₁ := u), List.map_append (l₁ := u)]
    exact areaAfter_found (lt_max_of_lt_right he).le (u.map (fun x => x.2)) (v.map (fun x => x.2)) 0 0
  refine ⟨h, ?_⟩
  unfold perClassAp
  refine mul_le_mul_of_nonneg_right (div_le_div_of_nonneg_right ?_ (by norm_num)) (by norm_num)
  exact List.sum_le_sum fun thr ht => h thr (iouThresholds_ge thr ht) (iouThresholds_le thr ht)

/-- Two objects, the second of which is found with 70 % after a false detection of 90 %. -/
example :
    let im : Image ℚ 1 := ⟨fun _ => [⟨⟨10, 10, 12, 12⟩, 9 / 10⟩, ⟨⟨0, 0, 4, 4⟩, 8 / 10⟩, ⟨⟨20, 20, 24, 24⟩, 7 / 10⟩],
      [(⟨0, 0, 4, 4⟩, 0), (⟨20, 20, 24, 24⟩, 0)]⟩
    OnlyFinder (im.preds 0) (labelsOf im 0) ⟨2, by decide⟩ ⟨1, by decide⟩ ∧ DistinctProbs [im] 0 ∧
      apOfClass (stableSort ℚ) (1 / 2) [removeDetection im 0 2] 0 = 1 / 4 ∧ apOfClass (stableSort ℚ) (1 / 2) [im] 0 = 2 / 3 := by
  refine ⟨⟨?_, ?_, ?_⟩, ?_, ?_, ?_⟩
  · decide +kernel
  · decide +kernel
  · decide +kernel
  · unfold DistinctProbs; decide +kernel
  · decide +kernel
  · decide +kernel

end Cleanlab.Props
