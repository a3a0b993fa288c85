import Verif.Props.BoxOrder

/-!
# C191: false detections only lower precision and average precision
-/

namespace Cleanlab.Props

open Np Cleanlab.Detection

variable {F : Type} [Field F] [LinearOrder F] [IsStrictOrderedRing F] {K : ℕ}

/-! ### The area under the precision-recall curve, detection by detection -/

/-- Precision after `t` correct and `f` false detections. -/
def precisionAfter (t f : ℕ) : F := (t : F) / max ((t : F) + (f : F)) eps32

/-- The best precision reached by the remaining detections. -/
def bestLater (t f : ℕ) : List Bool → F
  | [] => 0
  | b :: bs => max (precisionAfter (t + b.toNat) (f + (!b).toNat)) (bestLater (t + b.toNat) (f + (!b).toNat) bs)

/-- The area: every correct detection contributes the best precision from there on. -/
def areaAfter (N : F) (t f : ℕ) : List Bool → F
  | [] => 0
  | b :: bs => (b.toNat : F) / N * bestLater t f (b :: bs) + areaAfter N (t + b.toNat) (f + (!b).toNat) bs

/-- The list of precisions. -/
def precisionsAfter (t f : ℕ) (bs : List Bool) : List F :=
  ((cumTrue t bs).zip (cumTrue f (bs.map (fun b => !b)))).map (fun x : ℕ × ℕ => (x.1 : F) / max ((x.1 : F) + (x.2 : F)) eps32)

omit [IsStrictOrderedRing F] in
theorem suffixMax_later (bs : List Bool) : ∀ t f : ℕ,
    ∃ rest, suffixMax (precisionsAfter (F := F) t f bs ++ [0]) = bestLater t f bs :: rest := by
  induction bs with
  | nil => intro t f; exact ⟨[], rfl⟩
  | cons b bs ih =>
    intro t f
    obtain ⟨rest, hr⟩ := ih (t + b.toNat) (f + (!b).toNat)
    have e : precisionsAfter (F := F) t f (b :: bs) ++ [0] =
        precisionAfter (t + b.toNat) (f + (!b).toNat) :: (precisionsAfter (t + b.toNat) (f + (!b).toNat) bs ++ [0]) := rfl
    rw [e]
    cases hl : precisionsAfter (F := F) (t + b.toNat) (f + (!b).toNat) bs ++ [0] with
    | nil => simp at hl
    | cons y ys =>
      rw [hl] at hr
      refine ⟨bestLater (t + b.toNat) (f + (!b).toNat) bs :: rest, ?_⟩
      show (match suffixMax (y :: ys) with
        | [] => [_]
        | m :: ms => max (precisionAfter (F := F) (t + b.toNat) (f + (!b).toNat)) m :: m :: ms) = _
      rw [hr]
      rfl

omit [Field F] [IsStrictOrderedRing F] in
theorem suffixMax_tail (x y : F) (ys : List F) : (suffixMax (x :: y :: ys)).tail = suffixMax (y :: ys) := by
  have hlen := length_suffixMax (y :: ys)
  show (match suffixMax (y :: ys) with
    | [] => [x]
    | m :: ms => max x m :: m :: ms).tail = _
  cases suffixMax (y :: ys) with
  | nil => rfl
  | cons m ms => rfl

omit [IsStrictOrderedRing F] in
theorem apSum_area (N : F) (bs : List Bool) : ∀ t f : ℕ,
    apSum ((t : F) / N :: ((cumTrue t bs).map (fun t : ℕ => (t : F) / N) ++ [1])) (suffixMax (precisionsAfter t f bs ++ [0])) =
      areaAfter N t f bs := by
  induction bs with
  | nil =>
    intro t f
    show apSum [(t : F) / N, 1] [0] = 0
    rw [apSum_cons, apSum_short]
    ring
  | cons b bs ih =>
    intro t f
    have e : precisionsAfter (F := F) t f (b :: bs) ++ [0] =
        precisionAfter (t + b.toNat) (f + (!b).toNat) :: (precisionsAfter (t + b.toNat) (f + (!b).toNat) bs ++ [0]) := rfl
    obtain ⟨rest, hr⟩ := suffixMax_later (F := F) (b :: bs) t f
    have htail : rest = suffixMax (precisionsAfter (t + b.toNat) (f + (!b).toNat) bs ++ [0]) := by
      have h1 : rest = (suffixMax (precisionsAfter (F := F) t f (b :: bs) ++ [0])).tail := by rw [hr]; rfl
      rw [h1, e]
      cases hl : precisionsAfter (F := F) (t + b.toNat) (f + (!b).toNat) bs ++ [0] with
      | nil => simp at hl
      | cons y ys => exact suffixMax_tail _ y ys
    rw [hr]
    show apSum ((t : F) / N :: ((t + b.toNat : ℕ) : F) / N ::
      ((cumTrue (t + b.toNat) bs).map (fun t : ℕ => (t : F) / N) ++ [1])) _ = _
    rw [apSum_cons, htail, ih (t + b.toNat) (f + (!b).toNat)]
    show _ = (b.toNat : F) / N * bestLater t f (b :: bs) + areaAfter N (t + b.toNat) (f + (!b).toNat) bs
    rw [Nat.cast_add]
    ring

omit [IsStrictOrderedRing F] in
/-- Average precision as a sum over the correct detections. -/
theorem averagePrecision_area (N : F) (bs : List Bool) :
    averagePrecision ((cumTrue 0 bs).map (fun t : ℕ => (t : F) / N)) (precisionsAfter 0 0 bs) = areaAfter N 0 0 bs := by
  rw [← apSum_area N bs 0 0]
  have hne : precisionsAfter (F := F) 0 0 bs ++ [0] ≠ [] := by simp
  obtain ⟨y, ys, hy⟩ := List.exists_cons_of_ne_nil hne
  show apSum (0 :: ((cumTrue 0 bs).map (fun t : ℕ => (t : F) / N) ++ [1])) (suffixMax (0 :: (precisionsAfter 0 0 bs ++ [0]))).tail = _
  rw [hy, suffixMax_tail, Nat.cast_zero, zero_div]

theorem precisionAfter_anti (t f : ℕ) : precisionAfter (F := F) t (f + 1) ≤ precisionAfter t f := by
  unfold precisionAfter
  have he : (0 : F) < eps32 := by unfold eps32; positivity
  refine div_le_div_of_nonneg_left (Nat.cast_nonneg _) (lt_max_of_lt_right he) (max_le_max ?_ le_rfl)
  push_cast
  linarith

theorem bestLater_anti (bs : List Bool) : ∀ t f : ℕ, bestLater (F := F) t (f + 1) bs ≤ bestLater t f bs := by
  induction bs with
  | nil => intro t f; exact le_rfl
  | cons b bs ih =>
    intro t f
    unfold bestLater
    rw [show f + 1 + (!b).toNat = f + (!b).toNat + 1 by omega]
    exact max_le_max (precisionAfter_anti _ _) (ih _ _)

theorem areaAfter_anti {N : F} (hN : 0 ≤ N) (bs : List Bool) : ∀ t f : ℕ, areaAfter N t (f + 1) bs ≤ areaAfter N t f bs := by
  induction bs with
  | nil => intro t f; exact le_rfl
  | cons b bs ih =>
    intro t f
    have h := ih (t + b.toNat) (f + (!b).toNat)
    unfold areaAfter
    rw [show f + 1 + (!b).toNat = f + (!b).toNat + 1 by omega]
    have h2 := mul_le_mul_of_nonneg_left (bestLater_anti (F := F) (b :: bs) t f) (div_nonneg (Nat.cast_nonneg b.toNat) hN)
    linarith

theorem bestLater_insert (u v : List Bool) : ∀ t f : ℕ,
    bestLater (F := F) t f (u ++ false :: v) ≤ max (precisionAfter t f) (bestLater t f (u ++ v)) := by
  induction u with
  | nil =>
    intro t f
    show max (precisionAfter (t + 0) (f + 1)) (bestLater (t + 0) (f + 1) v) ≤ _
    exact max_le_max (precisionAfter_anti t f) (bestLater_anti v t f)
  | cons b u ih =>
    intro t f
    refine le_max_of_le_right ?_
    show max _ _ ≤ max _ _
    refine max_le (le_max_left _ _) ?_
    exact ih _ _

/-- A false detection never raises the area. -/
theorem areaAfter_insert {N : F} (hN : 0 ≤ N) (u v : List Bool) : ∀ t f : ℕ,
    areaAfter N t f (u ++ false :: v) ≤ areaAfter N t f (u ++ v) := by
  induction u with
  | nil =>
    intro t f
    show ((0 : ℕ) : F) / N * bestLater t f (false :: v) + areaAfter N (t + 0) (f + 1) v ≤ areaAfter N t f v
    rw [Nat.cast_zero, zero_div, zero_mul, zero_add]
    exact areaAfter_anti hN v t f
  | cons b u ih =>
    intro t f
    have h := ih (t + b.toNat) (f + (!b).toNat)
    have hb : bestLater (F := F) t f (b :: (u ++ false :: v)) ≤ bestLater t f (b :: (u ++ v)) := by
      show max _ _ ≤ max _ _
      exact max_le (le_max_left _ _) (bestLater_insert u v _ _)
    have h2 := mul_le_mul_of_nonneg_left hb (div_nonneg (Nat.cast_nonneg (α := F) b.toNat) hN)
    show _ + _ ≤ _ + _
    exact add_le_add h2 h

theorem bestLater_false (v : List Bool) (hv : ∀ b ∈ v, b = false) : ∀ t f : ℕ, bestLater (F := F) t f v ≤ precisionAfter t f := by
  induction v with
  | nil =>
    intro t f
    have he : (0 : F) < eps32 := by unfold eps32; positivity
    exact div_nonneg (Nat.cast_nonneg _) (lt_max_of_lt_right he).le
  | cons b v ih =>
    intro t f
    obtain rfl := hv b (by simp)
    show max (precisionAfter (t + 0) (f + 1)) (bestLater (t + 0) (f + 1) v) ≤ _
    exact max_le (precisionAfter_anti t f) ((ih (fun b hb => hv b (by simp [hb])) _ _).trans (precisionAfter_anti t f))

omit [IsStrictOrderedRing F] in
theorem areaAfter_false (N : F) (v : List Bool) (hv : ∀ b ∈ v, b = false) : ∀ t f : ℕ, areaAfter N t f v = 0 := by
  induction v with
  | nil => intro t f; rfl
  | cons b v ih =>
    intro t f
    obtain rfl := hv b (by simp)
    show ((0 : ℕ) : F) / N * _ + areaAfter N (t + 0) (f + 1) v = 0
    rw [ih (fun b hb => hv b (by simp [hb])), Nat.cast_zero, zero_div, zero_mul, zero_add]

/-- False detections after the last correct one have no effect. -/
theorem areaAfter_end (N : F) (u v v' : List Bool) (hv : ∀ b ∈ v, b = false) (hv' : ∀ b ∈ v', b = false) : ∀ t f : ℕ,
    max (precisionAfter (F := F) t f) (bestLater t f (u ++ v)) = max (precisionAfter t f) (bestLater t f (u ++ v')) ∧
      areaAfter N t f (u ++ v) = areaAfter N t f (u ++ v') := by
  induction u with
  | nil =>
    intro t f
    rw [List.nil_append, List.nil_append, areaAfter_false N v hv, areaAfter_false N v' hv', max_eq_left (bestLater_false v hv t f),
      max_eq_left (bestLater_false v' hv' t f)]
    exact ⟨rfl, rfl⟩
  | cons b u ih =>
    intro t f
    obtain ⟨h1, h2⟩ := ih (t + b.toNat) (f + (!b).toNat)
    have hb : bestLater (F := F) t f (b :: (u ++ v)) = bestLater t f (b :: (u ++ v')) := h1
    refine ⟨congrArg (max _) hb, ?_⟩
    show (b.toNat : F) / N * bestLater t f (b :: (u ++ v)) + areaAfter N (t + b.toNat) (f + (!b).toNat) (u ++ v) = _
    rw [hb, h2]
    rfl

/-! ### Removing a detection from an image -/

/-- `f` numbers all detections but `s`. -/
structure Without {p p' : ℕ} (s : Fin p) (f : Fin p' → Fin p) : Prop where
  injective : Function.Injective f
  range : ∀ i, i ≠ s ↔ ∃ j, f j = i

theorem Without.perm {p p' : ℕ} {s : Fin p} {f : Fin p' → Fin p} (h : Without s f) :
    (List.finRange p).Perm (s :: (List.finRange p').map f) := by
  rw [List.perm_ext_iff_of_nodup (List.nodup_finRange p)]
  · intro i
    simp only [List.mem_finRange, List.mem_cons, List.mem_map, true_and, true_iff]
    by_cases hi : i = s
    · exact Or.inl hi
    · exact Or.inr ((h.range i).mp hi)
  · rw [List.nodup_cons]
    refine ⟨?_, (List.nodup_finRange p').map h.injective⟩
    intro hs
    obtain ⟨j, -, hj⟩ := List.mem_map.mp hs
    exact (h.range s).mpr ⟨j, hj⟩ rfl

omit [Field F] [IsStrictOrderedRing F] in
theorem indices_without {p p' : ℕ} (A : ArgSort F) {s : Fin p} {f : Fin p' → Fin p} (h : Without s f) (v : Fin p → F)
    (hv : Function.Injective v) : (A.indices v).filter (fun i => decide (i ≠ s)) = (A.indices (fun j => v (f j))).map f := by
  refine List.Perm.eq_of_pairwise (le := fun x y => v x ≤ v y) ?_ ?_ ?_ ?_
  · intro a b _ _ h1 h2
    exact hv (le_antisymm h1 h2)
  · exact (A.pairwise_indices v).filter _
  · rw [List.pairwise_map]
    exact A.pairwise_indices _
  · refine ((A.perm_indices v).filter _).trans (((h.perm).filter _).trans ?_)
    rw [List.filter_cons_of_neg (by simp), List.filter_eq_self.mpr]
    · exact ((A.perm_indices _).map f).symm
    · intro i hi
      obtain ⟨j, -, rfl⟩ := List.mem_map.mp hi
      exact decide_eq_true ((h.range (f j)).mpr ⟨j, rfl⟩)

omit [IsStrictOrderedRing F] in
/-- A detection that overlaps no box enough is false and does not affect the others. -/
theorem matchBoxes_without {p p' l : ℕ} (A : ArgSort F) (thr : F) {s : Fin p} {f : Fin p' → Fin p} (h : Without s f)
    (ious : Fin p → Fin l → F) (probs : Fin p → F) (hp : Function.Injective probs) (hs : ∀ j, ious s j < thr) :
    (matchBoxes A thr (fun i => ious (f i)) (fun i => probs (f i))).tp = (fun i => (matchBoxes A thr ious probs).tp (f i)) ∧
    (matchBoxes A thr (fun i => ious (f i)) (fun i => probs (f i))).fp = (fun i => (matchBoxes A thr ious probs).fp (f i)) ∧
    (matchBoxes A thr (fun i => ious (f i)) (fun i => probs (f i))).fn = (matchBoxes A thr ious probs).fn ∧
    (matchBoxes A thr ious probs).tp s = false ∧ (matchBoxes A thr ious probs).fp s = true := by
  cases l with
  | zero => exact ⟨rfl, rfl, rfl, rfl, rfl⟩
  | succ l =>
    have key : ∀ (L : List (Fin p)) (L' : List (Fin p')) (st : MatchState p (l + 1)) (st' : MatchState p' (l + 1)),
        L.filter (fun i => decide (i ≠ s)) = L'.map f → st'.covered = st.covered → st'.tp = (fun i => st.tp (f i)) →
        st'.fp = (fun i => st.fp (f i)) → st.tp s = false →
        (L'.foldl (matchStep thr (fun i => ious (f i))) st').covered = (L.foldl (matchStep thr ious) st).covered ∧
        (L'.foldl (matchStep thr (fun i => ious (f i))) st').tp = (fun i => (L.foldl (matchStep thr ious) st).tp (f i)) ∧
        (L'.foldl (matchStep thr (fun i => ious (f i))) st').fp = (fun i => (L.foldl (matchStep thr ious) st).fp (f i)) ∧
        (L.foldl (matchStep thr ious) st).tp s = false ∧
        (s ∈ L ∨ st.fp s = true → (L.foldl (matchStep thr ious) st).fp s = true) := by
      intro L
      induction L with
      | nil =>
        intro L' st st' hL hc ht hf h0
        rw [List.filter_nil] at hL
        obtain rfl : L' = [] := by simpa using hL.symm
        exact ⟨hc, ht, hf, h0, fun hh => hh.resolve_left List.not_mem_nil⟩
      | cons i L ih =>
        intro L' st st' hL hc ht hf h0
        rw [List.foldl_cons]
        have upd : ∀ (g : Fin p → Bool) (j : Fin p') (b : Bool), (fun i => Function.update g (f j) b (f i)) =
            Function.update (fun i => g (f i)) j b := by
          intro g j b
          funext i
          by_cases hij : i = j
          · subst hij; simp
          · rw [Function.update_of_ne (fun e => hij (h.injective e)), Function.update_of_ne hij]
        by_cases hi : i = s
        · subst hi
          rw [List.filter_cons_of_neg (by simp)] at hL
          have hstep : matchStep thr ious st i = { st with fp := Function.update st.fp i true } := by
            unfold matchStep
            exact if_neg (not_le.mpr (hs _))
          rw [hstep]
          obtain ⟨h1, h2, h3, h4, h5⟩ := ih L' { st with fp := Function.update st.fp i true } st' hL hc ht (by
            rw [hf]
            funext j
            exact (Function.update_of_ne ((h.range (f j)).mpr ⟨j, rfl⟩) _ _).symm) h0
          exact ⟨h1, h2, h3, h4, fun _ => h5 (Or.inr (Function.update_self _ _ _))⟩
        · rw [List.filter_cons_of_pos (by simpa using hi)] at hL
          cases L' with
          | nil => simp at hL
          | cons j L' =>
            rw [List.map_cons, List.cons.injEq] at hL
            obtain ⟨rfl, hL⟩ := hL
            rw [List.foldl_cons]
            have hc' : st'.covered (argmax (ious (f j))) = st.covered (argmax (ious (f j))) := by rw [hc]
            have hstep : (matchStep thr (fun i => ious (f i)) st' j).covered = (matchStep thr ious st (f j)).covered ∧
                (matchStep thr (fun i => ious (f i)) st' j).tp = (fun i => (matchStep thr ious st (f j)).tp (f i)) ∧
                (matchStep thr (fun i => ious (f i)) st' j).fp = (fun i => (matchStep thr ious st (f j)).fp (f i)) ∧
                (matchStep thr ious st (f j)).tp s = false ∧ (st.fp s = true → (matchStep thr ious st (f j)).fp s = true) := by
              have hne : s ≠ f j := fun e => hi e.symm
              unfold matchStep
              dsimp only
              rw [hc']
              by_cases h1 : ious (f j) (argmax (ious (f j))) ≥ thr
              · rw [if_pos h1, if_pos h1]
                by_cases h2 : st.covered (argmax (ious (f j))) = true
                · rw [if_pos h2, if_pos h2]
                  dsimp only
                  refine ⟨hc, ht, ?_, h0, fun hh => ?_⟩
                  · rw [hf, upd]
                  · rw [Function.update_of_ne hne]; exact hh
                · rw [if_neg h2, if_neg h2]
                  dsimp only
                  refine ⟨by rw [hc], ?_, hf, ?_, fun hh => hh⟩
                  · rw [ht, upd]
                  · rw [Function.update_of_ne hne]; exact h0
              · rw [if_neg h1, if_neg h1]
                dsimp only
                refine ⟨hc, ht, ?_, h0, fun hh => ?_⟩
                · rw [hf, upd]
                · rw [Function.update_of_ne hne]; exact hh
            obtain ⟨g1, g2, g3, g4, g5⟩ := hstep
            obtain ⟨h1, h2, h3, h4, h5⟩ := ih L' _ _ hL g1 g2 g3 g4
            refine ⟨h1, h2, h3, h4, fun hh => h5 ?_⟩
            rcases hh with hh | hh
            · rcases List.mem_cons.mp hh with e | hh
              · exact absurd e.symm hi
              · exact Or.inl hh
            · exact Or.inr (g5 hh)
    have hneg : Function.Injective (fun i => -probs i) := fun a b e => hp (neg_injective e)
    obtain ⟨h1, h2, h3, h4, h5⟩ := key (A.indices (fun i => -probs i)) (A.indices (fun i => -probs (f i)))
      ⟨fun _ => false, fun _ => false, fun _ => false⟩ ⟨fun _ => false, fun _ => false, fun _ => false⟩
      (indices_without A h _ hneg) rfl rfl rfl rfl
    refine ⟨h2, h3, ?_, h4, h5 (Or.inl (A.mem_indices _ s))⟩
    show (fun j => !_) = fun j => !_
    rw [h1]

/-- The detections that stay, numbered as before. -/
def keptIndex {α : Type} (l : List α) (s : Fin l.length) (j : Fin (l.eraseIdx s).length) : Fin l.length :=
  ⟨if j.val < s.val then j.val else j.val + 1, by
    have h := lt_of_lt_of_eq j.isLt (List.length_eraseIdx_of_lt s.isLt)
    have := s.isLt
    split_ifs <;> omega⟩

theorem keptIndex_without {α : Type} (l : List α) (s : Fin l.length) : Without s (keptIndex l s) := by
  constructor
  · intro a b h
    have hv := congrArg Fin.val h
    unfold keptIndex at hv
    dsimp only at hv
    apply Fin.ext
    split_ifs at hv <;> omega
  · intro i
    constructor
    · intro hi
      have hne : i.val ≠ s.val := fun e => hi (Fin.ext e)
      have hil := i.isLt
      have hsl := s.isLt
      have hlen := List.length_eraseIdx_of_lt s.isLt
      by_cases hlt : i.val < s.val
      · refine ⟨⟨i.val, by omega⟩, Fin.ext ?_⟩
        show (if i.val < s.val then i.val else i.val + 1) = i.val
        exact if_pos hlt
      · refine ⟨⟨i.val - 1, by omega⟩, Fin.ext ?_⟩
        show (if i.val - 1 < s.val then i.val - 1 else i.val - 1 + 1) = i.val
        rw [if_neg (by omega)]
        omega
    · rintro ⟨j, rfl⟩ he
      have hv := congrArg Fin.val he
      unfold keptIndex at hv
      dsimp only at hv
      split_ifs at hv <;> omega

theorem get_keptIndex {α : Type} (l : List α) (s : Fin l.length) (j : Fin (l.eraseIdx s).length) :
    (l.eraseIdx s).get j = l.get (keptIndex l s j) := by
  rw [List.get_eq_getElem, List.get_eq_getElem, List.getElem_eraseIdx]
  unfold keptIndex
  dsimp only
  split_ifs <;> rfl

/-- The matching of the detections and boxes of one class in one image. -/
def matchLists (A : ArgSort F) (thr : F) (preds : List (Pred F)) (labs : List (Box F)) : Matching preds.length labs.length :=
  matchBoxes A thr (overlaps preds labs) (fun i => (preds.get i).prob)

theorem countP_ofFn_perm {p p' : ℕ} {s : Fin p} {f : Fin p' → Fin p} (h : Without s f) (g : Fin p → Bool) :
    (List.finRange p).countP g = (List.finRange p').countP (fun j => g (f j)) + (g s).toNat := by
  rw [h.perm.countP_eq, List.countP_cons, List.countP_map]
  cases g s <;> rfl

/-- Detection `s` overlaps no annotated box by half. -/
def FalseDetection (preds : List (Pred F)) (labs : List (Box F)) (s : Fin preds.length) : Prop :=
  ∀ l ∈ labs, iou (preds.get s).box l < 1 / 2

omit [IsStrictOrderedRing F] in
theorem matchLists_erase (A : ArgSort F) (thr : F) (hthr : 1 / 2 ≤ thr) (preds : List (Pred F)) (labs : List (Box F))
    (s : Fin preds.length) (hd : (preds.map (fun p => p.prob)).Nodup) (hs : FalseDetection preds labs s) :
    (matchLists A thr (preds.eraseIdx s) labs).tp = (fun j => (matchLists A thr preds labs).tp (keptIndex preds s j)) ∧
    (matchLists A thr (preds.eraseIdx s) labs).fp = (fun j => (matchLists A thr preds labs).fp (keptIndex preds s j)) ∧
    (matchLists A thr (preds.eraseIdx s) labs).fn = (matchLists A thr preds labs).fn ∧
    (matchLists A thr preds labs).tp s = false ∧ (matchLists A thr preds labs).fp s = true := by
  have hov : overlaps (preds.eraseIdx s) labs = fun j => overlaps preds labs (keptIndex preds s j) := by
    funext j m
    unfold overlaps
    rw [get_keptIndex]
  have hpr : (fun j => ((preds.eraseIdx s).get j).prob) = fun j => (preds.get (keptIndex preds s j)).prob := by
    funext j
    rw [get_keptIndex]
  have hinj : Function.Injective (fun i => (preds.get i).prob) := by
    intro a b hab
    have hn := List.nodup_iff_injective_get.mp hd
    have := @hn ⟨a.val, by rw [List.length_map]; exact a.isLt⟩ ⟨b.val, by rw [List.length_map]; exact b.isLt⟩ (by
      simp only [List.get_eq_getElem, List.getElem_map]
      exact hab)
    exact Fin.ext (Fin.mk.inj this)
  unfold matchLists
  rw [hov, hpr]
  exact matchBoxes_without A thr (keptIndex_without preds s) (overlaps preds labs) (fun i => (preds.get i).prob) hinj
    (fun j => lt_of_lt_of_le (hs _ (List.get_mem labs j)) hthr)

/-- The image without detection `s` of class `k`. -/
def removeDetection (im : Image F K) (k : Fin K) (s : ℕ) : Image F K :=
  { im with preds := Function.update im.preds k ((im.preds k).eraseIdx s) }

/-- The counts of one image. -/
def imageCounts (A : ArgSort F) (thr : F) (preds : List (Pred F)) (labs : List (Box F)) : ℕ × ℕ × ℕ :=
  ((List.finRange preds.length).countP (fun i => (matchLists A thr preds labs).tp i),
    (List.finRange preds.length).countP (fun i => (matchLists A thr preds labs).fp i),
    (List.finRange labs.length).countP (fun j => (matchLists A thr preds labs).fn j))

omit [IsStrictOrderedRing F] in
theorem confusionOf_counts (A : ArgSort F) (thr : F) (images : List (Image F K)) (k : Fin K) :
    confusionOf A thr images k = ⟨(images.map (fun im => (imageCounts A thr (im.preds k) (labelsOf im k)).1)).sum,
      (images.map (fun im => (imageCounts A thr (im.preds k) (labelsOf im k)).2.1)).sum,
      (images.map (fun im => (imageCounts A thr (im.preds k) (labelsOf im k)).2.2)).sum⟩ := by
  unfold confusionOf
  dsimp only
  rw [List.map_map, List.map_map, List.map_map]
  rfl

omit [IsStrictOrderedRing F] in
theorem imageCounts_erase (A : ArgSort F) (thr : F) (hthr : 1 / 2 ≤ thr) (preds : List (Pred F)) (labs : List (Box F))
    (s : Fin preds.length) (hd : (preds.map (fun p => p.prob)).Nodup) (hs : FalseDetection preds labs s) :
    (imageCounts A thr preds labs).1 = (imageCounts A thr (preds.eraseIdx s) labs).1 ∧
    (imageCounts A thr preds labs).2.1 = (imageCounts A thr (preds.eraseIdx s) labs).2.1 + 1 ∧
    (imageCounts A thr preds labs).2.2 = (imageCounts A thr (preds.eraseIdx s) labs).2.2 := by
  obtain ⟨h1, h2, h3, h4, h5⟩ := matchLists_erase A thr hthr preds labs s hd hs
  unfold imageCounts
  dsimp only
  rw [h1, h2, h3, countP_ofFn_perm (keptIndex_without preds s) (fun i => (matchLists A thr preds labs).tp i),
    countP_ofFn_perm (keptIndex_without preds s) (fun i => (matchLists A thr preds labs).fp i), h4, h5]
  exact ⟨rfl, rfl, rfl⟩

omit [IsStrictOrderedRing F] in
/-- **C191, counts.** Without the false detection there is one false positive less; true positives and false negatives stay, at
every overlap threshold from one half. -/
theorem C191_counts (A : ArgSort F) (thr : F) (hthr : 1 / 2 ≤ thr) (before after : List (Image F K)) (im : Image F K) (k : Fin K)
    (s : Fin (im.preds k).length) (hd : ((im.preds k).map (fun p => p.prob)).Nodup)
    (hs : FalseDetection (im.preds k) (labelsOf im k) s) :
    confusionOf A thr (before ++ im :: after) k =
      let c := confusionOf A thr (before ++ removeDetection im k s :: after) k
      { c with fp := c.fp + 1 } := by
  dsimp only
  rw [confusionOf_counts, confusionOf_counts]
  have hp : (removeDetection im k s).preds k = (im.preds k).eraseIdx s := Function.update_self _ _ _
  have hl : labelsOf (removeDetection im k s) k = labelsOf im k := rfl
  obtain ⟨h1, h2, h3⟩ := imageCounts_erase A thr hthr (im.preds k) (labelsOf im k) s hd hs
  simp only [List.map_append, List.map_cons, List.sum_append, List.sum_cons, hp, hl, h1, h2, h3]
  congr 1
  omega

theorem iouThresholds_ge (thr : F) (h : thr ∈ iouThresholds (F := F)) : 1 / 2 ≤ thr := by
  obtain ⟨i, -, rfl⟩ := List.mem_map.mp h
  have : (0 : F) ≤ (i : F) / 20 := by positivity
  linarith

/-- **C191, metrics.** Without the false detection the precision and the F1 score of the class are at least as high, and the
recall is the same. -/
theorem C191_metrics (A : ArgSort F) (before after : List (Image F K)) (im : Image F K) (k : Fin K)
    (s : Fin (im.preds k).length) (hd : ((im.preds k).map (fun p => p.prob)).Nodup)
    (hs : FalseDetection (im.preds k) (labelsOf im k) s) :
    (classMetrics A (before ++ im :: after) k).1 ≤ (classMetrics A (before ++ removeDetection im k s :: after) k).1 ∧
    (classMetrics A (before ++ im :: after) k).2.1 = (classMetrics A (before ++ removeDetection im k s :: after) k).2.1 ∧
    (classMetrics A (before ++ im :: after) k).2.2 ≤ (classMetrics A (before ++ removeDetection im k s :: after) k).2.2 := by
  have hc : ∀ thr ∈ iouThresholds (F := F), confusionOf A thr (before ++ im :: after) k = _ := fun thr h =>
    C191_counts A thr (iouThresholds_ge thr h) before after im k s hd hs
  obtain ⟨htp, hfp, hfn⟩ := nonneg_average A (before ++ removeDetection im k s :: after) k
  have hK : (0 : F) ≤ ((10 * K : ℕ) : F) := Nat.cast_nonneg _
  have a1 : (averageConfusion A (before ++ im :: after) k).tp =
      (averageConfusion A (before ++ removeDetection im k s :: after) k).tp := by
    unfold averageConfusion
    dsimp only
    rw [List.map_congr_left (fun thr h => by rw [hc thr h])]
  have a3 : (averageConfusion A (before ++ im :: after) k).fn =
      (averageConfusion A (before ++ removeDetection im k s :: after) k).fn := by
    unfold averageConfusion
    dsimp only
    rw [List.map_congr_left (fun thr h => by rw [hc thr h])]
  have a2 : (averageConfusion A (before ++ removeDetection im k s :: after) k).fp ≤
      (averageConfusion A (before ++ im :: after) k).fp := by
    unfold averageConfusion
    dsimp only
    refine div_le_div_of_nonneg_right (List.sum_le_sum fun thr h => ?_) hK
    rw [hc thr h]
    push_cast
    linarith
  have ht : (0 : F) < tiny := by unfold tiny; positivity
  have hprec : (classMetrics A (before ++ im :: after) k).1 ≤ (classMetrics A (before ++ removeDetection im k s :: after) k).1 := by
    unfold classMetrics
    dsimp only
    rw [a1]
    exact div_le_div_of_nonneg_left htp (by linarith) (by linarith)
  have hrec : (classMetrics A (before ++ im :: after) k).2.1 = (classMetrics A (before ++ removeDetection im k s :: after) k).2.1 := by
    unfold classMetrics
    dsimp only
    rw [a1, a3]
  refine ⟨hprec, hrec, ?_⟩
  have hp0 : 0 ≤ (classMetrics A (before ++ im :: after) k).1 := (C72_metrics_range A (before ++ im :: after) k).1.1
  have hr0 : 0 ≤ (classMetrics A (before ++ removeDetection im k s :: after) k).2.1 :=
    (C72_metrics_range A (before ++ removeDetection im k s :: after) k).2.1.1
  have hF : ∀ ims : List (Image F K), (classMetrics A ims k).2.2 = 2 * ((classMetrics A ims k).1 * (classMetrics A ims k).2.1) /
      ((classMetrics A ims k).1 + (classMetrics A ims k).2.1 + tiny) := fun _ => rfl
  rw [hF, hF, hrec]
  generalize (classMetrics A (before ++ im :: after) k).1 = p at hp0 hprec
  generalize (classMetrics A (before ++ removeDetection im k s :: after) k).1 = q at hprec
  generalize (classMetrics A (before ++ removeDetection im k s :: after) k).2.1 = r at hr0
  rw [div_le_div_iff₀ (by linarith) (by linarith)]
  nlinarith [mul_nonneg hr0 (mul_nonneg hr0 (sub_nonneg.mpr hprec)), mul_nonneg hr0 (mul_nonneg ht.le (sub_nonneg.mpr hprec))]

/-! ### Average precision -/

/-- The detections of one class in one image with their true positive flags. -/
def flaggedLists (A : ArgSort F) (thr : F) (preds : List (Pred F)) (labs : List (Box F)) : List (F × Bool) :=
  List.ofFn (fun i : Fin preds.length => ((preds.get i).prob, (matchLists A thr preds labs).tp i))

omit [IsStrictOrderedRing F] in
theorem flaggedLists_erase (A : ArgSort F) (thr : F) (hthr : 1 / 2 ≤ thr) (preds : List (Pred F)) (labs : List (Box F))
    (s : Fin preds.length) (hd : (preds.map (fun p => p.prob)).Nodup) (hs : FalseDetection preds labs s) :
    (flaggedLists A thr preds labs).Perm (((preds.get s).prob, false) :: flaggedLists A thr (preds.eraseIdx s) labs) := by
  obtain ⟨h1, -, -, h4, -⟩ := matchLists_erase A thr hthr preds labs s hd hs
  unfold flaggedLists
  rw [List.ofFn_eq_map, List.ofFn_eq_map]
  refine ((keptIndex_without preds s).perm.map _).trans ?_
  rw [List.map_cons, List.map_map, h4]
  refine List.Perm.cons _ (List.Perm.of_eq (List.map_congr_left fun j _ => ?_))
  rw [Function.comp_apply, h1, get_keptIndex]

theorem sortOn_insert {α β : Type} [LinearOrder α] (A : ArgSort α) (key : β → α) {l l' : List β} (x : β) (h : l.Perm (x :: l'))
    (hd : (l.map key).Nodup) : ∃ u v, sortOn A key l = u ++ x :: v ∧ sortOn A key l' = u ++ v := by
  have hx : x ∈ sortOn A key l := (mem_sortOn A key l x).mpr (h.mem_iff.mpr (by simp))
  obtain ⟨u, v, huv⟩ := List.append_of_mem hx
  refine ⟨u, v, huv, ?_⟩
  have hp : (u ++ v).Perm l' := by
    have h1 : (x :: (u ++ v)).Perm (x :: l') :=
      (List.perm_middle.symm.trans (List.Perm.of_eq huv.symm)).trans ((sortOn_perm A key l).trans h)
    exact h1.cons_inv
  refine List.Perm.eq_of_pairwise (le := fun x y => key x ≤ key y) ?_ (sortOn_sorted A key l') ?_
    ((sortOn_perm A key l').trans hp.symm)
  · intro a b ha hb h1 h2
    refine List.inj_on_of_nodup_map hd (h.mem_iff.mpr (List.mem_cons_of_mem _ ((mem_sortOn A key l' a).mp ha))) ?_ (le_antisymm h1 h2)
    exact h.mem_iff.mpr (List.mem_cons_of_mem _ (hp.mem_iff.mp hb))
  · have hs := sortOn_sorted A key l
    rw [huv] at hs
    exact hs.sublist (List.Sublist.append_left (List.sublist_cons_self x v) u)

/-- Without the false detection, the flags in the order of the probabilities have one `false` less. -/
theorem flags_insert (A : ArgSort F) (thr : F) (hthr : 1 / 2 ≤ thr) (before after : List (Image F K)) (im : Image F K) (k : Fin K)
    (s : Fin (im.preds k).length) (hd : DistinctProbs (before ++ im :: after) k)
    (hs : FalseDetection (im.preds k) (labelsOf im k) s) :
    ∃ u v, sortOn A (fun x : F × Bool => -x.1) ((before ++ im :: after).flatMap (fun im => flagged A thr im k)) =
        u ++ (((im.preds k).get s).prob, false) :: v ∧
      sortOn A (fun x : F × Bool => -x.1) ((before ++ removeDetection im k s :: after).flatMap (fun im => flagged A thr im k)) = u ++ v := by
  have hd1 : ((im.preds k).map (fun p => p.prob)).Nodup := by
    unfold DistinctProbs at hd
    rw [List.flatMap_append, List.flatMap_cons, List.map_append, List.map_append] at hd
    exact (List.nodup_append.mp (List.nodup_append.mp hd).2.1).1
  have hp : (removeDetection im k s).preds k = (im.preds k).eraseIdx s := Function.update_self _ _ _
  have e1 : flagged A thr im k = flaggedLists A thr (im.preds k) (labelsOf im k) := rfl
  have e2 : flagged A thr (removeDetection im k s) k = flaggedLists A thr ((im.preds k).eraseIdx s) (labelsOf im k) := by
    have : flagged A thr (removeDetection im k s) k =
      flaggedLists A thr ((removeDetection im k s).preds k) (labelsOf im k) := rfl
    rw [this, hp]
  refine sortOn_insert A _ _ ?_ ?_
  · rw [List.flatMap_append, List.flatMap_cons, List.flatMap_append, List.flatMap_cons, e1, e2]
    have h1 := (flaggedLists_erase A thr hthr (im.preds k) (labelsOf im k) s hd1 hs).append_right
      (after.flatMap (fun im => flagged A thr im k))
    exact (h1.append_left _).trans List.perm_middle
  · have e : ((before ++ im :: after).flatMap (fun im => flagged A thr im k)).map (fun x : F × Bool => -x.1) =
        (((before ++ im :: after).flatMap (fun im => im.preds k)).map (fun p => p.prob)).map (fun x => -x) := by
      rw [List.map_flatMap, List.map_flatMap, List.map_flatMap]
      congr 1
      funext im
      rw [← map_fst_flagged A thr im k, List.map_map]
      rfl
    rw [e]
    exact List.Nodup.map neg_injective hd

omit [IsStrictOrderedRing F] in
theorem apOfClass_area (A : ArgSort F) (thr : F) (images : List (Image F K)) (k : Fin K) :
    apOfClass A thr images k = areaAfter (max (((images.map (fun im => (labelsOf im k).length)).sum : ℕ) : F) eps32) 0 0
      ((sortOn A (fun x : F × Bool => -x.1) (images.flatMap (fun im => flagged A thr im k))).map (fun x => x.2)) := by
  rw [← averagePrecision_area]
  rfl

omit [LinearOrder F] [IsStrictOrderedRing F] [Field F] in
theorem numBoxes_remove [Field F] [LinearOrder F] (before after : List (Image F K)) (im : Image F K) (k : Fin K) (s : ℕ) :
    ((before ++ removeDetection im k s :: after).map (fun im => (labelsOf im k).length)).sum =
      ((before ++ im :: after).map (fun im => (labelsOf im k).length)).sum := by
  simp only [List.map_append, List.map_cons]
  rfl

/-- **C191, average precision.** Without the false detection the average precision of its class is at least as high, at every
overlap threshold from one half, and so is the mean over the thresholds. -/
theorem C191_average_precision (A : ArgSort F) (before after : List (Image F K)) (im : Image F K) (k : Fin K)
    (s : Fin (im.preds k).length) (hd : DistinctProbs (before ++ im :: after) k)
    (hs : FalseDetection (im.preds k) (labelsOf im k) s) :
    (∀ thr, 1 / 2 ≤ thr → apOfClass A thr (before ++ im :: after) k ≤ apOfClass A thr (before ++ removeDetection im k s :: after) k) ∧
    perClassAp A (before ++ im :: after) k ≤ perClassAp A (before ++ removeDetection im k s :: after) k := by
  have he : (0 : F) < eps32 := by unfold eps32; positivity
  have h : ∀ thr, 1 / 2 ≤ thr →
      apOfClass A thr (before ++ im :: after) k ≤ apOfClass A thr (before ++ removeDetection im k s :: after) k := by
    intro thr hthr
    obtain ⟨u, v, h1, h2⟩ := flags_insert A thr hthr before after im k s hd hs
    rw [apOfClass_area, apOfClass_area, h1, h2, numBoxes_remove, List.map_append (l₁ := u), List.map_append (l₁ := u)]
    exact areaAfter_insert (lt_max_of_lt_right he).le (u.map (fun x => x.2)) (v.map (fun x => x.2)) 0 0
  refine ⟨h, ?_⟩
  unfold perClassAp
  refine mul_le_mul_of_nonneg_right (div_le_div_of_nonneg_right ?_ (by norm_num)) (by norm_num)
  exact List.sum_le_sum fun thr ht => h thr (iouThresholds_ge thr ht)

/-- A correct detection overlaps a box by the threshold. -/
theorem flagged_true (A : ArgSort F) (thr : F) (im : Image F K) (k : Fin K) (x : F × Bool) (hx : x ∈ flagged A thr im k)
    (ht : x.2 = true) : ∃ p ∈ im.preds k, p.prob = x.1 ∧ ∃ l ∈ labelsOf im k, thr ≤ iou p.box l := by
  unfold flagged at hx
  obtain ⟨i, rfl⟩ := List.mem_ofFn.mp hx
  obtain ⟨g, -, hg, -⟩ := C40_one_to_one A thr (overlaps (im.preds k) (labelsOf im k)) (fun i => ((im.preds k).get i).prob)
  exact ⟨_, List.get_mem _ i, rfl, _, List.get_mem _ (g ⟨i, ht⟩), (hg ⟨i, ht⟩).1⟩

/-- **C191, average precision.** A false detection less probable than all detections that overlap a box of the class by half
does not change the average precision. -/
theorem C191_improbable (A : ArgSort F) (before after : List (Image F K)) (im : Image F K) (k : Fin K)
    (s : Fin (im.preds k).length) (hd : DistinctProbs (before ++ im :: after) k)
    (hs : FalseDetection (im.preds k) (labelsOf im k) s)
    (hlow : ∀ im' ∈ before ++ im :: after, ∀ p ∈ im'.preds k, (∃ l ∈ labelsOf im' k, 1 / 2 ≤ iou p.box l) →
      ((im.preds k).get s).prob < p.prob) :
    perClassAp A (before ++ im :: after) k = perClassAp A (before ++ removeDetection im k s :: after) k := by
  have h : ∀ thr ∈ iouThresholds (F := F),
      apOfClass A thr (before ++ im :: after) k = apOfClass A thr (before ++ removeDetection im k s :: after) k := by
    intro thr hthr
    have ht := iouThresholds_ge thr hthr
    obtain ⟨u, v, h1, h2⟩ := flags_insert A thr ht before after im k s hd hs
    have hsorted := sortOn_sorted A (fun x : F × Bool => -x.1) ((before ++ im :: after).flatMap (fun im => flagged A thr im k))
    rw [h1, List.pairwise_append, List.pairwise_cons] at hsorted
    have hv : ∀ b ∈ v.map (fun x => x.2), b = false := by
      intro b hb
      obtain ⟨x, hx, rfl⟩ := List.mem_map.mp hb
      by_contra hne
      have hx2 : x.2 = true := by simpa using hne
      have hmem : x ∈ (before ++ im :: after).flatMap (fun im => flagged A thr im k) := by
        rw [← mem_sortOn A (fun x : F × Bool => -x.1), h1]
        simp [hx]
      obtain ⟨im', him', hxf⟩ := List.mem_flatMap.mp hmem
      obtain ⟨p, hp, hpx, l, hl, hiou⟩ := flagged_true A thr im' k x hxf hx2
      have := hlow im' him' p hp ⟨l, hl, ht.trans hiou⟩
      have hle := hsorted.2.1.1 x hx
      dsimp only at hle
      rw [hpx] at this
      linarith
    rw [apOfClass_area, apOfClass_area, h1, h2, numBoxes_remove, List.map_append (l₁ := u), List.map_append (l₁ := u)]
    refine (areaAfter_end (F := F) _ (u.map (fun x => x.2)) (false :: v.map (fun x => x.2)) (v.map (fun x => x.2)) ?_ hv 0 0).2
    intro b hb
    rcases List.mem_cons.mp hb with rfl | hb
    · rfl
    · exact hv b hb
  unfold perClassAp
  rw [List.map_congr_left h]

/-- One object found with 80 %, and a false detection of 90 %: without it the average precision is 1 instead of 1/2. -/
example :
    let im : Image ℚ 1 := ⟨fun _ => [⟨⟨10, 10, 12, 12⟩, 9 / 10⟩, ⟨⟨0, 0, 4, 4⟩, 8 / 10⟩], [(⟨0, 0, 4, 4⟩, 0)]⟩
    FalseDetection (im.preds 0) (labelsOf im 0) ⟨0, by decide⟩ ∧ DistinctProbs [im] 0 ∧
      apOfClass (stableSort ℚ) (1 / 2) [im] 0 = 1 / 2 ∧ apOfClass (stableSort ℚ) (1 / 2) [removeDetection im 0 0] 0 = 1 ∧
      (confusionOf (stableSort ℚ) (1 / 2) [im] 0).fp = 1 := by
  refine ⟨?_, ?_, ?_, ?_, ?_⟩
  · unfold FalseDetection; decide +kernel
  · unfold DistinctProbs; decide +kernel
  · decide +kernel
  · decide +kernel
  · decide +kernel

end Cleanlab.Props
