import Verif.Model.Detection
import Mathlib.Tactic.Linarith
import Mathlib.Tactic.Ring
import Mathlib.Tactic.FieldSimp
import Mathlib.Tactic.NormNum
import Mathlib.Tactic.Positivity
import Mathlib.Algebra.Order.BigOperators.Group.List

/-!
# C39, C40: overlap of boxes and matching of predictions with annotations
-/

namespace Cleanlab.Props

open Np Cleanlab.Detection

variable {F : Type} [Field F] [LinearOrder F]

/-! ## C39 -/

/-- A box whose corners are in order. -/
def ValidBox (b : Box F) : Prop := b.x1 ≤ b.x2 ∧ b.y1 ≤ b.y2

/-- `(x, y)` lies strictly inside `b`. -/
def Inside (b : Box F) (x y : F) : Prop := b.x1 < x ∧ x < b.x2 ∧ b.y1 < y ∧ y < b.y2

/-- **C39, symmetry.** -/
theorem C39_symmetric (a b : Box F) : iou a b = iou b a := by
  unfold iou
  simp only [max_comm a.x1, max_comm a.y1, min_comm a.x2, min_comm a.y2, add_comm a.area]

variable [IsStrictOrderedRing F]

theorem eps_pos : (0 : F) < eps := by unfold eps; positivity

theorem prod_le {a b c d : F} (ha : 0 ≤ a) (hab : a ≤ b) (hc : 0 ≤ c) (hcd : c ≤ d) : a * c ≤ b * d :=
  mul_le_mul hab hcd hc (ha.trans hab)

/-- **C39, range.** The overlap lies in `[0, 1]`. -/
theorem C39_range (a b : Box F) : 0 ≤ iou a b ∧ iou a b ≤ 1 := by
  unfold iou
  simp only
  split_ifs with h
  · exact ⟨le_rfl, zero_le_one⟩
  · push Not at h
    obtain ⟨h1, h2⟩ := h
    have w : 0 ≤ min a.x2 b.x2 - max a.x1 b.x1 := sub_nonneg.mpr h1
    have v : 0 ≤ min a.y2 b.y2 - max a.y1 b.y1 := sub_nonneg.mpr h2
    have hi := mul_nonneg w v
    have hA : (min a.x2 b.x2 - max a.x1 b.x1) * (min a.y2 b.y2 - max a.y1 b.y1) ≤ a.area :=
      prod_le w (sub_le_sub (min_le_left _ _) (le_max_left _ _)) v (sub_le_sub (min_le_left _ _) (le_max_left _ _))
    have hB : (min a.x2 b.x2 - max a.x1 b.x1) * (min a.y2 b.y2 - max a.y1 b.y1) ≤ b.area :=
      prod_le w (sub_le_sub (min_le_right _ _) (le_max_right _ _)) v
        (sub_le_sub (min_le_right _ _) (le_max_right _ _))
    have hpos : 0 < max (a.area + b.area - (min a.x2 b.x2 - max a.x1 b.x1) * (min a.y2 b.y2 - max a.y1 b.y1)) eps :=
      lt_max_of_lt_right eps_pos
    refine ⟨div_nonneg hi hpos.le, (div_le_one hpos).mpr (le_max_of_le_left ?_)⟩
    linarith

/-- **C39, disjoint boxes.** The overlap is positive exactly when some point lies
strictly inside both; in particular boxes that do not meet or only touch have overlap 0. -/
theorem C39_positive_iff (a b : Box F) :
    0 < iou a b ↔ ∃ x y, Inside a x y ∧ Inside b x y := by
  have hmid : ∀ {u v : F}, u < v → u < (u + v) / 2 ∧ (u + v) / 2 < v := by
    intro u v h
    constructor
    · linarith
    · linarith
  constructor
  · intro h
    unfold iou at h
    simp only at h
    split_ifs at h with hc
    · exact absurd h (lt_irrefl 0)
    · push Not at hc
      have hpos : 0 < max (a.area + b.area - (min a.x2 b.x2 - max a.x1 b.x1) * (min a.y2 b.y2 - max a.y1 b.y1)) eps :=
        lt_max_of_lt_right eps_pos
      have hin : 0 < (min a.x2 b.x2 - max a.x1 b.x1) * (min a.y2 b.y2 - max a.y1 b.y1) := by
        by_contra hn
        exact absurd h (not_lt.mpr (div_nonpos_of_nonpos_of_nonneg (not_lt.mp hn) hpos.le))
      have hx : max a.x1 b.x1 < min a.x2 b.x2 := by
        refine lt_of_le_of_ne hc.1 (fun he => ?_)
        rw [he] at hin; simp at hin
      have hy : max a.y1 b.y1 < min a.y2 b.y2 := by
        refine lt_of_le_of_ne hc.2 (fun he => ?_)
        rw [he] at hin; simp at hin
      obtain ⟨hx1, hx2⟩ := hmid hx
      obtain ⟨hy1, hy2⟩ := hmid hy
      rw [max_lt_iff] at hx1 hy1
      rw [lt_min_iff] at hx2 hy2
      exact ⟨_, _, ⟨hx1.1, hx2.1, hy1.1, hy2.1⟩, ⟨hx1.2, hx2.2, hy1.2, hy2.2⟩⟩
  · rintro ⟨x, y, ⟨a1, a2, a3, a4⟩, ⟨b1, b2, b3, b4⟩⟩
    have hx : max a.x1 b.x1 < min a.x2 b.x2 := (max_lt a1 b1).trans (lt_min a2 b2)
    have hy : max a.y1 b.y1 < min a.y2 b.y2 := (max_lt a3 b3).trans (lt_min a4 b4)
    unfold iou
    simp only
    rw [if_neg (by push Not; exact ⟨hx.le, hy.le⟩)]
    exact div_pos (mul_pos (sub_pos.mpr hx) (sub_pos.mpr hy)) (lt_max_of_lt_right eps_pos)

theorem prod_eq {a b c d : F} (ha : 0 ≤ a) (hab : a ≤ b) (hc : 0 ≤ c) (hcd : c ≤ d) (hpos : 0 < b * d)
    (h : a * c = b * d) : a = b ∧ c = d := by
  have hb : 0 < b := by
    rcases lt_or_eq_of_le (ha.trans hab) with h1 | h1
    · exact h1
    · rw [← h1] at hpos; simp at hpos
  have hd : 0 < d := by
    rcases lt_or_eq_of_le (hc.trans hcd) with h1 | h1
    · exact h1
    · rw [← h1] at hpos; simp at hpos
  constructor
  · refine le_antisymm hab (not_lt.mp (fun hlt => ?_))
    have h1 : a * c ≤ a * d := mul_le_mul_of_nonneg_left hcd ha
    have h2 : a * d < b * d := mul_lt_mul_of_pos_right hlt hd
    exact absurd h (ne_of_lt (lt_of_le_of_lt h1 h2))
  · refine le_antisymm hcd (not_lt.mp (fun hlt => ?_))
    have h1 : a * c ≤ b * c := mul_le_mul_of_nonneg_right hab hc
    have h2 : b * c < b * d := mul_lt_mul_of_pos_left hlt hb
    exact absurd h (ne_of_lt (lt_of_le_of_lt h1 h2))

/-- **C39, identity (partial).** For a box of area at least `1e-6` the overlap is 1 exactly with itself. Missing: boxes
of smaller positive area, for which it is false (`C39_not_identity`). -/
theorem C39_one_iff_equal_partial (a b : Box F) (ha : ValidBox a) (hb : ValidBox b) (harea : eps ≤ a.area) :
    iou a b = 1 ↔ a = b := by
  have hapos : 0 < a.area := lt_of_lt_of_le eps_pos harea
  constructor
  · intro h
    unfold iou at h
    simp only at h
    split_ifs at h with hc
    · exact absurd h zero_ne_one
    · push Not at hc
      obtain ⟨h1, h2⟩ := hc
      have w : 0 ≤ min a.x2 b.x2 - max a.x1 b.x1 := sub_nonneg.mpr h1
      have v : 0 ≤ min a.y2 b.y2 - max a.y1 b.y1 := sub_nonneg.mpr h2
      have wA : min a.x2 b.x2 - max a.x1 b.x1 ≤ a.x2 - a.x1 := sub_le_sub (min_le_left _ _) (le_max_left _ _)
      have vA : min a.y2 b.y2 - max a.y1 b.y1 ≤ a.y2 - a.y1 := sub_le_sub (min_le_left _ _) (le_max_left _ _)
      have wB : min a.x2 b.x2 - max a.x1 b.x1 ≤ b.x2 - b.x1 := sub_le_sub (min_le_right _ _) (le_max_right _ _)
      have vB : min a.y2 b.y2 - max a.y1 b.y1 ≤ b.y2 - b.y1 := sub_le_sub (min_le_right _ _) (le_max_right _ _)
      have hA : (min a.x2 b.x2 - max a.x1 b.x1) * (min a.y2 b.y2 - max a.y1 b.y1) ≤ a.area := prod_le w wA v vA
      have hB : (min a.x2 b.x2 - max a.x1 b.x1) * (min a.y2 b.y2 - max a.y1 b.y1) ≤ b.area := prod_le w wB v vB
      have hpos : 0 < max (a.area + b.area - (min a.x2 b.x2 - max a.x1 b.x1) * (min a.y2 b.y2 - max a.y1 b.y1)) eps :=
        lt_max_of_lt_right eps_pos
      rw [div_eq_one_iff_eq hpos.ne'] at h
      have hge := le_max_left (a.area + b.area - (min a.x2 b.x2 - max a.x1 b.x1) * (min a.y2 b.y2 - max a.y1 b.y1)) eps
      rw [← h] at hge
      have eA : (min a.x2 b.x2 - max a.x1 b.x1) * (min a.y2 b.y2 - max a.y1 b.y1) = a.area := by linarith
      have eB : (min a.x2 b.x2 - max a.x1 b.x1) * (min a.y2 b.y2 - max a.y1 b.y1) = b.area := by linarith
      have hbpos : 0 < b.area := by rw [← eB, eA]; exact hapos
      obtain ⟨p1, p2⟩ := prod_eq w wA v vA hapos eA
      obtain ⟨q1, q2⟩ := prod_eq w wB v vB hbpos eB
      have m1 := min_le_left a.x2 b.x2
      have m2 := min_le_right a.x2 b.x2
      have m3 := min_le_left a.y2 b.y2
      have m4 := min_le_right a.y2 b.y2
      have n1 := le_max_left a.x1 b.x1
      have n2 := le_max_right a.x1 b.x1
      have n3 := le_max_left a.y1 b.y1
      have n4 := le_max_right a.y1 b.y1
      obtain ⟨ax1, ay1, ax2, ay2⟩ := a
      obtain ⟨bx1, by1, bx2, by2⟩ := b
      simp only at *
      have e1 : ax1 = bx1 := by linarith
      have e2 : ay1 = by1 := by linarith
      have e3 : ax2 = bx2 := by linarith
      have e4 : ay2 = by2 := by linarith
      rw [e1, e2, e3, e4]
  · rintro rfl
    unfold iou
    simp only [max_self, min_self]
    rw [if_neg (by push Not; exact ha)]
    have : (a.x2 - a.x1) * (a.y2 - a.y1) = a.area := rfl
    rw [this, add_sub_cancel_right, max_eq_left harea, div_self hapos.ne']

/-- **C39 (refuted as stated).** The overlap of a non-degenerate box with itself is not always 1: in coordinates
normalised to `[0, 1]` a box of side `1e-4` overlaps itself by only `0.01`. -/
theorem C39_not_identity : ¬ ∀ a : Box ℚ, a.x1 < a.x2 → a.y1 < a.y2 → iou a a = 1 := by
  intro h
  exact absurd (h ⟨0, 0, 1/10000, 1/10000⟩ (by norm_num) (by norm_num)) (by decide +kernel)

example : iou (⟨0, 0, 2, 2⟩ : Box ℚ) ⟨1, 0, 3, 2⟩ = 1/3 ∧ iou (⟨0, 0, 2, 2⟩ : Box ℚ) ⟨2, 0, 3, 2⟩ = 0 ∧
    iou (⟨0, 0, 2, 2⟩ : Box ℚ) ⟨0, 0, 2, 2⟩ = 1 ∧ iou (⟨0, 0, 1/10000, 1/10000⟩ : Box ℚ) ⟨0, 0, 1/10000, 1/10000⟩ = 1/100 := by
  decide +kernel

/-! ## C40 -/

/-- What the matching loop maintains once the predictions `done` are processed. -/
structure MatchInv {p l : ℕ} [NeZero l] (thr : F) (ious : Fin p → Fin l → F) (probs : Fin p → F) (done : List (Fin p))
    (st : MatchState p l) : Prop where
  pending : ∀ i, i ∉ done → st.tp i = false ∧ st.fp i = false
  exclusive : ∀ i, i ∈ done → st.tp i = !st.fp i
  reach : ∀ i, st.tp i = true → thr ≤ ious i (argmax (ious i))
  covered : ∀ j, st.covered j = true ↔ ∃ i, st.tp i = true ∧ argmax (ious i) = j
  inj : ∀ i i', st.tp i = true → st.tp i' = true → argmax (ious i) = argmax (ious i') → i = i'
  greedy : ∀ i, st.fp i = true → thr ≤ ious i (argmax (ious i)) →
    ∃ i', st.tp i' = true ∧ argmax (ious i') = argmax (ious i) ∧ probs i ≤ probs i'

omit [Field F] [IsStrictOrderedRing F] in
theorem matchStep_inv {p l : ℕ} [NeZero l] (thr : F) (ious : Fin p → Fin l → F) (probs : Fin p → F)
    (done : List (Fin p)) (st : MatchState p l) (i : Fin p) (hi : i ∉ done) (hord : ∀ i' ∈ done, probs i ≤ probs i')
    (h : MatchInv thr ious probs done st) : MatchInv thr ious probs (done ++ [i]) (matchStep thr ious st i) := by
  have hpend := h.pending i hi
  have htpdone : ∀ i', st.tp i' = true → i' ∈ done := by
    intro i' h1
    by_contra h2
    rw [(h.pending i' h2).1] at h1
    cases h1
  have hfp : ∀ (hg : thr ≤ ious i (argmax (ious i)) → st.covered (argmax (ious i)) = true),
      MatchInv thr ious probs (done ++ [i]) { st with fp := Function.update st.fp i true } := by
    intro hg
    refine ⟨?_, ?_, h.reach, h.covered, h.inj, ?_⟩
    · intro j hj
      simp only [List.mem_append, List.mem_singleton, not_or] at hj
      simp only [Function.update_of_ne hj.2]
      exact h.pending j hj.1
    · intro j hj
      by_cases hji : j = i
      · subst hji
        simp only [Function.update_self]
        exact hpend.1
      · simp only [Function.update_of_ne hji]
        simp only [List.mem_append, List.mem_singleton, hji, or_false] at hj
        exact h.exclusive j hj
    · intro j hj hthr
      by_cases hji : j = i
      · subst hji
        obtain ⟨i', h1, h2⟩ := (h.covered _).mp (hg hthr)
        exact ⟨i', h1, h2, hord i' (htpdone i' h1)⟩
      · simp only [Function.update_of_ne hji] at hj
        exact h.greedy j hj hthr
  unfold matchStep
  simp only
  split_ifs with h1 h2
  · exact hfp (fun _ => h2)
  · refine ⟨?_, ?_, ?_, ?_, ?_, ?_⟩
    · intro j hj
      simp only [List.mem_append, List.mem_singleton, not_or] at hj
      simp only [Function.update_of_ne hj.2]
      exact h.pending j hj.1
    · intro j hj
      by_cases hji : j = i
      · subst hji
        simp [hpend.2]
      · simp only [Function.update_of_ne hji]
        simp only [List.mem_append, List.mem_singleton, hji, or_false] at hj
        exact h.exclusive j hj
    · intro j hj
      by_cases hji : j = i
      · subst hji; exact h1
      · simp only [Function.update_of_ne hji] at hj
        exact h.reach j hj
    · intro j
      by_cases hji : j = argmax (ious i)
      · subst hji
        simp only [Function.update_self, true_iff]
        exact ⟨i, by simp, rfl⟩
      · simp only [Function.update_of_ne hji]
        rw [h.covered]
        constructor
        · rintro ⟨i', h3, h4⟩
          have hne : i' ≠ i := by rintro rfl; rw [hpend.1] at h3; cases h3
          exact ⟨i', by simp only [Function.update_of_ne hne]; exact h3, h4⟩
        · rintro ⟨i', h3, h4⟩
          by_cases hne : i' = i
          · subst hne; exact absurd h4.symm hji
          · simp only [Function.update_of_ne hne] at h3
            exact ⟨i', h3, h4⟩
    · have hcov : ∀ i', st.tp i' = true → argmax (ious i') ≠ argmax (ious i) := by
        intro i' h3 h4
        exact h2 ((h.covered _).mpr ⟨i', h3, h4⟩)
      intro a b ha hb hab
      by_cases hai : a = i
      · by_cases hbi : b = i
        · rw [hai, hbi]
        · simp only [Function.update_of_ne hbi] at hb
          rw [hai] at hab
          exact absurd hab.symm (hcov b hb)
      · simp only [Function.update_of_ne hai] at ha
        by_cases hbi : b = i
        · rw [hbi] at hab
          exact absurd hab (hcov a ha)
        · simp only [Function.update_of_ne hbi] at hb
          exact h.inj a b ha hb hab
    · intro j hj hthr
      obtain ⟨i', h3, h4⟩ := h.greedy j hj hthr
      have hne : i' ≠ i := by rintro rfl; rw [hpend.1] at h3; cases h3
      exact ⟨i', by simp only [Function.update_of_ne hne]; exact h3, h4⟩
  · exact hfp (fun hge => absurd hge h1)

omit [Field F] [IsStrictOrderedRing F] in
theorem foldl_matchStep_inv {p l : ℕ} [NeZero l] (thr : F) (ious : Fin p → Fin l → F) (probs : Fin p → F)
    (todo : List (Fin p)) : ∀ (done : List (Fin p)) (st : MatchState p l), (done ++ todo).Nodup →
      (done ++ todo).Pairwise (fun i i' => probs i' ≤ probs i) → MatchInv thr ious probs done st →
      MatchInv thr ious probs (done ++ todo) (todo.foldl (matchStep thr ious) st) := by
  induction todo with
  | nil => intro done st _ _ h; simpa using h
  | cons i todo ih =>
    intro done st hnd hpw h
    have hi : i ∉ done := by
      intro hmem
      exact (List.nodup_append.mp hnd).2.2 i hmem i (by simp) rfl
    have hord : ∀ i' ∈ done, probs i ≤ probs i' := fun i' hmem =>
      (List.pairwise_append.mp hpw).2.2 i' hmem i (by simp)
    have := ih (done ++ [i]) (matchStep thr ious st i) (by simpa using hnd) (by simpa using hpw)
      (matchStep_inv thr ious probs done st i hi hord h)
    simpa using this

theorem matchBoxes_inv (A : ArgSort F) (thr : F) {p l : ℕ} (ious : Fin p → Fin (l + 1) → F) (probs : Fin p → F) :
    ∃ st : MatchState p (l + 1), MatchInv thr ious probs (A.indices (fun i => -probs i)) st ∧
      matchBoxes A thr ious probs = ⟨st.tp, st.fp, fun j => !st.covered j⟩ := by
  refine ⟨_, ?_, rfl⟩
  have := foldl_matchStep_inv thr ious probs (A.indices (fun i => -probs i)) []
    (⟨fun _ => false, fun _ => false, fun _ => false⟩ : MatchState p (l + 1))
    (by simpa using A.nodup_indices _)
    (by simpa using (A.pairwise_indices (fun i => -probs i)).imp (fun h => neg_le_neg_iff.mp h))
    ⟨fun _ _ => ⟨rfl, rfl⟩, fun i hi => absurd hi (by simp), fun i hi => by simp at hi, fun j => by simp,
      fun i i' h => by simp at h, fun i hi => by simp at hi⟩
  simpa using this

/-- **C40, classification.** Every prediction is exactly one of true positive and false positive. -/
theorem C40_exactly_one (A : ArgSort F) (thr : F) {p l : ℕ} (ious : Fin p → Fin l → F) (probs : Fin p → F)
    (i : Fin p) : (matchBoxes A thr ious probs).tp i = !(matchBoxes A thr ious probs).fp i := by
  cases l with
  | zero => rfl
  | succ l =>
    obtain ⟨st, hinv, he⟩ := matchBoxes_inv A thr ious probs
    rw [he]
    exact hinv.exclusive i (A.mem_indices _ i)

/-- **C40, one-to-one.** The true positives are matched injectively to annotated boxes: each to a box it overlaps most,
by at least the threshold; the annotated boxes left over are the false negatives. -/
theorem C40_one_to_one (A : ArgSort F) (thr : F) {p l : ℕ} (ious : Fin p → Fin l → F) (probs : Fin p → F) :
    ∃ g : {i // (matchBoxes A thr ious probs).tp i = true} → Fin l, Function.Injective g ∧
      (∀ i, thr ≤ ious i.1 (g i) ∧ ∀ j, ious i.1 j ≤ ious i.1 (g i)) ∧
      ∀ j, (matchBoxes A thr ious probs).fn j = true ↔ ∀ i, g i ≠ j := by
  cases l with
  | zero =>
    refine ⟨fun i => absurd i.2 (by simp [matchBoxes]), ?_, ?_, fun j => j.elim0⟩
    · intro i
      exact absurd i.2 (by simp [matchBoxes])
    · intro i
      exact absurd i.2 (by simp [matchBoxes])
  | succ l =>
    obtain ⟨st, hinv, he⟩ := matchBoxes_inv A thr ious probs
    rw [he]
    refine ⟨fun i => argmax (ious i.1), ?_, ?_, ?_⟩
    · intro a b hab
      exact Subtype.ext (hinv.inj a.1 b.1 a.2 b.2 hab)
    · intro i
      exact ⟨hinv.reach i.1 i.2, fun j => le_argmax _ j⟩
    · intro j
      simp only [Bool.not_eq_true', Subtype.forall]
      rw [← Bool.not_eq_true, hinv.covered]
      push Not
      rfl

/-- **C40, greedy.** A prediction that reaches the threshold is a false positive only because a prediction at least
as confident took the annotated box it overlaps most. -/
theorem C40_greedy (A : ArgSort F) (thr : F) {p l : ℕ} (ious : Fin p → Fin l → F) (probs : Fin p → F) (i : Fin p)
    (j : Fin l) (hfp : (matchBoxes A thr ious probs).fp i = true) (hthr : thr ≤ ious i j) :
    ∃ i' j', (matchBoxes A thr ious probs).tp i' = true ∧ probs i ≤ probs i' ∧ (∀ j₂, ious i j₂ ≤ ious i j') ∧
      ∀ j₂, ious i' j₂ ≤ ious i' j' := by
  cases l with
  | zero => exact j.elim0
  | succ l =>
    obtain ⟨st, hinv, he⟩ := matchBoxes_inv A thr ious probs
    rw [he] at hfp ⊢
    obtain ⟨i', h1, h2, h3⟩ := hinv.greedy i hfp (hthr.trans (le_argmax _ j))
    exact ⟨i', argmax (ious i), h1, h3, fun j₂ => le_argmax _ j₂, fun j₂ => h2 ▸ le_argmax _ j₂⟩

theorem countP_finRange_eq_card {p : ℕ} (f : Fin p → Bool) :
    (List.finRange p).countP (fun i => f i) = Fintype.card {i // f i = true} := by
  rw [Fintype.card_subtype]
  have : (Finset.univ.filter (fun i => f i = true)) = ((List.finRange p).filter (fun i => f i)).toFinset := by
    ext i; simp
  rw [this, List.toFinset_card_of_nodup ((List.nodup_finRange p).filter _), List.countP_eq_length_filter]

/-- **C40, counts.** True and false positives add up to the predictions; true positives and false negatives add up to
the annotated boxes, so the recall is at most 1. -/
theorem C40_counts (A : ArgSort F) (thr : F) {p l : ℕ} (ious : Fin p → Fin l → F) (probs : Fin p → F) :
    (List.finRange p).countP (fun i => (matchBoxes A thr ious probs).tp i) +
        (List.finRange p).countP (fun i => (matchBoxes A thr ious probs).fp i) = p ∧
      (List.finRange p).countP (fun i => (matchBoxes A thr ious probs).tp i) +
        (List.finRange l).countP (fun j => (matchBoxes A thr ious probs).fn j) = l := by
  constructor
  · have h := List.length_eq_countP_add_countP (l := List.finRange p) (fun i => (matchBoxes A thr ious probs).tp i)
    rw [List.length_finRange] at h
    refine Eq.trans ?_ h.symm
    congr 1
    apply List.countP_congr
    intro i _
    rw [C40_exactly_one]
    simp
  · obtain ⟨g, hinj, _, hfn⟩ := C40_one_to_one A thr ious probs
    have h := List.length_eq_countP_add_countP (l := List.finRange l) (fun j => (matchBoxes A thr ious probs).fn j)
    rw [List.length_finRange] at h
    rw [add_comm]
    refine Eq.trans ?_ h.symm
    congr 1
    rw [countP_finRange_eq_card]
    have h2 : (List.finRange l).countP (fun j => decide ¬(matchBoxes A thr ious probs).fn j = true) =
        Fintype.card {j // (!(matchBoxes A thr ious probs).fn j) = true} := by
      rw [← countP_finRange_eq_card]
      apply List.countP_congr
      intro j _
      simp
    rw [h2]
    refine Fintype.card_congr (Equiv.ofBijective (fun i => ⟨g i, ?_⟩) ⟨?_, ?_⟩)
    · rw [Bool.not_eq_true', ← Bool.not_eq_true, hfn]
      push Not
      exact ⟨i, rfl⟩
    · intro a b hab
      exact hinj (congrArg Subtype.val hab)
    · rintro ⟨j, hj⟩
      rw [Bool.not_eq_true', ← Bool.not_eq_true, hfn] at hj
      push Not at hj
      obtain ⟨i, hi⟩ := hj
      exact ⟨i, Subtype.ext hi⟩

example :
    let ious : Fin 3 → Fin 2 → ℚ := ![![8/10, 1/10], ![9/10, 0], ![1/10, 2/10]]
    let m := matchBoxes (stableSort ℚ) (1/2) ious ![1/2, 9/10, 3/10]
    (∀ i, m.tp i = ![false, true, false] i) ∧ (∀ i, m.fp i = ![true, false, true] i) ∧ ∀ j, m.fn j = ![false, true] j := by
  decide +kernel

end Cleanlab.Props
