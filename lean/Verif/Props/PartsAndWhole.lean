import Verif.Props.DetectionBoxes
import Verif.Props.Segmentation
import Mathlib.Analysis.Complex.ExponentialBounds

/-!
# C204, C205: the score of a whole when one of its parts gets worse
-/

namespace Cleanlab.Props

open Np Cleanlab.Multilabel Cleanlab.Token Cleanlab.Segmentation

variable {N K h w n : ℕ}

/-- The mean of scores with weights that fall with the score. -/
theorem softmin_eq [NeZero n] (s : Fin n → ℝ) (T : ℝ) :
    softmin s T = (∑ k, s k * Real.exp (-s k / max T (1 / 1000000))) / ∑ k, Real.exp (-s k / max T (1 / 1000000)) := by
  unfold softmin
  rw [Finset.sum_div]
  have e : ∀ k, Real.exp ((1 - s k) / max T (1 / 1000000)) =
      Real.exp (1 / max T (1 / 1000000)) * Real.exp (-s k / max T (1 / 1000000)) := by
    intro k
    rw [← Real.exp_add]
    congr 1
    ring
  refine Finset.sum_congr rfl (fun k _ => ?_)
  rw [softmax_eq]
  simp only [e]
  rw [← Finset.mul_sum, mul_div_mul_left _ _ (Real.exp_pos _).ne', mul_div_assoc]

theorem softmin1d_eq_softmin (T : ℝ) (l : List ℝ) (hl : l ≠ []) [NeZero l.length] :
    Detection.softmin1d T l hl = softmin l.get T := by
  rw [softmin1d_eq, softmin_eq]
  have e : ∀ f : ℝ → ℝ, (l.map f).sum = ∑ k : Fin l.length, f (l.get k) := by
    intro f
    rw [← List.sum_ofFn]
    congr 1
    exact (List.ofFn_getElem_eq_map l f).symm
  rw [e, e]

/-- Lowering the score of one part from `b` to `a`, when the others have weight `B` and weighted score sum `A`. -/
theorem one_part {A B a b ea eb : ℝ} (hB : 0 ≤ B) (ha : 0 < ea) (hb : 0 < eb)
    (h : 0 ≤ A * (ea - eb) + B * (b * eb - a * ea) + (b - a) * ea * eb) :
    (A + a * ea) / (B + ea) ≤ (A + b * eb) / (B + eb) := by
  rw [div_le_div_iff₀ (by linarith) (by linarith)]
  nlinarith

/-- The two sums when the part `i` is set apart. -/
theorem softmin_apart [NeZero n] (s : Fin n → ℝ) (T : ℝ) (i : Fin n) :
    softmin s T = (∑ k ∈ Finset.univ.erase i, s k * Real.exp (-s k / max T (1 / 1000000)) +
        s i * Real.exp (-s i / max T (1 / 1000000))) /
      (∑ k ∈ Finset.univ.erase i, Real.exp (-s k / max T (1 / 1000000)) + Real.exp (-s i / max T (1 / 1000000))) := by
  rw [softmin_eq, Finset.sum_erase_add _ _ (Finset.mem_univ i), Finset.sum_erase_add _ _ (Finset.mem_univ i)]

/-- The numbers behind `softmin_apart` do not depend on the score of the part. -/
theorem apart_congr (s t : Fin n → ℝ) (i : Fin n) (hst : ∀ k, k ≠ i → t k = s k) (f : ℝ → ℝ) :
    ∑ k ∈ Finset.univ.erase i, f (t k) = ∑ k ∈ Finset.univ.erase i, f (s k) :=
  Finset.sum_congr rfl (fun k hk => by rw [hst k (Finset.ne_of_mem_erase hk)])

/-- **C205**, `softmin` of any temperature: when the part with the lowest score gets worse, the whole never gets
better. -/
theorem C205_worst [NeZero n] (s t : Fin n → ℝ) (T : ℝ) (i : Fin n) (hst : ∀ k, k ≠ i → t k = s k) (hi : t i ≤ s i)
    (hlow : ∀ k, s i ≤ s k) : softmin t T ≤ softmin s T := by
  rw [softmin_apart s T i, softmin_apart t T i,
    apart_congr s t i hst (fun x => x * Real.exp (-x / max T (1 / 1000000))),
    apart_congr s t i hst (fun x => Real.exp (-x / max T (1 / 1000000)))]
  have hτ : (0 : ℝ) < max T (1 / 1000000) := lt_max_of_lt_right (by norm_num)
  set τ := max T (1 / 1000000) with hτe
  have hB : 0 ≤ ∑ k ∈ Finset.univ.erase i, Real.exp (-s k / τ) := Finset.sum_nonneg (fun _ _ => (Real.exp_pos _).le)
  have hA : s i * ∑ k ∈ Finset.univ.erase i, Real.exp (-s k / τ) ≤
      ∑ k ∈ Finset.univ.erase i, s k * Real.exp (-s k / τ) := by
    rw [Finset.mul_sum]
    exact Finset.sum_le_sum (fun k _ => mul_le_mul_of_nonneg_right (hlow k) (Real.exp_pos _).le)
  have hab : Real.exp (-s i / τ) ≤ Real.exp (-t i / τ) :=
    Real.exp_le_exp.mpr (div_le_div_of_nonneg_right (by linarith) hτ.le)
  have ha := Real.exp_pos (-t i / τ)
  have hb := Real.exp_pos (-s i / τ)
  refine one_part hB ha hb ?_
  generalize ∑ k ∈ Finset.univ.erase i, Real.exp (-s k / τ) = B at *
  generalize ∑ k ∈ Finset.univ.erase i, s k * Real.exp (-s k / τ) = A at *
  generalize Real.exp (-t i / τ) = ea at *
  generalize Real.exp (-s i / τ) = eb at *
  have h1 := mul_le_mul_of_nonneg_right hA (sub_nonneg.mpr hab)
  have h2 : 0 ≤ B * ((s i - t i) * ea) := mul_nonneg hB (mul_nonneg (by linarith) ha.le)
  have h3 : 0 ≤ (s i - t i) * ea * eb := mul_nonneg (mul_nonneg (by linarith) ha.le) hb.le
  nlinarith

/-- `x * exp (-x / T)` grows up to `T`. -/
theorem mul_exp_mono {a b τ : ℝ} (h0 : 0 ≤ a) (hab : a ≤ b) (hb : b ≤ τ) (hτ : 0 < τ) :
    a * Real.exp (-a / τ) ≤ b * Real.exp (-b / τ) := by
  have e : Real.exp (-b / τ) = Real.exp (-a / τ) * Real.exp (-((b - a) / τ)) := by
    rw [← Real.exp_add]; congr 1; ring
  have h1 := Real.add_one_le_exp (-((b - a) / τ))
  have h2 : a ≤ b * (-((b - a) / τ) + 1) := by
    have : b * ((b - a) / τ) ≤ b - a := by
      rw [mul_div_assoc', div_le_iff₀ hτ, mul_comm]
      exact mul_le_mul_of_nonneg_left hb (by linarith)
    linarith
  rw [e]
  have h3 : a ≤ b * Real.exp (-((b - a) / τ)) := h2.trans (mul_le_mul_of_nonneg_left h1 (by linarith))
  calc a * Real.exp (-a / τ) ≤ b * Real.exp (-((b - a) / τ)) * Real.exp (-a / τ) :=
        mul_le_mul_of_nonneg_right h3 (Real.exp_pos _).le
    _ = _ := by ring

/-- One part gets worse, all scores within `[0, T]`. -/
theorem softmin_step [NeZero n] (s t : Fin n → ℝ) (T : ℝ) (i : Fin n) (hst : ∀ k, k ≠ i → t k = s k) (hi : t i ≤ s i)
    (h0 : ∀ k, 0 ≤ t k) (h1 : ∀ k, s k ≤ max T (1 / 1000000)) : softmin t T ≤ softmin s T := by
  rw [softmin_apart s T i, softmin_apart t T i,
    apart_congr s t i hst (fun x => x * Real.exp (-x / max T (1 / 1000000))),
    apart_congr s t i hst (fun x => Real.exp (-x / max T (1 / 1000000)))]
  have hτ : (0 : ℝ) < max T (1 / 1000000) := lt_max_of_lt_right (by norm_num)
  have hx := mul_exp_mono (h0 i) hi (h1 i) hτ
  set τ := max T (1 / 1000000) with hτe
  have hB : 0 ≤ ∑ k ∈ Finset.univ.erase i, Real.exp (-s k / τ) := Finset.sum_nonneg (fun _ _ => (Real.exp_pos _).le)
  have hA : 0 ≤ ∑ k ∈ Finset.univ.erase i, s k * Real.exp (-s k / τ) :=
    Finset.sum_nonneg (fun k hk => mul_nonneg (by rw [← hst k (Finset.ne_of_mem_erase hk)]; exact h0 k)
      (Real.exp_pos _).le)
  have hab : Real.exp (-s i / τ) ≤ Real.exp (-t i / τ) :=
    Real.exp_le_exp.mpr (div_le_div_of_nonneg_right (by linarith) hτ.le)
  have ha := Real.exp_pos (-t i / τ)
  have hb := Real.exp_pos (-s i / τ)
  refine one_part hB ha hb ?_
  have e1 := mul_nonneg hA (sub_nonneg.mpr hab)
  have e2 := mul_nonneg hB (sub_nonneg.mpr hx)
  have e3 : 0 ≤ (s i - t i) * Real.exp (-t i / τ) * Real.exp (-s i / τ) :=
    mul_nonneg (mul_nonneg (by linarith) ha.le) hb.le
  linarith

/-- **C205**, `softmin` with a temperature that no score exceeds, e.g. 1: when any parts get worse, the whole never
gets better. -/
theorem C205_warm [NeZero n] (s t : Fin n → ℝ) (T : ℝ) (hts : ∀ k, t k ≤ s k) (h0 : ∀ k, 0 ≤ t k)
    (h1 : ∀ k, s k ≤ T) : softmin t T ≤ softmin s T := by
  have key : ∀ m : ℕ, softmin (fun k => if k.val < m then t k else s k) T ≤ softmin s T := by
    intro m
    induction m with
    | zero => simp
    | succ m ih =>
      by_cases hm : m < n
      · refine (softmin_step (fun k => if k.val < m then t k else s k) _ T ⟨m, hm⟩ ?_ ?_ ?_ ?_).trans ih
        · intro k hk
          have : k.val ≠ m := fun e => hk (Fin.ext e)
          by_cases h' : k.val < m
          · simp [h', Nat.lt_succ_of_lt h']
          · have : ¬ k.val < m + 1 := by omega
            simp [h', this]
        · simpa using hts _
        · intro k
          split_ifs
          · exact h0 k
          · exact (h0 k).trans (hts k)
        · intro k
          refine le_max_of_le_left ?_
          split_ifs
          · exact (hts k).trans (h1 k)
          · exact h1 k
      · refine le_trans (le_of_eq ?_) ih
        congr 1
        funext k
        have h1 : k.val < m := by omega
        simp [h1, Nat.lt_succ_of_lt h1]
  have := key n
  simpa using this

/-- **C205**, images: with `softmin`, when the worst pixel of an image gets worse, the image score never rises. -/
theorem C205_image (labels : Stack N h w (Fin K)) (P Q : Stack N h w (Fin K → ℝ)) (T : ℝ) (m : Fin N) (i : Fin h) (j : Fin w)
    (hPQ : ∀ i' j', (i', j') ≠ (i, j) → Q m i' j' = P m i' j') (hi : Q m i j (labels m i j) ≤ P m i j (labels m i j))
    (hlow : ∀ i' j', P m i j (labels m i j) ≤ P m i' j' (labels m i' j')) (u v : ℝ)
    (hu : imageScoreSoftmin (pixelScores labels Q) T m = .ok u) (hv : imageScoreSoftmin (pixelScores labels P) T m = .ok v) :
    u ≤ v := by
  unfold imageScoreSoftmin at hu hv
  by_cases hw : h * w = 0
  · rw [dif_pos hw] at hu; cases hu
  by_cases hT : T = 0
  · rw [dif_neg hw, if_pos hT] at hu; cases hu
  have : NeZero (h * w) := ⟨hw⟩
  rw [dif_neg hw, if_neg hT] at hu hv
  rw [← Except.ok.inj hu, ← Except.ok.inj hv]
  have e := (finProdFinEquiv (m := h) (n := w)).symm_apply_apply (i, j)
  have e1 : (finProdFinEquiv (i, j)).divNat = i := congrArg Prod.fst e
  have e2 : (finProdFinEquiv (i, j)).modNat = j := congrArg Prod.snd e
  refine C205_worst _ _ T (finProdFinEquiv (i, j)) ?_ ?_ ?_
  · intro k hk
    unfold pixelScores
    rw [hPQ]
    intro hkk
    apply hk
    rw [← hkk]
    exact ((finProdFinEquiv (m := h) (n := w)).apply_symm_apply k).symm
  · unfold pixelScores
    rw [e1, e2]
    exact hi
  · intro k
    unfold pixelScores
    rw [e1, e2]
    exact hlow _ _

/-- **C205**, sentences: with `min` and with `softmin` of temperature 0 or infinity, when any tokens of a sentence get
worse, its score never rises. -/
theorem C205_sentence (s t : List ℝ) (hst : List.Forall₂ (· ≤ ·) t s) (u v : ℝ) :
    (npMin t = .ok u → npMin s = .ok v → u ≤ v) ∧
    (∀ T, T = Temperature.finite 0 ∨ T = Temperature.inf → softminSentence t T = .ok u → softminSentence s T = .ok v →
      u ≤ v) := by
  have hmin : npMin t = .ok u → npMin s = .ok v → u ≤ v := by
    intro hu hv
    have hs : s ≠ [] := by rintro rfl; cases hv
    have ht : t ≠ [] := by rintro rfl; cases hu
    obtain ⟨v', e1, hv1, -⟩ := npMin_spec s hs
    obtain ⟨u', e2, -, hu2⟩ := npMin_spec t ht
    rw [hv] at e1
    rw [hu] at e2
    rw [← Except.ok.inj e1] at hv1
    rw [← Except.ok.inj e2] at hu2
    obtain ⟨r, hr, e⟩ := List.mem_iff_getElem.mp hv1
    have hr' : r < t.length := by rw [hst.length_eq]; exact hr
    rw [← e]
    exact (hu2 _ (List.getElem_mem hr')).trans (hst.get hr' hr)
  refine ⟨hmin, ?_⟩
  intro T hT hu hv
  have hlen := hst.length_eq
  unfold softminSentence at hu hv
  by_cases h0 : s.length = 0
  · rw [dif_pos h0] at hv; cases hv
  rw [dif_neg h0] at hv
  rw [dif_neg (by rw [hlen]; exact h0)] at hu
  rcases hT with rfl | rfl
  · simp only [if_true] at hu hv
    exact hmin hu hv
  · simp only at hu hv
    rw [← Except.ok.inj hu, ← Except.ok.inj hv, hlen]
    exact div_le_div_of_nonneg_right hst.sum_le_sum (Nat.cast_nonneg _)

/-- **C205**, sentences: with `softmin` of any temperature, when the worst token gets worse, the score never rises. -/
theorem C205_sentence_worst (a b : List ℝ) (x y : ℝ) (hyx : y ≤ x) (hlow : ∀ z ∈ a ++ b, x ≤ z) (T : Temperature) (u v : ℝ)
    (hu : softminSentence (a ++ y :: b) T = .ok u) (hv : softminSentence (a ++ x :: b) T = .ok v) : u ≤ v := by
  have hall : List.Forall₂ (· ≤ ·) (a ++ y :: b) (a ++ x :: b) :=
    List.rel_append (List.forall₂_same.mpr (fun _ _ => le_rfl)) (.cons hyx (List.forall₂_same.mpr (fun _ _ => le_rfl)))
  cases T with
  | inf => exact (C205_sentence _ _ hall u v).2 _ (Or.inr rfl) hu hv
  | finite T =>
    by_cases hT : T = 0
    · subst hT
      exact (C205_sentence _ _ hall u v).2 _ (Or.inl rfl) hu hv
    unfold softminSentence at hu hv
    rw [dif_neg (by simp)] at hu hv
    simp only [if_neg hT] at hu hv
    have n1 : NeZero (a ++ y :: b).length := ⟨by simp⟩
    have n2 : NeZero (a ++ x :: b).length := ⟨by simp⟩
    rw [← Except.ok.inj hu, ← Except.ok.inj hv]
    have hlen : (a ++ x :: b).length = (a ++ y :: b).length := by simp
    have hc : ∀ (l : List ℝ) (m : ℕ) [NeZero m] [NeZero l.length] (e : m = l.length),
        softmin l.get T = softmin (fun k : Fin m => l.get (Fin.cast e k)) T := by
      intro l m _ _ e
      subst e
      rfl
    rw [hc (a ++ x :: b) _ hlen.symm]
    have hi : a.length < (a ++ y :: b).length := by simp
    refine C205_worst _ _ T ⟨a.length, hi⟩ ?_ ?_ ?_
    · intro k hk
      have hk' : k.val ≠ a.length := fun e => hk (Fin.ext e)
      simp only [List.get_eq_getElem, Fin.val_cast]
      rw [List.getElem_append, List.getElem_append]
      split_ifs with hlt
      · rfl
      · obtain ⟨r, hr⟩ : ∃ r, k.val - a.length = r + 1 := ⟨k.val - a.length - 1, by omega⟩
        simp only [hr, List.getElem_cons_succ]
    · simpa using hyx
    · intro k
      have hmem := List.get_mem (a ++ x :: b) (Fin.cast hlen.symm k)
      have e : (a ++ x :: b).get (Fin.cast hlen.symm ⟨a.length, hi⟩) = x := by simp
      rw [e]
      generalize (a ++ x :: b).get (Fin.cast hlen.symm k) = z at hmem
      rcases List.mem_append.mp hmem with hz | hz
      · exact hlow z (List.mem_append_left _ hz)
      · rcases List.mem_cons.mp hz with rfl | hz
        · exact le_rfl
        · exact hlow z (List.mem_append_right _ hz)

/-! ## C204 -/

/-- Lowering the better of two parts raises their `softmin`. -/
theorem softmin_two {T : ℝ} (hT0 : 1 / 1000000 ≤ T) (hT : T ≤ 1 / 10) :
    softmin ![0, 1] T < softmin ![0, 4 / 5] T := by
  rw [softmin_eq, softmin_eq, max_eq_left hT0]
  simp only [Fin.sum_univ_two, Matrix.cons_val_zero, Matrix.cons_val_one, zero_mul, zero_add, neg_zero, zero_div,
    Real.exp_zero, one_mul]
  have hTp : 0 < T := lt_of_lt_of_le (by norm_num) hT0
  have e : Real.exp (-1 / T) = Real.exp (-(4 / 5) / T) * Real.exp (-(1 / 5) / T) := by
    rw [← Real.exp_add]; congr 1; ring
  have hx := Real.exp_pos (-(4 / 5) / T)
  have hy : Real.exp (-(1 / 5) / T) < 1 / 2 := by
    have h1 : Real.exp (-(1 / 5) / T) ≤ Real.exp (-1) := by
      refine Real.exp_le_exp.mpr ?_
      rw [div_le_iff₀ hTp]
      linarith
    refine h1.trans_lt ?_
    rw [Real.exp_neg, inv_eq_one_div]
    exact one_div_lt_one_div_of_lt (by norm_num) (lt_trans (by norm_num) Real.exp_one_gt_d9)
  have hy0 := Real.exp_pos (-(1 / 5) / T)
  have hx1 : Real.exp (-(4 / 5) / T) ≤ 1 := Real.exp_le_one_iff.mpr (div_nonpos_of_nonpos_of_nonneg (by norm_num) hTp.le)
  rw [e]
  generalize Real.exp (-(4 / 5) / T) = x at *
  generalize Real.exp (-(1 / 5) / T) = y at *
  have hxy : 0 < x * y := mul_pos hx hy0
  rw [div_lt_div_iff₀ (by linarith) (by linarith)]
  have h1 : x * y ≤ y := mul_le_of_le_one_left hy0.le hx1
  have h2 : y + x * y / 5 < 4 / 5 := by linarith
  have h3 := mul_lt_mul_of_pos_left h2 hx
  nlinarith

/-- **C204 is violated for images**, default method and temperature: an image of two pixels, one of them wrong. The
score of the image rises when the predicted probability of the label of the other pixel falls from 1 to 4/5. -/
theorem C204_not_image :
    ∃ (labels : Stack 1 1 2 (Fin 2)) (P Q : Stack 1 1 2 (Fin 2 → ℝ)) (u v : ℝ),
      (∀ n i j k, 0 ≤ P n i j k ∧ 0 ≤ Q n i j k) ∧ (∀ n i j, ∑ k, P n i j k = 1 ∧ ∑ k, Q n i j k = 1) ∧
      (∀ n i j, Q n i j (labels n i j) ≤ P n i j (labels n i j)) ∧
      imageScoreSoftmin (pixelScores labels P) (1 / 10) 0 = .ok u ∧
      imageScoreSoftmin (pixelScores labels Q) (1 / 10) 0 = .ok v ∧ u < v := by
  refine ⟨fun _ _ _ => 0, fun _ _ j => ![![0, 1], ![1, 0]] j, fun _ _ j => ![![0, 1], ![4 / 5, 1 / 5]] j,
    softmin ![0, 1] (1 / 10), softmin ![0, 4 / 5] (1 / 10), ?_, ?_, ?_, ?_, ?_, softmin_two (by norm_num) le_rfl⟩
  · intro n i j k
    fin_cases j <;> fin_cases k <;> norm_num
  · intro n i j
    fin_cases j <;> norm_num [Fin.sum_univ_two]
  · intro n i j
    fin_cases j <;> norm_num
  · unfold imageScoreSoftmin
    rw [dif_neg (by norm_num), if_neg (by norm_num)]
    congr 2
    funext r
    change Fin 2 at r
    fin_cases r <;> rfl
  · unfold imageScoreSoftmin
    rw [dif_neg (by norm_num), if_neg (by norm_num)]
    congr 2
    funext r
    change Fin 2 at r
    fin_cases r <;> rfl

/-- **C204 is violated for sentences** scored by `softmin` with its default temperature. -/
theorem C204_not_sentence :
    ∃ u v, softminSentence [0, 1] (.finite (1 / 20)) = .ok u ∧ softminSentence [0, 4 / 5] (.finite (1 / 20)) = .ok v ∧ u < v := by
  refine ⟨softmin ![0, 1] (1 / 20), softmin ![0, 4 / 5] (1 / 20), ?_, ?_, softmin_two (by norm_num) (by norm_num)⟩ <;>
  · unfold softminSentence
    rw [dif_neg (by simp)]
    simp only
    rw [if_neg (by norm_num)]
    congr 2
    funext r
    change Fin 2 at r
    fin_cases r <;> rfl

/-- **C204 is violated for multi-label examples** whose class scores are pooled by `softmin` with its default
temperature. -/
theorem C204_not_classes : softmin ![0, 1] (1 / 10) < softmin ![0, 4 / 5] (1 / 10) := softmin_two (by norm_num) le_rfl

/-- **C204 is violated for the boxes of an image** in object detection: the score of an image for one kind of error
rises when the score of one of its boxes falls. -/
theorem C204_not_boxes :
    Detection.validScore Detection.temperature [some 0, some 1] < Detection.validScore Detection.temperature [some 0, some (4 / 5)] := by
  have e : ∀ x : ℝ, Detection.validScore Detection.temperature [some 0, some x] = softmin ![0, x] (1 / 10) := by
    intro x
    unfold Detection.validScore
    have : ([some 0, some x] : List (Option ℝ)).reduceOption = [0, x] := rfl
    rw [dif_pos (by rw [this]; simp)]
    simp only [this]
    have : NeZero ([0, x] : List ℝ).length := ⟨by simp⟩
    rw [softmin1d_eq_softmin]
    unfold Detection.temperature
    congr 1
    funext r
    change Fin 2 at r
    fin_cases r <;> rfl
  rw [e, e]
  exact softmin_two (by norm_num) le_rfl

/-- The part of **C204** that holds for the default of multi-label classification, the exponential moving average. -/
theorem C204_ema_partial (a : ℝ) (ha0 : 0 ≤ a) (ha1 : a ≤ 1) (s t : Fin K → ℝ) (hts : ∀ k, t k ≤ s k) (u v : ℝ)
    (hu : ema (some a) t = .ok u) (hv : ema (some a) s = .ok v) : u ≤ v :=
  C23_ema_monotone a ha0 ha1 t s hts u v hu hv

/-- The part of **C204** that holds for object detection: a worse worst box never improves the score. -/
theorem C204_boxes_partial (T : ℝ) (a b : List ℝ) (x y : ℝ) (hyx : y ≤ x) (hlow : ∀ z ∈ a ++ b, x ≤ z) :
    Detection.validScore T ((a ++ y :: b).map some) ≤ Detection.validScore T ((a ++ x :: b).map some) := by
  have e : ∀ l : List ℝ, (l.map some).reduceOption = l := by
    intro l
    induction l with
    | nil => rfl
    | cons z l ih => rw [List.map_cons, List.reduceOption_cons_of_some, ih]
  unfold Detection.validScore
  simp only [e]
  rw [dif_pos (by simp), dif_pos (by simp)]
  have n1 : NeZero (a ++ y :: b).length := ⟨by simp⟩
  have n2 : NeZero (a ++ x :: b).length := ⟨by simp⟩
  rw [softmin1d_eq_softmin, softmin1d_eq_softmin]
  by_cases hT : T = 0
  · subst hT
    have e0 : ∀ (l : List ℝ) [NeZero l.length], softmin l.get 0 = softmin l.get (1 / 1000000) := by
      intro l _
      rw [softmin_eq, softmin_eq, max_self, max_eq_right (by norm_num)]
    rw [e0, e0]
    refine C205_sentence_worst a b x y hyx hlow (.finite (1 / 1000000)) _ _ ?_ ?_ <;>
    · unfold softminSentence
      rw [dif_neg (by simp)]
      simp only
      rw [if_neg (by norm_num)]
  · refine C205_sentence_worst a b x y hyx hlow (.finite T) _ _ ?_ ?_ <;>
    · unfold softminSentence
      rw [dif_neg (by simp)]
      simp only
      rw [if_neg hT]

example : softmin ![0, 1] 1 ≤ softmin ![1 / 2, 1] 1 :=
  C205_warm _ _ 1 (by intro k; fin_cases k <;> norm_num) (by intro k; fin_cases k <;> norm_num)
    (by intro k; fin_cases k <;> norm_num)

example : softmin ![0, 1] (1 / 10) ≤ softmin ![1 / 2, 1] (1 / 10) :=
  C205_worst _ _ _ 0 (by intro k hk; fin_cases k <;> simp_all) (by norm_num) (by intro k; fin_cases k <;> norm_num)

end Cleanlab.Props
