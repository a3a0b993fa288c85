import Verif.Props.FarExamples

/-!
# C218: outliers that lie even farther away
-/

namespace Cleanlab.Props

open Np Cleanlab.Outlier Cleanlab.OutlierCheck

variable {n : ℕ}

/-- Sorting a list whose small values are known. -/
theorem sortOn_append (A : ArgSort ℝ) (l u v : List ℝ) (hp : l.Perm (u ++ v)) (h : ∀ x ∈ u, ∀ y ∈ v, x ≤ y) :
    sortOn A id l = sortOn A id u ++ sortOn A id v := by
  refine List.Perm.eq_of_pairwise' (show (sortOn A id l).Pairwise (fun x y => x ≤ y) from sortOn_sorted A id l)
    (?_ : List.Pairwise (fun x y => x ≤ y) _) ?_
  · rw [List.pairwise_append]
    exact ⟨sortOn_sorted A id u, sortOn_sorted A id v,
      fun x hx y hy => h x ((mem_sortOn A id u x).mp hx) y ((mem_sortOn A id v y).mp hy)⟩
  · exact (sortOn_perm A id l).trans (hp.trans ((sortOn_perm A id u).append (sortOn_perm A id v)).symm)

/-- Two percentiles of lists that differ only in their largest values. -/
theorem percentile_upper (A : ArgSort ℝ) (q : ℚ) (h0 : 0 ≤ q) (h1 : q ≤ 1) (l s : List ℝ) (hl : l ≠ [])
    (hs : sortOn A id l = s) (v : ℝ) (hv : percentile A q l = some v) :
    ∃ (lo hi : ℕ) (hlo : lo < s.length) (hhi : hi < s.length) (w : ℝ), lo = ⌊percentilePos l.length q⌋.toNat ∧
      hi = min (lo + 1) (l.length - 1) ∧ w = ((percentilePos l.length q - ⌊percentilePos l.length q⌋ : ℚ) : ℝ) ∧
      0 ≤ w ∧ w < 1 ∧ v = s[lo] + (s[hi] - s[lo]) * w := by
  subst hs
  obtain ⟨hlo, hhi, he⟩ := percentile_eq A q l hl h0 h1
  have hw := frac_bounds (F := ℝ) (percentilePos l.length q)
  exact ⟨_, _, hlo, hhi, _, rfl, rfl, rfl, hw.1, hw.2, (Option.some.inj (he.symm.trans hv)).symm⟩

theorem farther_fixed (a m m' c w q : ℝ) (ham : a < m) (hmm : m ≤ m') (hc : 0 ≤ c) (hq : q ≤ a)
    (h : a + (m - a) * w + c * (a + (m - a) * w - q) < m) : a + (m' - a) * w + c * (a + (m' - a) * w - q) < m' := by
  have hmul := mul_nonneg hc (sub_nonneg.mpr hq)
  have hk : c * (a - q) < (m - a) * (1 - w * (1 + c)) := by linarith
  have hk1 : 0 < 1 - w * (1 + c) := by
    by_contra hneg
    have := mul_nonneg (show 0 ≤ m - a by linarith) (show 0 ≤ -(1 - w * (1 + c)) by linarith)
    linarith
  have := mul_le_mul_of_nonneg_right (show m - a ≤ m' - a by linarith) hk1.le
  linarith

theorem farther_moving (a m m' c w v : ℝ) (ham : a < m) (hmm : m ≤ m')
    (h : a + (m - a) * w + c * (a + (m - a) * w - (a + (m - a) * v)) < m) :
    a + (m' - a) * w + c * (a + (m' - a) * w - (a + (m' - a) * v)) < m' := by
  have hk : 0 < (m - a) * (1 - w * (1 + c) + c * v) := by linarith
  have hk1 : 0 < 1 - w * (1 + c) + c * v := by
    by_contra hneg
    have := mul_nonneg (show 0 ≤ m - a by linarith) (show 0 ≤ -(1 - w * (1 + c) + c * v) by linarith)
    linarith
  have := mul_pos (show 0 < m' - a by linarith) hk1
  linarith

/-- The cut-off keeps separating the same values. -/
theorem cutoff_farther (A : ArgSort ℝ) (l l' u v v' : List ℝ) (hp : l.Perm (u ++ v)) (hp' : l'.Perm (u ++ v'))
    (c q1 q3 q1' q3' : ℝ) (hc : 0 ≤ c)
    (e1 : percentile A (1 / 4) l = some q1) (e3 : percentile A (3 / 4) l = some q3)
    (e1' : percentile A (1 / 4) l' = some q1') (e3' : percentile A (3 / 4) l' = some q3')
    (hu : ∀ x ∈ u, x ≤ q3 + c * (q3 - q1)) (hv : ∀ x ∈ v, q3 + c * (q3 - q1) < x)
    (hlen : v'.length = v.length) (hvv : ∀ x' ∈ v', ∃ x ∈ v, x ≤ x') :
    (∀ x ∈ u, x ≤ q3' + c * (q3' - q1')) ∧ ∀ x ∈ v', q3' + c * (q3' - q1') < x := by
  have hq := percentile_mono A (1 / 4) (3 / 4) l (by norm_num) (by norm_num) (by norm_num) _ _ e1 e3
  have hq' := percentile_mono A (1 / 4) (3 / 4) l' (by norm_num) (by norm_num) (by norm_num) _ _ e1' e3'
  set cut := q3 + c * (q3 - q1) with hcut
  have hq3 : q3 ≤ cut := by have := mul_nonneg hc (sub_nonneg.mpr hq); linarith
  have hll : l.length = u.length + v.length := by rw [hp.length_eq, List.length_append]
  have hll' : l'.length = l.length := by rw [hll, hp'.length_eq, List.length_append, hlen]
  have hne : l ≠ [] := by
    rintro rfl
    have : (sortOn A id ([] : List ℝ)) = [] := List.length_eq_zero_iff.mp (by rw [length_sortOn]; rfl)
    simp [percentile, this] at e1
  have hne' : l' ≠ [] := by
    intro h
    exact hne (List.length_eq_zero_iff.mp (by rw [← hll', h]; rfl))
  have hs := sortOn_append A l u v hp (fun x hx y hy => (hu x hx).trans (hv y hy).le)
  have hs' := sortOn_append A l' u v' hp' (fun x hx y hy => by
    obtain ⟨z, hz, hzy⟩ := hvv y hy
    exact (hu x hx).trans ((hv z hz).le.trans hzy))
  have hsorted : (sortOn A id u).Pairwise (fun x y => x ≤ y) := sortOn_sorted A id u
  have hul := length_sortOn A id u
  have hvl := length_sortOn A id v
  have hvl' := length_sortOn A id v'
  obtain ⟨lo3, hi3, hlo3, hhi3, w3, a1, a2, a3, w30, w31, b3⟩ :=
    percentile_upper A _ (by norm_num) (by norm_num) l _ hne hs q3 e3
  obtain ⟨lo3', hi3', hlo3', hhi3', w3', a1', a2', a3', -, -, b3'⟩ :=
    percentile_upper A _ (by norm_num) (by norm_num) l' _ hne' hs' q3' e3'
  obtain ⟨lo1, hi1, hlo1, hhi1, w1, c1, c2, c3, w10, w11, b1⟩ :=
    percentile_upper A _ (by norm_num) (by norm_num) l _ hne hs q1 e1
  obtain ⟨lo1', hi1', hlo1', hhi1', w1', c1', c2', c3', -, -, b1'⟩ :=
    percentile_upper A _ (by norm_num) (by norm_num) l' _ hne' hs' q1' e1'
  rw [hll'] at a1' a2' a3' c1' c2' c3'
  have i1 : lo3' = lo3 := by rw [a1', a1]
  have i2 : lo1' = lo1 := by rw [c1', c1]
  subst i1 i2
  have i3 : hi3' = hi3 := by rw [a2', a2]
  have i4 : hi1' = hi1 := by rw [c2', c2]
  subst i3 i4
  rw [← a3] at a3'
  rw [← c3] at c3'
  subst a3' c3'
  -- the lower neighbour of the third quartile is not beyond the cut-off
  have hord : lo1' ≤ lo3' := by
    rw [c1, a1]
    refine Int.toNat_le_toNat (Int.floor_le_floor ?_)
    unfold percentilePos
    have : (1 : ℚ) ≤ l.length := by exact_mod_cast List.length_pos_iff.mpr hne
    nlinarith
  have hpair : (sortOn A id u ++ sortOn A id v).Pairwise (fun x y => x ≤ y) := by rw [← hs]; exact sortOn_sorted A id l
  have hpair' : (sortOn A id u ++ sortOn A id v').Pairwise (fun x y => x ≤ y) := by rw [← hs']; exact sortOn_sorted A id l'
  have hlohi : (sortOn A id u ++ sortOn A id v)[lo3'] ≤ (sortOn A id u ++ sortOn A id v)[hi3'] :=
    sorted_get_le _ hpair _ _ _ _ (by simp at hlo3; omega)
  have hlole : (sortOn A id u ++ sortOn A id v)[lo3'] ≤ q3 := by
    have := mul_nonneg (sub_nonneg.mpr hlohi) w30
    linarith
  have hlt3 : lo3' < (sortOn A id u).length := by
    by_contra hge
    rw [List.getElem_append_right (by omega)] at hlole
    have hr : lo3' - (sortOn A id u).length < (sortOn A id v).length := by
      rw [List.length_append] at hlo3
      omega
    have := hv _ ((mem_sortOn A id v _).mp (List.getElem_mem hr))
    linarith
  have hlast : hi3' = (sortOn A id u).length → ∀ x ∈ u, x ≤ (sortOn A id u)[lo3'] := by
    intro he x hx
    obtain ⟨r, hr, rfl⟩ := List.getElem_of_mem ((mem_sortOn A id u x).mpr hx)
    exact sorted_get_le _ hsorted _ _ _ _ (by omega)
  rw [List.getElem_append_left hlt3] at b3 b3'
  rw [List.getElem_append_left (by omega)] at b1 b1'
  by_cases hcase : hi3' < (sortOn A id u).length
  · have hcase1 : hi1' < (sortOn A id u).length := by omega
    rw [List.getElem_append_left hcase] at b3 b3'
    rw [List.getElem_append_left hcase1] at b1 b1'
    have : q3' = q3 := b3'.trans b3.symm
    have : q1' = q1 := b1'.trans b1.symm
    have hcc : q3' + c * (q3' - q1') = cut := by rw [hcut, ‹q3' = q3›, ‹q1' = q1›]
    rw [hcc]
    refine ⟨hu, fun x hx => ?_⟩
    obtain ⟨z, hz, hzx⟩ := hvv x hx
    exact (hv z hz).trans_le hzx
  · have heq : hi3' = (sortOn A id u).length := by omega
    have hvpos : 0 < (sortOn A id v).length := by simp at hhi3; omega
    have hvpos' : 0 < (sortOn A id v').length := by omega
    rw [List.getElem_append_right (by omega)] at b3 b3'
    simp only [heq, Nat.sub_self] at b3 b3'
    set a := (sortOn A id u)[lo3'] with ha
    set m := (sortOn A id v)[0] with hm
    set m' := (sortOn A id v')[0] with hm'
    have hm1 : cut < m := hv _ ((mem_sortOn A id v _).mp (List.getElem_mem hvpos))
    have hmm : m ≤ m' := by
      obtain ⟨z, hz, hzx⟩ := hvv _ ((mem_sortOn A id v' _).mp (List.getElem_mem hvpos'))
      obtain ⟨r, hr, rfl⟩ := List.getElem_of_mem ((mem_sortOn A id v z).mpr hz)
      exact (sorted_get_le _ (sortOn_sorted A id v) 0 r hvpos hr (by omega)).trans hzx
    have hmin : ∀ x ∈ v', m' ≤ x := by
      intro x hx
      obtain ⟨r, hr, rfl⟩ := List.getElem_of_mem ((mem_sortOn A id v' x).mpr hx)
      exact sorted_get_le _ (sortOn_sorted A id v') 0 r hvpos' hr (by omega)
    have ham : a < m := by rw [List.getElem_append_left hlt3] at hlole; linarith
    have hup : ∀ x ∈ u, x ≤ q3' + c * (q3' - q1') := by
      intro x hx
      have h1 := hlast heq x hx
      have h2 := mul_nonneg (show 0 ≤ m' - a by linarith) w30
      have h3 := mul_nonneg hc (sub_nonneg.mpr hq')
      linarith
    refine ⟨hup, fun x hx => lt_of_lt_of_le ?_ (hmin x hx)⟩
    by_cases hcase1 : hi1' < (sortOn A id u).length
    · rw [List.getElem_append_left hcase1] at b1 b1'
      have hqq : q1' = q1 := b1'.trans b1.symm
      have hqa : q1 ≤ a := by
        have g1 : (sortOn A id u)[lo1'] ≤ (sortOn A id u)[hi1'] := sorted_get_le _ hsorted _ _ _ _ (by omega)
        have g2 : (sortOn A id u)[hi1'] ≤ a := sorted_get_le _ hsorted _ _ _ _ (by omega)
        have := mul_le_mul_of_nonneg_left w11.le (sub_nonneg.mpr g1)
        linarith
      rw [b3', hqq]
      refine farther_fixed a m m' c w3' q1 ham hmm hc hqa ?_
      rw [← b3]
      exact hm1
    · have heq1 : hi1' = (sortOn A id u).length := by omega
      have hlolo : lo1' = lo3' := by omega
      rw [List.getElem_append_right (by omega)] at b1 b1'
      simp only [heq1, Nat.sub_self, hlolo] at b1 b1'
      rw [← ha, ← hm] at b1
      rw [← ha, ← hm'] at b1'
      rw [b3', b1']
      refine farther_moving a m m' c w3' w1' ham hmm ?_
      rw [← b3, ← b1]
      exact hm1

/-- **C218.** Examples reported as outliers may lie even farther away: the same examples are reported. -/
theorem C218_farther (A : ArgSort ℝ) (t t' : ℝ) (sc sc' : Option ℝ) (m m' : Option Metric) (avg avg' : Fin n → ℝ)
    (thr : Option ℝ) (r r' : Result n) (h : checkDistances A t sc m avg thr = .ok r)
    (h' : checkDistances A t' sc' m' avg' thr = .ok r') (hs : ∀ i, r.flags i = false → avg' i = avg i)
    (hf : ∀ i, r.flags i = true → avg i ≤ avg' i) : r'.flags = r.flags := by
  obtain ⟨-, q1, q3, e1, e3, -, hz, hnz⟩ := C87_rule A t sc m avg thr r h
  obtain ⟨-, q1', q3', e1', e3', -, hz', hnz'⟩ := C87_rule A t' sc' m' avg' thr r' h'
  obtain ⟨s, h1, -⟩ := checkDistances_ok A t sc m avg thr r h
  obtain ⟨hv, h0, hone⟩ := chosen_ok _ _ h1
  rw [hv] at h0 hone
  funext i
  by_cases ht : thr = some 0
  · rw [hz ht i, hz' ht i]
  have htpos : 0 < thr.getD (37037 / 100000) := by
    refine lt_of_le_of_ne h0 (fun e => ht ?_)
    cases thr with
    | none => norm_num at e
    | some x => simp only [Option.getD_some] at e; rw [← e]
  obtain ⟨-, hfl⟩ := hnz ht
  obtain ⟨-, hfl'⟩ := hnz' ht
  have hc : 0 ≤ 1 / thr.getD (37037 / 100000) - 1 := by
    rw [sub_nonneg, le_div_iff₀ htpos]
    linarith
  have hperm : ∀ f : Fin n → ℝ, (List.ofFn f).Perm (((List.finRange n).filter (fun i => !r.flags i)).map f ++
      ((List.finRange n).filter (fun i => !!r.flags i)).map f) := by
    intro f
    rw [List.ofFn_eq_map, ← List.map_append]
    exact ((List.filter_append_perm _ _).map f).symm
  have hsame : ((List.finRange n).filter (fun i => !r.flags i)).map avg' =
      ((List.finRange n).filter (fun i => !r.flags i)).map avg := by
    refine List.map_congr_left (fun i hi => hs i ?_)
    simpa using (List.mem_filter.mp hi).2
  have hp' := hperm avg'
  rw [hsame] at hp'
  obtain ⟨g1, g2⟩ := cutoff_farther A _ _ _ _ _ (hperm avg) hp' _ q1 q3 q1' q3' hc e1 e3 e1' e3'
    (by
      intro x hx
      obtain ⟨i, hi, rfl⟩ := List.mem_map.mp hx
      have : r.flags i = false := by simpa using (List.mem_filter.mp hi).2
      exact not_lt.mp (fun hlt => by rw [(hfl i).mpr hlt] at this; cases this))
    (by
      intro x hx
      obtain ⟨i, hi, rfl⟩ := List.mem_map.mp hx
      exact (hfl i).mp (by simpa using (List.mem_filter.mp hi).2))
    (by simp)
    (by
      intro x hx
      obtain ⟨i, hi, rfl⟩ := List.mem_map.mp hx
      exact ⟨avg i, List.mem_map.mpr ⟨i, hi, rfl⟩, hf i (by simpa using (List.mem_filter.mp hi).2)⟩)
  cases hi : r.flags i with
  | true =>
    exact (hfl' i).mpr (g2 _ (List.mem_map.mpr ⟨i, List.mem_filter.mpr ⟨List.mem_finRange i, by simp [hi]⟩, rfl⟩))
  | false =>
    have := g1 _ (List.mem_map.mpr ⟨i, List.mem_filter.mpr ⟨List.mem_finRange i, by simp [hi]⟩, rfl⟩)
    rw [← hs i hi] at this
    by_contra hne
    exact absurd ((hfl' i).mp (by simpa using hne)) (not_lt.mpr this)

/-! ### Moving the examples -/

open Cleanlab.Knn

variable {N M : ℕ}

theorem sorted_mono (A : ArgSort ℝ) (i : Fin N) (d d' : Fin N → ℝ) (h : ∀ j, d j ≤ d' j) (r : ℕ)
    (hr : r < (sortOn A id (((List.finRange N).filter (fun j => decide (j ≠ i))).map d)).length)
    (hr' : r < (sortOn A id (((List.finRange N).filter (fun j => decide (j ≠ i))).map d')).length) :
    (sortOn A id (((List.finRange N).filter (fun j => decide (j ≠ i))).map d))[r] ≤
      (sortOn A id (((List.finRange N).filter (fun j => decide (j ≠ i))).map d'))[r] := by
  classical
  refine sorted_getElem_le A _ _ r hr ?_
  have h1 : r < (((List.finRange N).filter (fun j => decide (j ≠ i))).map d').countP (fun x =>
      decide (x ≤ (sortOn A id (((List.finRange N).filter (fun j => decide (j ≠ i))).map d'))[r])) := by
    rw [← (sortOn_perm A id _).countP_eq]
    set s := sortOn A id (((List.finRange N).filter (fun j => decide (j ≠ i))).map d') with hs
    have h2 : r + 1 ≤ (s.take (r + 1)).countP (fun x => decide (x ≤ s[r])) := by
      rw [List.countP_eq_length.mpr]
      · rw [List.length_take]; omega
      · intro x hx
        obtain ⟨a, ha, rfl⟩ := List.getElem_of_mem hx
        rw [List.getElem_take]
        rw [List.length_take] at ha
        exact decide_eq_true (sorted_get_le s (sortOn_sorted A id _) _ _ _ _ (by omega))
    exact lt_of_lt_of_le (by omega) (h2.trans ((List.take_sublist _ _).countP_le))
  rw [countP_others i d' (fun x => x ≤ _)] at h1
  rw [countP_others i d (fun x => x ≤ _)]
  refine lt_of_lt_of_le h1 ?_
  unfold others
  refine Finset.card_le_card (fun j hj => ?_)
  rw [Finset.mem_filter] at hj ⊢
  exact ⟨hj.1, hj.2.1, (h j).trans hj.2.2⟩

theorem nearest_length (A : ArgSort ℝ) (k : ℕ) (d d' : Fin N → Fin N → ℝ) (i : Fin N) (h0 : ∀ j, 0 ≤ d i j) (hi : d i i = 0)
    (h0' : ∀ j, 0 ≤ d' i j) (hi' : d' i i = 0) :
    ((nearest A k d' i).map Prod.snd).length = ((nearest A k d i).map Prod.snd).length := by
  rw [nearest_distances A k d i h0 hi, nearest_distances A k d' i h0' hi']
  simp [length_sortOn]

theorem sum_le_of_getElem (l l' : List ℝ) (hl : l'.length = l.length)
    (h : ∀ (r : ℕ) (hr : r < l.length) (hr' : r < l'.length), l[r] ≤ l'[r]) : l.sum ≤ l'.sum := by
  have : List.Forall₂ (· ≤ ·) l l' := by
    rw [List.forall₂_iff_get]
    exact ⟨hl.symm, fun r h1 h2 => h r h1 h2⟩
  exact this.sum_le_sum

/-- If no distance gets smaller, the average distance to the neighbours does not. -/
theorem average_mono (A : ArgSort ℝ) (k : ℕ) (d d' : Fin N → Fin N → ℝ) (i : Fin N) (h0 : ∀ j, 0 ≤ d i j) (hi : d i i = 0)
    (h0' : ∀ j, 0 ≤ d' i j) (hi' : d' i i = 0) (h : ∀ j, d i j ≤ d' i j) :
    averageDistance (nearest A k d) i ≤ averageDistance (nearest A k d') i := by
  have hlen := nearest_length A k d d' i h0 hi h0' hi'
  unfold averageDistance
  rw [hlen]
  refine div_le_div_of_nonneg_right (sum_le_of_getElem _ _ hlen ?_) (Nat.cast_nonneg _)
  rw [nearest_distances A k d i h0 hi, nearest_distances A k d' i h0' hi']
  intro r hr hr'
  rw [List.getElem_take, List.getElem_take]
  exact sorted_mono A i (d i) (d' i) h r _ _

/-- If moreover the neighbours keep their distances, the average distance stays. -/
theorem average_same (A : ArgSort ℝ) (k : ℕ) (d d' : Fin N → Fin N → ℝ) (i : Fin N) (h0 : ∀ j, 0 ≤ d i j) (hi : d i i = 0)
    (h0' : ∀ j, 0 ≤ d' i j) (hi' : d' i i = 0) (h : ∀ j, d i j ≤ d' i j)
    (hn : ∀ p ∈ nearest A k d i, d' i p.1 = d i p.1) :
    averageDistance (nearest A k d') i = averageDistance (nearest A k d) i := by
  classical
  refine le_antisymm ?_ (average_mono A k d d' i h0 hi h0' hi' h)
  have hlen := nearest_length A k d d' i h0 hi h0' hi'
  have hnd : ((nearest A k d i).map Prod.fst).Nodup := by
    unfold nearest
    dsimp only
    rw [List.map_map]
    have hnd : ((A.indices (d i)).take (k + 1)).Nodup :=
      ((A.perm_indices (d i)).nodup_iff.mpr (List.nodup_finRange N)).sublist (List.take_sublist _ _)
    have : (Prod.fst ∘ fun j => (j, d i j)) = (id : Fin N → Fin N) := rfl
    rw [this, List.map_id]
    split_ifs
    · exact hnd.filter _
    · exact hnd.sublist (List.drop_sublist _ _)
  have hsnd : ∀ p ∈ nearest A k d i, p.2 = d i p.1 := by
    intro p hp
    unfold nearest at hp
    dsimp only at hp
    obtain ⟨j, -, rfl⟩ := List.mem_map.mp hp
    rfl
  have hself : ∀ p ∈ nearest A k d i, p.1 ≠ i := by
    intro p hp
    unfold nearest at hp
    dsimp only at hp
    obtain ⟨j, hj, rfl⟩ := List.mem_map.mp hp
    split_ifs at hj with hin
    · exact of_decide_eq_true (List.mem_filter.mp hj).2
    · intro e
      rw [show j = i from e] at hj
      exact hin (List.mem_of_mem_drop hj)
  have hsorted : ((nearest A k d i).map Prod.snd).Pairwise (fun x y => x ≤ y) := by
    rw [nearest_distances A k d i h0 hi]
    exact List.Pairwise.sublist (List.take_sublist _ _) (sortOn_sorted A id _)
  unfold averageDistance
  rw [hlen]
  refine div_le_div_of_nonneg_right (sum_le_of_getElem _ _ hlen.symm ?_) (Nat.cast_nonneg _)
  intro r hr hr'
  set D := ((nearest A k d i).map Prod.snd)[r] with hD
  have hcount : r < others i (fun j => d' i j ≤ D) := by
    have h1 : r + 1 = ((((nearest A k d i).take (r + 1)).map Prod.fst).toFinset).card := by
      rw [List.toFinset_card_of_nodup, List.length_map, List.length_take]
      · rw [List.length_map] at hr'; omega
      · rw [List.map_take]; exact hnd.sublist (List.take_sublist _ _)
    rw [Nat.lt_iff_add_one_le, h1]
    unfold others
    refine Finset.card_le_card (fun j hj => ?_)
    rw [List.mem_toFinset] at hj
    obtain ⟨p, hp, rfl⟩ := List.mem_map.mp hj
    have hpm := List.mem_of_mem_take hp
    rw [Finset.mem_filter]
    refine ⟨Finset.mem_univ _, hself p hpm, ?_⟩
    show d' i p.1 ≤ D
    rw [hn p hpm, ← hsnd p hpm]
    obtain ⟨a, ha, rfl⟩ := List.getElem_of_mem hp
    rw [List.getElem_take]
    rw [List.length_take] at ha
    have := sorted_get_le _ hsorted a r (by rw [List.length_map]; omega) hr' (by omega)
    rw [List.getElem_map] at this
    exact this
  have e := nearest_distances A k d' i h0' hi'
  have : ((nearest A k d' i).map Prod.snd)[r] = (sortOn A id (((List.finRange N).filter (fun j => decide (j ≠ i))).map (d' i)))[r]'(by
      rw [e, List.length_take] at hr; omega) := by
    simp only [e, List.getElem_take]
  rw [this]
  refine sorted_getElem_le A _ D r _ ?_
  rw [countP_others i (d' i) (fun x => x ≤ D)]
  exact hcount

theorem neighbours_any (A : ArgSort ℝ) (named : String → (Fin M → ℝ) → (Fin M → ℝ) → ℝ) (f : Fin N → Fin M → ℝ) (k : Option ℤ)
    (g : Fin N → List (Fin N × ℝ)) (hg : featureNeighbours A named f k none = .ok g) :
    ∃ k', g = nearest A k' (fun i j => usualDistance (f i) (f j)) ∧
      ∀ f' : Fin N → Fin M → ℝ, featureNeighbours A named f' k none = .ok (nearest A k' (fun i j => usualDistance (f' i) (f' j))) := by
  unfold featureNeighbours at hg ⊢
  cases hr : featuresToKnn N M k none with
  | error e => rw [hr] at hg; cases hg
  | ok r =>
    obtain ⟨k', m⟩ := r
    rw [hr] at hg
    have hm := featuresToKnn_ok N M k none k' m hr
    have hd : distanceOf named m = usualDistance := by
      funext x y
      unfold usualDistance
      rw [hm]
      unfold chooseMetric decideMetric decideEuclidean
      dsimp only
      split_ifs <;> rfl
    refine ⟨k', ?_, fun f' => ?_⟩
    · rw [← Except.ok.inj hg, hd]
    · dsimp only
      rw [hd]

/-- **C218** for features: if the examples reported as outliers are moved away from all others, and are not among the
neighbours of the examples that were not reported, then the same examples are reported. -/
theorem C218_moved (A : ArgSort ℝ) (named : String → (Fin M → ℝ) → (Fin M → ℝ) → ℝ) (f f' : Fin N → Fin M → ℝ)
    (hf : 3 < M → ∀ i, f i ≠ 0) (hf' : 3 < M → ∀ i, f' i ≠ 0) (k : Option ℤ) (g : Fin N → List (Fin N × ℝ))
    (hg : featureNeighbours A named f k none = .ok g) (t : ℝ) (sc : Option ℝ) (m : Option Outlier.Metric) (thr : Option ℝ)
    (r : Result N) (hr : checkDistances A t sc m (averageDistance g) thr = .ok r)
    (hsame : ∀ i, r.flags i = false → f' i = f i)
    (hfar : ∀ s, r.flags s = true → ∀ j, j ≠ s → usualDistance (f s) (f j) ≤ usualDistance (f' s) (f' j) ∧
      usualDistance (f j) (f s) ≤ usualDistance (f' j) (f' s))
    (hnb : ∀ i, r.flags i = false → ∀ p ∈ g i, r.flags p.1 = false) :
    ∃ g' r', featureNeighbours A named f' k none = .ok g' ∧ checkDistances A t sc m (averageDistance g') thr = .ok r' ∧
      r'.flags = r.flags := by
  obtain ⟨k', rfl, hk⟩ := neighbours_any A named f k g hg
  have h0 : ∀ i j, 0 ≤ usualDistance (f i) (f j) := fun i j => usualDistance_nonneg _ _
  have h0' : ∀ i j, 0 ≤ usualDistance (f' i) (f' j) := fun i j => usualDistance_nonneg _ _
  have hself : ∀ i, usualDistance (f i) (f i) = 0 := fun i => usualDistance_self _ (fun h => hf h i)
  have hself' : ∀ i, usualDistance (f' i) (f' i) = 0 := fun i => usualDistance_self _ (fun h => hf' h i)
  have hle : ∀ i j, usualDistance (f i) (f j) ≤ usualDistance (f' i) (f' j) := by
    intro i j
    by_cases hij : i = j
    · subst hij; rw [hself, hself']
    · cases hi : r.flags i with
      | true => exact (hfar i hi j (Ne.symm hij)).1
      | false =>
        cases hj : r.flags j with
        | true => exact (hfar j hj i hij).2
        | false => rw [hsame i hi, hsame j hj]
  obtain ⟨-, q1, q3, e1, -⟩ := C87_rule A t sc m _ thr r hr
  have hN : 0 < N := by
    have := percentile_nonempty A _ _ _ e1
    rw [← List.length_pos_iff, List.length_ofFn] at this
    exact this
  obtain ⟨r', hr'⟩ := (C87_refused A t sc m
    (averageDistance (nearest A k' (fun i j => usualDistance (f' i) (f' j)))) thr hN).mpr
    ((C87_refused A t sc m _ thr hN).mp ⟨r, hr⟩)
  refine ⟨_, r', hk f', hr', C218_farther A t t sc sc m m _ _ thr r r' hr hr' (fun i hi => ?_) (fun i _ => ?_)⟩
  · refine average_same A k' _ _ i (h0 i) (hself i) (h0' i) (hself' i) (hle i) (fun p hp => ?_)
    rw [hsame i hi, hsame _ (hnb i hi p hp)]
  · exact average_mono A k' _ _ i (h0 i) (hself i) (h0' i) (hself' i) (hle i)

/-- Four examples side by side and one far away at `R`. -/
noncomputable def farAt (R : ℝ) (i : Fin 5) : Fin 1 → ℝ := fun _ => ![0, 1, 2, 3, R] i

/-- The theorem applies when the example at 20 is moved to any `R` beyond: only that example is reported. -/
example (R : ℝ) (hR : 20 ≤ R) (A : ArgSort ℝ) (named : String → (Fin 1 → ℝ) → (Fin 1 → ℝ) → ℝ) (t : ℝ) (sc : Option ℝ)
    (m : Option Outlier.Metric) :
    ∃ g' r', featureNeighbours A named (farAt R) (some 2) none = .ok g' ∧
      checkDistances A t sc m (averageDistance g') none = .ok r' ∧ ∀ i, r'.flags i = decide (i = 4) := by
  have hg : ∃ mt, featureNeighbours A named (farAt 20) (some 2) none =
      .ok (nearest A 2 (fun i j => distanceOf named mt (farAt 20 i) (farAt 20 j))) := ⟨_, rfl⟩
  obtain ⟨mt, hg⟩ := hg
  obtain ⟨r, hr⟩ := (C87_refused A t sc m (averageDistance
    (nearest A 2 (fun i j => distanceOf named mt (farAt 20 i) (farAt 20 j)))) none (by norm_num)).mpr (fun v hv => by cases hv)
  have hthr : r.threshold = 37037 / 100000 := (C87_rule A t sc m _ none r hr).1
  have hdist : ∀ (S : ℝ) i j, usualDistance (farAt S i) (farAt S j) =
      |(![0, 1, 2, 3, S] : Fin 5 → ℝ) i - (![0, 1, 2, 3, S] : Fin 5 → ℝ) j| := fun S i j => usual_line _ _
  have h4 : r.flags 4 = true := by
    refine C193_found_partial A named (farAt 20) (fun h => absurd h (by norm_num)) (some 2) _ hg t sc m none r hr
      (by rw [hthr]; norm_num) 3 {4} (by simp) (fun i => ?_) (fun i j hi hj => ?_) (fun s hs j hj => ?_) 4 (by simp)
    · have := length_nearest_le A 2 (fun i j => distanceOf named mt (farAt 20 i) (farAt 20 j)) i
      rw [Finset.card_singleton]
      omega
    · rw [Finset.mem_singleton] at hi hj
      rw [hdist, abs_le]
      fin_cases i <;> fin_cases j <;> first | exact absurd rfl hi | exact absurd rfl hj | (simp; try norm_num)
    · rw [Finset.mem_singleton] at hs
      subst hs
      rw [hdist, hthr, lt_abs]
      left
      fin_cases j <;> first | exact absurd rfl hj | (simp; try norm_num)
  have honly : ∀ i, r.flags i = true → i = 4 := by
    intro i hi
    by_contra hne
    have h1 := C87_at_most_quarter A t sc m _ none r hr
    have h2 : ({i, 4} : Finset (Fin 5)) ⊆ Finset.univ.filter (fun i => r.flags i = true) := by
      intro j hj
      rw [Finset.mem_insert, Finset.mem_singleton] at hj
      rw [Finset.mem_filter]
      rcases hj with rfl | rfl
      · exact ⟨Finset.mem_univ _, hi⟩
      · exact ⟨Finset.mem_univ _, h4⟩
    have h3 := Finset.card_le_card h2
    rw [Finset.card_pair hne] at h3
    omega
  obtain ⟨k', hgk, -⟩ := neighbours_any A named (farAt 20) (some 2) _ hg
  obtain ⟨g', r', h1, h2, h3⟩ := C218_moved A named (farAt 20) (farAt R) (fun h => absurd h (by norm_num))
    (fun h => absurd h (by norm_num)) (some 2) _ hg t sc m none r hr
    (fun i hi => by
      funext a
      unfold farAt
      fin_cases i <;> first | rfl | exact absurd (h4.symm.trans hi) (by decide))
    (fun s hs j hj => by
      rw [honly s hs] at hj ⊢
      have e4 : ∀ S : ℝ, (![0, 1, 2, 3, S] : Fin 5 → ℝ) 4 = S := fun _ => rfl
      have ej : (![0, 1, 2, 3, R] : Fin 5 → ℝ) j = (![0, 1, 2, 3, 20] : Fin 5 → ℝ) j ∧
          (![0, 1, 2, 3, 20] : Fin 5 → ℝ) j ≤ 3 := by
        fin_cases j <;> first | exact absurd rfl hj | (simp; try norm_num)
      rw [hdist, hdist, hdist, hdist, e4, e4, ej.1]
      constructor
      · rw [abs_of_nonneg (by linarith), abs_of_nonneg (by linarith)]; linarith
      · rw [abs_of_nonpos (by linarith), abs_of_nonpos (by linarith)]; linarith)
    (fun i hi p hp => by
      by_contra hpf
      have hp4 := honly p.1 (by simpa using hpf)
      have hi4 : i ≠ 4 := by rintro rfl; rw [h4] at hi; cases hi
      rw [hgk] at hp
      have hlen : (nearest A k' (fun i j => usualDistance (farAt 20 i) (farAt 20 j)) i).length ≤ 2 := by
        rw [← hgk]; exact length_nearest_le A 2 _ i
      have h5 := neighbours_within A k' (fun i j => usualDistance (farAt 20 i) (farAt 20 j)) i
        (fun j => usualDistance_nonneg _ _) (by rw [hdist]; simp) 3 (hlen.trans (by
          classical
          unfold others
          have : ({0, 1, 2, 3} : Finset (Fin 5)).erase i ⊆
              Finset.univ.filter (fun j => j ≠ i ∧ usualDistance (farAt 20 i) (farAt 20 j) ≤ 3) := by
            intro j hj
            rw [Finset.mem_erase] at hj
            rw [Finset.mem_filter]
            refine ⟨Finset.mem_univ _, hj.1, ?_⟩
            rw [hdist, abs_le]
            have hj4 : j ≠ 4 := by rintro rfl; simp at hj
            fin_cases i <;> fin_cases j <;> first | exact absurd rfl hi4 | exact absurd rfl hj4 | (simp; try norm_num)
          refine le_trans ?_ (Finset.card_le_card this)
          fin_cases i <;> first | exact absurd rfl hi4 | decide)) p.2 (List.mem_map_of_mem hp)
      have h6 : p.2 = usualDistance (farAt 20 i) (farAt 20 p.1) := by
        unfold nearest at hp
        dsimp only at hp
        obtain ⟨j, -, rfl⟩ := List.mem_map.mp hp
        rfl
      rw [h6, hp4, hdist, abs_le] at h5
      fin_cases i <;> first | exact absurd rfl hi4 | (simp at h5; norm_num at h5))
  refine ⟨g', r', h1, h2, fun i => ?_⟩
  rw [h3]
  by_cases hi : i = 4
  · rw [hi, h4]; rfl
  · rw [decide_eq_false hi]
    by_contra hne
    exact hi (honly i (by simpa using hne))

end Cleanlab.Props
