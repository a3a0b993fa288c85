import Verif.Props.FeatureChange
import Mathlib.Tactic.FinCases

/-!
# C193: which examples far from the others are found
-/

namespace Cleanlab.Props

open Np Cleanlab.Knn Cleanlab.OutlierCheck

variable {N M n : ℕ}

/-! ### Percentiles -/

theorem sorted_getElem_le (A : ArgSort ℝ) (l : List ℝ) (D : ℝ) (r : ℕ) (hr : r < (sortOn A id l).length)
    (hc : r < l.countP (fun x => decide (x ≤ D))) : (sortOn A id l)[r] ≤ D := by
  by_contra h
  have h := not_le.mp h
  have hs : (sortOn A id l).Pairwise (fun x y => x ≤ y) := sortOn_sorted A id l
  have : (sortOn A id l).countP (fun x => decide (x ≤ D)) ≤ r :=
    countP_le_of_drop _ _ _ (fun x hx => decide_eq_false (by
      have := (sorted_split _ hs r hr).2 x hx
      linarith))
  rw [(sortOn_perm A id l).countP_eq] at this
  omega

theorem le_sorted_getElem (A : ArgSort ℝ) (l : List ℝ) (D : ℝ) (r : ℕ) (hr : r < (sortOn A id l).length)
    (hc : l.countP (fun x => decide (x < D)) ≤ r) : D ≤ (sortOn A id l)[r] := by
  by_contra h
  have h := not_le.mp h
  have hs : (sortOn A id l).Pairwise (fun x y => x ≤ y) := sortOn_sorted A id l
  have h1 : ((sortOn A id l).take (r + 1)).countP (fun x => decide (x < D)) = r + 1 := by
    rw [List.countP_eq_length.mpr (fun x hx => decide_eq_true (lt_of_le_of_lt ((sorted_split _ hs r hr).1 x hx) h)),
      List.length_take]
    omega
  have h2 := (List.take_sublist (r + 1) (sortOn A id l)).countP_le (p := fun x => decide (x < D))
  rw [h1, (sortOn_perm A id l).countP_eq] at h2
  omega

theorem percentile_nonempty (A : ArgSort ℝ) (q : ℚ) (l : List ℝ) (v : ℝ) (hv : percentile A q l = some v) : l ≠ [] := by
  rintro rfl
  have : (sortOn A id ([] : List ℝ)) = [] := List.length_eq_zero_iff.mp (by rw [length_sortOn]; rfl)
  simp [percentile, this] at hv

/-- If so many entries are at most `D`, so is the percentile. -/
theorem percentile_le_of_count (A : ArgSort ℝ) (q : ℚ) (h0 : 0 ≤ q) (h1 : q ≤ 1) (l : List ℝ) (D v : ℝ)
    (hv : percentile A q l = some v) (hc : ((l.length : ℚ) - 1) * q + 1 ≤ l.countP (fun x => decide (x ≤ D))) : v ≤ D := by
  obtain ⟨hlo, hhi, he⟩ := percentile_eq A q l (percentile_nonempty A q l v hv) h0 h1
  rw [he] at hv
  rw [← Option.some.inj hv]
  have hpos := (percentilePos_bounds l.length (List.length_pos_iff.mpr (percentile_nonempty A q l v (he.trans hv))) q h0 h1).1
  have hc' : percentilePos l.length q + 1 ≤ l.countP (fun x => decide (x ≤ D)) := hc
  generalize hp : percentilePos l.length q = p at *
  have hf0 : 0 ≤ ⌊p⌋ := Int.floor_nonneg.mpr hpos
  have hfl := Int.floor_le p
  have hn : ((⌊p⌋.toNat : ℕ) : ℤ) = ⌊p⌋ := Int.toNat_of_nonneg hf0
  have hnq : ((⌊p⌋.toNat : ℕ) : ℚ) = (⌊p⌋ : ℚ) := by exact_mod_cast congrArg (Int.cast (R := ℚ)) hn
  have a : (sortOn A id l)[⌊p⌋.toNat] ≤ D := by
    refine sorted_getElem_le A l D _ hlo ?_
    have : ((⌊p⌋.toNat : ℕ) : ℚ) < l.countP (fun x => decide (x ≤ D)) := by rw [hnq]; linarith
    exact_mod_cast this
  by_cases hz : p = ⌊p⌋
  · have : ((p - ⌊p⌋ : ℚ) : ℝ) = 0 := by rw [sub_eq_zero.mpr hz]; norm_num
    rw [this, mul_zero, add_zero]
    exact a
  · have hlt : (⌊p⌋ : ℚ) < p := lt_of_le_of_ne hfl (Ne.symm hz)
    have b : (sortOn A id l)[min (⌊p⌋.toNat + 1) (l.length - 1)] ≤ D := by
      refine sorted_getElem_le A l D _ hhi (lt_of_le_of_lt (min_le_left _ _) ?_)
      have : ((⌊p⌋.toNat + 1 : ℕ) : ℚ) < l.countP (fun x => decide (x ≤ D)) := by push_cast; rw [hnq]; linarith
      exact_mod_cast this
    have g := frac_bounds (F := ℝ) p
    have g1 := g.2.le
    nlinarith [mul_le_mul_of_nonneg_left b g.1, mul_le_mul_of_nonneg_left a (sub_nonneg.mpr g1)]

/-- If so few entries are below `D`, the percentile is not. -/
theorem le_percentile_of_count (A : ArgSort ℝ) (q : ℚ) (h0 : 0 ≤ q) (h1 : q ≤ 1) (l : List ℝ) (D v : ℝ)
    (hv : percentile A q l = some v) (hc : (l.countP (fun x => decide (x < D)) : ℚ) ≤ ((l.length : ℚ) - 1) * q) : D ≤ v := by
  obtain ⟨hlo, hhi, he⟩ := percentile_eq A q l (percentile_nonempty A q l v hv) h0 h1
  rw [he] at hv
  rw [← Option.some.inj hv]
  have hlen := length_sortOn A id l
  have hc' : (l.countP (fun x => decide (x < D)) : ℚ) ≤ percentilePos l.length q := hc
  generalize hp : percentilePos l.length q = p at *
  have hcount : l.countP (fun x => decide (x < D)) ≤ ⌊p⌋.toNat := by
    have : (l.countP (fun x => decide (x < D)) : ℤ) ≤ ⌊p⌋ := Int.le_floor.mpr (by exact_mod_cast hc')
    omega
  have a := le_sorted_getElem A l D _ hlo hcount
  have b := le_sorted_getElem A l D _ hhi (by
    refine le_min (hcount.trans (Nat.le_succ _)) ?_
    omega)
  have g := frac_bounds (F := ℝ) p
  nlinarith [mul_le_mul_of_nonneg_left b g.1, mul_le_mul_of_nonneg_left a (sub_nonneg.mpr g.2.le)]

/-! ### Neighbours -/

/-- The distance that is used unless another is asked for: Euclidean with up to 3 features, cosine with more. -/
noncomputable def usualDistance (x y : Fin M → ℝ) : ℝ := if 3 < M then cosineDistance x y else euclideanDistance x y

theorem usualDistance_nonneg (x y : Fin M → ℝ) : 0 ≤ usualDistance x y := by
  unfold usualDistance
  split_ifs
  · exact cosine_nonneg x y
  · exact Real.sqrt_nonneg _

theorem usualDistance_self (x : Fin M → ℝ) (hx : 3 < M → x ≠ 0) : usualDistance x x = 0 := by
  unfold usualDistance
  split_ifs with h
  · exact cosine_self x (fun h0 => hx h (congrArg (WithLp.ofLp) h0))
  · rw [euclidean_eq_dist, sub_self, norm_zero]

theorem featuresToKnn_pos (rows cols : ℕ) (k : Option ℤ) (metric : Option Metric) (k' : ℕ) (m : Metric)
    (h : featuresToKnn rows cols k metric = .ok (k', m)) : 1 ≤ k' := by
  unfold featuresToKnn at h
  cases hc : configureNeighbors rows k with
  | error e => rw [hc] at h; cases h
  | ok z =>
    rw [hc] at h
    dsimp only [bind, Except.bind] at h
    split_ifs at h with hz
    have := (Prod.mk.inj (Except.ok.inj h)).1
    omega

theorem neighbours_usual (A : ArgSort ℝ) (named : String → (Fin M → ℝ) → (Fin M → ℝ) → ℝ) (f : Fin N → Fin M → ℝ) (k : Option ℤ)
    (g : Fin N → List (Fin N × ℝ)) (hg : featureNeighbours A named f k none = .ok g) :
    ∃ k', 1 ≤ k' ∧ g = nearest A k' (fun i j => usualDistance (f i) (f j)) := by
  unfold featureNeighbours at hg
  cases hr : featuresToKnn N M k none with
  | error e => rw [hr] at hg; cases hg
  | ok r =>
    obtain ⟨k', m⟩ := r
    rw [hr] at hg
    refine ⟨k', featuresToKnn_pos N M k none k' m hr, ?_⟩
    rw [← Except.ok.inj hg]
    have hm := featuresToKnn_ok N M k none k' m hr
    have hd : distanceOf named m = usualDistance := by
      funext x y
      unfold usualDistance
      rw [hm]
      unfold chooseMetric decideMetric decideEuclidean
      dsimp only
      split_ifs <;> rfl
    rw [hd]

/-- The average distance to the neighbours. -/
noncomputable def averageDistance (g : Fin N → List (Fin N × ℝ)) (i : Fin N) : ℝ :=
  ((g i).map Prod.snd).sum / ((g i).map Prod.snd).length

theorem average_le (l : List ℝ) (D : ℝ) (hD : 0 ≤ D) (h : ∀ x ∈ l, x ≤ D) : l.sum / l.length ≤ D := by
  have hs : l.sum ≤ l.length * D := by
    have := List.sum_le_card_nsmul l D h
    rwa [nsmul_eq_mul] at this
  exact div_le_of_le_mul₀ (Nat.cast_nonneg _) hD (by linarith)

theorem le_average (l : List ℝ) (D : ℝ) (hl : l ≠ []) (h : ∀ x ∈ l, D ≤ x) : D ≤ l.sum / l.length := by
  have hs : l.length * D ≤ l.sum := by
    have := List.card_nsmul_le_sum l D h
    rwa [nsmul_eq_mul] at this
  have : (0 : ℝ) < l.length := by exact_mod_cast List.length_pos_iff.mpr hl
  rw [le_div_iff₀ this]
  linarith

theorem lt_average (l : List ℝ) (D : ℝ) (hl : l ≠ []) (h : ∀ x ∈ l, D < x) : D < l.sum / l.length := by
  have : (0 : ℝ) < l.length := by exact_mod_cast List.length_pos_iff.mpr hl
  rw [lt_div_iff₀ this]
  induction l with
  | nil => exact absurd rfl hl
  | cons a t ih =>
    rw [List.sum_cons, List.length_cons]
    push_cast
    have ha := h a List.mem_cons_self
    by_cases ht : t = []
    · subst ht; simpa using ha
    · have := ih ht (fun x hx => h x (List.mem_cons_of_mem _ hx)) (by exact_mod_cast List.length_pos_iff.mpr ht)
      linarith

/-- The other examples that satisfy a condition. -/
noncomputable def others (i : Fin N) (p : Fin N → Prop) : ℕ :=
  open Classical in (Finset.univ.filter (fun j => j ≠ i ∧ p j)).card

theorem countP_others (i : Fin N) (d : Fin N → ℝ) (p : ℝ → Prop) [DecidablePred p] :
    (((List.finRange N).filter (fun j => decide (j ≠ i))).map d).countP (fun x => decide (p x)) = others i (fun j => p (d j)) := by
  classical
  unfold others
  rw [List.countP_map, List.countP_filter, countP_finRange]
  congr 1
  ext j
  simp only [Finset.mem_filter, Finset.mem_univ, true_and, Function.comp_apply, Bool.and_eq_true, decide_eq_true_eq, and_comm]

/-- If so many others are within `D`, the neighbours are. -/
theorem neighbours_within (A : ArgSort ℝ) (k : ℕ) (d : Fin N → Fin N → ℝ) (i : Fin N) (h0 : ∀ j, 0 ≤ d i j) (hi : d i i = 0)
    (D : ℝ) (hc : (nearest A k d i).length ≤ others i (fun j => d i j ≤ D)) :
    ∀ x ∈ (nearest A k d i).map Prod.snd, x ≤ D := by
  intro x hx
  have e := nearest_distances A k d i h0 hi
  have hlen : (nearest A k d i).length = ((nearest A k d i).map Prod.snd).length := by rw [List.length_map]
  rw [hlen, e] at hc
  rw [e] at hx
  obtain ⟨r, hr, rfl⟩ := List.mem_iff_getElem.mp hx
  rw [List.getElem_take]
  refine sorted_getElem_le A _ D r _ ?_
  rw [countP_others i (d i) (fun x => x ≤ D)]
  omega

theorem neighbours_beyond (A : ArgSort ℝ) (k : ℕ) (d : Fin N → Fin N → ℝ) (i : Fin N) (h0 : ∀ j, 0 ≤ d i j) (hi : d i i = 0)
    (p : ℝ → Prop) (hp : ∀ j, j ≠ i → p (d i j)) : ∀ x ∈ (nearest A k d i).map Prod.snd, p x := by
  intro x hx
  rw [nearest_distances A k d i h0 hi] at hx
  have := (mem_sortOn A id _ _).mp (List.mem_of_mem_take hx)
  obtain ⟨j, hj, rfl⟩ := List.mem_map.mp this
  exact hp j (of_decide_eq_true (List.mem_filter.mp hj).2)

theorem nearest_ne_nil (A : ArgSort ℝ) (k : ℕ) (hk : 1 ≤ k) (hN : 2 ≤ N) (d : Fin N → Fin N → ℝ) (i : Fin N) (h0 : ∀ j, 0 ≤ d i j)
    (hi : d i i = 0) : (nearest A k d i).map Prod.snd ≠ [] := by
  rw [nearest_distances A k d i h0 hi, ← List.length_pos_iff, List.length_take, length_sortOn, List.length_map]
  have : ∃ j : Fin N, j ≠ i := by
    have : Nontrivial (Fin N) := Fin.nontrivial_iff_two_le.mpr hN
    exact exists_ne i
  obtain ⟨j, hj⟩ := this
  have := List.length_pos_of_mem (List.mem_filter (p := fun j => decide (j ≠ i)).mpr ⟨List.mem_finRange j, decide_eq_true hj⟩)
  omega

/-! ### The check -/

theorem threshold_range (A : ArgSort ℝ) (t : ℝ) (sc : Option ℝ) (m : Option Outlier.Metric) (avg : Fin n → ℝ) (thr : Option ℝ)
    (r : Result n) (h : checkDistances A t sc m avg thr = .ok r) (hv : r.threshold ≠ 0) : 0 < r.threshold ∧ r.threshold ≤ 1 := by
  obtain ⟨scale, h1, -, -⟩ := checkDistances_ok A t sc m avg thr r h
  obtain ⟨-, h2, h3⟩ := chosen_ok _ _ h1
  exact ⟨lt_of_le_of_ne h2 (Ne.symm hv), h3⟩

/-- An example further from all others than the diameter of the bulk, divided by the threshold, is found, if there are at most
`(N - 1) / 4` such examples and there are more examples in the bulk than neighbours are searched. -/
theorem C193_found_partial (A : ArgSort ℝ) (named : String → (Fin M → ℝ) → (Fin M → ℝ) → ℝ) (f : Fin N → Fin M → ℝ)
    (hf : 3 < M → ∀ i, f i ≠ 0) (k : Option ℤ) (g : Fin N → List (Fin N × ℝ)) (hg : featureNeighbours A named f k none = .ok g)
    (t : ℝ) (sc : Option ℝ) (m : Option Outlier.Metric) (thr : Option ℝ) (r : Result N)
    (hr : checkDistances A t sc m (averageDistance g) thr = .ok r) (hv : r.threshold ≠ 0) (D : ℝ) (far : Finset (Fin N))
    (hfew : 4 * far.card + 1 ≤ N) (hk : ∀ i, (g i).length + far.card + 1 ≤ N)
    (hclose : ∀ i j, i ∉ far → j ∉ far → usualDistance (f i) (f j) ≤ D)
    (hfar : ∀ s ∈ far, ∀ j, j ≠ s → D / r.threshold < usualDistance (f s) (f j)) : ∀ s ∈ far, r.flags s = true := by
  classical
  intro s hs
  have hcard : 1 ≤ far.card := Finset.card_pos.mpr ⟨s, hs⟩
  obtain ⟨k', hk', rfl⟩ := neighbours_usual A named f k g hg
  have h0 : ∀ i j, 0 ≤ usualDistance (f i) (f j) := fun i j => usualDistance_nonneg _ _
  have hself : ∀ i, usualDistance (f i) (f i) = 0 := fun i => usualDistance_self _ (fun h => hf h i)
  -- somebody is not far away, so that `D` is not negative
  have hcompl : far.card + farᶜ.card = N := by rw [Finset.card_add_card_compl, Fintype.card_fin]
  obtain ⟨b, hb⟩ : (farᶜ).Nonempty := Finset.card_pos.mp (by omega)
  have hD : 0 ≤ D := (h0 b b).trans (hclose b b (Finset.mem_compl.mp hb) (Finset.mem_compl.mp hb))
  have hav0 : ∀ i, 0 ≤ averageDistance (nearest A k' (fun i j => usualDistance (f i) (f j))) i := fun i =>
    le_average _ 0 (nearest_ne_nil A k' hk' (by omega) _ i (h0 i) (hself i))
      (neighbours_beyond A k' _ i (h0 i) (hself i) (fun x => 0 ≤ x) (fun j _ => h0 i j))
  have havD : ∀ i, i ∉ far → averageDistance (nearest A k' (fun i j => usualDistance (f i) (f j))) i ≤ D := fun i hi => by
    refine average_le _ D hD (neighbours_within A k' _ i (h0 i) (hself i) D ?_)
    have h1 : farᶜ.erase i ⊆ Finset.univ.filter (fun j => j ≠ i ∧ usualDistance (f i) (f j) ≤ D) := by
      intro j hj
      rw [Finset.mem_erase, Finset.mem_compl] at hj
      rw [Finset.mem_filter]
      exact ⟨Finset.mem_univ _, hj.1, hclose i j hi hj.2⟩
    have h2 := Finset.card_le_card h1
    rw [Finset.card_erase_of_mem (Finset.mem_compl.mpr hi)] at h2
    have h3 := hk i
    have h4 : others i (fun j => usualDistance (f i) (f j) ≤ D) =
      (Finset.univ.filter (fun j => j ≠ i ∧ usualDistance (f i) (f j) ≤ D)).card := by unfold others; congr
    omega
  have havs : D / r.threshold < averageDistance (nearest A k' (fun i j => usualDistance (f i) (f j))) s :=
    lt_average _ _ (nearest_ne_nil A k' hk' (by omega) _ s (h0 s) (hself s))
      (neighbours_beyond A k' _ s (h0 s) (hself s) (fun x => D / r.threshold < x) (fun j hj => hfar s hs j hj))
  obtain ⟨hv0, hv1⟩ := threshold_range A t sc m _ thr r hr hv
  obtain ⟨ht, q1, q3, e1, e3, -, -, hcut⟩ := C87_rule A t sc m _ thr r hr
  have hthr : thr ≠ some 0 := by
    rintro rfl
    exact hv (by rw [ht]; rfl)
  rw [((hcut hthr).2 s), ← ht]
  refine lt_of_le_of_lt ?_ havs
  have hq1 : 0 ≤ q1 := le_percentile_of_count A (1 / 4) (by norm_num) (by norm_num) _ 0 q1 e1 (by
    rw [List.countP_eq_zero.mpr]
    · have : (1 : ℚ) ≤ N := by exact_mod_cast (by omega : 1 ≤ N)
      rw [List.length_ofFn]
      push_cast
      linarith
    · intro x hx
      obtain ⟨i, rfl⟩ := (List.mem_ofFn' _ _).mp hx
      simpa using hav0 i)
  have hq3 : q3 ≤ D := percentile_le_of_count A (3 / 4) (by norm_num) (by norm_num) _ D q3 e3 (by
    rw [List.length_ofFn, List.ofFn_eq_map, List.countP_map, countP_finRange]
    have h1 : farᶜ ⊆ Finset.univ.filter (fun i => ((fun x => decide (x ≤ D)) ∘
        averageDistance (nearest A k' (fun i j => usualDistance (f i) (f j)))) i = true) := by
      intro i hi
      rw [Finset.mem_filter]
      exact ⟨Finset.mem_univ _, decide_eq_true (havD i (Finset.mem_compl.mp hi))⟩
    refine le_trans ?_ (Nat.cast_le.mpr (Finset.card_le_card h1))
    have h3 : (far.card : ℚ) + farᶜ.card = N := by exact_mod_cast hcompl
    have h4 : 4 * (far.card : ℚ) + 1 ≤ N := by exact_mod_cast hfew
    linarith)
  have hinv : 1 ≤ 1 / r.threshold := by rw [le_div_iff₀ hv0]; linarith
  have : D / r.threshold = 1 / r.threshold * D := by ring
  rw [this]
  nlinarith [mul_nonneg (sub_nonneg.mpr hinv) hq1, mul_le_mul_of_nonneg_left hq3 (by linarith : 0 ≤ 1 / r.threshold)]

/-- An example is not flagged, however far it is from the rest, if it has as many others nearby as neighbours are searched, and more than a
quarter of the examples have nobody as near. -/
theorem C193_not_group (A : ArgSort ℝ) (named : String → (Fin M → ℝ) → (Fin M → ℝ) → ℝ) (f : Fin N → Fin M → ℝ)
    (hf : 3 < M → ∀ i, f i ≠ 0) (k : Option ℤ) (g : Fin N → List (Fin N × ℝ)) (hg : featureNeighbours A named f k none = .ok g)
    (t : ℝ) (sc : Option ℝ) (m : Option Outlier.Metric) (thr : Option ℝ) (r : Result N)
    (hr : checkDistances A t sc m (averageDistance g) thr = .ok r) (hN : 2 ≤ N) (s : Fin N) (ε : ℝ) (hε : 0 ≤ ε)
    (group : (g s).length ≤ others s (fun j => usualDistance (f s) (f j) ≤ ε)) (spread : Finset (Fin N))
    (hspread : N + 3 ≤ 4 * spread.card) (halone : ∀ i ∈ spread, ∀ j, j ≠ i → ε ≤ usualDistance (f i) (f j)) :
    r.flags s = false := by
  classical
  obtain ⟨k', hk', rfl⟩ := neighbours_usual A named f k g hg
  have h0 : ∀ i j, 0 ≤ usualDistance (f i) (f j) := fun i j => usualDistance_nonneg _ _
  have hself : ∀ i, usualDistance (f i) (f i) = 0 := fun i => usualDistance_self _ (fun h => hf h i)
  have havs : averageDistance (nearest A k' (fun i j => usualDistance (f i) (f j))) s ≤ ε :=
    average_le _ ε hε (neighbours_within A k' _ s (h0 s) (hself s) ε group)
  have hav : ∀ i ∈ spread, ε ≤ averageDistance (nearest A k' (fun i j => usualDistance (f i) (f j))) i := fun i hi =>
    le_average _ ε (nearest_ne_nil A k' hk' hN _ i (h0 i) (hself i))
      (neighbours_beyond A k' _ i (h0 i) (hself i) (fun x => ε ≤ x) (halone i hi))
  obtain ⟨ht, q1, q3, e1, e3, hq, hzero, hcut⟩ := C87_rule A t sc m _ thr r hr
  by_cases hthr : thr = some 0
  · exact hzero hthr s
  · have hv : r.threshold ≠ 0 := by
      rw [ht]
      cases thr with
      | none => norm_num
      | some v => exact fun h => hthr (by rw [Option.getD_some] at h; rw [h])
    obtain ⟨hv0, hv1⟩ := threshold_range A t sc m _ thr r hr hv
    rw [← Bool.not_eq_true, ((hcut hthr).2 s), ← ht, not_lt]
    have hq3 : ε ≤ q3 := le_percentile_of_count A (3 / 4) (by norm_num) (by norm_num) _ ε q3 e3 (by
      rw [List.length_ofFn, List.ofFn_eq_map, List.countP_map, countP_finRange]
      have h1 : Finset.univ.filter (fun i => ((fun x => decide (x < ε)) ∘
          averageDistance (nearest A k' (fun i j => usualDistance (f i) (f j)))) i = true) ⊆ spreadᶜ := by
        intro i hi
        rw [Finset.mem_compl]
        intro hc
        have := of_decide_eq_true (Finset.mem_filter.mp hi).2
        linarith [hav i hc]
      refine le_trans (Nat.cast_le.mpr (Finset.card_le_card h1)) ?_
      have h3 : (spread.card : ℚ) + spreadᶜ.card = N := by
        exact_mod_cast (by rw [Finset.card_add_card_compl, Fintype.card_fin] : spread.card + spreadᶜ.card = N)
      have h4 : (N : ℚ) + 3 ≤ 4 * spread.card := by exact_mod_cast hspread
      linarith)
    have hinv : 0 ≤ 1 / r.threshold - 1 := by
      rw [sub_nonneg, le_div_iff₀ hv0]
      linarith
    nlinarith [mul_nonneg hinv (sub_nonneg.mpr hq)]

/-- With more than three features an example is not flagged, however far it is from the rest, if as many others lie in its direction as
neighbours are searched. -/
theorem C193_not_direction (A : ArgSort ℝ) (named : String → (Fin M → ℝ) → (Fin M → ℝ) → ℝ) (hM : 3 < M) (f : Fin N → Fin M → ℝ)
    (hf : ∀ i, f i ≠ 0) (k : Option ℤ) (g : Fin N → List (Fin N × ℝ)) (hg : featureNeighbours A named f k none = .ok g)
    (t : ℝ) (sc : Option ℝ) (m : Option Outlier.Metric) (thr : Option ℝ) (r : Result N)
    (hr : checkDistances A t sc m (averageDistance g) thr = .ok r) (hN : 2 ≤ N) (s : Fin N)
    (hdir : (g s).length ≤ others s (fun j => ∃ c : ℝ, 0 < c ∧ f s = fun a => c * f j a)) : r.flags s = false := by
  classical
  refine C193_not_group A named f (fun _ => hf) k g hg t sc m thr r hr hN s 0 le_rfl (hdir.trans ?_) Finset.univ ?_
    (fun i _ j _ => usualDistance_nonneg _ _)
  · refine Finset.card_le_card (fun j hj => ?_)
    rw [Finset.mem_filter] at hj ⊢
    obtain ⟨h1, h2, c, hc, he⟩ := hj
    refine ⟨h1, h2, le_of_eq ?_⟩
    unfold usualDistance
    rw [if_pos hM, he]
    have := cosine_lengths c 1 hc one_pos (f j) (f j)
    simp only [one_mul] at this
    exact this.trans (cosine_self _ (fun h => hf j (congrArg (WithLp.ofLp) h)))
  · rw [Finset.card_univ, Fintype.card_fin]
    omega

theorem length_nearest_le (A : ArgSort ℝ) (k : ℕ) (d : Fin N → Fin N → ℝ) (i : Fin N) : (nearest A k d i).length ≤ k := by
  unfold nearest
  dsimp only
  rw [List.length_map]
  have hl : ((A.indices (d i)).take (k + 1)).length ≤ k + 1 := by rw [List.length_take]; exact min_le_left _ _
  split_ifs with h
  · have := List.length_filter_lt_length_iff_exists (p := fun j => decide (j ≠ i)) |>.mpr ⟨i, h, by simp⟩
    omega
  · rw [List.length_drop]
    omega

theorem usual_line (x y : ℝ) : usualDistance (fun _ : Fin 1 => x) (fun _ => y) = |x - y| := by
  unfold usualDistance euclideanDistance
  rw [if_neg (by norm_num), Fin.sum_univ_one, Real.sqrt_mul_self_eq_abs]

/-- Four examples side by side and two equal ones far away. -/
noncomputable def farPair (R : ℝ) (i : Fin 6) : Fin 1 → ℝ := fun _ => ![0, 1, 2, 3, R + 3, R + 3] i

/-- The two far examples have a distance of at least `R` from all others, and hide each other for every `R`: neither is flagged. -/
theorem C193_not_copies (R : ℝ) (A : ArgSort ℝ) (named : String → (Fin 1 → ℝ) → (Fin 1 → ℝ) → ℝ) (t : ℝ)
    (sc : Option ℝ) (m : Option Outlier.Metric) :
    (∀ i j : Fin 6, i < 4 → 4 ≤ j → R ≤ euclideanDistance (farPair R i) (farPair R j)) ∧
    ∃ g r, featureNeighbours A named (farPair R) (some 1) none = .ok g ∧
      checkDistances A t sc m (averageDistance g) none = .ok r ∧ r.flags 4 = false ∧ r.flags 5 = false := by
  have hdist : ∀ i j, usualDistance (farPair R i) (farPair R j) =
      |(![0, 1, 2, 3, R + 3, R + 3] : Fin 6 → ℝ) i - (![0, 1, 2, 3, R + 3, R + 3] : Fin 6 → ℝ) j| := fun i j => usual_line _ _
  have heu : ∀ i j, euclideanDistance (farPair R i) (farPair R j) = usualDistance (farPair R i) (farPair R j) := fun i j => by
    unfold usualDistance
    rw [if_neg (by norm_num)]
  constructor
  · intro i j hi hj
    rw [heu, hdist]
    have hi' : i = 0 ∨ i = 1 ∨ i = 2 ∨ i = 3 := by revert hi; revert i; decide
    have hj' : j = 4 ∨ j = 5 := by revert hj; revert j; decide
    rw [abs_sub_comm, le_abs]
    left
    rcases hi' with rfl | rfl | rfl | rfl <;> rcases hj' with rfl | rfl <;> simp <;> linarith
  · have hg : ∃ mt, featureNeighbours A named (farPair R) (some 1) none =
        .ok (nearest A 1 (fun i j => distanceOf named mt (farPair R i) (farPair R j))) := ⟨_, rfl⟩
    obtain ⟨mt, hg⟩ := hg
    obtain ⟨r, hr⟩ := (C87_refused A t sc m (averageDistance
      (nearest A 1 (fun i j => distanceOf named mt (farPair R i) (farPair R j)))) none (by norm_num)).mpr (fun v hv => by cases hv)
    have hs : ∀ s s' : Fin 6, s ≠ s' → usualDistance (farPair R s) (farPair R s') ≤ 0 → r.flags s = false := by
      intro s s' hne h
      refine C193_not_group A named (farPair R) (fun h => absurd h (by norm_num)) (some 1) _ hg t sc m none r hr (by norm_num) s 0
        le_rfl ?_ Finset.univ (by simp) (fun i _ j _ => usualDistance_nonneg _ _)
      refine (length_nearest_le A 1 _ s).trans ?_
      unfold others
      exact Finset.card_pos.mpr ⟨s', Finset.mem_filter.mpr ⟨Finset.mem_univ _, hne.symm, h⟩⟩
    refine ⟨_, r, hg, hr, hs 4 5 (by decide) ?_, hs 5 4 (by decide) ?_⟩ <;> rw [hdist] <;> simp

/-- Four examples side by side and one far away, which is found. -/
noncomputable def farOne (i : Fin 5) : Fin 1 → ℝ := fun _ => ![0, 1, 2, 3, 20] i

example (A : ArgSort ℝ) (named : String → (Fin 1 → ℝ) → (Fin 1 → ℝ) → ℝ) (t : ℝ) (sc : Option ℝ) (m : Option Outlier.Metric) :
    ∃ g r, featureNeighbours A named farOne (some 2) none = .ok g ∧
      checkDistances A t sc m (averageDistance g) none = .ok r ∧ r.flags 4 = true := by
  have hg : ∃ mt, featureNeighbours A named farOne (some 2) none =
      .ok (nearest A 2 (fun i j => distanceOf named mt (farOne i) (farOne j))) := ⟨_, rfl⟩
  obtain ⟨mt, hg⟩ := hg
  obtain ⟨r, hr⟩ := (C87_refused A t sc m (averageDistance
    (nearest A 2 (fun i j => distanceOf named mt (farOne i) (farOne j)))) none (by norm_num)).mpr (fun v hv => by cases hv)
  have hthr : r.threshold = 37037 / 100000 := (C87_rule A t sc m _ none r hr).1
  have hdist : ∀ i j, usualDistance (farOne i) (farOne j) =
      |(![0, 1, 2, 3, 20] : Fin 5 → ℝ) i - (![0, 1, 2, 3, 20] : Fin 5 → ℝ) j| := fun i j => usual_line _ _
  refine ⟨_, r, hg, hr, C193_found_partial A named farOne (fun h => absurd h (by norm_num)) (some 2) _ hg t sc m none r hr
    (by rw [hthr]; norm_num) 3 {4} (by simp) (fun i => ?_) (fun i j hi hj => ?_) (fun s hs j hj => ?_) 4 (by simp)⟩
  · have := length_nearest_le A 2 (fun i j => distanceOf named mt (farOne i) (farOne j)) i
    rw [Finset.card_singleton]
    omega
  · rw [Finset.mem_singleton] at hi hj
    rw [hdist, abs_le]
    fin_cases i <;> fin_cases j <;> first | exact absurd rfl hi | exact absurd rfl hj | (simp; try norm_num)
  · rw [Finset.mem_singleton] at hs
    subst hs
    rw [hdist, hthr, lt_abs]
    left
    fin_cases j <;> first | exact absurd rfl hj | (simp; try norm_num)

/-- Four features: the second example is a thousand times as long as the first, and hidden by it. -/
noncomputable def longRow (i : Fin 3) : Fin 4 → ℝ := ![fun _ => 1, fun _ => 1000, ![1, 2, 3, 4]] i

example (A : ArgSort ℝ) (named : String → (Fin 4 → ℝ) → (Fin 4 → ℝ) → ℝ) (t : ℝ) (sc : Option ℝ) (m : Option Outlier.Metric) :
    ∃ g r, featureNeighbours A named longRow (some 1) none = .ok g ∧
      checkDistances A t sc m (averageDistance g) none = .ok r ∧ r.flags 1 = false := by
  have hg : ∃ mt, featureNeighbours A named longRow (some 1) none =
      .ok (nearest A 1 (fun i j => distanceOf named mt (longRow i) (longRow j))) := ⟨_, rfl⟩
  obtain ⟨mt, hg⟩ := hg
  obtain ⟨r, hr⟩ := (C87_refused A t sc m (averageDistance
    (nearest A 1 (fun i j => distanceOf named mt (longRow i) (longRow j)))) none (by norm_num)).mpr (fun v hv => by cases hv)
  refine ⟨_, r, hg, hr, C193_not_direction A named (by norm_num) longRow (fun i h => ?_) (some 1) _ hg t sc m none r hr (by norm_num) 1
    ((length_nearest_le A 1 _ 1).trans ?_)⟩
  · have := congrFun h 0
    fin_cases i <;> simp [longRow] at this
  · classical
    unfold others
    refine Finset.card_pos.mpr ⟨0, Finset.mem_filter.mpr ⟨Finset.mem_univ _, by decide, 1000, by norm_num, ?_⟩⟩
    funext a
    simp [longRow]

end Cleanlab.Props
