import Verif.Props.FeatureSpace
import Verif.Props.OutlierCheck
import Mathlib.Analysis.InnerProductSpace.PiL2

/-!
# C179: small changes of the features
-/

namespace Cleanlab.Props

open Np Cleanlab.Knn

variable {N M n : ℕ}

/-! ### Sorted lists -/

theorem countP_forall₂ {α β : Type} (R : α → β → Prop) (p : α → Bool) (q : β → Bool) (hpq : ∀ x y, R x y → p x = true → q y = true)
    (l : List α) (l' : List β) (h : List.Forall₂ R l l') : l.countP p ≤ l'.countP q := by
  induction h with
  | nil => simp
  | @cons x y _ _ hxy _ ih =>
    rw [List.countP_cons, List.countP_cons]
    cases hx : p x with
    | true => rw [hpq x y hxy hx]; simpa using ih
    | false => simp only [Bool.false_eq_true, if_false, add_zero]; omega

theorem sorted_near_le (A : ArgSort ℝ) (δ : ℝ) (l l' : List ℝ) (h : List.Forall₂ (fun x y => |x - y| ≤ δ) l l') (r : ℕ)
    (hr : r < (sortOn A id l).length) (hr' : r < (sortOn A id l').length) :
    (sortOn A id l')[r] ≤ (sortOn A id l)[r] + δ := by
  classical
  by_contra hc
  have hc := not_le.mp hc
  have hs : (sortOn A id l).Pairwise (fun x y => x ≤ y) := sortOn_sorted A id l
  have hs' : (sortOn A id l').Pairwise (fun x y => x ≤ y) := sortOn_sorted A id l'
  have h1 : r + 1 ≤ l.countP (fun x => decide (x ≤ (sortOn A id l)[r])) := by
    rw [← (sortOn_perm A id l).countP_eq]
    have : ((sortOn A id l).take (r + 1)).countP (fun x => decide (x ≤ (sortOn A id l)[r])) = r + 1 := by
      rw [List.countP_eq_length.mpr (fun x hx => decide_eq_true ((sorted_split _ hs r hr).1 x hx)), List.length_take]
      omega
    rw [← this]
    exact (List.take_sublist _ _).countP_le
  have h2 : l'.countP (fun x => decide (x ≤ (sortOn A id l)[r] + δ)) ≤ r := by
    rw [← (sortOn_perm A id l').countP_eq]
    refine countP_le_of_drop _ _ _ (fun x hx => decide_eq_false ?_)
    have := (sorted_split _ hs' r hr').2 x hx
    linarith
  have h3 := countP_forall₂ (fun x y : ℝ => |x - y| ≤ δ) (fun x => decide (x ≤ (sortOn A id l)[r]))
    (fun x => decide (x ≤ (sortOn A id l)[r] + δ)) (fun x y hxy hx => decide_eq_true (by
      have := of_decide_eq_true hx
      have := (abs_le.mp hxy).1
      linarith)) l l' h
  omega

/-- If no entry of a list changes by more than `δ`, no entry of the sorted list does. -/
theorem sorted_near (A : ArgSort ℝ) (δ : ℝ) (l l' : List ℝ) (h : List.Forall₂ (fun x y => |x - y| ≤ δ) l l') :
    List.Forall₂ (fun x y => |x - y| ≤ δ) (sortOn A id l) (sortOn A id l') := by
  have hlen := h.length_eq
  have h' : List.Forall₂ (fun x y => |x - y| ≤ δ) l' l := by
    have := h.flip
    exact this.imp (fun {x y} hxy => by rw [abs_sub_comm]; exact hxy)
  rw [List.forall₂_iff_get]
  refine ⟨by rw [length_sortOn, length_sortOn, hlen], fun r h1 h2 => ?_⟩
  rw [List.get_eq_getElem, List.get_eq_getElem, abs_le]
  have a := sorted_near_le A δ l l' h r h1 h2
  have b := sorted_near_le A δ l' l h' r h2 h1
  dsimp only
  constructor <;> linarith

theorem percentile_near (A : ArgSort ℝ) (δ : ℝ) (q : ℚ) (h0 : 0 ≤ q) (h1 : q ≤ 1) (l l' : List ℝ)
    (h : List.Forall₂ (fun x y => |x - y| ≤ δ) l l') (v v' : ℝ) (hv : percentile A q l = some v)
    (hv' : percentile A q l' = some v') : |v - v'| ≤ δ := by
  have hlen := h.length_eq
  have hl : l ≠ [] := by
    rintro rfl
    have : (sortOn A id ([] : List ℝ)) = [] := List.length_eq_zero_iff.mp (by rw [length_sortOn]; rfl)
    simp [percentile, this] at hv
  have hl' : l' ≠ [] := by
    rintro rfl
    exact hl (List.length_eq_zero_iff.mp hlen)
  obtain ⟨hlo, hhi, he⟩ := percentile_eq A q l hl h0 h1
  obtain ⟨hlo', hhi', he'⟩ := percentile_eq A q l' hl' h0 h1
  have hs := List.forall₂_iff_get.mp (sorted_near A δ l l' h)
  rw [he] at hv
  rw [he'] at hv'
  rw [← Option.some.inj hv, ← Option.some.inj hv']
  have g := frac_bounds (F := ℝ) (percentilePos l.length q)
  simp only [← hlen] at hlo' hhi' ⊢
  have a := hs.2 _ hlo hlo'
  have b := hs.2 _ hhi hhi'
  rw [List.get_eq_getElem, List.get_eq_getElem] at a b
  dsimp only at a b
  rw [abs_le] at a b ⊢
  have g0 := sub_nonneg.mpr g.2.le
  constructor <;> nlinarith [a.1, a.2, b.1, b.2, g.1, mul_le_mul_of_nonneg_left a.1 g0, mul_le_mul_of_nonneg_left a.2 g0,
    mul_le_mul_of_nonneg_left b.1 g.1, mul_le_mul_of_nonneg_left b.2 g.1]

/-! ### Neighbours -/

/-- The distances found are the `k` smallest ones to other examples. -/
theorem nearest_distances (A : ArgSort ℝ) (k : ℕ) (d : Fin N → Fin N → ℝ) (i : Fin N) (h0 : ∀ j, 0 ≤ d i j) (hi : d i i = 0) :
    (nearest A k d i).map Prod.snd = (sortOn A id (((List.finRange N).filter (fun j => decide (j ≠ i))).map (d i))).take k := by
  have hnd : (A.indices (d i)).Nodup := (A.perm_indices (d i)).nodup_iff.mpr (List.nodup_finRange N)
  have hlen : (A.indices (d i)).length = N := by rw [(A.perm_indices (d i)).length_eq, List.length_finRange]
  have hmem : i ∈ A.indices (d i) := (A.perm_indices (d i)).mem_iff.mpr (List.mem_finRange i)
  -- the sorted list of the others
  have hsort : sortOn A id (((List.finRange N).filter (fun j => decide (j ≠ i))).map (d i)) =
      ((A.indices (d i)).filter (fun j => decide (j ≠ i))).map (d i) := by
    have hp : (sortOn A id (((List.finRange N).filter (fun j => decide (j ≠ i))).map (d i))).Perm
        (((A.indices (d i)).filter (fun j => decide (j ≠ i))).map (d i)) :=
      (sortOn_perm A id _).trans (((A.perm_indices (d i)).filter _).map _).symm
    refine hp.eq_of_pairwise (fun x y _ _ hxy hyx => le_antisymm hxy hyx) (sortOn_sorted A id _) ?_
    rw [List.pairwise_map]
    exact (A.pairwise_indices (d i)).filter _
  rw [hsort]
  unfold nearest
  dsimp only
  obtain ⟨l1, l2, hsplit⟩ := List.append_of_mem hmem
  have hni : i ∉ l1 ∧ i ∉ l2 := by
    rw [hsplit] at hnd
    have h1 := (List.nodup_append.mp hnd).2.2
    have h2 := (List.nodup_cons.mp (List.nodup_append.mp hnd).2.1).1
    exact ⟨fun h => h1 i h i List.mem_cons_self rfl, h2⟩
  have hfil : ∀ l : List (Fin N), i ∉ l → l.filter (fun j => decide (j ≠ i)) = l := by
    intro l hl
    rw [List.filter_eq_self]
    intro j hj
    exact decide_eq_true (fun h => hl (h ▸ hj))
  have hother : (A.indices (d i)).filter (fun j => decide (j ≠ i)) = l1 ++ l2 := by
    rw [hsplit, List.filter_append, hfil l1 hni.1, List.filter_cons_of_neg (by simp), hfil l2 hni.2]
  by_cases hf : i ∈ (A.indices (d i)).take (k + 1)
  · rw [if_pos hf, List.map_map]
    have hl1 : l1.length ≤ k := by
      by_contra hc
      rw [hsplit, List.take_append_of_le_length (by omega)] at hf
      exact hni.1 (List.mem_of_mem_take hf)
    have : ((A.indices (d i)).take (k + 1)).filter (fun j => decide (j ≠ i)) = (l1 ++ l2).take k := by
      rw [hsplit, List.take_append, List.take_append, List.filter_append, List.take_of_length_le (by omega : l1.length ≤ k + 1),
        List.take_of_length_le hl1, hfil l1 hni.1]
      congr 1
      have : k + 1 - l1.length = (k - l1.length) + 1 := by omega
      rw [this, List.take_succ_cons, List.filter_cons_of_neg (by simp), hfil]
      exact fun h => hni.2 (List.mem_of_mem_take h)
    rw [this, hother, List.map_take]
    rfl
  · rw [if_neg hf, List.map_map]
    have hl1 : k + 1 ≤ l1.length := by
      by_contra hc
      apply hf
      rw [hsplit, List.take_append, List.take_of_length_le (by omega : l1.length ≤ k + 1)]
      have : k + 1 - l1.length = (k - l1.length) + 1 := by omega
      rw [this, List.take_succ_cons]
      exact List.mem_append_right _ List.mem_cons_self
    have hz : ∀ j ∈ l1, d i j = 0 := by
      intro j hj
      have hp := A.pairwise_indices (d i)
      rw [hsplit] at hp
      have := (List.pairwise_append.mp hp).2.2 j hj i List.mem_cons_self
      rw [hi] at this
      exact le_antisymm this (h0 j)
    have e1 : (((A.indices (d i)).take (k + 1)).drop 1).map (Prod.snd ∘ fun j => (j, d i j)) = List.replicate k 0 := by
      rw [hsplit, List.take_append_of_le_length hl1, List.eq_replicate_iff]
      constructor
      · simp only [List.length_map, List.length_drop, List.length_take]; omega
      · intro x hx
        obtain ⟨j, hj, rfl⟩ := List.mem_map.mp hx
        exact hz j (List.mem_of_mem_take (List.mem_of_mem_drop hj))
    have e2 : ((l1 ++ l2).map (d i)).take k = List.replicate k 0 := by
      rw [← List.map_take, List.take_append_of_le_length (by omega), List.eq_replicate_iff]
      constructor
      · simp only [List.length_map, List.length_take]; omega
      · intro x hx
        obtain ⟨j, hj, rfl⟩ := List.mem_map.mp hx
        exact hz j (List.mem_of_mem_take hj)
    rw [e1, hother, e2]

theorem nearest_near (A : ArgSort ℝ) (k : ℕ) (δ : ℝ) (d d' : Fin N → Fin N → ℝ) (h0 : ∀ i j, 0 ≤ d i j) (hi : ∀ i, d i i = 0)
    (h0' : ∀ i j, 0 ≤ d' i j) (hi' : ∀ i, d' i i = 0) (h : ∀ i j, |d i j - d' i j| ≤ δ) (i : Fin N) :
    List.Forall₂ (fun x y => |x - y| ≤ δ) ((nearest A k d i).map Prod.snd) ((nearest A k d' i).map Prod.snd) := by
  rw [nearest_distances A k d i (h0 i) (hi i), nearest_distances A k d' i (h0' i) (hi' i)]
  refine List.forall₂_take _ (sorted_near A δ _ _ ?_)
  rw [List.forall₂_map_left_iff, List.forall₂_map_right_iff, List.forall₂_same]
  exact fun j _ => h i j

/-! ### Distances -/

/-- A row as a vector. -/
noncomputable def vec (x : Fin M → ℝ) : EuclideanSpace ℝ (Fin M) := WithLp.toLp 2 x

theorem euclidean_eq_dist (x y : Fin M → ℝ) : euclideanDistance x y = ‖vec x - vec y‖ := by
  unfold euclideanDistance vec
  rw [EuclideanSpace.norm_eq]
  congr 1
  refine Finset.sum_congr rfl fun m _ => ?_
  rw [Real.norm_eq_abs, sq_abs, sq]
  rfl

theorem dot_eq_inner (x y : Fin M → ℝ) : dot x y = inner ℝ (vec x) (vec y) := by
  unfold dot vec
  rw [PiLp.inner_apply]
  refine Finset.sum_congr rfl fun m _ => ?_
  simp [mul_comm]

theorem sqrt_dot (x : Fin M → ℝ) : Real.sqrt (dot x x) = ‖vec x‖ := by
  rw [dot_eq_inner, real_inner_self_eq_norm_sq, Real.sqrt_sq (norm_nonneg _)]

theorem cosine_eq_inner (x y : Fin M → ℝ) :
    cosineDistance x y = 1 - inner ℝ (‖vec x‖⁻¹ • vec x) (‖vec y‖⁻¹ • vec y) := by
  rw [cosine_eq_dot, sqrt_dot, sqrt_dot, dot_eq_inner, real_inner_smul_left, real_inner_smul_right, div_eq_mul_inv, mul_inv]
  ring

theorem norm_unit_le {E : Type} [NormedAddCommGroup E] [NormedSpace ℝ E] (x : E) : ‖‖x‖⁻¹ • x‖ ≤ 1 := by
  rw [norm_smul, norm_inv, norm_norm]
  by_cases h : ‖x‖ = 0
  · rw [h]; simp
  · rw [inv_mul_cancel₀ h]

/-- The direction of a vector changes little if the vector is not short. -/
theorem direction_near {E : Type} [NormedAddCommGroup E] [NormedSpace ℝ E] (x y : E) (hx : x ≠ 0) :
    ‖‖x‖⁻¹ • x - ‖y‖⁻¹ • y‖ ≤ 2 * ‖x - y‖ / ‖x‖ := by
  have hpos : 0 < ‖x‖ := norm_pos_iff.mpr hx
  rw [le_div_iff₀ hpos]
  have h1 : ‖‖x‖⁻¹ • x - ‖y‖⁻¹ • y‖ * ‖x‖ = ‖x - (‖x‖ * ‖y‖⁻¹) • y‖ := by
    have : x - (‖x‖ * ‖y‖⁻¹) • y = ‖x‖ • (‖x‖⁻¹ • x - ‖y‖⁻¹ • y) := by
      rw [smul_sub, smul_smul, smul_smul, mul_inv_cancel₀ hpos.ne', one_smul]
    rw [this, norm_smul, norm_norm, mul_comm]
  rw [h1]
  have h2 : ‖y - (‖x‖ * ‖y‖⁻¹) • y‖ ≤ ‖x - y‖ := by
    by_cases hy : ‖y‖ = 0
    · rw [norm_eq_zero.mp hy]; simp
    · have : y - (‖x‖ * ‖y‖⁻¹) • y = (1 - ‖x‖ * ‖y‖⁻¹) • y := by rw [sub_smul, one_smul]
      rw [this, norm_smul, Real.norm_eq_abs]
      have : |1 - ‖x‖ * ‖y‖⁻¹| * ‖y‖ = |‖y‖ - ‖x‖| := by
        conv_lhs => rw [← abs_of_nonneg (norm_nonneg y), ← abs_mul]
        congr 1
        rw [abs_of_nonneg (norm_nonneg y)]
        field_simp
      rw [this, abs_sub_comm]
      exact abs_norm_sub_norm_le x y
  calc ‖x - (‖x‖ * ‖y‖⁻¹) • y‖ = ‖(x - y) + (y - (‖x‖ * ‖y‖⁻¹) • y)‖ := by congr 1; abel
    _ ≤ ‖x - y‖ + ‖y - (‖x‖ * ‖y‖⁻¹) • y‖ := norm_add_le _ _
    _ ≤ 2 * ‖x - y‖ := by linarith

/-- **C179.** Moving two rows by at most `ε` moves their Euclidean distance by at most `2 ε`. -/
theorem C179_euclidean (ε : ℝ) (x y x' y' : Fin M → ℝ) (hx : euclideanDistance x x' ≤ ε) (hy : euclideanDistance y y' ≤ ε) :
    |euclideanDistance x y - euclideanDistance x' y'| ≤ 2 * ε := by
  rw [euclidean_eq_dist] at hx hy
  rw [euclidean_eq_dist, euclidean_eq_dist]
  refine (abs_norm_sub_norm_le _ _).trans ?_
  have : vec x - vec y - (vec x' - vec y') = (vec x - vec x') - (vec y - vec y') := by abel
  rw [this]
  exact (norm_sub_le _ _).trans (by linarith)

/-- **C179.** Moving two rows of length at least `L` by at most `ε` moves their cosine distance by at most `4 ε / L`. -/
theorem C179_cosine (ε L : ℝ) (hL : 0 < L) (x y x' y' : Fin M → ℝ) (hx : euclideanDistance x x' ≤ ε)
    (hy : euclideanDistance y y' ≤ ε) (lx : L ≤ Real.sqrt (∑ m, x m * x m)) (ly : L ≤ Real.sqrt (∑ m, y m * y m)) :
    |cosineDistance x y - cosineDistance x' y'| ≤ 4 * ε / L := by
  have lx' : L ≤ ‖vec x‖ := by rw [← sqrt_dot]; exact lx
  have ly' : L ≤ ‖vec y‖ := by rw [← sqrt_dot]; exact ly
  rw [euclidean_eq_dist] at hx hy
  rw [cosine_eq_inner, cosine_eq_inner]
  have hdir : ∀ u v : EuclideanSpace ℝ (Fin M), L ≤ ‖u‖ → ‖u - v‖ ≤ ε → ‖‖u‖⁻¹ • u - ‖v‖⁻¹ • v‖ ≤ 2 * ε / L := by
    intro u v hu huv
    refine (direction_near u v (norm_pos_iff.mp (lt_of_lt_of_le hL hu))).trans ?_
    have h0 : 0 ≤ ε := (norm_nonneg _).trans huv
    exact div_le_div₀ (by linarith) (by linarith) hL hu
  have d1 := hdir _ _ lx' hx
  have d2 := hdir _ _ ly' hy
  set u := ‖vec x‖⁻¹ • vec x
  set v := ‖vec y‖⁻¹ • vec y
  set u' := ‖vec x'‖⁻¹ • vec x'
  set v' := ‖vec y'‖⁻¹ • vec y'
  have e : (1 - inner ℝ u v) - (1 - inner ℝ u' v') = -(inner ℝ (u - u') v + inner ℝ u' (v - v') : ℝ) := by
    rw [inner_sub_left, inner_sub_right]; ring
  rw [e, abs_neg]
  have hv : ‖v‖ ≤ 1 := norm_unit_le _
  have hu' : ‖u'‖ ≤ 1 := norm_unit_le _
  calc |(inner ℝ (u - u') v + inner ℝ u' (v - v') : ℝ)| ≤ |(inner ℝ (u - u') v : ℝ)| + |(inner ℝ u' (v - v') : ℝ)| := abs_add_le _ _
    _ ≤ ‖u - u'‖ * ‖v‖ + ‖u'‖ * ‖v - v'‖ := add_le_add (abs_real_inner_le_norm _ _) (abs_real_inner_le_norm _ _)
    _ ≤ 2 * ε / L * 1 + 1 * (2 * ε / L) := by
      have h0 := norm_nonneg (u - u')
      have h1 := norm_nonneg (v - v')
      refine add_le_add (mul_le_mul d1 hv (norm_nonneg _) (h0.trans d1)) (mul_le_mul hu' d2 h1 (by norm_num))
    _ = 4 * ε / L := by ring

theorem cosine_nonneg (x y : Fin M → ℝ) : 0 ≤ cosineDistance x y := by
  rw [cosine_eq_inner]
  have := (abs_le.mp (abs_real_inner_le_norm (‖vec x‖⁻¹ • vec x) (‖vec y‖⁻¹ • vec y))).2
  have h := mul_le_mul (norm_unit_le (vec x)) (norm_unit_le (vec y)) (norm_nonneg _) (by norm_num)
  linarith

theorem cosine_self (x : Fin M → ℝ) (hx : vec x ≠ 0) : cosineDistance x x = 0 := by
  rw [cosine_eq_inner, real_inner_self_eq_norm_sq, norm_smul, norm_inv, norm_norm, inv_mul_cancel₀ (norm_ne_zero_iff.mpr hx)]
  norm_num

/-- **C179.** With at most 3 features, if no example moves by more than `ε`, then for every example and every rank the distance to the
neighbour of this rank changes by at most `2 ε`. -/
theorem C179_neighbours (A : ArgSort ℝ) (named : String → (Fin M → ℝ) → (Fin M → ℝ) → ℝ) (hM : M ≤ 3) (ε : ℝ) (f f' : Fin N → Fin M → ℝ)
    (h : ∀ i, euclideanDistance (f i) (f' i) ≤ ε) (k : Option ℤ) (g : Fin N → List (Fin N × ℝ))
    (hg : featureNeighbours A named f k none = .ok g) :
    ∃ g', featureNeighbours A named f' k none = .ok g' ∧
      ∀ i, List.Forall₂ (fun x y => |x - y| ≤ 2 * ε) ((g i).map Prod.snd) ((g' i).map Prod.snd) := by
  unfold featureNeighbours at hg ⊢
  cases hr : featuresToKnn N M k none with
  | error e => rw [hr] at hg; cases hg
  | ok r =>
    obtain ⟨k', m⟩ := r
    rw [hr] at hg
    dsimp only at hg ⊢
    refine ⟨_, rfl, fun i => ?_⟩
    rw [← Except.ok.inj hg]
    have hm := featuresToKnn_ok N M k none k' m hr
    have hc : m = .euclidean ∨ m = .scipyEuclidean := by
      rw [hm]
      unfold chooseMetric decideMetric decideEuclidean
      dsimp only
      rw [if_neg (by omega)]
      split_ifs <;> simp
    have hd : distanceOf named m = euclideanDistance := by rcases hc with rfl | rfl <;> rfl
    rw [hd]
    have h0 : ∀ x y : Fin M → ℝ, 0 ≤ euclideanDistance x y := fun x y => Real.sqrt_nonneg _
    have hs : ∀ x : Fin M → ℝ, euclideanDistance x x = 0 := fun x => by rw [euclidean_eq_dist, sub_self, norm_zero]
    exact nearest_near A k' (2 * ε) (fun i j => euclideanDistance (f i) (f j)) (fun i j => euclideanDistance (f' i) (f' j)) (fun _ _ => h0 _ _) (fun _ => hs _) (fun _ _ => h0 _ _) (fun _ => hs _)
      (fun i j => C179_euclidean ε (f i) (f j) (f' i) (f' j) (h i) (h j)) i

/-- **C179.** With more than 3 features it changes by at most `4 ε / L` if all rows are at least `L` long. -/
theorem C179_neighbours_cosine (A : ArgSort ℝ) (named : String → (Fin M → ℝ) → (Fin M → ℝ) → ℝ) (hM : 3 < M) (ε L : ℝ) (hL : 0 < L)
    (f f' : Fin N → Fin M → ℝ) (h : ∀ i, euclideanDistance (f i) (f' i) ≤ ε) (hlen : ∀ i, L ≤ Real.sqrt (∑ m, f i m * f i m))
    (hlen' : ∀ i, f' i ≠ 0) (k : Option ℤ) (g : Fin N → List (Fin N × ℝ)) (hg : featureNeighbours A named f k none = .ok g) :
    ∃ g', featureNeighbours A named f' k none = .ok g' ∧
      ∀ i, List.Forall₂ (fun x y => |x - y| ≤ 4 * ε / L) ((g i).map Prod.snd) ((g' i).map Prod.snd) := by
  unfold featureNeighbours at hg ⊢
  cases hr : featuresToKnn N M k none with
  | error e => rw [hr] at hg; cases hg
  | ok r =>
    obtain ⟨k', m⟩ := r
    rw [hr] at hg
    dsimp only at hg ⊢
    refine ⟨_, rfl, fun i => ?_⟩
    rw [← Except.ok.inj hg]
    have hm := featuresToKnn_ok N M k none k' m hr
    have hc : m = .cosine := by
      rw [hm]
      unfold chooseMetric decideMetric
      dsimp only
      rw [if_pos hM]
    rw [hc]
    have hne : ∀ i, vec (f i) ≠ 0 := by
      intro i h0
      have := hlen i
      change L ≤ Real.sqrt (dot (f i) (f i)) at this
      rw [sqrt_dot, h0, norm_zero] at this
      linarith
    have hne' : ∀ i, vec (f' i) ≠ 0 := by
      intro i h0
      apply hlen' i
      have := congrArg (WithLp.ofLp) h0
      exact this
    exact nearest_near A k' (4 * ε / L) (fun i j => cosineDistance (f i) (f j)) (fun i j => cosineDistance (f' i) (f' j))
      (fun _ _ => cosine_nonneg _ _) (fun i => cosine_self _ (hne i)) (fun _ _ => cosine_nonneg _ _)
      (fun i => cosine_self _ (hne' i)) (fun i j => C179_cosine ε L hL (f i) (f j) (f' i) (f' j) (h i) (h j) (hlen i) (hlen j)) i

/-- **C179.** The average distance of an example to its neighbours changes by at most as much as the distances. -/
theorem C179_average (δ : ℝ) (hδ : 0 ≤ δ) (l l' : List ℝ) (h : List.Forall₂ (fun x y => |x - y| ≤ δ) l l') :
    |l.sum / l.length - l'.sum / l'.length| ≤ δ := by
  have hlen := h.length_eq
  rw [← hlen, ← sub_div]
  have hs : |l.sum - l'.sum| ≤ δ * l.length := by
    clear hlen
    induction h with
    | nil => simp
    | cons hxy _ ih =>
      rw [List.sum_cons, List.sum_cons, List.length_cons]
      push_cast
      rw [abs_le] at hxy ih ⊢
      constructor <;> linarith [hxy.1, hxy.2, ih.1, ih.2]
  by_cases h0 : (l.length : ℝ) = 0
  · rw [h0, div_zero, abs_zero]; exact hδ
  · have hpos : (0 : ℝ) < l.length := lt_of_le_of_ne (Nat.cast_nonneg _) (Ne.symm h0)
    rw [abs_div, abs_of_pos hpos, div_le_iff₀ hpos]
    exact hs

open Cleanlab.Outlier Cleanlab.OutlierCheck in
/-- **C179.** If the average distances change by at most `δ`, the cut-off of the outlier check with threshold `v` changes by at most
`(2 / v - 1) δ`, and the flags of all examples whose average distance is further than `2 δ / v` from the cut-off stay. -/
theorem C179_flags (A : ArgSort ℝ) (t : ℝ) (sc : Option ℝ) (m : Option Outlier.Metric) (δ : ℝ) (avg avg' : Fin n → ℝ)
    (h : ∀ i, |avg i - avg' i| ≤ δ) (thr : Option ℝ) (r r' : OutlierCheck.Result n)
    (hr : checkDistances A t sc m avg thr = .ok r) (hr' : checkDistances A t sc m avg' thr = .ok r') (hv : r.threshold ≠ 0) :
    ∃ c c', r.cutoff = some c ∧ r'.cutoff = some c' ∧ |c - c'| ≤ (2 / r.threshold - 1) * δ ∧
      ∀ i, 2 * δ / r.threshold < |avg i - c| → r'.flags i = r.flags i := by
  obtain ⟨_, h1, h2, h3, -, -⟩ := checkDistances_ok A t sc m avg thr r hr
  obtain ⟨_, h1', h2', h3', -, -⟩ := checkDistances_ok A t sc m avg' thr r' hr'
  have hthr : r'.threshold = r.threshold := by rw [h1] at h1'; exact (Except.ok.inj h1').symm
  rw [hthr] at h2'
  obtain ⟨q1, q3, e1, e3, -, hc⟩ := issueThreshold_ok A avg _ _ h2
  obtain ⟨q1', q3', e1', e3', -, hc'⟩ := issueThreshold_ok A avg' _ _ h2'
  obtain ⟨-, hv0, hv1⟩ := chosen_ok _ _ h1
  have hvpos : 0 < r.threshold := lt_of_le_of_ne hv0 (Ne.symm hv)
  have hl : List.Forall₂ (fun x y => |x - y| ≤ δ) (List.ofFn avg) (List.ofFn avg') := by
    rw [List.forall₂_iff_get]
    refine ⟨by simp, fun i hi hi' => ?_⟩
    simpa using h ⟨i, by simpa using hi⟩
  have p1 := percentile_near A δ (1 / 4) (by norm_num) (by norm_num) _ _ hl q1 q1' e1 e1'
  have p3 := percentile_near A δ (3 / 4) (by norm_num) (by norm_num) _ _ hl q3 q3' e3 e3'
  refine ⟨_, _, hc hv, hc' hv, ?_, ?_⟩
  · set w := 1 / r.threshold - 1 with hw
    have hw0 : 0 ≤ w := by
      rw [hw, sub_nonneg, le_div_iff₀ hvpos, one_mul]; exact hv1
    have : 2 / r.threshold - 1 = 1 + 2 * w := by rw [hw]; ring
    rw [this]
    rw [abs_le] at p1 p3 ⊢
    have a1 := mul_le_mul_of_nonneg_left p1.1 hw0
    have a2 := mul_le_mul_of_nonneg_left p1.2 hw0
    have a3 := mul_le_mul_of_nonneg_left p3.1 hw0
    have a4 := mul_le_mul_of_nonneg_left p3.2 hw0
    constructor <;> nlinarith [p1.1, p1.2, p3.1, p3.2]
  · intro i hi
    set w := 1 / r.threshold - 1 with hw
    have hw0 : 0 ≤ w := by
      rw [hw, sub_nonneg, le_div_iff₀ hvpos, one_mul]; exact hv1
    have hb : 2 * δ / r.threshold = δ + (1 + 2 * w) * δ := by rw [hw]; ring
    rw [hb] at hi
    rw [h3, h3', hc hv, hc' hv]
    unfold above
    dsimp only
    have hi' := abs_le.mp (h i)
    rw [abs_le] at p1 p3
    have a1 := mul_le_mul_of_nonneg_left p1.1 hw0
    have a2 := mul_le_mul_of_nonneg_left p1.2 hw0
    have a3 := mul_le_mul_of_nonneg_left p3.1 hw0
    have a4 := mul_le_mul_of_nonneg_left p3.2 hw0
    rw [decide_eq_decide]
    rcases lt_abs.mp hi with hi | hi
    · exact ⟨fun _ => by nlinarith [hi'.1, hi'.2, p1.1, p1.2, p3.1, p3.2], fun _ => by nlinarith [hi'.1, hi'.2, p1.1, p1.2, p3.1, p3.2]⟩
    · exact ⟨fun _ => by nlinarith [hi'.1, hi'.2, p1.1, p1.2, p3.1, p3.2], fun _ => by nlinarith [hi'.1, hi'.2, p1.1, p1.2, p3.1, p3.2]⟩

open Cleanlab.Outlier in
/-- **C179.** For a given scaling factor `s` the score of an example changes by at most `t / s` times the change of its average distance. -/
theorem C179_scores (t s a b : ℝ) (ht : 0 ≤ t) (hs : 1 / 1000000 ≤ s) (ha : 0 ≤ a) (hb : 0 ≤ b) :
    |transformScore a t s - transformScore b t s| ≤ t / s * |a - b| := by
  have hs0 : 0 < s := lt_of_lt_of_le (by norm_num) hs
  have key : ∀ x y : ℝ, 0 ≤ x → x ≤ y → Real.exp (-x) - Real.exp (-y) ≤ y - x := by
    intro x y hx hxy
    have h1 : Real.exp (-x) ≤ 1 := Real.exp_le_one_iff.mpr (by linarith)
    have h2 : Real.exp (-y) = Real.exp (-x) * Real.exp (-(y - x)) := by rw [← Real.exp_add]; congr 1; ring
    have h3 := Real.add_one_le_exp (-(y - x))
    have h4 := Real.exp_pos (-x)
    rw [h2]
    nlinarith
  have hmono : ∀ x y : ℝ, x ≤ y → Real.exp (-y) ≤ Real.exp (-x) := fun x y h => Real.exp_le_exp.mpr (by linarith)
  have hform : ∀ x, transformScore x t s = Real.exp (-(t / s * x)) := by
    intro x
    unfold transformScore
    rw [max_eq_left hs]
    congr 1
    ring
  have hts : 0 ≤ t / s := div_nonneg ht hs0.le
  rw [hform, hform]
  rcases le_total a b with h | h
  · have h1 := mul_le_mul_of_nonneg_left h hts
    rw [abs_of_nonneg (sub_nonneg.mpr (hmono _ _ h1)), abs_of_nonpos (by linarith)]
    have := key _ _ (mul_nonneg hts ha) h1
    nlinarith
  · have h1 := mul_le_mul_of_nonneg_left h hts
    rw [abs_of_nonpos (sub_nonpos.mpr (hmono _ _ h1)), abs_of_nonneg (by linarith)]
    have := key _ _ (mul_nonneg hts hb) h1
    nlinarith

/-- Three examples whose nearest neighbours are at distance `√2` or so, moved by at most 1/100 in every direction at will: all distances to
nearest neighbours change by at most 1/50. -/
example (A : ArgSort ℝ) (named : String → (Fin 3 → ℝ) → (Fin 3 → ℝ) → ℝ) (f' : Fin 3 → Fin 3 → ℝ)
    (h : ∀ i, euclideanDistance (fun m => threeRows i m + ![5, 6, 7] m) (f' i) ≤ 1 / 100) :
    ∃ g', featureNeighbours A named f' (some 1) none = .ok g' ∧ ∃ j x, g' 0 = [(j, x)] ∧ |Real.sqrt 2 - x| ≤ 1 / 50 := by
  obtain ⟨g, -, h1, -, h2, -⟩ := C168_not_zero_feature A named (fun _ _ _ => 0)
  obtain ⟨g', h3, h4⟩ := C179_neighbours A named le_rfl (1 / 100) (fun i m => threeRows i m + ![5, 6, 7] m) f' h (some 1) g
    (by rw [C167_shift A named le_rfl]; exact h1)
  refine ⟨g', h3, ?_⟩
  have h5 := h4 0
  rw [h2] at h5
  cases hg : g' 0 with
  | nil => rw [hg] at h5; cases h5
  | cons p l =>
    rw [hg] at h5
    cases l with
    | cons q l =>
      have := h5.length_eq
      simp at this
    | nil =>
      refine ⟨p.1, p.2, rfl, ?_⟩
      have := (List.forall₂_cons.mp h5).1
      dsimp only at this
      linarith

open Cleanlab.Outlier Cleanlab.OutlierCheck in
/-- The hypotheses of `C179_flags` can be met for any two lists of average distances. -/
example (A : ArgSort ℝ) (avg avg' : Fin 4 → ℝ) (h : ∀ i, |avg i - avg' i| ≤ 1) :
    ∃ r r' : OutlierCheck.Result 4, ∃ c c', checkDistances A 1 none none avg (some (1 / 2)) = .ok r ∧
      checkDistances A 1 none none avg' (some (1 / 2)) = .ok r' ∧ r.cutoff = some c ∧ r'.cutoff = some c' ∧ |c - c'| ≤ 3 := by
  have hok : ∀ a : Fin 4 → ℝ, ∃ r, checkDistances A 1 none none a (some (1 / 2)) = .ok r := fun a =>
    (C87_refused A 1 none none a (some (1 / 2)) (by norm_num)).mpr (by intro v hv; cases hv; norm_num)
  obtain ⟨r, hr⟩ := hok avg
  obtain ⟨r', hr'⟩ := hok avg'
  have ht : r.threshold = 1 / 2 := (C87_rule A 1 none none avg _ r hr).1
  obtain ⟨c, c', h1, h2, h3, -⟩ := C179_flags A 1 none none 1 avg avg' h _ r r' hr hr' (by rw [ht]; norm_num)
  rw [ht] at h3
  exact ⟨r, r', c, c', hr, hr', h1, h2, h3.trans (by norm_num)⟩

end Cleanlab.Props
