import Verif.Model.Distance
import Verif.Props.TargetUnits
import Verif.Props.ExactErrors

/-!
# C167 and C168: the coordinates of the feature space
-/

namespace Cleanlab.Props

open Np Cleanlab.Knn

variable {N M M' : ℕ}

/-- The scalar product of two rows. -/
def dot (x y : Fin M → ℝ) : ℝ := ∑ m, x m * y m

theorem cosine_eq_dot (x y : Fin M → ℝ) :
    cosineDistance x y = 1 - dot x y / (Real.sqrt (dot x x) * Real.sqrt (dot y y)) := by
  unfold cosineDistance dot
  rw [Finset.sum_div]
  congr 1
  refine Finset.sum_congr rfl (fun m _ => ?_)
  rw [div_mul_div_comm]

theorem euclidean_eq_dot (x y : Fin M → ℝ) : euclideanDistance x y = Real.sqrt (dot x x - 2 * dot x y + dot y y) := by
  unfold euclideanDistance dot
  congr 1
  rw [Finset.mul_sum, ← Finset.sum_sub_distrib, ← Finset.sum_add_distrib]
  refine Finset.sum_congr rfl (fun m _ => ?_)
  ring

/-- No metric is given, or one of those that cleanlab chooses. -/
def StandardMetric (metric : Option Metric) : Prop := metric = none ∨ metric = some .cosine ∨ metric = some .euclidean ∨ metric = some .scipyEuclidean

theorem distanceOf_dot (named : String → (Fin M → ℝ) → (Fin M → ℝ) → ℝ) (named' : String → (Fin M' → ℝ) → (Fin M' → ℝ) → ℝ)
    (m : Metric) (hm : ∀ s, m ≠ .other s) (x y : Fin M → ℝ) (x' y' : Fin M' → ℝ) (h1 : dot x x = dot x' x') (h2 : dot x y = dot x' y')
    (h3 : dot y y = dot y' y') : distanceOf named m x y = distanceOf named' m x' y' := by
  cases m with
  | cosine => show cosineDistance x y = cosineDistance x' y'; rw [cosine_eq_dot, cosine_eq_dot, h1, h2, h3]
  | euclidean => show euclideanDistance x y = euclideanDistance x' y'; rw [euclidean_eq_dot, euclidean_eq_dot, h1, h2, h3]
  | scipyEuclidean => show euclideanDistance x y = euclideanDistance x' y'; rw [euclidean_eq_dot, euclidean_eq_dot, h1, h2, h3]
  | other s => exact absurd rfl (hm s)

theorem chooseMetric_ne_other (metric : Option Metric) (hs : StandardMetric metric) (rows cols : ℕ) (s : String) :
    chooseMetric metric rows cols ≠ .other s := by
  rcases hs with rfl | rfl | rfl | rfl
  · unfold chooseMetric decideMetric decideEuclidean
    dsimp only
    split_ifs <;> simp
  all_goals unfold chooseMetric; simp

theorem chooseMetric_cols (metric : Option Metric) (rows cols cols' : ℕ) (h : 3 < cols ↔ 3 < cols') :
    chooseMetric metric rows cols = chooseMetric metric rows cols' := by
  unfold chooseMetric decideMetric
  simp only [h]

theorem featuresToKnn_ok (rows cols : ℕ) (k : Option ℤ) (metric : Option Metric) (k' : ℕ) (m : Metric)
    (h : featuresToKnn rows cols k metric = .ok (k', m)) : m = chooseMetric metric rows cols := by
  unfold featuresToKnn at h
  dsimp only [bind, Except.bind] at h
  cases hc : configureNeighbors rows k with
  | error e => rw [hc] at h; simp at h
  | ok v =>
    rw [hc] at h
    dsimp only at h
    split_ifs at h
    exact (congrArg Prod.snd (Except.ok.inj h)).symm

theorem neighbours_congr (A : ArgSort ℝ) (named : String → (Fin M → ℝ) → (Fin M → ℝ) → ℝ)
    (named' : String → (Fin M' → ℝ) → (Fin M' → ℝ) → ℝ) (f : Fin N → Fin M → ℝ) (f' : Fin N → Fin M' → ℝ) (k : Option ℤ)
    (metric : Option Metric) (hm : chooseMetric metric N M = chooseMetric metric N M')
    (h : ∀ i j, distanceOf named (chooseMetric metric N M) (f i) (f j) = distanceOf named' (chooseMetric metric N M) (f' i) (f' j)) :
    featureNeighbours A named' f' k metric = featureNeighbours A named f k metric := by
  have hk : featuresToKnn N M' k metric = featuresToKnn N M k metric := by
    unfold featuresToKnn
    rw [hm]
  unfold featureNeighbours
  rw [hk]
  cases hr : featuresToKnn N M k metric with
  | error e => rfl
  | ok r =>
    obtain ⟨k', m⟩ := r
    have := featuresToKnn_ok N M k metric k' m hr
    subst this
    dsimp only
    congr 2
    funext i j
    exact (h i j).symm

/-- **C167.** Neighbours and distances depend on the features only through the scalar products of the examples: turning or reflecting the feature
space changes nothing, nor do further features that are 0, as long as there are more than 3 features before and after or not more than 3. -/
theorem C167_geometry (A : ArgSort ℝ) (named : String → (Fin M → ℝ) → (Fin M → ℝ) → ℝ)
    (named' : String → (Fin M' → ℝ) → (Fin M' → ℝ) → ℝ) (f : Fin N → Fin M → ℝ) (f' : Fin N → Fin M' → ℝ) (k : Option ℤ)
    (metric : Option Metric) (hs : StandardMetric metric) (hcols : metric ≠ none ∨ (3 < M ↔ 3 < M'))
    (h : ∀ i j, ∑ m, f' i m * f' j m = ∑ m, f i m * f j m) :
    featureNeighbours A named' f' k metric = featureNeighbours A named f k metric := by
  refine neighbours_congr A named named' f f' k metric ?_ (fun i j => ?_)
  · rcases hcols with hn | hc
    · rcases hs with rfl | rfl | rfl | rfl
      · exact absurd rfl hn
      all_goals rfl
    · exact chooseMetric_cols metric N M M' hc
  · exact distanceOf_dot named named' _ (chooseMetric_ne_other metric hs N M) _ _ _ _ (h i i).symm (h i j).symm (h j j).symm

/-- **C167.** The order of the features does not matter. -/
theorem C167_columns (A : ArgSort ℝ) (named : String → (Fin M → ℝ) → (Fin M → ℝ) → ℝ) (σ : Equiv.Perm (Fin M)) (f : Fin N → Fin M → ℝ)
    (k : Option ℤ) (metric : Option Metric) (hs : StandardMetric metric) :
    featureNeighbours A named (fun i m => f i (σ m)) k metric = featureNeighbours A named f k metric :=
  C167_geometry A named named f _ k metric hs (Or.inr Iff.rfl) (fun i j => Equiv.sum_comp σ (fun m => f i m * f j m))

/-- **C167.** Nor does the sign of a feature. -/
theorem C167_signs (A : ArgSort ℝ) (named : String → (Fin M → ℝ) → (Fin M → ℝ) → ℝ) (s : Fin M → ℝ) (hsign : ∀ m, s m = 1 ∨ s m = -1)
    (f : Fin N → Fin M → ℝ) (k : Option ℤ) (metric : Option Metric) (hs : StandardMetric metric) :
    featureNeighbours A named (fun i m => s m * f i m) k metric = featureNeighbours A named f k metric := by
  refine C167_geometry A named named f _ k metric hs (Or.inr Iff.rfl) (fun i j => Finset.sum_congr rfl (fun m _ => ?_))
  rcases hsign m with h | h <;> rw [h] <;> ring

/-- A turn by an angle whose sine and cosine are 3/5 and 4/5 keeps the scalar products. -/
example : ∀ i j : Fin 2, ∑ m, (![![4 / 5, 3 / 5], ![-3 / 5, 4 / 5]] : Fin 2 → Fin 2 → ℚ) i m *
    (![![4 / 5, 3 / 5], ![-3 / 5, 4 / 5]] : Fin 2 → Fin 2 → ℚ) j m =
    ∑ m, (![![1, 0], ![0, 1]] : Fin 2 → Fin 2 → ℚ) i m * (![![1, 0], ![0, 1]] : Fin 2 → Fin 2 → ℚ) j m := by decide +kernel

/-- **C167.** With at most 3 features the zero point of each feature does not matter. -/
theorem C167_shift (A : ArgSort ℝ) (named : String → (Fin M → ℝ) → (Fin M → ℝ) → ℝ) (hM : M ≤ 3) (t : Fin M → ℝ) (f : Fin N → Fin M → ℝ)
    (k : Option ℤ) : featureNeighbours A named (fun i m => f i m + t m) k none = featureNeighbours A named f k none := by
  refine neighbours_congr A named named f _ k none rfl (fun i j => ?_)
  have hc : chooseMetric none N M = .euclidean ∨ chooseMetric none N M = .scipyEuclidean := by
    unfold chooseMetric decideMetric decideEuclidean
    dsimp only
    rw [if_neg (by omega)]
    split_ifs <;> simp
  have he : euclideanDistance (f i) (f j) = euclideanDistance (fun m => f i m + t m) (fun m => f j m + t m) := by
    unfold euclideanDistance
    congr 1
    refine Finset.sum_congr rfl (fun m _ => ?_)
    ring
  rcases hc with hc | hc <;> rw [hc] <;> exact he

theorem cosine_lengths (c e : ℝ) (hc : 0 < c) (he : 0 < e) (x y : Fin M → ℝ) :
    cosineDistance (fun m => c * x m) (fun m => e * y m) = cosineDistance x y := by
  have hd : ∀ (a b : ℝ) (u v : Fin M → ℝ), dot (fun m => a * u m) (fun m => b * v m) = a * b * dot u v := by
    intro a b u v
    unfold dot
    rw [Finset.mul_sum]
    refine Finset.sum_congr rfl (fun m _ => ?_)
    ring
  rw [cosine_eq_dot, cosine_eq_dot, hd, hd, hd, Real.sqrt_mul (mul_nonneg hc.le hc.le), Real.sqrt_mul (mul_nonneg he.le he.le),
    Real.sqrt_mul_self hc.le, Real.sqrt_mul_self he.le]
  have : c * Real.sqrt (dot x x) * (e * Real.sqrt (dot y y)) = c * e * (Real.sqrt (dot x x) * Real.sqrt (dot y y)) := by ring
  rw [this, mul_div_mul_left _ _ (mul_pos hc he).ne']

/-- **C167.** With more than 3 features the length of each row does not matter: embeddings need not be normalised. -/
theorem C167_lengths (A : ArgSort ℝ) (named : String → (Fin M → ℝ) → (Fin M → ℝ) → ℝ) (hM : 3 < M) (c : Fin N → ℝ) (hc : ∀ i, 0 < c i)
    (f : Fin N → Fin M → ℝ) (k : Option ℤ) :
    featureNeighbours A named (fun i m => c i * f i m) k none = featureNeighbours A named f k none := by
  refine neighbours_congr A named named f _ k none rfl (fun i j => ?_)
  have hm : chooseMetric none N M = .cosine := by
    unfold chooseMetric decideMetric
    dsimp only
    rw [if_pos hM]
  rw [hm]
  exact (cosine_lengths (c i) (c j) (hc i) (hc j) (f i) (f j)).symm

theorem euclidean_unit (c : ℝ) (hc : 0 < c) (x y : Fin M → ℝ) :
    euclideanDistance (fun m => c * x m) (fun m => c * y m) = c * euclideanDistance x y := by
  unfold euclideanDistance
  have : ∑ m, (c * x m - c * y m) * (c * x m - c * y m) = c * c * ∑ m, (x m - y m) * (x m - y m) := by
    rw [Finset.mul_sum]
    refine Finset.sum_congr rfl (fun m _ => ?_)
    ring
  rw [this, Real.sqrt_mul (mul_nonneg hc.le hc.le), Real.sqrt_mul_self hc.le]

/-- **C167.** The unit, common to all features, does not change who is a neighbour of whom and in which order; all distances are in the new unit or
all stay as they are. -/
theorem C167_unit (A : ArgSort ℝ) (hA : OrderBased A) (named : String → (Fin M → ℝ) → (Fin M → ℝ) → ℝ) (c : ℝ) (hc : 0 < c)
    (f : Fin N → Fin M → ℝ) (k : Option ℤ) (metric : Option Metric) (hs : StandardMetric metric) :
    ∃ u, (u = c ∨ u = 1) ∧ featureNeighbours A named (fun i m => c * f i m) k metric =
      (featureNeighbours A named f k metric).map (fun g i => (g i).map (fun r => (r.1, u * r.2))) := by
  have hdist : ∃ u, (u = c ∨ u = 1) ∧ ∀ i j, distanceOf named (chooseMetric metric N M) (fun m => c * f i m) (fun m => c * f j m) =
      u * distanceOf named (chooseMetric metric N M) (f i) (f j) := by
    cases hm : chooseMetric metric N M with
    | cosine => exact ⟨1, Or.inr rfl, fun i j => by rw [one_mul]; exact cosine_lengths c c hc hc _ _⟩
    | euclidean => exact ⟨c, Or.inl rfl, fun i j => euclidean_unit c hc _ _⟩
    | scipyEuclidean => exact ⟨c, Or.inl rfl, fun i j => euclidean_unit c hc _ _⟩
    | other s => exact absurd hm (chooseMetric_ne_other metric hs N M s)
  obtain ⟨u, hu, hdist⟩ := hdist
  have hpos : 0 < u := by rcases hu with rfl | rfl <;> [exact hc; exact one_pos]
  refine ⟨u, hu, ?_⟩
  unfold featureNeighbours
  cases hr : featuresToKnn N M k metric with
  | error e => rfl
  | ok r =>
    obtain ⟨k', m⟩ := r
    have := featuresToKnn_ok N M k metric k' m hr
    subst this
    dsimp only [Except.map]
    congr 1
    funext i
    unfold nearest
    have hind : A.indices (fun j => distanceOf named (chooseMetric metric N M) (fun m => c * f i m) (fun m => c * f j m)) =
        A.indices (fun j => distanceOf named (chooseMetric metric N M) (f i) (f j)) := by
      apply hA
      intro j j'
      rw [hdist, hdist]
      exact mul_le_mul_iff_right₀ hpos
    dsimp only
    rw [hind, List.map_map]
    refine List.map_congr_left (fun j _ => ?_)
    simp only [Function.comp, hdist]

/-! ## C168: features that are the same for all examples -/

/-- If `i` and `j` are nearer to `i` than all others, `j` is the one neighbour. -/
theorem nearest_one (A : ArgSort ℝ) (dist : Fin N → Fin N → ℝ) (i j : Fin N) (hij : j ≠ i)
    (h : ∀ l, l ≠ i → l ≠ j → dist i i < dist i l ∧ dist i j < dist i l) : nearest A 1 dist i = [(j, dist i j)] := by
  have hcard : (Finset.univ.filter (fun r => r = i ∨ r = j)).card = 1 + 1 := by
    have : Finset.univ.filter (fun r => r = i ∨ r = j) = {i, j} := by ext r; simp
    rw [this, Finset.card_pair hij.symm]
  have hmem : ∀ r, r ∈ (A.indices (dist i)).take (1 + 1) ↔ r = i ∨ r = j := by
    intro r
    rw [← hcard]
    refine take_indices_iff A (dist i) (fun r => r = i ∨ r = j) ?_ r
    intro a b ha hb
    rw [not_or] at hb
    rcases ha with rfl | rfl
    · exact (h b hb.1 hb.2).1
    · exact (h b hb.1 hb.2).2
  unfold nearest
  dsimp only
  rw [if_pos ((hmem i).mpr (Or.inl rfl))]
  have hp : ((A.indices (dist i)).take (1 + 1)).filter (fun r => decide (r ≠ i)) = [j] := by
    rw [← List.perm_singleton]
    refine (List.perm_ext_iff_of_nodup (((A.nodup_indices (dist i)).sublist (List.take_sublist _ _)).filter _) (by simp)).mpr (fun r => ?_)
    rw [List.mem_filter, hmem, decide_eq_true_eq, List.mem_singleton]
    constructor
    · rintro ⟨h1 | h1, h2⟩
      · exact absurd h1 h2
      · exact h1
    · rintro rfl
      exact ⟨Or.inr rfl, hij⟩
  rw [hp]
  rfl

/-- Three examples with three features. -/
def threeRows : Fin 3 → Fin 3 → ℝ := ![![1, 0, 0], ![10, 0, 0], ![0, 1, 0]]

/-- The same with a fourth feature that is always 0. -/
def threeRowsZero : Fin 3 → Fin 4 → ℝ := fun i => Fin.snoc (threeRows i) 0

/-- Three examples with four features. -/
def fourCols : Fin 3 → Fin 4 → ℝ := ![![1, 0, 0, 0], ![100, 0, 0, 0], ![1, 1, 0, 0]]

/-- The same with a fifth feature that is always 1. -/
def fourColsOne : Fin 3 → Fin 5 → ℝ := fun i => Fin.snoc (fourCols i) 1

theorem neighbours_one (A : ArgSort ℝ) (named : String → (Fin M → ℝ) → (Fin M → ℝ) → ℝ) (f : Fin 3 → Fin M → ℝ) :
    featureNeighbours A named f (some 1) none =
      .ok (nearest A 1 (fun i j => distanceOf named (decideMetric 3 M) (f i) (f j))) := rfl

/-- **C168**, refuted: a fourth feature that is 0 for all examples changes the nearest neighbour. -/
theorem C168_not_zero_feature (A : ArgSort ℝ) (named : String → (Fin 3 → ℝ) → (Fin 3 → ℝ) → ℝ)
    (named' : String → (Fin 4 → ℝ) → (Fin 4 → ℝ) → ℝ) :
    ∃ g g', featureNeighbours A named threeRows (some 1) none = .ok g ∧ featureNeighbours A named' threeRowsZero (some 1) none = .ok g' ∧
      g 0 = [(2, Real.sqrt 2)] ∧ g' 0 = [(1, 0)] := by
  refine ⟨_, _, neighbours_one A named threeRows, neighbours_one A named' threeRowsZero, ?_, ?_⟩
  · have e : ∀ i j, distanceOf named (decideMetric 3 3) (threeRows i) (threeRows j) =
        Real.sqrt (∑ m, (threeRows i m - threeRows j m) * (threeRows i m - threeRows j m)) := fun i j => rfl
    simp only [e]
    have e00 : ∑ m, (threeRows 0 m - threeRows 0 m) * (threeRows 0 m - threeRows 0 m) = 0 := by simp
    have e01 : ∑ m, (threeRows 0 m - threeRows 1 m) * (threeRows 0 m - threeRows 1 m) = 81 := by
      simp [threeRows, Fin.sum_univ_succ]; norm_num
    have e02 : ∑ m, (threeRows 0 m - threeRows 2 m) * (threeRows 0 m - threeRows 2 m) = 2 := by
      simp [threeRows, Fin.sum_univ_succ]; norm_num
    rw [nearest_one A _ 0 2 (by decide), e02]
    intro l h1 h2
    have : l = 1 := by omega
    subst this
    rw [e00, e01, e02]
    exact ⟨Real.sqrt_lt_sqrt le_rfl (by norm_num), Real.sqrt_lt_sqrt (by norm_num) (by norm_num)⟩
  · have e : ∀ i j, distanceOf named' (decideMetric 3 4) (threeRowsZero i) (threeRowsZero j) = cosineDistance (threeRowsZero i) (threeRowsZero j) :=
      fun i j => rfl
    simp only [e, cosine_eq_dot]
    have d00 : dot (threeRowsZero 0) (threeRowsZero 0) = 1 := by simp [dot, threeRowsZero, threeRows, Fin.sum_univ_castSucc]
    have d01 : dot (threeRowsZero 0) (threeRowsZero 1) = 10 := by simp [dot, threeRowsZero, threeRows, Fin.sum_univ_castSucc]
    have d11 : dot (threeRowsZero 1) (threeRowsZero 1) = 10 * 10 := by simp [dot, threeRowsZero, threeRows, Fin.sum_univ_castSucc]
    have d02 : dot (threeRowsZero 0) (threeRowsZero 2) = 0 := by simp [dot, threeRowsZero, threeRows, Fin.sum_univ_castSucc]
    have hs : Real.sqrt (10 * 10) = 10 := Real.sqrt_mul_self (by norm_num)
    rw [nearest_one A _ 0 1 (by decide), d01, d00, d11, hs]
    · norm_num
    intro l h1 h2
    have : l = 2 := by omega
    subst this
    rw [d00, d01, d11, d02, hs]
    norm_num

/-- **C168**, refuted also among data with more than 3 features: a feature that is 1 for all examples changes the nearest neighbour. -/
theorem C168_not_constant_feature (A : ArgSort ℝ) (named : String → (Fin 4 → ℝ) → (Fin 4 → ℝ) → ℝ)
    (named' : String → (Fin 5 → ℝ) → (Fin 5 → ℝ) → ℝ) :
    ∃ g g', featureNeighbours A named fourCols (some 1) none = .ok g ∧ featureNeighbours A named' fourColsOne (some 1) none = .ok g' ∧
      g 0 = [(1, 0)] ∧ g' 0 = [(2, 1 - 2 / (Real.sqrt 2 * Real.sqrt 3))] := by
  refine ⟨_, _, neighbours_one A named fourCols, neighbours_one A named' fourColsOne, ?_, ?_⟩
  · have e : ∀ i j, distanceOf named (decideMetric 3 4) (fourCols i) (fourCols j) = cosineDistance (fourCols i) (fourCols j) := fun i j => rfl
    simp only [e, cosine_eq_dot]
    have d00 : dot (fourCols 0) (fourCols 0) = 1 := by simp [dot, fourCols, Fin.sum_univ_succ]
    have d01 : dot (fourCols 0) (fourCols 1) = 100 := by simp [dot, fourCols, Fin.sum_univ_succ]
    have d11 : dot (fourCols 1) (fourCols 1) = 100 * 100 := by simp [dot, fourCols, Fin.sum_univ_succ]
    have d02 : dot (fourCols 0) (fourCols 2) = 1 := by simp [dot, fourCols, Fin.sum_univ_succ]
    have d22 : dot (fourCols 2) (fourCols 2) = 2 := by simp [dot, fourCols, Fin.sum_univ_succ]; norm_num
    have hs : Real.sqrt (100 * 100) = 100 := Real.sqrt_mul_self (by norm_num)
    have h2 : 1 / Real.sqrt 2 < 1 := by
      rw [div_lt_one (by positivity)]
      exact (Real.lt_sqrt (by norm_num)).mpr (by norm_num)
    rw [nearest_one A _ 0 1 (by decide), d01, d00, d11, hs]
    · norm_num
    intro l h1' h2'
    have : l = 2 := by omega
    subst this
    rw [d00, d01, d11, d02, d22, hs, Real.sqrt_one, one_mul, one_mul]
    constructor <;> linarith
  · have e : ∀ i j, distanceOf named' (decideMetric 3 5) (fourColsOne i) (fourColsOne j) = cosineDistance (fourColsOne i) (fourColsOne j) :=
      fun i j => rfl
    simp only [e, cosine_eq_dot]
    have d00 : dot (fourColsOne 0) (fourColsOne 0) = 2 := by
      simp [dot, fourColsOne, fourCols, Fin.sum_univ_castSucc]; norm_num
    have d01 : dot (fourColsOne 0) (fourColsOne 1) = 101 := by
      simp [dot, fourColsOne, fourCols, Fin.sum_univ_castSucc]; norm_num
    have d11 : dot (fourColsOne 1) (fourColsOne 1) = 10001 := by
      simp [dot, fourColsOne, fourCols, Fin.sum_univ_castSucc]; norm_num
    have d02 : dot (fourColsOne 0) (fourColsOne 2) = 2 := by
      simp [dot, fourColsOne, fourCols, Fin.sum_univ_castSucc]; norm_num
    have d22 : dot (fourColsOne 2) (fourColsOne 2) = 3 := by
      simp [dot, fourColsOne, fourCols, Fin.sum_univ_castSucc]; norm_num
    rw [nearest_one A _ 0 2 (by decide), d00, d02, d22]
    intro l h1 h2
    have : l = 1 := by omega
    subst this
    rw [d00, d01, d11, d02, d22]
    have s2 : (0 : ℝ) < Real.sqrt 2 := by positivity
    have s3 : (0 : ℝ) < Real.sqrt 3 := by positivity
    have s1 : (100 : ℝ) < Real.sqrt 10001 := (Real.lt_sqrt (by norm_num)).mpr (by norm_num)
    have hs3 : Real.sqrt 3 < 7 / 4 := (Real.sqrt_lt' (by norm_num)).mpr (by norm_num)
    have hs2 : (7 : ℝ) / 5 < Real.sqrt 2 := (Real.lt_sqrt (by norm_num)).mpr (by norm_num)
    have m2 : Real.sqrt 2 * Real.sqrt 2 = 2 := Real.mul_self_sqrt (by norm_num)
    have k1 : 101 / (Real.sqrt 2 * Real.sqrt 10001) < 4 / 5 := by
      rw [div_lt_iff₀ (by positivity)]
      nlinarith
    have k2 : 4 / 5 < 2 / (Real.sqrt 2 * Real.sqrt 3) := by
      rw [lt_div_iff₀ (by positivity)]
      have : Real.sqrt 2 < 71 / 50 := (Real.sqrt_lt' (by norm_num)).mpr (by norm_num)
      nlinarith
    rw [m2]
    constructor <;> linarith

theorem dot_snoc (x y : Fin M → ℝ) (t : ℝ) :
    dot (Fin.snoc (α := fun _ => ℝ) x t) (Fin.snoc (α := fun _ => ℝ) y t) = dot x y + t * t := by
  unfold dot
  rw [Fin.sum_univ_castSucc]
  simp

/-- **C168**, what holds: a feature with the same value for all examples has no effect with a euclidean metric, that is by default if there are at most
3 features with it, and a feature that is always 0 has none with the cosine metric, that is by default if there are more than 3 features without it. -/
theorem C168_constant_partial (A : ArgSort ℝ) (named : String → (Fin M → ℝ) → (Fin M → ℝ) → ℝ)
    (named' : String → (Fin (M + 1) → ℝ) → (Fin (M + 1) → ℝ) → ℝ) (f : Fin N → Fin M → ℝ) (t : ℝ) (k : Option ℤ) (metric : Option Metric)
    (h : metric = some .euclidean ∨ metric = some .scipyEuclidean ∨ (metric = none ∧ M + 1 ≤ 3) ∨
      (t = 0 ∧ (metric = some .cosine ∨ (metric = none ∧ 3 < M)))) :
    featureNeighbours A named' (fun i => Fin.snoc (f i) t) k metric = featureNeighbours A named f k metric := by
  have he : ∀ i j, euclideanDistance (f i) (f j) =
      euclideanDistance (Fin.snoc (α := fun _ => ℝ) (f i) t) (Fin.snoc (α := fun _ => ℝ) (f j) t) := by
    intro i j
    rw [euclidean_eq_dot, euclidean_eq_dot, dot_snoc, dot_snoc, dot_snoc]
    congr 1
    ring
  have hcos : t = 0 → ∀ i j, cosineDistance (f i) (f j) =
      cosineDistance (Fin.snoc (α := fun _ => ℝ) (f i) t) (Fin.snoc (α := fun _ => ℝ) (f j) t) := by
    intro ht i j
    rw [cosine_eq_dot, cosine_eq_dot, dot_snoc, dot_snoc, dot_snoc, ht]
    simp
  rcases h with rfl | rfl | ⟨rfl, hM⟩ | ⟨ht, rfl | ⟨rfl, hM⟩⟩
  · exact neighbours_congr A named named' f _ k _ rfl he
  · exact neighbours_congr A named named' f _ k _ rfl he
  · have e : chooseMetric none N M = chooseMetric none N (M + 1) := chooseMetric_cols none N M (M + 1) (by omega)
    refine neighbours_congr A named named' f _ k _ e (fun i j => ?_)
    have hc : chooseMetric none N M = .euclidean ∨ chooseMetric none N M = .scipyEuclidean := by
      unfold chooseMetric decideMetric decideEuclidean
      dsimp only
      rw [if_neg (by omega)]
      split_ifs <;> simp
    rcases hc with hc | hc <;> rw [hc] <;> exact he i j
  · exact neighbours_congr A named named' f _ k _ rfl (hcos ht)
  · have e : chooseMetric none N M = chooseMetric none N (M + 1) := chooseMetric_cols none N M (M + 1) (by omega)
    refine neighbours_congr A named named' f _ k _ e (fun i j => ?_)
    have hc : chooseMetric none N M = .cosine := by
      unfold chooseMetric decideMetric
      dsimp only
      rw [if_pos hM]
    rw [hc]
    exact hcos ht i j

/-- The results of the theorems are not errors: three examples have a nearest neighbour. -/
example (A : ArgSort ℝ) (named : String → (Fin 3 → ℝ) → (Fin 3 → ℝ) → ℝ) :
    ∃ g, featureNeighbours A named (fun i m => threeRows i m + ![5, 6, 7] m) (some 1) none = .ok g ∧ g 0 = [(2, Real.sqrt 2)] := by
  obtain ⟨g, -, h1, -, h2, -⟩ := C168_not_zero_feature A named (fun _ _ _ => 0)
  exact ⟨g, by rw [C167_shift A named le_rfl]; exact h1, h2⟩

end Cleanlab.Props
