import Verif.Model.Outlier

/-!
# C38: feature-based outlier scores and the life cycle of `OutOfDistribution`
-/

namespace Cleanlab.Props

open Np Cleanlab.Outlier

variable {E X Pr L T : Type}

/-- The score of an average distance. -/
noncomputable def featureScore (m : Metric) (t scaling d : ℝ) : ℝ := correctPrecision m d (transformScore d t scaling)

theorem featureScore_cases (m : Metric) (t scaling d : ℝ) :
    featureScore m t scaling d = transformScore d t scaling ∨
      (featureScore m t scaling d = 1 ∧ ∃ tol, tolerance m = some tol ∧ d < tol) := by
  unfold featureScore correctPrecision
  cases h : tolerance m with
  | none => exact Or.inl rfl
  | some tol =>
    simp only
    split_ifs with hd
    · exact Or.inr ⟨rfl, tol, rfl, hd⟩
    · exact Or.inl rfl

theorem transformScore_le_one (d t scaling : ℝ) (hd : 0 ≤ d) (ht : 0 ≤ t) : transformScore d t scaling ≤ 1 := by
  unfold transformScore
  rw [Real.exp_le_one_iff]
  have : 0 < max scaling (1 / 1000000) := lt_max_of_lt_right (by norm_num)
  exact div_nonpos_of_nonpos_of_nonneg (by nlinarith [mul_nonneg ht hd]) this.le

/-- **C38**: scores lie in `(0, 1]` and a larger average distance never gives a larger score, whatever the metric and the
scaling factor. -/
theorem C38_score_antitone (m : Metric) (t scaling : ℝ) (ht : 0 ≤ t) :
    (∀ d, 0 ≤ d → 0 < featureScore m t scaling d ∧ featureScore m t scaling d ≤ 1) ∧
      ∀ d d', 0 ≤ d → d ≤ d' → featureScore m t scaling d' ≤ featureScore m t scaling d := by
  have hb : ∀ d, 0 ≤ d → 0 < featureScore m t scaling d ∧ featureScore m t scaling d ≤ 1 := by
    intro d hd
    rcases featureScore_cases m t scaling d with h | ⟨h, _⟩
    · rw [h]
      exact ⟨Real.exp_pos _, transformScore_le_one d t scaling hd ht⟩
    · rw [h]; norm_num
  refine ⟨hb, fun d d' hd hdd => ?_⟩
  rcases featureScore_cases m t scaling d with h | ⟨h, _⟩
  · rcases featureScore_cases m t scaling d' with h' | ⟨h', tol, htol, hlt⟩
    · rw [h, h']
      unfold transformScore
      rw [Real.exp_le_exp]
      have : 0 < max scaling (1 / 1000000) := lt_max_of_lt_right (by norm_num)
      rw [div_le_div_iff_of_pos_right this]
      nlinarith [mul_le_mul_of_nonneg_left hdd ht]
    · have : featureScore m t scaling d = 1 := by
        unfold featureScore correctPrecision
        rw [htol]
        simp only
        rw [if_pos (lt_of_le_of_lt hdd hlt)]
      rw [this, h']
  · rw [h]; exact (hb d' (hd.trans hdd)).2

/-- Non-vacuity: distances 0 and 1 are told apart. -/
example : featureScore .other 1 1 1 < featureScore .other 1 1 0 := by
  unfold featureScore correctPrecision tolerance transformScore
  rw [Real.exp_lt_exp]; norm_num

theorem featureScores_frozen (A : ArgSort ℝ) (ke : KnnEnv E X) (s : State E T) (x : X) (e : E) (v : ℝ)
    (hk : s.knn = some e) (hv : s.scaling = some v) :
    featureScores A ke s x = (s, (ke.queryDist e x).map (fun rows =>
      ((avgDist (match s.k with | none => ke.nNeighbors e | some k => min k (ke.nNeighbors e)) rows).map
        (featureScore (ke.metric e) s.t v), e))) := by
  unfold featureScores
  obtain ⟨k, t, adjust, knn, thr, scaling⟩ := s
  simp only at hk hv
  subst hk hv
  dsimp only
  cases ke.queryDist e x with
  | error err => rfl
  | ok rows => cases k <;> rfl

/-- The parts of the object that scoring from features uses. -/
structure SameFit (s s' : State E T) : Prop where
  k : s'.k = s.k
  t : s'.t = s.t
  knn : s'.knn = s.knn
  scaling : s'.scaling = s.scaling

theorem sharedFit_frozen (A : ArgSort ℝ) (ke : KnnEnv E X) (pe : PredEnv Pr L T) (s : State E T) (e : E) (v : ℝ)
    (hk : s.knn = some e) (_hv : s.scaling = some v) (x : Option X) (p : Option Pr) (l : Option L) :
    SameFit s (sharedFit A ke pe s x p l).1 := by
  unfold sharedFit
  split
  · exact ⟨rfl, rfl, rfl, rfl⟩
  · rw [hk]; exact ⟨rfl, rfl, hk.symm ▸ hk, rfl⟩
  · split
    · exact ⟨rfl, rfl, rfl, rfl⟩
    · split <;> exact ⟨rfl, rfl, rfl, rfl⟩

theorem score_frozen (A : ArgSort ℝ) (ke : KnnEnv E X) (pe : PredEnv Pr L T) (s : State E T) (e : E) (v : ℝ)
    (hk : s.knn = some e) (hv : s.scaling = some v) (x : Option X) (p : Option Pr) :
    SameFit s (score A ke pe s x p).1 := by
  unfold score
  split
  · exact ⟨rfl, rfl, rfl, rfl⟩
  · rename_i x' _
    split
    · exact ⟨rfl, rfl, rfl, rfl⟩
    · rw [featureScores_frozen A ke s x' e v hk hv]
      cases ke.queryDist e x' <;> exact ⟨rfl, rfl, rfl, rfl⟩
  · split_ifs <;> exact ⟨rfl, rfl, rfl, rfl⟩

theorem step_frozen (A : ArgSort ℝ) (ke : KnnEnv E X) (pe : PredEnv Pr L T) (s : State E T) (e : E) (v : ℝ)
    (hk : s.knn = some e) (hv : s.scaling = some v) (c : Call X Pr L) : SameFit s (step A ke pe s c) := by
  cases c with
  | fit x p l => exact sharedFit_frozen A ke pe s e v hk hv x p l
  | score x p => exact score_frozen A ke pe s e v hk hv x p
  | fitScore x p l =>
    show SameFit s (fitScore A ke pe s x p l).1
    have h1 := sharedFit_frozen A ke pe s e v hk hv x p l
    unfold fitScore
    split
    · rename_i s' _ heq; rw [heq] at h1; exact h1
    · rename_i s' _ heq; rw [heq] at h1; exact h1
    · rename_i s' heq
      rw [heq] at h1
      have h2 := score_frozen A ke pe s' e v (h1.knn.trans hk) (h1.scaling.trans hv) x p
      exact ⟨h2.k.trans h1.k, h2.t.trans h1.t, h2.knn.trans h1.knn, h2.scaling.trans h1.scaling⟩

/-- **C38**: once estimator and scaling factor exist, no history of `fit`, `fit_score` and `score` calls (on features or
on predicted probabilities, succeeding or raising) changes them. -/
theorem C38_never_refitted (A : ArgSort ℝ) (ke : KnnEnv E X) (pe : PredEnv Pr L T) (s : State E T) (e : E) (v : ℝ)
    (hk : s.knn = some e) (hv : s.scaling = some v) (calls : List (Call X Pr L)) :
    (run A ke pe s calls).knn = some e ∧ (run A ke pe s calls).scaling = some v := by
  suffices h : SameFit s (run A ke pe s calls) from ⟨h.knn.trans hk, h.scaling.trans hv⟩
  induction calls using List.reverseRecOn with
  | nil => exact ⟨rfl, rfl, rfl, rfl⟩
  | append_singleton l c ih =>
    unfold run at ih ⊢
    rw [List.foldl_append, List.foldl_cons, List.foldl_nil]
    have h2 := step_frozen A ke pe _ e v (ih.knn.trans hk) (ih.scaling.trans hv) c
    exact ⟨h2.k.trans ih.k, h2.t.trans ih.t, h2.knn.trans ih.knn, h2.scaling.trans ih.scaling⟩

/-- The number of neighbours averaged over. -/
def usedK (k : Option ℕ) (max : ℕ) : ℕ := match k with
  | none => max
  | some k => min k max

/-- **C38**: fitting a fresh object on features succeeds if the estimator can be fitted, stores the estimator and a
positive scaling factor (the median average distance of the training data), and from then on, whatever is called in
between, scoring gives every example the score of its own average distance: the same features always get the same scores. -/
theorem C38_fit_then_score (A : ArgSort ℝ) (ke : KnnEnv E X) (pe : PredEnv Pr L T) (s : State E T) (x : X)
    (hk : s.knn = none) (hv : s.scaling = none) (e : E) (he : ke.fit x s.k = .ok e) (hne : ke.trainDist e ≠ [])
    (calls : List (Call X Pr L)) (y : X) (rows : List (List ℝ)) (hy : ke.queryDist e y = .ok rows) :
    ∃ med, IsMedian (avgDist (ke.nNeighbors e) (ke.trainDist e)) med ∧
      (score A ke pe (run A ke pe (step A ke pe s (.fit (some x) none none)) calls) (some y) none).2 =
        .ok ((avgDist (usedK s.k (ke.nNeighbors e)) rows).map
          (featureScore (ke.metric e) s.t (max med (100 * floatEps)))) := by
  obtain ⟨med, hmed⟩ := Option.isSome_iff_exists.mp (npMedian_isSome A
    (avgDist (ke.nNeighbors e) (ke.trainDist e)) (by simpa [avgDist] using hne))
  refine ⟨med, npMedian_isMedian A _ _ hmed, ?_⟩
  have hs1 : (step A ke pe s (.fit (some x) none none)) =
      { s with scaling := some (max med (100 * floatEps)), knn := some e } := by
    show (sharedFit A ke pe s (some x) none none).1 = _
    unfold sharedFit featureScores validInputs
    simp only [hk, hv, he, Except.map, hmed, Option.map_some]
  have hfr : SameFit (step A ke pe s (.fit (some x) none none))
      (run A ke pe (step A ke pe s (.fit (some x) none none)) calls) := by
    induction calls using List.reverseRecOn with
    | nil => exact ⟨rfl, rfl, rfl, rfl⟩
    | append_singleton l c ih =>
      unfold run at ih ⊢
      rw [List.foldl_append, List.foldl_cons, List.foldl_nil]
      have h2 := step_frozen A ke pe _ e (max med (100 * floatEps)) (ih.knn.trans (by rw [hs1]))
        (ih.scaling.trans (by rw [hs1])) c
      exact ⟨h2.k.trans ih.k, h2.t.trans ih.t, h2.knn.trans ih.knn, h2.scaling.trans ih.scaling⟩
  generalize hr : run A ke pe (step A ke pe s (.fit (some x) none none)) calls = r at *
  rw [hs1] at hfr
  obtain ⟨h1, h2, h3, h4⟩ := hfr
  simp only at h1 h2 h3 h4
  unfold score validInputs
  simp only [h3]
  rw [featureScores_frozen A ke r y e (max med (100 * floatEps)) h3 h4, h1, h2, hy]
  cases s.k <;> rfl

/-- Distances of a data set named by a number, for the counterexample. -/
def toyKnn : KnnEnv Unit ℝ where
  fit _ _ := .ok ()
  nNeighbors _ := 1
  trainDist _ := [[1]]
  queryDist _ y := .ok [[y]]
  metric _ := .other

/-- Predictions are not used in the counterexample. -/
def toyPred : PredEnv Unit Unit Unit where
  thresholds _ _ := .ok ()
  score _ _ := .ok []

theorem npMedian_singleton (A : ArgSort ℝ) (a : ℝ) : npMedian A [a] = some a := by
  have : sortOn A id [a] = [a] := List.perm_singleton.mp (sortOn_perm A id [a])
  unfold npMedian
  rw [this]
  simp

/-- **C38 fails** for an object created with a fitted estimator (`params={"knn": ...}`), where the documentation says that
`fit` is not needed: the scaling factor is fitted by the first call of `score`, so the score of the same data depends on
what was scored before. -/
theorem C38_not_stateless_with_given_knn (A : ArgSort ℝ) :
    let s : State Unit Unit := { knn := some () }
    (score A toyKnn toyPred s (some 1) none).2 ≠
      (score A toyKnn toyPred (run A toyKnn toyPred s [Call.score (some 2) none]) (some 1) none).2 := by
  intro s
  have h1 : (score A toyKnn toyPred s (some 1) none).2 = .ok [Real.exp (-1)] := by
    have he : (100 : ℝ) * floatEps ≤ 1 := by unfold floatEps; norm_num
    simp only [score, validInputs, s, featureScores, toyKnn, Except.map, avgDist, List.map_cons, List.map_nil, List.take_succ_cons,
      List.take_nil, List.sum_cons, List.sum_nil, List.length_cons, List.length_nil, npMedian_singleton, Option.map_some,
      correctPrecision, tolerance, transformScore]
    norm_num [max_eq_left he]
  have h2 : (score A toyKnn toyPred (run A toyKnn toyPred s [Call.score (some 2) none]) (some 1) none).2 =
      .ok [Real.exp (-1 / 2)] := by
    have he : (100 : ℝ) * floatEps ≤ 2 := by unfold floatEps; norm_num
    have hrun : run A toyKnn toyPred s [Call.score (some 2) none] = { s with scaling := some 2 } := by
      simp only [run, List.foldl_cons, List.foldl_nil, step, score, validInputs, s, featureScores, toyKnn, Except.map, avgDist,
        List.map_cons, List.map_nil, List.take_succ_cons, List.take_nil, List.sum_cons, List.sum_nil, List.length_cons,
        List.length_nil, npMedian_singleton, Option.map_some]
      norm_num [max_eq_left he]
    rw [hrun]
    simp only [score, validInputs, s, featureScores, toyKnn, Except.map, avgDist, List.map_cons, List.map_nil, List.take_succ_cons,
      List.take_nil, List.sum_cons, List.sum_nil, List.length_cons, List.length_nil, correctPrecision, tolerance,
      transformScore]
    norm_num
  rw [h1, h2]
  intro h
  have h := List.head_eq_of_cons_eq (Except.ok.inj h)
  rw [Real.exp_eq_exp] at h
  norm_num at h

/-- **C38, order of calls.** Scoring features before anything was fitted is refused, and the estimator stays as it was. -/
theorem C38_needs_fit (A : ArgSort ℝ) (ke : KnnEnv E X) (pe : PredEnv Pr L T) (s : State E T) (y : X)
    (hk : s.knn = none) :
    (∃ e, (score A ke pe s (some y) none).2 = .error e) ∧ (score A ke pe s (some y) none).1 = s := by
  unfold score
  simp [validInputs, hk]

example (A : ArgSort ℝ) : ∃ e, (score A toyKnn toyPred ({} : State Unit Unit) (some 1) none).2 = .error e :=
  (C38_needs_fit A toyKnn toyPred {} 1 rfl).1

/-- **C38.** The score is exactly 1 below a distance that only rounding explains, and a decreasing exponential function of the
average distance otherwise. -/
theorem C38_score_formula (t scaling d : ℝ) :
    featureScore .cosine t scaling d = (if d < 100 / 2 ^ 53 then 1 else Real.exp (-t * d / max scaling (1 / 10 ^ 6))) ∧
    featureScore .euclidean t scaling d =
      (if d < Real.sqrt (100 / 2 ^ 52) then 1 else Real.exp (-t * d / max scaling (1 / 10 ^ 6))) ∧
    (∀ p, featureScore (.minkowski p) t scaling d =
      (if d < (100 / 2 ^ 52) ^ (1 / p) then 1 else Real.exp (-t * d / max scaling (1 / 10 ^ 6)))) ∧
    featureScore .other t scaling d = Real.exp (-t * d / max scaling (1 / 10 ^ 6)) := by
  have h1 : (100 * (1 / 2 ^ 53) : ℝ) = 100 / 2 ^ 53 := by norm_num
  have h2 : (100 * floatEps : ℝ) = 100 / 2 ^ 52 := by unfold floatEps; norm_num
  have h3 : transformScore d t scaling = Real.exp (-t * d / max scaling (1 / 10 ^ 6)) := by
    unfold transformScore; norm_num
  unfold featureScore correctPrecision tolerance
  simp only [h1, h2, h3]
  exact ⟨trivial, trivial, fun _ => trivial, trivial⟩

end Cleanlab.Props
