import Verif.Model.OutlierFeatures
import Verif.Props.KnnBuild
import Verif.Props.Outlier
import Verif.Props.OutlierCheck

/-!
# C210, C211: outlier scores of `Datalab` and of `OutOfDistribution`, and scoring the same data again
-/

namespace Cleanlab.Props

open Np Cleanlab.Outlier Cleanlab.OutlierCheck Cleanlab.OutlierFeatures

variable {F : Type} [DecidableEq F]

/-- What the search index promises: `k` distinct other rows for each row, and the distinct rows. -/
structure Proper (idx : Search F) : Prop where
  others : ∀ xs k m, k < xs.length → ListsOthers k (idx.among xs k m)
  nodup : ∀ xs, (idx.values xs).Nodup
  all : ∀ xs, ∀ x ∈ xs, x ∈ idx.values xs

theorem featuresToKnn_lt {N cols : ℕ} {k : Option ℤ} {metric : Option Knn.Metric} {n : ℕ} {m : Knn.Metric}
    (hf : Knn.featuresToKnn N cols k metric = .ok (n, m)) : n < N ∧ 1 ≤ n := by
  unfold Knn.featuresToKnn Knn.configureNeighbors at hf
  dsimp only [bind, Except.bind] at hf
  split at hf
  · exact absurd hf (by simp)
  · rename_i v hv
    split_ifs at hf with h1
    have h2 := Except.ok.inj hf
    have h3 : v.toNat = n := congrArg Prod.fst h2
    split_ifs at hv with h4
    have h5 := Except.ok.inj hv
    cases k with
    | none =>
      simp only at h5
      omega
    | some k =>
      simp only [Option.any_some, decide_eq_true_eq, not_le] at h4
      simp only at h5
      split_ifs at h5 <;> omega

theorem correctGraph_construct {N : ℕ} {X : Type} [DecidableEq X] (S : ArgSort (Fin N)) (B : ArgSort Bool)
    (features : Fin N → X) (values : List X) (k : ℕ) (g : Knn.Graph N) (hl : ∀ p, (g p).length = k) (hN : 0 < N) :
    Knn.correctGraph S B features values (Knn.constructGraph k g) =
      (Knn.correctDuplicates S B k g (Knn.duplicateSets features values)).map
        (fun g' => Knn.flattenGraph g' (Knn.constructGraph k g).indptr) := by
  have hdl : (Knn.constructGraph k g).data.length = N * k := length_flatMap_const k _ (fun p => by simp [hl p])
  have hil : (Knn.constructGraph k g).indices.length = N * k := length_flatMap_const k _ (fun p => by simp [hl p])
  have hdiv : N * k / N = k := Nat.mul_div_cancel_left k hN
  have hrd : Knn.reshapeRows N (Knn.constructGraph k g).data =
      .ok (fun i => ((Knn.constructGraph k g).data.drop (i * k)).take k) := by
    unfold Knn.reshapeRows
    rw [if_neg (by rw [hdl]; simp; omega), hdl, hdiv]
  have hri : Knn.reshapeRows N (Knn.constructGraph k g).indices =
      .ok (fun i => ((Knn.constructGraph k g).indices.drop (i * k)).take k) := by
    unfold Knn.reshapeRows
    rw [if_neg (by rw [hil]; simp; omega), hil, hdiv]
  unfold Knn.correctGraph
  rw [hrd, hri, hdl, hdiv]
  dsimp only [bind, Except.bind, pure, Except.pure]
  have : (fun p : Fin N => (((Knn.constructGraph k g).indices.drop (p * k)).take k).zip
      (((Knn.constructGraph k g).data.drop (p * k)).take k)) = g := by
    funext p
    have h1 := flatMap_chunk k (fun p => (g p).map Prod.fst) (fun p => by simp [hl p]) p
    have h2 := flatMap_chunk k (fun p => (g p).map Prod.snd) (fun p => by simp [hl p]) p
    unfold Knn.constructGraph Knn.flattenGraph
    dsimp only
    rw [h1, h2]
    exact (List.zip_of_prod rfl rfl).symm
  rw [this]
  cases Knn.correctDuplicates S B k g (Knn.duplicateSets features values) <;> rfl

/-- The corrected neighbours exist and have `k` entries each. -/
theorem corrected_exists (S : ∀ N, ArgSort (Fin N)) (B : ArgSort Bool) (idx : Search F) (h : Proper idx) (xs : List F) (k : ℕ)
    (m : Knn.Metric) (hk : k < xs.length) :
    ∃ g, Knn.correctDuplicates (S _) B k (idx.among xs k m) (Knn.duplicateSets xs.get (idx.values xs)) = .ok g ∧
      ∀ p, (g p).length = k := by
  have hall : ∀ i, xs.get i ∈ idx.values xs := fun i => h.all xs _ (List.get_mem xs i)
  have hg := h.others xs k m hk
  obtain ⟨hd1, hd2, _⟩ := C36_duplicate_sets xs.get (idx.values xs) (h.nodup xs) hall
  obtain ⟨g', e1, e2, e3⟩ := correctDuplicates_rows (S _) B k (idx.among xs k m) _ hd1 hd2 hg
  refine ⟨g', e1, fun p => ?_⟩
  by_cases hp : ∃ s ∈ Knn.duplicateSets xs.get (idx.values xs), p ∈ s
  · obtain ⟨s, hs, hps⟩ := hp
    obtain ⟨i, hi, hpi, hr⟩ := e2 s hs p hps
    obtain ⟨r, hr', hc⟩ := correctRow_corrected (S _) B k s (hd2 s hs).1 (hd2 s hs).2 i hi _ (hg p).1 (hg p).2.1
      (hpi ▸ (hg p).2.2)
    rw [hr] at hr'
    rw [Except.ok.inj hr']
    exact hc.length
  · rw [e3 p (fun s hs hps => hp ⟨s, hs, hps⟩)]
    exact (hg p).1

/-- The average distances, in the words of the documentation: of the corrected distances to the neighbours. -/
noncomputable def averages {N : ℕ} (g : Knn.Graph N) (p : Fin N) : ℝ := ((g p).map (fun e => (e.2 : ℝ))).sum / (g p).length

/-- What both computations have in common. -/
theorem both_of (A : ArgSort ℝ) (S : ∀ N, ArgSort (Fin N)) (B : ArgSort Bool) (idx : Search F) (h : Proper idx) (xs : List F)
    (k n : ℕ) (m : Knn.Metric) (hf : Knn.featuresToKnn xs.length idx.cols (some k) none = .ok (n, m)) :
    ∃ g, Knn.correctDuplicates (S _) B n (idx.among xs n m) (Knn.duplicateSets xs.get (idx.values xs)) = .ok g ∧
      (∀ p, (g p).length = n) ∧
      (∀ t scaling threshold, freshCheck A S B idx k t scaling threshold xs =
        checkDistances A t scaling (some (scoreMetric m)) (averages g) threshold) ∧
      ∀ k' : Option ℕ, Knn.featuresToKnn xs.length idx.cols (k'.map (fun k : ℕ => (k : ℤ))) none = .ok (n, m) →
        ∃ e, (searchEnv S B idx).fit xs k' = .ok e ∧ (searchEnv S B idx).nNeighbors e = n ∧
          (searchEnv S B idx).metric e = scoreMetric m ∧ e.xs = xs ∧ e.metric = m ∧
          avgDist n ((searchEnv S B idx).trainDist e) = List.ofFn (averages g) := by
  obtain ⟨hn, hn1⟩ := featuresToKnn_lt hf
  obtain ⟨g, hg, hl⟩ := corrected_exists S B idx h xs n m hn
  have hN : 0 < xs.length := by omega
  refine ⟨g, hg, hl, fun t scaling threshold => ?_, fun k' hk' => ?_⟩
  · unfold freshCheck
    rw [hf]
    dsimp only [bind, Except.bind]
    unfold Knn.createGraph
    rw [hf]
    dsimp only [bind, Except.bind]
    rw [if_pos rfl, correctGraph_construct _ B _ _ n _ (fun p => (h.others xs n m hn p).1) hN, hg]
    dsimp only [Except.map]
    have hdl : (Knn.flattenGraph g (Knn.constructGraph n (idx.among xs n m)).indptr).data.length = xs.length * n :=
      length_flatMap_const n _ (fun p => by simp [hl p])
    have hdiv : xs.length * n / xs.length = n := Nat.mul_div_cancel_left n hN
    have hr : Knn.reshapeRows xs.length (Knn.flattenGraph g (Knn.constructGraph n (idx.among xs n m)).indptr).data =
        .ok (fun i => ((Knn.flattenGraph g (Knn.constructGraph n (idx.among xs n m)).indptr).data.drop (i * n)).take n) := by
      unfold Knn.reshapeRows
      rw [if_neg (by rw [hdl, Nat.mul_mod_right]; simp only [ne_eq, not_true, or_false]; omega), hdl, hdiv]
    rw [hr]
    dsimp only
    congr 1
    funext p
    have h2 := flatMap_chunk n (fun p => (g p).map Prod.snd) (fun p => by simp [hl p]) p
    unfold rowMean averages
    dsimp only [Knn.flattenGraph]
    rw [h2, List.map_map, List.length_map]
    rfl
  · refine ⟨⟨xs, n, m, List.ofFn (fun p => (g p).map (fun e => (e.2 : ℝ)))⟩, ?_, rfl, rfl, rfl, rfl, ?_⟩
    · unfold searchEnv
      dsimp only
      rw [hk']
      dsimp only [bind, Except.bind]
      rw [hg]
      rfl
    show avgDist n (List.ofFn (fun p => (g p).map (fun e => (e.2 : ℝ)))) = _
    unfold avgDist
    rw [List.map_ofFn]
    congr 1
    funext p
    unfold averages
    simp only [Function.comp]
    rw [List.take_of_length_le (by simp [hl p])]
    simp

/-- A new object scoring the data it is fitted on. -/
theorem fitScore_new {Pr L T : Type} (A : ArgSort ℝ) (S : ∀ N, ArgSort (Fin N)) (B : ArgSort Bool) (idx : Search F)
    (pe : PredEnv Pr L T) (s : State (Fitted F) T) (xs : List F) (n : ℕ) (e : Fitted F) (avg : Fin xs.length → ℝ) (v : ℝ)
    (hk : s.knn = none) (he : (searchEnv S B idx).fit xs s.k = .ok e) (hn : (searchEnv S B idx).nNeighbors e = n)
    (havg : avgDist n ((searchEnv S B idx).trainDist e) = List.ofFn avg) (hv : scalingFactor A avg s.scaling = .ok v) :
    fitScore A (searchEnv S B idx) pe s (some xs) none none =
      ({ s with scaling := some v, knn := some e },
        .ok (List.ofFn (fun i => featureScore ((searchEnv S B idx).metric e) s.t v (avg i)))) := by
  have hfs : featureScores A (searchEnv S B idx) s xs = ({ s with scaling := some v },
      .ok (List.ofFn (fun i => featureScore ((searchEnv S B idx).metric e) s.t v (avg i)), e)) := by
    unfold featureScores
    simp only [hk, he, Except.map, hn, havg]
    cases hs : s.scaling with
    | some w =>
      rw [hs] at hv
      obtain rfl := Except.ok.inj hv
      simp only [List.map_ofFn]
      rfl
    | none =>
      rw [hs] at hv
      unfold scalingFactor at hv
      dsimp only at hv
      cases hm : npMedian A (List.ofFn avg) with
      | none => rw [hm] at hv; cases hv
      | some w =>
        rw [hm] at hv
        obtain rfl := Except.ok.inj hv
        simp only [Option.map_some, List.map_ofFn]
        rfl
  unfold fitScore sharedFit validInputs
  simp only [hk, hfs]

/-- **C210.** The scores that the outlier check of a new `Datalab` reports are those of `OutOfDistribution.fit_score` for the same
features, number of neighbours, `t` and scaling factor. -/
theorem C210_scores {Pr L T : Type} (A : ArgSort ℝ) (S : ∀ N, ArgSort (Fin N)) (B : ArgSort Bool) (idx : Search F)
    (h : Proper idx) (pe : PredEnv Pr L T) (k : ℕ) (t : ℝ) (scaling threshold : Option ℝ) (xs : List F)
    (r : Result xs.length) (hr : freshCheck A S B idx k t scaling threshold xs = .ok r) :
    (fitScore A (searchEnv S B idx) pe { k := some k, t := t, scaling := scaling } (some xs) none none).2 =
      .ok (List.ofFn r.scores) := by
  cases hf : Knn.featuresToKnn xs.length idx.cols (some k) none with
  | error e => unfold freshCheck at hr; rw [hf] at hr; cases hr
  | ok q =>
    obtain ⟨n, m⟩ := q
    obtain ⟨g, -, -, h1, h2⟩ := both_of A S B idx h xs k n m hf
    rw [h1] at hr
    obtain ⟨e, he, hn, hm, -, -, havg⟩ := h2 (some k) hf
    obtain ⟨v, -, -, -, hv, hs⟩ := checkDistances_ok A t scaling _ _ threshold r hr
    rw [fitScore_new A S B idx pe { k := some k, t := t, scaling := scaling } xs n e (averages g) v rfl he hn havg hv, hs, hm]
    rfl

/-- **C210, refusals.** If the index cannot be built, both refuse the features with the same error. -/
theorem C210_refused {Pr L T : Type} (A : ArgSort ℝ) (S : ∀ N, ArgSort (Fin N)) (B : ArgSort Bool) (idx : Search F)
    (pe : PredEnv Pr L T) (k : ℕ) (t : ℝ) (scaling threshold : Option ℝ) (xs : List F) (msg : String)
    (hf : Knn.featuresToKnn xs.length idx.cols (some k) none = .error msg) :
    freshCheck A S B idx k t scaling threshold xs = .error msg ∧
    (fitScore A (searchEnv S B idx) pe { k := some k, t := t, scaling := scaling } (some xs) none none).2 = .error msg := by
  constructor
  · unfold freshCheck
    rw [hf]
    rfl
  · have he : (searchEnv S B idx).fit xs (some k) = .error msg := by
      unfold searchEnv
      dsimp only [Option.map]
      rw [hf]
      rfl
    unfold fitScore sharedFit validInputs featureScores
    simp only [he, Except.map]

/-- **C210, completeness.** With an admissible threshold the check of a new `Datalab` works whenever the index can be built. -/
theorem C210_works (A : ArgSort ℝ) (S : ∀ N, ArgSort (Fin N)) (B : ArgSort Bool) (idx : Search F) (h : Proper idx) (k : ℕ)
    (t : ℝ) (scaling threshold : Option ℝ) (ht : ∀ v ∈ threshold, 0 ≤ v ∧ v ≤ 1) (xs : List F) (n : ℕ) (m : Knn.Metric)
    (hf : Knn.featuresToKnn xs.length idx.cols (some k) none = .ok (n, m)) :
    ∃ r, freshCheck A S B idx k t scaling threshold xs = .ok r := by
  obtain ⟨g, -, -, h1, -⟩ := both_of A S B idx h xs k n m hf
  rw [h1]
  have hN : 0 < xs.length := by have := (featuresToKnn_lt hf).1; omega
  have hne : List.ofFn (averages g) ≠ [] := by
    intro h0
    have := congrArg List.length h0
    rw [List.length_ofFn, List.length_nil] at this
    omega
  have h2 : ∃ v, chosen threshold = .ok v := by
    cases threshold with
    | none => exact ⟨_, rfl⟩
    | some v =>
      refine ⟨v, ?_⟩
      unfold chosen
      dsimp only
      rw [if_neg (fun hv => hv.2 (ht v rfl))]
  obtain ⟨v, h2⟩ := h2
  have h3 : ∃ c, issueThreshold A (averages g) v = .ok c := by
    obtain ⟨_, _, q1⟩ := percentile_eq A (1 / 4) (List.ofFn (averages g)) hne (by norm_num) (by norm_num)
    obtain ⟨_, _, q3⟩ := percentile_eq A (3 / 4) (List.ofFn (averages g)) hne (by norm_num) (by norm_num)
    unfold issueThreshold
    rw [q1, q3]
    dsimp only
    split_ifs
    exacts [⟨_, rfl⟩, ⟨_, rfl⟩]
  obtain ⟨c, h3⟩ := h3
  have h4 : ∃ w, scalingFactor A (averages g) scaling = .ok w := by
    unfold scalingFactor
    cases scaling with
    | some w => exact ⟨w, rfl⟩
    | none =>
      obtain ⟨w, hw⟩ := Option.isSome_iff_exists.mp (npMedian_isSome A _ hne)
      exact ⟨_, by rw [hw]⟩
  obtain ⟨w, h4⟩ := h4
  unfold checkDistances fromDistances
  rw [h2]
  dsimp only [bind, Except.bind, pure, Except.pure]
  rw [h3]
  dsimp only
  rw [h4]
  exact ⟨_, rfl⟩

/-- **C210, defaults.** With more than ten examples the defaults of both are the same ten neighbours. -/
theorem C210_default {Pr L T : Type} (A : ArgSort ℝ) (S : ∀ N, ArgSort (Fin N)) (B : ArgSort Bool) (idx : Search F)
    (h : Proper idx) (pe : PredEnv Pr L T) (threshold : Option ℝ) (xs : List F) (hx : 10 < xs.length)
    (r : Result xs.length) (hr : freshCheck A S B idx 10 1 none threshold xs = .ok r) :
    (fitScore A (searchEnv S B idx) pe {} (some xs) none none).2 = .ok (List.ofFn r.scores) := by
  have h10 := C210_scores A S B idx h pe 10 1 none threshold xs r hr
  have hfit : (searchEnv S B idx).fit xs none = (searchEnv S B idx).fit xs (some 10) := by
    unfold searchEnv Knn.featuresToKnn Knn.configureNeighbors
    have : ¬((xs.length : ℤ) ≤ 10) := by omega
    have h' : min (10 : ℤ) ((xs.length : ℤ) - 1) = 10 := by omega
    simp [this, h']
  rw [← h10]
  unfold fitScore sharedFit validInputs featureScores
  simp only [hfit]
  cases (searchEnv S B idx).fit xs (some 10) with
  | error e => rfl
  | ok e =>
    simp only [Except.map]
    cases npMedian A (avgDist ((searchEnv S B idx).nNeighbors e) ((searchEnv S B idx).trainDist e)) <;> rfl

/-! ### Scoring the same data again -/

/-- A row of the data an index was fitted on is its own nearest neighbour. -/
def FindsItself (idx : Search F) : Prop := ∀ xs m, ∀ y ∈ xs, idx.ask xs 1 m y = [0]

theorem featureScore_zero (m : Metric) (t v : ℝ) : featureScore m t v 0 = 1 := by
  unfold featureScore correctPrecision transformScore
  cases tolerance m with
  | none => simp
  | some tol => simp

/-- What the second call of `fit_score` with the same features returns. -/
theorem fitScore_again {Pr L T : Type} (A : ArgSort ℝ) (S : ∀ N, ArgSort (Fin N)) (B : ArgSort Bool) (idx : Search F)
    (pe : PredEnv Pr L T) (s : State (Fitted F) T) (xs : List F) (e : Fitted F) (v : ℝ) (hk : s.knn = some e)
    (hs : s.scaling = some v) (hkn : ∀ k ∈ s.k, e.k ≤ k) :
    (fitScore A (searchEnv S B idx) pe s (some xs) none none).2 =
      .ok (xs.map (fun x => featureScore (scoreMetric e.metric) s.t v
        ((((idx.ask e.xs e.k e.metric x).map (fun d : ℚ => (d : ℝ))).take e.k).sum /
          (((idx.ask e.xs e.k e.metric x).map (fun d : ℚ => (d : ℝ))).take e.k).length))) := by
  have hn : (searchEnv S B idx).nNeighbors e = e.k := rfl
  have hq : (searchEnv S B idx).queryDist e xs =
      .ok (xs.map (fun y => (idx.ask e.xs e.k e.metric y).map (fun d : ℚ => (d : ℝ)))) := rfl
  have hf : (featureScores A (searchEnv S B idx) s xs).2 = .ok (xs.map (fun x => featureScore (scoreMetric e.metric) s.t v
        ((((idx.ask e.xs e.k e.metric x).map (fun d : ℚ => (d : ℝ))).take e.k).sum /
          (((idx.ask e.xs e.k e.metric x).map (fun d : ℚ => (d : ℝ))).take e.k).length)), e) := by
    unfold featureScores
    simp only [hk, hq, Except.map, hs, hn]
    cases hsk : s.k with
    | none =>
      simp only [avgDist, List.map_map]
      rfl
    | some k =>
      have := hkn k (by rw [hsk]; rfl)
      simp only [avgDist, List.map_map, min_eq_right this]
      rfl
  unfold fitScore sharedFit validInputs
  simp only [hk]
  unfold score validInputs
  simp only [hk]
  generalize hz : featureScores A (searchEnv S B idx) s xs = z at hf ⊢
  obtain ⟨z1, z2⟩ := z
  simp only at hf
  subst hf
  rfl

/-- Calling `fit_score` a second time with the same features. -/
noncomputable def scoredAgain {Pr L T : Type} (A : ArgSort ℝ) (S : ∀ N, ArgSort (Fin N)) (B : ArgSort Bool) (idx : Search F)
    (pe : PredEnv Pr L T) (s : State (Fitted F) T) (xs : List F) : Except String (List ℝ) :=
  (fitScore A (searchEnv S B idx) pe (fitScore A (searchEnv S B idx) pe s (some xs) none none).1 (some xs) none none).2

/-- The second call in terms of the first one. -/
theorem scoredAgain_eq {Pr L T : Type} (A : ArgSort ℝ) (S : ∀ N, ArgSort (Fin N)) (B : ArgSort Bool) (idx : Search F)
    (h : Proper idx) (pe : PredEnv Pr L T) (k : ℕ) (t : ℝ) (scaling threshold : Option ℝ) (xs : List F)
    (r : Result xs.length) (hr : freshCheck A S B idx k t scaling threshold xs = .ok r) :
    ∃ n m v g, Knn.featuresToKnn xs.length idx.cols (some k) none = .ok (n, m) ∧ (∀ p, (g p).length = n) ∧
      Knn.correctDuplicates (S _) B n (idx.among xs n m) (Knn.duplicateSets xs.get (idx.values xs)) = .ok g ∧
      r.scores = (fun i => featureScore (scoreMetric m) t v (averages g i)) ∧
      (n ≤ k → scoredAgain A S B idx pe { k := some k, t := t, scaling := scaling } xs =
        .ok (xs.map (fun x => featureScore (scoreMetric m) t v
          ((((idx.ask xs n m x).map (fun d : ℚ => (d : ℝ))).take n).sum /
            (((idx.ask xs n m x).map (fun d : ℚ => (d : ℝ))).take n).length)))) := by
  cases hf : Knn.featuresToKnn xs.length idx.cols (some k) none with
  | error e => unfold freshCheck at hr; rw [hf] at hr; cases hr
  | ok q =>
    obtain ⟨n, m⟩ := q
    obtain ⟨g, hg, hl, h1, h2⟩ := both_of A S B idx h xs k n m hf
    rw [h1] at hr
    obtain ⟨e, he, hn, hm, hx, hme, havg⟩ := h2 (some k) hf
    obtain ⟨v, -, -, -, hv, hs⟩ := checkDistances_ok A t scaling _ _ threshold r hr
    refine ⟨n, m, v, g, rfl, hl, hg, hs, fun hnk => ?_⟩
    unfold scoredAgain
    have h3 := fitScore_new A S B idx pe { k := some k, t := t, scaling := scaling } xs n e (averages g) v rfl he hn havg hv
    rw [h3]
    have hn' : e.k = n := hn
    rw [fitScore_again A S B idx pe _ xs e v rfl rfl (fun k' hk' => by
      obtain rfl := Option.mem_some_iff.mp hk'
      rw [hn']
      exact hnk), hx, hme, hn']

theorem featuresToKnn_given {N cols k n : ℕ} {m : Knn.Metric} (hk : 1 ≤ k)
    (hf : Knn.featuresToKnn N cols (some (k : ℤ)) none = .ok (n, m)) : n = k := by
  unfold Knn.featuresToKnn Knn.configureNeighbors at hf
  dsimp only [bind, Except.bind] at hf
  split at hf
  · exact absurd hf (by simp)
  · rename_i v hv
    split_ifs at hf with h1
    have h3 : v.toNat = n := congrArg Prod.fst (Except.ok.inj hf)
    split_ifs at hv with h4
    · have h5 := Except.ok.inj hv
      omega
    · have h5 := Except.ok.inj hv
      omega

/-- With one neighbour, every example of the data has the score 1 when it is scored again. -/
theorem again_one {Pr L T : Type} (A : ArgSort ℝ) (S : ∀ N, ArgSort (Fin N)) (B : ArgSort Bool) (idx : Search F)
    (h : Proper idx) (hi : FindsItself idx) (pe : PredEnv Pr L T) (t : ℝ) (scaling threshold : Option ℝ) (xs : List F)
    (r : Result xs.length) (hr : freshCheck A S B idx 1 t scaling threshold xs = .ok r) :
    scoredAgain A S B idx pe { k := some 1, t := t, scaling := scaling } xs = .ok (xs.map (fun _ => 1)) := by
  obtain ⟨n, m, v, g, hf, -, -, -, h2⟩ := scoredAgain_eq A S B idx h pe 1 t scaling threshold xs r hr
  obtain rfl := featuresToKnn_given le_rfl hf
  rw [h2 le_rfl]
  congr 1
  refine List.map_congr_left (fun x hx => ?_)
  rw [hi xs m x hx]
  simpa using featureScore_zero (scoreMetric m) t v

/-- **C211, a part.** For distinct examples the second call never gives a lower score than the first one, if the distances found for
an example among all examples, itself included, are at most those to the others. -/
theorem C211_never_lower_partial {Pr L T : Type} (A : ArgSort ℝ) (S : ∀ N, ArgSort (Fin N)) (B : ArgSort Bool) (idx : Search F)
    (h : Proper idx) (pe : PredEnv Pr L T) (k : ℕ) (hk : 1 ≤ k) (t : ℝ) (ht : 0 ≤ t) (scaling threshold : Option ℝ)
    (xs : List F) (hx : xs.Nodup)
    (ha : ∀ m i, List.Forall₂ (fun d e => 0 ≤ d ∧ d ≤ e) (idx.ask xs k m (xs.get i)) ((idx.among xs k m i).map Prod.snd))
    (r : Result xs.length) (hr : freshCheck A S B idx k t scaling threshold xs = .ok r) :
    ∃ scores, scoredAgain A S B idx pe { k := some k, t := t, scaling := scaling } xs = .ok (List.ofFn scores) ∧
      ∀ i, r.scores i ≤ scores i := by
  obtain ⟨n, m, v, g, hf, hl, hg, hs, h2⟩ := scoredAgain_eq A S B idx h pe k t scaling threshold xs r hr
  obtain rfl := featuresToKnn_given hk hf
  rw [h2 le_rfl]
  have hsets : Knn.duplicateSets xs.get (idx.values xs) = [] := by
    unfold Knn.duplicateSets
    rw [List.filter_eq_nil_iff]
    intro s hs
    obtain ⟨x, -, rfl⟩ := List.mem_map.mp hs
    simp only [decide_eq_true_eq, not_lt]
    have hnd : ((List.finRange xs.length).filter (fun i => xs.get i = x)).Nodup := (List.nodup_finRange _).filter _
    by_contra hc
    have ha' := List.getElem_mem (n := 0) (lt_trans zero_lt_one (not_le.mp hc))
    have hb' := List.getElem_mem (n := 1) (not_le.mp hc)
    have hab := (hnd.getElem_inj_iff (hi := lt_trans zero_lt_one (not_le.mp hc)) (hj := not_le.mp hc)).not.mpr zero_ne_one
    simp only [List.mem_filter, List.mem_finRange, true_and, decide_eq_true_eq] at ha' hb'
    exact hab (hx.injective_get (ha'.trans hb'.symm))
  rw [hsets] at hg
  obtain rfl : idx.among xs n m = g := Except.ok.inj hg
  refine ⟨fun i => featureScore (scoreMetric m) t v
      ((((idx.ask xs n m (xs.get i)).map (fun d : ℚ => (d : ℝ))).take n).sum /
        (((idx.ask xs n m (xs.get i)).map (fun d : ℚ => (d : ℝ))).take n).length), ?_, fun i => ?_⟩
  · congr 1
    refine List.ext_getElem (by simp) (fun i h1 h2 => ?_)
    rw [List.getElem_map, List.getElem_ofFn]
    rfl
  · rw [hs]
    have hfa := ha m i
    have hlen : (idx.ask xs n m (xs.get i)).length = n := by rw [hfa.length_eq, List.length_map, hl]
    have hsum : ∀ (l l' : List ℚ), List.Forall₂ (fun d e => 0 ≤ d ∧ d ≤ e) l l' →
        0 ≤ (l.map (fun d : ℚ => (d : ℝ))).sum ∧
          (l.map (fun d : ℚ => (d : ℝ))).sum ≤ (l'.map (fun d : ℚ => (d : ℝ))).sum := by
      intro l l' hll
      induction hll with
      | nil => simp
      | @cons d e _ _ hde _ ih =>
        have h1 : (0 : ℝ) ≤ d := by exact_mod_cast hde.1
        have h2 : (d : ℝ) ≤ e := by exact_mod_cast hde.2
        simp only [List.map_cons, List.sum_cons]
        exact ⟨by linarith [ih.1], by linarith [ih.2]⟩
    obtain ⟨hs0, hs1⟩ := hsum _ _ hfa
    rw [List.map_map] at hs1
    have hpos : (0 : ℝ) < n := by exact_mod_cast hk
    dsimp only
    rw [List.take_of_length_le (l := (idx.ask xs n m (xs.get i)).map (fun d : ℚ => (d : ℝ)))
      (by rw [List.length_map, hlen]), List.length_map, hlen]
    refine (C38_score_antitone (scoreMetric m) t v ht).2 _ _ (div_nonneg hs0 hpos.le) ?_
    unfold averages
    rw [hl i]
    exact (div_le_div_iff_of_pos_right hpos).mpr hs1

/-- **C211, a part.** Scores from predicted probabilities do not change when `fit_score` is called again. -/
theorem C211_pred_probs_partial {E X Pr L T : Type} (A : ArgSort ℝ) (ke : KnnEnv E X) (pe : PredEnv Pr L T) (s : State E T)
    (p : Pr) (labels : Option L) (r : List ℝ) (h : (fitScore A ke pe s none (some p) labels).2 = .ok r) :
    (fitScore A ke pe (fitScore A ke pe s none (some p) labels).1 none (some p) labels).2 = .ok r := by
  unfold fitScore sharedFit validInputs at h ⊢
  simp only at h ⊢
  cases hthr : s.thr with
  | some thr =>
    simp only [hthr] at h ⊢
    unfold score validInputs at h ⊢
    simp only [hthr] at h ⊢
    split_ifs at h ⊢
    all_goals simp_all
  | none =>
    simp only [hthr] at h ⊢
    cases hp : predScores pe s p labels with
    | error e => rw [hp] at h; cases h
    | ok q =>
      obtain ⟨r', thr⟩ := q
      rw [hp] at h
      cases thr with
      | none =>
        dsimp only at h ⊢
        rw [hthr]
        dsimp only
        rw [hp]
        exact h
      | some thr =>
        dsimp only at h ⊢
        obtain rfl := Except.ok.inj h
        unfold score validInputs
        dsimp only
        rw [if_neg (by simp)]
        have hadj : s.adjust = true := by
          by_contra hc
          unfold predScores at hp
          rw [if_neg hc, hthr] at hp
          cases hq : pe.score p none <;> rw [hq] at hp <;> cases hp
        unfold predScores at hp ⊢
        rw [if_pos hadj] at hp ⊢
        rw [hthr] at hp
        cases labels with
        | none => cases hp
        | some l =>
          dsimp only [bind, Except.bind] at hp ⊢
          cases ht : pe.thresholds l p with
          | error e => rw [ht] at hp; cases hp
          | ok thr' =>
            rw [ht] at hp
            dsimp only at hp
            cases hq : pe.score p (some thr') with
            | error e => rw [hq] at hp; cases hp
            | ok r'' =>
              rw [hq] at hp
              have := Except.ok.inj hp
              simp only [Prod.mk.injEq, Option.some.injEq] at this
              rw [← this.2, hq, ← this.1]
              rfl

/-! ### Numbers on a line -/

/-- The exact search for rows with one number. -/
def lineSearch : Search ℚ where
  cols := 1
  among xs k _ i := ((((stableSort ℚ).indices (fun j : Fin xs.length => |xs.get i - xs.get j|)).filter
    (fun j => decide (j ≠ i))).take k).map (fun j => (j, |xs.get i - xs.get j|))
  ask xs k _ y := (sortOn (stableSort ℚ) id (xs.map (fun x => |y - x|))).take k
  values xs := xs.dedup

theorem lineSearch_proper : Proper lineSearch where
  others xs k m hk := by
    intro p
    have hnd : (((stableSort ℚ).indices (fun j : Fin xs.length => |xs.get p - xs.get j|)).filter
        (fun j => decide (j ≠ p))).Nodup := ((stableSort ℚ).nodup_indices _).filter _
    have hlen : (((stableSort ℚ).indices (fun j : Fin xs.length => |xs.get p - xs.get j|)).filter
        (fun j => decide (j ≠ p))).length = xs.length - 1 := by
      rw [(((stableSort ℚ).perm_indices (fun j : Fin xs.length => |xs.get p - xs.get j|)).filter _).length_eq]
      have h1 := List.length_eq_countP_add_countP (l := List.finRange xs.length) (fun j => decide (j ≠ p))
      rw [List.countP_eq_length_filter, List.length_finRange] at h1
      have h2 : (List.finRange xs.length).countP (fun j => decide ¬decide (j ≠ p) = true) = 1 := by
        have : (fun j : Fin xs.length => decide ¬decide (j ≠ p) = true) = (fun j => j == p) := by
          funext j
          by_cases hj : j = p <;> simp [hj]
        rw [this]
        exact List.count_eq_one_of_mem (List.nodup_finRange _) (List.mem_finRange p)
      omega
    have hmap : ((lineSearch.among xs k m p).map Prod.fst) = (((stableSort ℚ).indices
        (fun j : Fin xs.length => |xs.get p - xs.get j|)).filter (fun j => decide (j ≠ p))).take k := by
      unfold lineSearch
      dsimp only
      rw [List.map_map]
      exact List.map_id _
    refine ⟨?_, ?_, ?_⟩
    · have := congrArg List.length hmap
      rw [List.length_map, List.length_take, hlen] at this
      omega
    · rw [hmap]
      exact hnd.sublist (List.take_sublist _ _)
    · rw [hmap]
      intro hp
      have := List.mem_of_mem_take hp
      simp at this
  nodup xs := List.nodup_dedup xs
  all xs x hx := List.mem_dedup.mpr hx

theorem lineSearch_finds : FindsItself lineSearch := by
  intro xs m y hy
  unfold lineSearch
  dsimp only
  have hs := sortOn_sorted (stableSort ℚ) id (xs.map (fun x => |y - x|))
  have h0 : (0 : ℚ) ∈ sortOn (stableSort ℚ) id (xs.map (fun x => |y - x|)) := by
    rw [mem_sortOn]
    exact List.mem_map.mpr ⟨y, hy, by simp⟩
  have hpos : ∀ d ∈ sortOn (stableSort ℚ) id (xs.map (fun x => |y - x|)), 0 ≤ d := by
    intro d hd
    rw [mem_sortOn] at hd
    obtain ⟨x, -, rfl⟩ := List.mem_map.mp hd
    exact abs_nonneg _
  generalize sortOn (stableSort ℚ) id (xs.map (fun x => |y - x|)) = l at hs h0 hpos
  cases l with
  | nil => cases h0
  | cons a l =>
    have ha : a = 0 := by
      rcases List.mem_cons.mp h0 with h | h
      · exact h.symm
      · exact le_antisymm ((List.pairwise_cons.mp hs).1 0 h) (hpos a List.mem_cons_self)
    rw [ha]
    rfl

/-- Three numbers on a line. -/
def threeNumbers : List ℚ := [0, 1, 3]

/-- Their nearest neighbours. -/
def numbersGraph : Knn.Graph threeNumbers.length := fun i => (lineSearch.among threeNumbers 1 .cosine) i

theorem three_check (A : ArgSort ℝ) (S : ∀ N, ArgSort (Fin N)) (B : ArgSort Bool) :
    ∃ r v, freshCheck A S B lineSearch 1 1 none none threeNumbers = .ok r ∧
      ∀ i, r.scores i = featureScore .euclidean 1 v (averages numbersGraph i) := by
  have hf : Knn.featuresToKnn threeNumbers.length lineSearch.cols (some ((1 : ℕ) : ℤ)) none = .ok (1, .scipyEuclidean) := by
    decide +kernel
  obtain ⟨r, hr⟩ := C210_works A S B lineSearch lineSearch_proper 1 1 none none (by simp) threeNumbers 1 _ hf
  obtain ⟨n, m, v, g, hf', -, hg, hs, -⟩ := scoredAgain_eq A S B lineSearch lineSearch_proper toyPred 1 1 none none threeNumbers r hr
  rw [hf] at hf'
  obtain ⟨rfl, rfl⟩ := Prod.mk.inj (Except.ok.inj hf')
  have hsets : Knn.duplicateSets threeNumbers.get (lineSearch.values threeNumbers) = [] := by decide +kernel
  rw [hsets] at hg
  obtain rfl : numbersGraph = g := Except.ok.inj hg
  exact ⟨r, v, hr, fun i => by rw [hs]; rfl⟩

theorem three_averages (i : Fin threeNumbers.length) : 1 ≤ averages numbersGraph i := by
  have h : ∀ i, ∃ j d, numbersGraph i = [(j, d)] ∧ 1 ≤ d := by
    have h0 : numbersGraph ⟨0, by decide⟩ = [(⟨1, by decide⟩, 1)] := by decide +kernel
    have h1 : numbersGraph ⟨1, by decide⟩ = [(⟨0, by decide⟩, 1)] := by decide +kernel
    have h2 : numbersGraph ⟨2, by decide⟩ = [(⟨1, by decide⟩, 2)] := by decide +kernel
    intro i
    match i with
    | ⟨0, _⟩ => exact ⟨_, _, h0, le_rfl⟩
    | ⟨1, _⟩ => exact ⟨_, _, h1, le_rfl⟩
    | ⟨2, _⟩ => exact ⟨_, _, h2, by norm_num⟩
  obtain ⟨j, d, hi, hd⟩ := h i
  unfold averages
  rw [hi]
  have : (1 : ℝ) ≤ d := by exact_mod_cast hd
  simpa using this

/-- **C211 fails.** Three different numbers are scored by a new object with one neighbour: every score is below 1. Calling
`fit_score` again with the same features gives every example the score 1, because now each example is its own neighbour. -/
theorem C211_not_repeatable (A : ArgSort ℝ) (S : ∀ N, ArgSort (Fin N)) (B : ArgSort Bool) :
    ∃ scores : Fin 3 → ℝ, (∀ i, scores i < 1) ∧
      (fitScore A (searchEnv S B lineSearch) toyPred { k := some 1 } (some threeNumbers) none none).2 =
        .ok (List.ofFn scores) ∧
      scoredAgain A S B lineSearch toyPred { k := some 1 } threeNumbers = .ok [1, 1, 1] := by
  obtain ⟨r, v, hr, hs⟩ := three_check A S B
  refine ⟨r.scores, fun i => ?_, C210_scores A S B lineSearch lineSearch_proper toyPred 1 1 none none threeNumbers r hr,
    again_one A S B lineSearch lineSearch_proper lineSearch_finds toyPred 1 none none threeNumbers r hr⟩
  rw [hs i, (C38_score_formula 1 v (averages numbersGraph i)).2.1]
  have h1 := three_averages i
  have h2 : Real.sqrt (100 / 2 ^ 52) ≤ 1 := Real.sqrt_le_one.mpr (by norm_num)
  rw [if_neg (by linarith)]
  have h3 : 0 < max v (1 / 10 ^ 6) := lt_max_of_lt_right (by norm_num)
  rw [Real.exp_lt_one_iff]
  exact div_neg_of_neg_of_pos (by linarith) h3

example (A : ArgSort ℝ) (S : ∀ N, ArgSort (Fin N)) (B : ArgSort Bool) :
    ∃ r, freshCheck A S B lineSearch 1 1 none none threeNumbers = .ok r ∧
      (fitScore A (searchEnv S B lineSearch) toyPred { k := some 1 } (some threeNumbers) none none).2 =
        .ok (List.ofFn r.scores) := by
  obtain ⟨r, _, hr, _⟩ := three_check A S B
  exact ⟨r, hr, C210_scores A S B lineSearch lineSearch_proper toyPred 1 1 none none threeNumbers r hr⟩

example (A : ArgSort ℝ) (S : ∀ N, ArgSort (Fin N)) (B : ArgSort Bool) :
    (fitScore A (searchEnv S B lineSearch) toyPred { k := some 3 } (some threeNumbers) none none).2 = .error "ValueError" :=
  (C210_refused A S B lineSearch toyPred 3 1 none none threeNumbers "ValueError" (by decide +kernel)).2

example (A : ArgSort ℝ) (S : ∀ N, ArgSort (Fin N)) (B : ArgSort Bool) (r : Result threeNumbers.length)
    (hr : freshCheck A S B lineSearch 1 1 none none threeNumbers = .ok r) :
    ∃ scores, scoredAgain A S B lineSearch toyPred { k := some 1, t := 1, scaling := none } threeNumbers =
      .ok (List.ofFn scores) ∧ ∀ i, r.scores i ≤ scores i := by
  have h : ∀ i, List.Forall₂ (fun d e => 0 ≤ d ∧ d ≤ e) (lineSearch.ask threeNumbers 1 .cosine (threeNumbers.get i))
      ((lineSearch.among threeNumbers 1 .cosine i).map Prod.snd) := by decide +kernel
  exact C211_never_lower_partial A S B lineSearch lineSearch_proper toyPred 1 le_rfl 1 zero_le_one none none threeNumbers
    (by decide +kernel) (fun m i => h i) r hr

/-- Eleven numbers on a line. -/
def elevenNumbers : List ℚ := (List.range 11).map (fun i : ℕ => (i : ℚ))

example (A : ArgSort ℝ) (S : ∀ N, ArgSort (Fin N)) (B : ArgSort Bool) :
    ∃ r, freshCheck A S B lineSearch 10 1 none none elevenNumbers = .ok r ∧
      (fitScore A (searchEnv S B lineSearch) toyPred {} (some elevenNumbers) none none).2 = .ok (List.ofFn r.scores) := by
  obtain ⟨r, hr⟩ := C210_works A S B lineSearch lineSearch_proper 10 1 none none (by simp) elevenNumbers 10 .scipyEuclidean
    (by decide +kernel)
  exact ⟨r, hr, C210_default A S B lineSearch lineSearch_proper toyPred none elevenNumbers (by decide) r hr⟩

example (A : ArgSort ℝ) :
    (fitScore A toyKnn toyPred (fitScore A toyKnn toyPred {} none (some ()) (some ())).1 none (some ()) (some ())).2 = .ok [] :=
  C211_pred_probs_partial A toyKnn toyPred {} () (some ()) [] rfl

end Cleanlab.Props
