import Verif.Props.OutlierAgreement

/-!
# C228: outliers of small data sets
-/

namespace Cleanlab.Props

open Np Cleanlab.Outlier Cleanlab.OutlierCheck Cleanlab.OutlierFeatures

variable {F : Type} [DecidableEq F]

/-- For up to ten examples `OutOfDistribution` uses all other examples as neighbours by default. -/
theorem fit_small (S : ∀ N, ArgSort (Fin N)) (B : ArgSort Bool) (idx : Search F) (xs : List F) (h2 : 2 ≤ xs.length)
    (h10 : xs.length ≤ 10) : (searchEnv S B idx).fit xs none = (searchEnv S B idx).fit xs (some (xs.length - 1)) := by
  have e : Knn.featuresToKnn xs.length idx.cols none none =
      Knn.featuresToKnn xs.length idx.cols (some ((xs.length - 1 : ℕ) : ℤ)) none := by
    obtain ⟨h, -, -, h', -⟩ := C108_neighbours xs.length idx.cols none
    rw [h' h2, h ((xs.length - 1 : ℕ) : ℤ) (by omega) (by omega)]
    congr 2
    omega
  unfold searchEnv
  dsimp only [Option.map]
  rw [e]

/-- **C228 (partial).** For two to ten examples the default scores of `OutOfDistribution` are those of Datalab if it is told to use all
other examples as neighbours. Missing: it does so only if told. -/
theorem C228_told_partial {Pr L T : Type} (A : ArgSort ℝ) (S : ∀ N, ArgSort (Fin N)) (B : ArgSort Bool) (idx : Search F)
    (h : Proper idx) (pe : PredEnv Pr L T) (threshold : Option ℝ) (ht : ∀ v ∈ threshold, 0 ≤ v ∧ v ≤ 1) (xs : List F)
    (h2 : 2 ≤ xs.length) (h10 : xs.length ≤ 10) :
    ∃ r, freshCheck A S B idx (xs.length - 1) 1 none threshold xs = .ok r ∧
      (fitScore A (searchEnv S B idx) pe {} (some xs) none none).2 = .ok (List.ofFn r.scores) := by
  obtain ⟨r, hr⟩ := C210_works A S B idx h (xs.length - 1) 1 none threshold ht xs (xs.length - 1)
    (Knn.chooseMetric none xs.length idx.cols) (by
      have := (C108_neighbours xs.length idx.cols none).1 ((xs.length - 1 : ℕ) : ℤ) (by omega) (by omega)
      simpa using this)
  refine ⟨r, hr, ?_⟩
  have hk := C210_scores A S B idx h pe (xs.length - 1) 1 none threshold xs r hr
  rw [← hk]
  unfold fitScore sharedFit validInputs featureScores
  simp only [fit_small S B idx xs h2 h10]
  cases (searchEnv S B idx).fit xs (some (xs.length - 1)) with
  | error e => rfl
  | ok e =>
    simp only [Except.map]
    cases npMedian A (avgDist ((searchEnv S B idx).nNeighbors e) ((searchEnv S B idx).trainDist e)) <;> rfl

/-- **C228** refuted: for two to ten examples, all of them, `OutOfDistribution` has scores and Datalab has none. -/
theorem C228_not_small {Pr L T : Type} (A : ArgSort ℝ) (S : ∀ N, ArgSort (Fin N)) (B : ArgSort Bool) (idx : Search F)
    (h : Proper idx) (pe : PredEnv Pr L T) (t : ℝ) (scaling threshold : Option ℝ) (xs : List F) (h2 : 2 ≤ xs.length)
    (h10 : xs.length ≤ 10) :
    (∃ s, (fitScore A (searchEnv S B idx) pe {} (some xs) none none).2 = .ok s) ∧
      freshCheck A S B idx 10 t scaling threshold xs = .error "ValueError" := by
  obtain ⟨r, -, hr⟩ := C228_told_partial A S B idx h pe none (fun v hv => by cases hv) xs h2 h10
  refine ⟨⟨_, hr⟩, ?_⟩
  unfold freshCheck
  have := (C108_neighbours xs.length idx.cols none).2.1 (10 : ℤ) (by omega)
  have e : ((10 : ℕ) : ℤ) = 10 := rfl
  rw [e, this]
  rfl

/-- With more than ten examples Datalab has scores by default, and they are the same. -/
theorem C228_large_partial {Pr L T : Type} (A : ArgSort ℝ) (S : ∀ N, ArgSort (Fin N)) (B : ArgSort Bool) (idx : Search F)
    (h : Proper idx) (pe : PredEnv Pr L T) (threshold : Option ℝ) (ht : ∀ v ∈ threshold, 0 ≤ v ∧ v ≤ 1) (xs : List F)
    (hx : 10 < xs.length) :
    ∃ r, freshCheck A S B idx 10 1 none threshold xs = .ok r ∧
      (fitScore A (searchEnv S B idx) pe {} (some xs) none none).2 = .ok (List.ofFn r.scores) := by
  obtain ⟨r, hr⟩ := C210_works A S B idx h 10 1 none threshold ht xs 10 (Knn.chooseMetric none xs.length idx.cols) (by
    have := (C108_neighbours xs.length idx.cols none).1 (10 : ℤ) (by omega) (by omega)
    simpa using this)
  exact ⟨r, hr, C210_default A S B idx h pe threshold xs hx r hr⟩

/-! The conditions are met by three numbers on a line: `OutOfDistribution` scores them and Datalab, by default, does not. -/

example (A : ArgSort ℝ) (S : ∀ N, ArgSort (Fin N)) (B : ArgSort Bool) :
    (∃ s, (fitScore A (searchEnv S B lineSearch) toyPred {} (some threeNumbers) none none).2 = .ok s) ∧
      freshCheck A S B lineSearch 10 1 none none threeNumbers = .error "ValueError" :=
  C228_not_small A S B lineSearch lineSearch_proper toyPred 1 none none threeNumbers (by decide) (by decide)

example (A : ArgSort ℝ) (S : ∀ N, ArgSort (Fin N)) (B : ArgSort Bool) :
    ∃ r, freshCheck A S B lineSearch 2 1 none none threeNumbers = .ok r ∧
      (fitScore A (searchEnv S B lineSearch) toyPred {} (some threeNumbers) none none).2 = .ok (List.ofFn r.scores) :=
  C228_told_partial A S B lineSearch lineSearch_proper toyPred none (by simp) threeNumbers (by decide) (by decide)

example (A : ArgSort ℝ) (S : ∀ N, ArgSort (Fin N)) (B : ArgSort Bool) :
    ∃ r, freshCheck A S B lineSearch 10 1 none none elevenNumbers = .ok r ∧
      (fitScore A (searchEnv S B lineSearch) toyPred {} (some elevenNumbers) none none).2 = .ok (List.ofFn r.scores) :=
  C228_large_partial A S B lineSearch lineSearch_proper toyPred none (by simp) elevenNumbers (by decide)

end Cleanlab.Props
