import Verif.Model.KnnStats

/-!
# C48: the recorded metric and the recorded kNN graph
-/

namespace Cleanlab.Props

open Cleanlab.KnnStats

variable {M : Type} [DecidableEq M]

/-- The recorded metric is the one the recorded graph was built with; without a graph none is recorded. -/
def MetricMatches (s : Stats M) : Prop := s.metric = s.graph.map (·.builtWith)

theorem setKnnGraph_spec (N : ℕ) (features : Option M) (metric : Option M) (k : ℕ) (s : Stats M) (g : Graph M)
    (m : Option M) (h : setKnnGraph N features none metric k s = .ok (g, m)) :
    (s.graph = some g ∧ (m = none ∨ m = s.metric)) ∨ (s.graph = some g ∧ s.metric = none) ∨ m = some g.builtWith := by
  unfold setKnnGraph at h
  simp only at h
  split at h
  · rename_i g' hg hc
    simp only [Except.ok.injEq, Prod.mk.injEq] at h
    obtain ⟨rfl, rfl⟩ := h
    have hgraph : s.graph = some g' := by
      unfold processInputs at hg
      cases hs : s.graph with
      | none => simp [hs] at hg
      | some x =>
        simp only [hs] at hg
        split_ifs at hg
        rw [← hg]
    simp only [decide_eq_false_iff_not, not_and, ne_eq, not_not] at hc
    cases metric with
    | none => exact Or.inl ⟨hgraph, Or.inl rfl⟩
    | some x =>
      have := hc rfl
      cases hm : s.metric with
      | none => exact Or.inr (Or.inl ⟨hgraph, rfl⟩)
      | some y =>
        rw [hm] at this
        exact Or.inl ⟨hgraph, Or.inr this⟩
  · cases features with
    | none => simp at h
    | some d =>
      simp only at h
      split_ifs at h
      simp only [Except.ok.injEq, Prod.mk.injEq] at h
      obtain ⟨rfl, rfl⟩ := h
      exact Or.inr (Or.inr rfl)

theorem store_matches (s : Stats M) (hs : MetricMatches s) (g : Graph M) (m : Option M)
    (h : (s.graph = some g ∧ (m = none ∨ m = s.metric)) ∨ (s.graph = some g ∧ s.metric = none) ∨
      m = some g.builtWith) : MetricMatches (store s g m) := by
  unfold MetricMatches at hs ⊢
  unfold store
  split_ifs with hp
  · rcases h with ⟨hg, hm⟩ | ⟨hg, hm⟩ | hm
    · rw [hg] at hs
      rcases hm with rfl | rfl
      · exact hs
      · simpa using hs
    · rw [hg, hm] at hs
      simp at hs
    · rw [hm]
      rfl
  · exact hs

theorem storeOutlier_matches (s : Stats M) (hs : MetricMatches s) (g : Graph M) (m : Option M)
    (h : (s.graph = some g ∧ (m = none ∨ m = s.metric)) ∨ (s.graph = some g ∧ s.metric = none) ∨
      m = some g.builtWith) : MetricMatches (storeOutlier s (some g) m) := by
  unfold MetricMatches at hs ⊢
  unfold storeOutlier
  simp only
  rcases h with ⟨hg, hm⟩ | ⟨hg, hm⟩ | hm
  · have e : (if preferNew s g m = true then some g else s.graph) = some g := by
      rw [hg]
      split_ifs <;> rfl
    rw [e]
    rw [hg] at hs
    rcases hm with rfl | rfl
    · exact hs
    · simpa using hs
  · rw [hg, hm] at hs
    simp at hs
  · subst hm
    by_cases hp : preferNew s g (some g.builtWith) = true
    · rw [if_pos hp]
      rfl
    · rw [if_neg hp]
      unfold preferNew at hp
      cases hg : s.graph with
      | none => simp [hg] at hp
      | some old =>
        simp only [hg, decide_eq_true_eq, not_or, not_not] at hp
        rw [hg] at hs
        rw [← hs, ← hp.2]
        rfl

/-- Histories without user-supplied graphs, and in which the outlier check is not given a metric when it falls back to
`pred_probs` (no features and no sufficient graph): the recorded metric always is that of the recorded graph. -/
theorem C48_computed_graphs_partial (N : ℕ) (h : List (Check M)) (huser : ∀ c ∈ h, c.knnGraph = none)
    (hout : ∀ c ∈ h, c.kind = .outlier true → c.metric = none ∨ c.features.isSome) :
    MetricMatches (runHistory N h) := by
  unfold runHistory
  have main : ∀ (s : Stats M), MetricMatches s → MetricMatches (h.foldl (runCheck N) s) := by
    induction h with
    | nil => exact fun s hs => hs
    | cons c t ih =>
      intro s hs
      rw [List.foldl_cons]
      refine ih (fun c hc => huser c (List.mem_cons_of_mem _ hc)) (fun c hc => hout c (List.mem_cons_of_mem _ hc)) _ ?_
      have hu := huser c (by simp)
      have ho := hout c (by simp)
      unfold runCheck
      rw [hu]
      by_cases hf : c.fails = true
      · rw [if_pos hf]
        exact hs
      rw [if_neg hf]
      cases hk : c.kind with
      | outlier p =>
        simp only
        split_ifs with h1 h2
        · cases hg : setKnnGraph N c.features none c.metric c.k s with
          | error e => exact hs
          | ok x => exact storeOutlier_matches s hs x.1 x.2 (setKnnGraph_spec N _ _ _ s x.1 x.2 hg)
        · subst h2
          have : c.metric = none := by
            rcases ho hk with h | h
            · exact h
            · exact absurd (Or.inl h) h1
          rw [this]
          exact hs
        · exact hs
      | nearDuplicate =>
        simp only
        cases hg : setKnnGraph N c.features none c.metric c.k s with
        | error e => exact hs
        | ok x => exact store_matches s hs x.1 x.2 (setKnnGraph_spec N _ _ _ s x.1 x.2 hg)
      | nonIid p =>
        simp only
        cases hg : setKnnGraph N (c.features.or p) none c.metric c.k s with
        | error e => exact hs
        | ok x =>
          simp only
          split_ifs
          · exact hs
          · exact store_matches s hs x.1 x.2 (setKnnGraph_spec N _ _ _ s x.1 x.2 hg)
      | dataValuation =>
        simp only
        cases hg : setKnnGraph N c.features none c.metric c.k s with
        | error e => exact hs
        | ok x =>
          simp only
          split_ifs
          · exact hs
          · exact store_matches s hs x.1 x.2 (setKnnGraph_spec N _ _ _ s x.1 x.2 hg)
      | underperforming b =>
        simp only
        split_ifs
        · exact hs
        · cases hg : setKnnGraph N c.features none c.metric c.k s with
          | error e => exact hs
          | ok x => exact store_matches s hs x.1 x.2 (setKnnGraph_spec N _ _ _ s x.1 x.2 hg)
  exact main _ rfl

/-- The witness metrics. -/
inductive Metric where
  | cosine
  | euclidean
  deriving DecidableEq

/-- near duplicates on features whose default metric is cosine, `k = 5` -/
def dupCheck : Check Metric :=
  { kind := .nearDuplicate, features := some .cosine, knnGraph := none, metric := none, k := 5, fails := false }

example : MetricMatches (runHistory 100 [dupCheck, { dupCheck with metric := some .euclidean, k := 10 }]) ∧
    (runHistory 100 [dupCheck, { dupCheck with metric := some .euclidean, k := 10 }]).metric = some .euclidean := by
  exact ⟨C48_computed_graphs_partial _ _ (by simp [dupCheck]) (by simp [dupCheck]), by decide⟩

/-- No user graph involved: after near duplicates with cosine and `k = 5`, an outlier check on `pred_probs` alone with
`metric="euclidean", k=10` records `euclidean` next to the cosine graph. -/
theorem C48_not_outlier_fallback :
    let s := runHistory 100 [dupCheck,
      { kind := .outlier true, features := none, knnGraph := none, metric := some .euclidean, k := 10, fails := false }]
    s.metric = some .euclidean ∧ s.graph.map (·.builtWith) = some .cosine := by
  decide

/-- **C48, requests.** As long as the recorded metric matches the stored graph (see `C48_computed_graphs_partial`), a
check that asks for a metric works on a graph built with this metric, and without a request on the stored graph or on
one built with the default metric of the features. -/
theorem C48_requested_metric_partial (N : ℕ) (features : Option M) (metric : Option M) (k : ℕ) (s : Stats M)
    (hs : MetricMatches s) (g : Graph M) (m : Option M) (h : setKnnGraph N features none metric k s = .ok (g, m)) :
    (∀ m', metric = some m' → g.builtWith = m') ∧
    (metric = none → s.graph = some g ∨ features = some g.builtWith) := by
  unfold MetricMatches at hs
  unfold setKnnGraph processInputs at h
  rw [hs] at h
  cases hg : s.graph with
  | none =>
    rw [hg] at h
    cases features with
    | none => simp at h
    | some f =>
      by_cases hN : N ≤ k
      · simp [hN] at h
      · cases metric with
        | none => simp [hN] at h; simp [← h.1]
        | some m' => simp [hN] at h; simp [← h.1]
  | some g₀ =>
    rw [hg] at h
    by_cases hk : numNeighbors N g₀ < k
    · cases features with
      | none => simp [hk] at h
      | some f =>
        by_cases hN : N ≤ k
        · simp [hN, hk] at h
        · cases metric with
          | none => simp [hN, hk] at h; simp [← h.1]
          | some m' => simp [hN, hk] at h; simp [← h.1]
    · cases metric with
      | none => simp [hk] at h; simp [← h.1]
      | some m' =>
        by_cases hm : m' = g₀.builtWith
        · simp [hk, hm] at h; simp [← h.1, hm]
        · cases features with
          | none => simp [hk, hm] at h
          | some f =>
            by_cases hN : N ≤ k
            · simp [hN, hk, hm] at h
            · simp [hN, hk, hm] at h; simp [← h.1]

/-- With a user graph: the cosine graph is replaced by a Euclidean graph of the user (even a smaller one) and the
recorded metric stays cosine. -/
theorem C48_not_user_graph :
    let s := runHistory 100 [dupCheck,
      { kind := .nearDuplicate, features := none, knnGraph := some { nnz := 300, builtWith := .euclidean }, metric := none,
        k := 3, fails := false }]
    s.metric = some .cosine ∧ s.graph.map (·.builtWith) = some .euclidean := by
  decide

/-- The consequence of the first mismatch: a later check that asks for Euclidean distances silently works on the cosine
graph. -/
theorem C48_not_requested_metric :
    let s := runHistory 100 [dupCheck,
      { kind := .outlier true, features := none, knnGraph := none, metric := some .euclidean, k := 10, fails := false }]
    (setKnnGraph 100 (some .cosine) none (some .euclidean) 5 s).map (fun r => r.1.builtWith) = .ok Metric.cosine := by
  rfl

end Cleanlab.Props
