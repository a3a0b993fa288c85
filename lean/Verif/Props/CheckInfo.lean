import Verif.Model.CheckInfo
import Verif.Props.IssueFinder
import Verif.Props.OutlierManager

/-!
# C127: the stored information describes the computation
-/

namespace Cleanlab.Props

open Np Cleanlab.KnnStats Cleanlab.CheckInfo

variable {M : Type} [DecidableEq M]

/-- If neither a graph nor statistics are there, the stored `k` is the number of neighbours used and the stored metric
the one the graph was built with, for every check. -/
theorem C127_own_graph_partial (kind : CheckInfo.Kind) (N : ℕ) (features metric : Option M) (k : ℕ) (s : Stats M)
    (hs : s.graph = none) (g : KnnStats.Graph M) (i : GraphInfo M)
    (h : graphCheck kind N features none metric k s = .ok (g, i)) :
    i.k = usedNeighbors kind N k g ∧ i.metric = some g.builtWith := by
  unfold graphCheck setKnnGraph at h
  simp only [processInputs, hs] at h
  cases features with
  | none => cases h
  | some dflt =>
    dsimp only at h
    by_cases hk : N ≤ k
    · rw [if_pos hk] at h
      cases h
    · rw [if_neg hk] at h
      have hN : numNeighbors N ({ nnz := N * k, builtWith := metric.getD dflt } : KnnStats.Graph M) = k := by
        unfold numNeighbors
        exact Nat.mul_div_cancel_left k (by omega)
      dsimp only [bind, Except.bind, pure, Except.pure] at h
      rw [if_neg (by rw [hN]; omega)] at h
      obtain ⟨rfl, rfl⟩ := Prod.mk.inj (Except.ok.inj h)
      refine ⟨?_, rfl⟩
      unfold usedNeighbors
      rw [hN]
      split_ifs <;> rfl

/-- Whatever graph is used, the stored `k` is the one asked for, and the data valuation uses exactly so many
neighbours. -/
theorem C127_data_valuation (N : ℕ) (features : Option M) (provided : Option (KnnStats.Graph M)) (metric : Option M)
    (k : ℕ) (s : Stats M) (g : KnnStats.Graph M) (i : GraphInfo M)
    (h : graphCheck .dataValuation N features provided metric k s = .ok (g, i)) :
    i.k = k ∧ usedNeighbors .dataValuation N k g = i.k ∧ k ≤ numNeighbors N g := by
  unfold graphCheck at h
  cases hg : setKnnGraph N features provided metric k s with
  | error e => rw [hg] at h; cases h
  | ok r =>
    obtain ⟨g', m⟩ := r
    rw [hg] at h
    dsimp only [bind, Except.bind, pure, Except.pure] at h
    by_cases hc : CheckInfo.Kind.dataValuation = .dataValuation ∧ numNeighbors N g' < k
    · rw [if_pos hc] at h
      cases h
    · rw [if_neg hc] at h
      obtain ⟨rfl, rfl⟩ := Prod.mk.inj (Except.ok.inj h)
      refine ⟨rfl, rfl, ?_⟩
      by_contra hlt
      exact hc ⟨rfl, by omega⟩

/-- A graph from the statistics has at least the stored number of neighbours. -/
theorem C127_stored_graph_partial (kind : CheckInfo.Kind) (N : ℕ) (features metric : Option M) (k : ℕ) (s : Stats M)
    (hN : 0 < N) (g : KnnStats.Graph M) (i : GraphInfo M)
    (h : graphCheck kind N features none metric k s = .ok (g, i)) : i.k = k ∧ i.k ≤ usedNeighbors kind N k g := by
  have hset : ∃ m, setKnnGraph N features none metric k s = .ok (g, m) ∧ i.k = k := by
    unfold graphCheck at h
    cases hg : setKnnGraph N features none metric k s with
    | error e => rw [hg] at h; cases h
    | ok r =>
      obtain ⟨g', m⟩ := r
      rw [hg] at h
      dsimp only [bind, Except.bind, pure, Except.pure] at h
      by_cases hc : kind = .dataValuation ∧ numNeighbors N g' < k
      · rw [if_pos hc] at h
        cases h
      · rw [if_neg hc] at h
        obtain ⟨rfl, rfl⟩ := Prod.mk.inj (Except.ok.inj h)
        exact ⟨m, rfl, rfl⟩
  obtain ⟨m, hm, hk⟩ := hset
  refine ⟨hk, ?_⟩
  rw [hk]
  unfold usedNeighbors
  split_ifs with hd
  · exact le_refl k
  · have hfresh : ∀ m' : M, k ≤ numNeighbors N ({ nnz := N * k, builtWith := m' } : KnnStats.Graph M) := by
      intro m'
      unfold numNeighbors
      rw [Nat.mul_div_cancel_left k hN]
    unfold setKnnGraph at hm
    cases hp : processInputs N none s k with
    | none =>
      rw [hp] at hm
      dsimp only at hm
      cases features with
      | none => cases hm
      | some dflt =>
        dsimp only at hm
        by_cases hNk : N ≤ k
        · rw [if_pos hNk] at hm
          cases hm
        · rw [if_neg hNk] at hm
          obtain ⟨rfl, -⟩ := Prod.mk.inj (Except.ok.inj hm)
          exact hfresh _
    | some g0 =>
      have hg0 : k ≤ numNeighbors N g0 := by
        unfold processInputs at hp
        cases hsg : s.graph with
        | none => rw [hsg] at hp; cases hp
        | some g1 =>
          rw [hsg] at hp
          dsimp only at hp
          split_ifs at hp with hlt
          rw [← Option.some.inj hp]
          omega
      rw [hp] at hm
      dsimp only at hm
      generalize (decide (metric.isSome = true ∧ metric ≠ s.metric.or metric)) = b at hm
      cases b with
      | false =>
        dsimp only at hm
        obtain ⟨rfl, -⟩ := Prod.mk.inj (Except.ok.inj hm)
        exact hg0
      | true =>
        dsimp only at hm
        cases features with
        | none => cases hm
        | some dflt =>
          dsimp only at hm
          by_cases hNk : N ≤ k
          · rw [if_pos hNk] at hm
            cases hm
          · rw [if_neg hNk] at hm
            obtain ⟨rfl, -⟩ := Prod.mk.inj (Except.ok.inj hm)
            exact hfresh _

/-- The stored `k` need not be the number of neighbours used: for every check but the data valuation and every `k`, a
graph with another number of columns is used as it is, and `k` is stored. -/
theorem C127_not_k (kind : CheckInfo.Kind) (hk : kind ≠ .dataValuation) (N k k' : ℕ) (hN : 0 < N) (hkk : k' ≠ k)
    (m : M) :
    ∃ g : KnnStats.Graph M, ∃ i, graphCheck kind N none (some g) none k ⟨none, none⟩ = .ok (g, i) ∧
      i.k = k ∧ usedNeighbors kind N k g = k' ∧ i.k ≠ usedNeighbors kind N k g := by
  have hnn : numNeighbors N ({ nnz := N * k', builtWith := m } : KnnStats.Graph M) = k' := by
    unfold numNeighbors
    exact Nat.mul_div_cancel_left k' hN
  refine ⟨{ nnz := N * k', builtWith := m }, ⟨k, none⟩, ?_, rfl, ?_, ?_⟩
  · unfold graphCheck setKnnGraph processInputs
    simp only [Option.isSome_none, Bool.false_eq_true, false_and, decide_false, bind, Except.bind, pure, Except.pure, hk]
    simp
  · unfold usedNeighbors
    rw [if_neg hk, hnn]
  · unfold usedNeighbors
    rw [if_neg hk, hnn]
    exact fun h => hkk h.symm

/-- The metric is missing from the stored information of every check that takes the graph of an earlier check. -/
theorem C127_not_metric (kind : CheckInfo.Kind) (N k : ℕ) (hN : 0 < N) (m : M) (features : Option M) :
    ∃ g : KnnStats.Graph M, ∃ i, graphCheck kind N features none none k ⟨some g, some m⟩ = .ok (g, i) ∧
      g.builtWith = m ∧ i.metric = none := by
  have hnn : numNeighbors N ({ nnz := N * k, builtWith := m } : KnnStats.Graph M) = k := by
    unfold numNeighbors
    exact Nat.mul_div_cancel_left k hN
  refine ⟨{ nnz := N * k, builtWith := m }, ⟨k, none⟩, ?_, rfl, rfl⟩
  unfold graphCheck setKnnGraph processInputs
  simp only [hnn, lt_irrefl, if_false, Option.isSome_none, Bool.false_eq_true, false_and, decide_false, bind,
    Except.bind, pure, Except.pure, and_false]

/-- The stored nearest neighbour of an example is one of its neighbours and none of them is nearer, if the rows of the
graph are sorted. -/
theorem C127_nearest {N : ℕ} (g : Knn.Graph N) (hs : ∀ i, ((g i).map Prod.snd).Pairwise (· ≤ ·))
    (r : Fin N → Fin N × ℚ) (h : nearest g = .ok r) (i : Fin N) :
    r i ∈ g i ∧ ∀ e ∈ g i, (r i).2 ≤ e.2 := by
  unfold nearest at h
  split_ifs at h
  have hi := (collect_ok_iff _ _).mp h i
  cases hg : g i with
  | nil => rw [hg] at hi; cases hi
  | cons e t =>
    rw [hg] at hi
    have hr : e = r i := Except.ok.inj hi
    subst hr
    refine ⟨List.mem_cons_self, ?_⟩
    intro e' he'
    have := hs i
    rw [hg, List.map_cons, List.pairwise_cons] at this
    rcases List.mem_cons.mp he' with rfl | ht
    · exact le_refl _
    · exact this.1 _ (List.mem_map_of_mem ht)

/-- It is stored for every graph whose rows have the same number of entries, and at least one. -/
theorem C127_nearest_stored {N : ℕ} (g : Knn.Graph N) (k : ℕ) (hk : 0 < k) (hg : ∀ i, (g i).length = k) :
    ∃ r, nearest g = .ok r := by
  unfold nearest
  rw [if_pos (fun i j => by rw [hg, hg])]
  have hne : ∀ i, ∃ e, (g i).head? = some e := by
    intro i
    cases hgi : g i with
    | nil =>
      have := hg i
      rw [hgi] at this
      simp at this
      omega
    | cons e t => exact ⟨e, rfl⟩
  choose r hr using hne
  refine ⟨r, (collect_ok_iff _ _).mpr (fun i => ?_)⟩
  rw [hr]

variable {V : Type}

theorem lookup_dbscan (precomputed : V) (kw : List (String × Option V)) (a : String) (ha : a ∈ dbscanKeys)
    (hm : a ≠ "metric") : (dbscanParams precomputed kw).lookup a = (kw.lookup a).join := by
  unfold dbscanParams
  rw [lookup_append']
  have h1 : ((dbscanKeys.filterMap (fun key => ((kw.lookup key).join).map (fun v => (key, v)))).filter
      (fun e => e.1 ≠ "metric")).lookup a = (kw.lookup a).join := by
    have := lookup_rest ["metric"] (dbscanKeys.filterMap (fun key => ((kw.lookup key).join).map (fun v => (key, v)))) a
    rw [if_neg (by simpa using hm), lookup_filterMap_names, if_pos ha] at this
    rw [← this]
    unfold OutlierManager.rest
    congr 2
    funext e
    simp
  rw [h1]
  have hb : (a == "metric") = false := by simpa using hm
  simp [List.lookup, hb]

/-- The stored parameters of the clustering are those used if the caller gave none. -/
theorem C127_clustering_partial (precomputed : V) (kw : List (String × Option V))
    (h : ∀ a ∈ dbscanKeys, a ≠ "metric" → (kw.lookup a).join = none) :
    (clusteringInfo precomputed true).2 = dbscanParams precomputed kw := by
  unfold clusteringInfo dbscanParams
  rw [if_pos rfl]
  have : (dbscanKeys.filterMap (fun key => ((kw.lookup key).join).map (fun v => (key, v)))).filter
      (fun e => e.1 ≠ "metric") = [] := by
    rw [List.filter_eq_nil_iff]
    intro e he
    obtain ⟨a, ha, hv⟩ := List.mem_filterMap.mp he
    obtain ⟨v, hv, rfl⟩ := Option.map_eq_some_iff.mp hv
    by_cases hm : a = "metric"
    · simp [hm]
    · rw [h a ha hm] at hv
      cases hv
  rw [this]
  rfl

/-- Every parameter of DBSCAN the caller gives for the clustering is used and missing from the stored parameters. -/
theorem C127_not_clustering (precomputed : V) (kw : List (String × Option V)) (a : String)
    (ha : a ∈ ["eps", "min_samples", "metric_params", "algorithm", "leaf_size", "p", "n_jobs"])
    (v : V) (hv : kw.lookup a = some (some v)) :
    (dbscanParams precomputed kw).lookup a = some v ∧ (clusteringInfo precomputed true).2.lookup a = none := by
  have hm : a ≠ "metric" := by
    rintro rfl
    exact absurd ha (by decide)
  have ha : a ∈ dbscanKeys := by
    unfold dbscanKeys
    simp only [List.mem_cons, List.not_mem_nil, or_false] at ha ⊢
    tauto
  constructor
  · rw [lookup_dbscan precomputed kw a ha hm, hv]
    rfl
  · unfold clusteringInfo
    rw [if_pos rfl]
    have hb : (a == "metric") = false := by simpa using hm
    simp [List.lookup, hb]

/-- The stored name of the rarest class is its name exactly when an imbalance is reported, otherwise it is `NA`. -/
theorem C127_rarest_class (labelMap : List (ℤ × String)) (hneg : ∀ e ∈ labelMap, 0 ≤ e.1) (rarest : ℕ) (name : String)
    (hname : labelMap.lookup (rarest : ℤ) = some name) :
    rarestClass labelMap true rarest = name ∧ rarestClass labelMap false rarest = "NA" := by
  constructor
  · unfold rarestClass
    simp [hname]
  · unfold rarestClass
    have : labelMap.lookup (-1) = none := by
      rw [List.lookup_eq_none_iff]
      intro e he
      have := hneg e he
      simp only [ne_eq, bne_iff_ne]
      omega
    simp [this]

example : graphCheck .outlier 5 none (some ⟨15, "cosine"⟩) none 10 ⟨none, none⟩ = .ok (⟨15, "cosine"⟩, ⟨10, none⟩) := by
  rfl

example : usedNeighbors .outlier 5 10 (⟨15, "cosine"⟩ : KnnStats.Graph String) = 3 := rfl

example : graphCheck .nearDuplicate 20 (some "cosine") none none 10 ⟨none, none⟩ =
    .ok (⟨200, "cosine"⟩, ⟨10, some "cosine"⟩) := rfl

example : (dbscanParams "precomputed" [("eps", some "0.3")]) = [("eps", "0.3"), ("metric", "precomputed")] := by
  decide

example : (clusteringInfo "precomputed" true).2 = [("metric", "precomputed")] := rfl

end Cleanlab.Props
