import Verif.Model.KnnHistory
import Verif.Model.KnnStats
import Verif.Model.DataValuation
import Verif.Props.KnnPrefix
import Verif.Props.Duplicate

/-!
# C130: a check reports the same whatever was checked before
-/

namespace Cleanlab.Props

open Np Cleanlab.Knn Cleanlab.KnnHistory

variable {X M G : Type} [DecidableEq M]

/-! ### The model refines `Model/KnnStats.lean` -/

/-- The graphs of `Model/KnnStats.lean`, where features are represented by their default metric. -/
def statsWorld (M : Type) (N : ℕ) : World M M (KnnStats.Graph M) where
  nnz := fun g => g.nnz
  dflt := id
  build := fun _ m k =>
    if N ≤ k then .error "Number of nearest neighbors k cannot exceed the number of examples"
    else .ok { nnz := N * k, builtWith := m }

def kindOf : KnnStats.Kind M → KnnHistory.Kind M
  | .outlier b => .outlier b
  | .nearDuplicate => .nearDuplicate
  | .nonIid p => .nonIid p
  | .dataValuation => .dataValuation
  | .underperforming b => .underperforming b

def checkOf (c : KnnStats.Check M) : Check M M (KnnStats.Graph M) :=
  ⟨kindOf c.kind, c.features, c.knnGraph, c.metric, c.k, c.fails⟩

def statsOf (s : KnnStats.Stats M) : Stats M (KnnStats.Graph M) := ⟨s.graph, s.metric⟩

omit [DecidableEq M] in
theorem processInputs_stats (N : ℕ) (provided : Option (KnnStats.Graph M)) (s : KnnStats.Stats M) (k : ℕ) :
    processInputs (statsWorld M N) N provided (statsOf s) k = KnnStats.processInputs N provided s k := by
  obtain ⟨graph, m⟩ := s
  cases provided <;> cases graph <;> rfl

theorem setKnnGraph_stats (N : ℕ) (features : Option M) (provided : Option (KnnStats.Graph M)) (metric : Option M) (k : ℕ)
    (s : KnnStats.Stats M) :
    setKnnGraph (statsWorld M N) N features provided metric k (statsOf s) =
      KnnStats.setKnnGraph N features provided metric k s := by
  unfold setKnnGraph KnnStats.setKnnGraph
  rw [processInputs_stats]
  dsimp only [statsOf]
  cases KnnStats.processInputs N provided s k with
  | none =>
    cases features with
    | none => rfl
    | some d =>
      dsimp only [statsWorld]
      split_ifs <;> rfl
  | some g =>
    cases decide (metric.isSome = true ∧ metric ≠ s.metric.or metric) with
    | false => rfl
    | true =>
      cases features with
      | none => rfl
      | some d =>
        dsimp only [statsWorld]
        split_ifs <;> rfl

theorem preferNew_stats (N : ℕ) (s : KnnStats.Stats M) (g : KnnStats.Graph M) (m : Option M) :
    preferNew (statsWorld M N) (statsOf s) g m = KnnStats.preferNew s g m := by
  obtain ⟨graph, metric⟩ := s
  cases graph <;> rfl

theorem store_stats (N : ℕ) (s : KnnStats.Stats M) (g : KnnStats.Graph M) (m : Option M) :
    store (statsWorld M N) (statsOf s) g m = statsOf (KnnStats.store s g m) := by
  unfold store KnnStats.store
  rw [preferNew_stats]
  split_ifs <;> rfl

theorem storeOutlier_stats (N : ℕ) (s : KnnStats.Stats M) (g : Option (KnnStats.Graph M)) (m : Option M) :
    storeOutlier (statsWorld M N) (statsOf s) g m = statsOf (KnnStats.storeOutlier s g m) := by
  unfold storeOutlier KnnStats.storeOutlier
  cases g with
  | none => rfl
  | some g =>
    dsimp only
    rw [preferNew_stats]
    rfl

/-- What `Model/KnnStats.lean` says about the statistics is what this model says. -/
theorem runCheck_stats (N : ℕ) (s : KnnStats.Stats M) (c : KnnStats.Check M) :
    runCheck (statsWorld M N) N (statsOf s) (checkOf c) = statsOf (KnnStats.runCheck N s c) := by
  obtain ⟨kind, features, knnGraph, metric, k, fails⟩ := c
  change runCheck (statsWorld M N) N (statsOf s) ⟨kindOf kind, features, knnGraph, metric, k, fails⟩ = _
  unfold runCheck KnnStats.runCheck find record
  dsimp only
  by_cases hf : fails = true
  · rw [if_pos hf, if_pos hf]
  · rw [if_neg hf, if_neg hf]
    cases kind with
    | outlier b =>
      dsimp only [kindOf]
      rw [setKnnGraph_stats]
      have hiff : (features.isSome = true ∨ (processInputs (statsWorld M N) N knnGraph (statsOf s) k).isSome = true) ↔
          (features.isSome = true ∨ (KnnStats.processInputs N knnGraph s k).isSome = true) := by rw [processInputs_stats]
      by_cases h1 : features.isSome = true ∨ (KnnStats.processInputs N knnGraph s k).isSome = true
      · rw [if_pos h1, if_pos (hiff.mpr h1)]
        cases KnnStats.setKnnGraph N features knnGraph metric k s with
        | error e => rfl
        | ok r => exact storeOutlier_stats N s _ _
      · rw [if_neg h1, if_neg (fun h => h1 (hiff.mp h))]
        cases b with
        | true => exact storeOutlier_stats N s _ _
        | false => rfl
    | nearDuplicate =>
      dsimp only [kindOf]
      rw [setKnnGraph_stats]
      cases KnnStats.setKnnGraph N features knnGraph metric k s with
      | error e => rfl
      | ok r => exact store_stats N s _ _
    | nonIid p =>
      dsimp only [kindOf]
      rw [setKnnGraph_stats]
      cases KnnStats.setKnnGraph N (features.or p) knnGraph metric k s with
      | error e => rfl
      | ok r =>
        dsimp only [Except.map]
        by_cases h1 : (KnnStats.processInputs N knnGraph s k).isNone = true ∧ features.isNone = true ∧ p.isSome = true
        · rw [if_pos (by rw [processInputs_stats]; exact h1), if_pos (by simpa using h1)]
        · rw [if_neg (by rw [processInputs_stats]; exact h1), if_neg (by simpa using h1)]
          exact store_stats N s _ _
    | dataValuation =>
      dsimp only [kindOf]
      rw [setKnnGraph_stats]
      cases KnnStats.setKnnGraph N features knnGraph metric k s with
      | error e => rfl
      | ok r =>
        obtain ⟨g, m⟩ := r
        dsimp only
        by_cases h1 : KnnStats.numNeighbors N g < k
        · rw [if_pos h1, if_pos (show numNeighbors (statsWorld M N) N g < k from h1)]
        · rw [if_neg h1, if_neg (show ¬ numNeighbors (statsWorld M N) N g < k from h1)]
          exact store_stats N s _ _
    | underperforming b =>
      dsimp only [kindOf]
      cases b with
      | true => rfl
      | false =>
        rw [if_neg (by simp), if_neg (by simp), setKnnGraph_stats]
        cases KnnStats.setKnnGraph N features knnGraph metric k s with
        | error e => rfl
        | ok r => exact store_stats N s _ _

/-! ### Histories over the same data -/

/-- The construction of graphs: `k` neighbours of every example for `1 ≤ k < N`, an error for more. -/
structure BuildsGraphs (W : World X M G) (N : ℕ) : Prop where
  builds : ∀ x m k, 1 ≤ k → k < N → ∃ g, W.build x m k = .ok g ∧ W.nnz g = N * k
  refuses : ∀ x m k, N ≤ k → ∃ e, W.build x m k = .error e

/-- A check given the features `x`, the metric argument `μ` and no graph. -/
structure SameInputs (x : X) (μ : Option M) (c : Check X M G) : Prop where
  features : c.features = some x
  metric : c.metric = μ
  noGraph : c.knnGraph = none
  pos : 1 ≤ c.k

/-- Nothing is stored, or a graph of the features `x` with a number of neighbours in `ks`. -/
def Holds (W : World X M G) (N : ℕ) (x : X) (μ : Option M) (ks : ℕ → Prop) (s : Stats M G) : Prop :=
  s = fresh ∨ ∃ k g, ks k ∧ 1 ≤ k ∧ k < N ∧ W.build x (μ.getD (W.dflt x)) k = .ok g ∧
    s = ⟨some g, some (μ.getD (W.dflt x))⟩

omit [DecidableEq M] in
theorem numNeighbors_build {W : World X M G} {N : ℕ} (hW : BuildsGraphs W N) {x : X} {m : M} {k : ℕ} {g : G} (h1 : 1 ≤ k)
    (hk : k < N) (h : W.build x m k = .ok g) : W.nnz g = N * k ∧ numNeighbors W N g = k := by
  obtain ⟨g', h2, h3⟩ := hW.builds x m k h1 hk
  rw [h] at h2
  obtain rfl := Except.ok.inj h2
  refine ⟨h3, ?_⟩
  unfold numNeighbors
  rw [h3]
  exact Nat.mul_div_cancel_left k (by omega)

/-- The graph after a history over the same data: the stored one if it has enough neighbours, otherwise the one that a new
`Datalab` would build. -/
theorem setKnnGraph_holds (W : World X M G) (N : ℕ) (hW : BuildsGraphs W N) (x : X) (μ : Option M) (ks : ℕ → Prop) (k : ℕ)
    (s : Stats M G) (hs : Holds W N x μ ks s) :
    (∃ k' g, ks k' ∧ 1 ≤ k' ∧ k' < N ∧ k ≤ k' ∧ W.build x (μ.getD (W.dflt x)) k' = .ok g ∧
        s = ⟨some g, some (μ.getD (W.dflt x))⟩ ∧ setKnnGraph W N (some x) none μ k s = .ok (g, μ)) ∨
      setKnnGraph W N (some x) none μ k s =
        (W.build x (μ.getD (W.dflt x)) k).map (fun g => (g, some (μ.getD (W.dflt x)))) := by
  rcases hs with rfl | ⟨k', g, h1, h2, h3, h4, rfl⟩
  · right
    unfold setKnnGraph
    dsimp only [processInputs, fresh]
    cases W.build x (μ.getD (W.dflt x)) k <;> rfl
  · obtain ⟨_, h5⟩ := numNeighbors_build hW h2 h3 h4
    have hch : decide (μ.isSome = true ∧ μ ≠ (some (μ.getD (W.dflt x))).or μ) = false := by
      cases μ <;> simp
    by_cases hk : k ≤ k'
    · left
      refine ⟨k', g, h1, h2, h3, hk, h4, rfl, ?_⟩
      unfold setKnnGraph
      dsimp only [processInputs]
      rw [if_neg (by omega), hch]
    · right
      unfold setKnnGraph
      dsimp only [processInputs]
      rw [if_pos (by omega)]
      dsimp only
      cases W.build x (μ.getD (W.dflt x)) k <;> rfl

theorem store_holds (W : World X M G) (N : ℕ) (x : X) (μ : Option M) (ks : ℕ → Prop) (k : ℕ) (g : G)
    (s : Stats M G) (hs : Holds W N x μ ks s) (hks : ks k) (h1 : 1 ≤ k) (hk : k < N)
    (hb : W.build x (μ.getD (W.dflt x)) k = .ok g) :
    Holds W N x μ ks (store W s g (some (μ.getD (W.dflt x)))) ∧
      Holds W N x μ ks (storeOutlier W s (some g) (some (μ.getD (W.dflt x)))) := by
  have hnew : Holds W N x μ ks ⟨some g, some (μ.getD (W.dflt x))⟩ := Or.inr ⟨k, g, hks, h1, hk, hb, rfl⟩
  constructor
  · unfold store
    split_ifs
    · exact hnew
    · exact hs
  · unfold storeOutlier
    rcases hs with rfl | ⟨k', g', a1, a2, a3, a4, rfl⟩
    · exact hnew
    · dsimp only
      split_ifs
      · exact hnew
      · exact Or.inr ⟨k', g', a1, a2, a3, a4, rfl⟩

theorem store_self (W : World X M G) (g : G) (m : M) (μ : Option M) (hμ : μ = none ∨ μ = some m) :
    store W ⟨some g, some m⟩ g μ = ⟨some g, some m⟩ ∧ storeOutlier W ⟨some g, some m⟩ (some g) μ = ⟨some g, some m⟩ := by
  constructor
  · unfold store
    split_ifs
    · rcases hμ with rfl | rfl <;> rfl
    · rfl
  · unfold storeOutlier
    dsimp only
    split_ifs <;> rcases hμ with rfl | rfl <;> rfl

/-- One more check over the same data. -/
theorem runCheck_holds (W : World X M G) (N : ℕ) (hW : BuildsGraphs W N) (x : X) (μ : Option M) (ks : ℕ → Prop)
    (s : Stats M G) (hs : Holds W N x μ ks s) (c : Check X M G) (hc : SameInputs x μ c) (hks : ks c.k) :
    Holds W N x μ ks (runCheck W N s c) := by
  obtain ⟨kind, features, knnGraph, metric, k, fails⟩ := c
  obtain ⟨rfl, rfl, rfl, hpos⟩ := hc
  dsimp only at hks hpos
  unfold runCheck
  dsimp only
  by_cases hf : fails = true
  · rw [if_pos hf]
    exact hs
  rw [if_neg hf]
  have key : ∀ r, setKnnGraph W N (some x) none metric k s = .ok r →
      Holds W N x metric ks (store W s r.1 r.2) ∧ Holds W N x metric ks (storeOutlier W s (some r.1) r.2) := by
    intro r hr
    rcases setKnnGraph_holds W N hW x metric ks k s hs with ⟨k', g, a1, a2, a3, a4, a5, rfl, a7⟩ | h
    · rw [a7] at hr
      obtain rfl := Except.ok.inj hr
      obtain ⟨e1, e2⟩ := store_self W g (metric.getD (W.dflt x)) metric (by cases metric <;> simp)
      dsimp only
      rw [e1, e2]
      exact ⟨hs, hs⟩
    · rw [h] at hr
      cases hb : W.build x (metric.getD (W.dflt x)) k with
      | error e => rw [hb] at hr; cases hr
      | ok g =>
        rw [hb] at hr
        obtain rfl := Except.ok.inj hr
        have hk : k < N := by
          by_contra hN
          obtain ⟨e, he⟩ := hW.refuses x (metric.getD (W.dflt x)) k (by omega)
          rw [hb] at he
          cases he
        exact store_holds W N x metric ks k g s hs hks hpos hk hb
  cases hg : setKnnGraph W N (some x) none metric k s with
  | error e =>
    cases kind with
    | outlier b => dsimp only [find]; rw [if_pos (by simp), hg]; exact hs
    | nearDuplicate => dsimp only [find]; rw [hg]; exact hs
    | nonIid p => dsimp only [find, Option.or]; rw [hg]; exact hs
    | dataValuation => dsimp only [find]; rw [hg]; exact hs
    | underperforming b =>
      cases b with
      | true => exact hs
      | false => dsimp only [find]; rw [if_neg (by simp), hg]; exact hs
  | ok r =>
    obtain ⟨h1, h2⟩ := key r hg
    cases kind with
    | outlier b => dsimp only [find]; rw [if_pos (by simp), hg]; exact h2
    | nearDuplicate => dsimp only [find]; rw [hg]; exact h1
    | nonIid p =>
      dsimp only [find, Option.or]
      rw [hg]
      dsimp only [Except.map, record]
      rw [if_neg (by simp)]
      exact h1
    | dataValuation =>
      dsimp only [find]
      rw [hg]
      dsimp only
      by_cases hn : numNeighbors W N r.1 < k
      · rw [if_pos hn]; exact hs
      · rw [if_neg hn]; exact h1
    | underperforming b =>
      cases b with
      | true => exact hs
      | false => dsimp only [find]; rw [if_neg (by simp), hg]; exact h1

theorem runHistory_holds (W : World X M G) (N : ℕ) (hW : BuildsGraphs W N) (x : X) (μ : Option M) (h : List (Check X M G))
    (hh : ∀ c ∈ h, SameInputs x μ c) : Holds W N x μ (fun k => ∃ c ∈ h, c.k = k) (runHistory W N h) := by
  have gen : ∀ (l : List (Check X M G)) (s : Stats M G), (∀ c ∈ l, c ∈ h) →
      Holds W N x μ (fun k => ∃ c ∈ h, c.k = k) s →
      Holds W N x μ (fun k => ∃ c ∈ h, c.k = k) (l.foldl (runCheck W N) s) := by
    intro l
    induction l with
    | nil => intro s _ hs; exact hs
    | cons c l ih =>
      intro s hl hs
      exact ih _ (fun c' hc' => hl c' (List.mem_cons_of_mem _ hc'))
        (runCheck_holds W N hW x μ _ s hs c (hh c (hl c List.mem_cons_self)) ⟨c, hl c List.mem_cons_self, rfl⟩)
  exact gen h fresh (fun _ hc => hc) (Or.inl rfl)

/-- A check that needs a kNN graph. -/
def NeedsGraph (c : Check X M G) : Prop := ∀ b, c.kind = .underperforming b → b = false

theorem used_ok (W : World X M G) (N : ℕ) (s : Stats M G) (x : X) (μ : Option M) (c : Check X M G) (hc : SameInputs x μ c)
    (hn : NeedsGraph c) (g : G) (m : Option M) (h : setKnnGraph W N (some x) none μ c.k s = .ok (g, m))
    (hk : c.k ≤ numNeighbors W N g) : used W N s c = .ok (some g) := by
  obtain ⟨kind, features, knnGraph, metric, k, fails⟩ := c
  obtain ⟨rfl, rfl, rfl, hpos⟩ := hc
  dsimp only at h hk
  unfold used find
  cases kind with
  | outlier b => dsimp only; rw [if_pos (by simp), h]; rfl
  | nearDuplicate => dsimp only; rw [h]; rfl
  | nonIid p => dsimp only [Option.or]; rw [h]; rfl
  | dataValuation => dsimp only; rw [h]; dsimp only; rw [if_neg (by omega)]; rfl
  | underperforming b => dsimp only; rw [if_neg (by rw [hn b rfl]; simp), h]; rfl

theorem used_error (W : World X M G) (N : ℕ) (s : Stats M G) (x : X) (μ : Option M) (c : Check X M G) (hc : SameInputs x μ c)
    (hn : NeedsGraph c) (e : String) (h : setKnnGraph W N (some x) none μ c.k s = .error e) : used W N s c = .error e := by
  obtain ⟨kind, features, knnGraph, metric, k, fails⟩ := c
  obtain ⟨rfl, rfl, rfl, hpos⟩ := hc
  dsimp only at h
  unfold used find
  cases kind with
  | outlier b => dsimp only; rw [if_pos (by simp), h]; rfl
  | nearDuplicate => dsimp only; rw [h]; rfl
  | nonIid p => dsimp only [Option.or]; rw [h]; rfl
  | dataValuation => dsimp only; rw [h]; rfl
  | underperforming b => dsimp only; rw [if_neg (by rw [hn b rfl]; simp), h]; rfl

/-- What a check works with on a new `Datalab`: the graph of its features with `k` neighbours, or the error of building it. -/
theorem used_fresh (W : World X M G) (N : ℕ) (hW : BuildsGraphs W N) (x : X) (μ : Option M) (c : Check X M G)
    (hc : SameInputs x μ c) (hn : NeedsGraph c) :
    used W N fresh c = (W.build x (μ.getD (W.dflt x)) c.k).map some := by
  rcases setKnnGraph_holds W N hW x μ (fun _ => True) c.k fresh (Or.inl rfl) with ⟨_, _, _, _, _, _, _, h, _⟩ | h
  · cases h
  · cases hb : W.build x (μ.getD (W.dflt x)) c.k with
    | error e =>
      rw [hb] at h
      exact used_error W N fresh x μ c hc hn e h
    | ok g =>
      rw [hb] at h
      refine used_ok W N fresh x μ c hc hn g _ h ?_
      have hk : c.k < N := by
        by_contra hN
        obtain ⟨e, he⟩ := hW.refuses x (μ.getD (W.dflt x)) c.k (by omega)
        rw [hb] at he
        cases he
      exact le_of_eq (numNeighbors_build hW hc.pos hk hb).2.symm

/-- **C130** (partial: for checks given the same features, the same metric argument and no graph): after any history, whatever
failed in it, a check works with a graph of its own features and metric.  It has at least the `k` neighbours asked for: `k`
of them, or as many as an earlier check asked for.  If `k` is too large the check fails as on a new `Datalab`. -/
theorem C130_graph_partial (W : World X M G) (N : ℕ) (hW : BuildsGraphs W N) (x : X) (μ : Option M) (h : List (Check X M G))
    (hh : ∀ c ∈ h, SameInputs x μ c) (c : Check X M G) (hc : SameInputs x μ c) (hn : NeedsGraph c) :
    (c.k < N → ∃ k' g, c.k ≤ k' ∧ k' < N ∧ (k' = c.k ∨ ∃ c' ∈ h, c'.k = k') ∧
        W.build x (μ.getD (W.dflt x)) k' = .ok g ∧ used W N (runHistory W N h) c = .ok (some g)) ∧
      (N ≤ c.k → ∃ e, used W N (runHistory W N h) c = .error e ∧ used W N fresh c = .error e) := by
  have hs := runHistory_holds W N hW x μ h hh
  rcases setKnnGraph_holds W N hW x μ _ c.k _ hs with ⟨k', g, a1, a2, a3, a4, a5, a6, a7⟩ | hb
  · refine ⟨fun _ => ⟨k', g, a4, a3, Or.inr a1, a5, ?_⟩, fun hN => by omega⟩
    exact used_ok W N _ x μ c hc hn g μ a7 (by rw [(numNeighbors_build hW a2 a3 a5).2]; exact a4)
  · constructor
    · intro hk
      obtain ⟨g, h1, h2⟩ := hW.builds x (μ.getD (W.dflt x)) c.k hc.pos hk
      refine ⟨c.k, g, le_rfl, hk, Or.inl rfl, h1, ?_⟩
      rw [h1] at hb
      exact used_ok W N _ x μ c hc hn g _ hb (le_of_eq (numNeighbors_build hW hc.pos hk h1).2.symm)
    · intro hN
      obtain ⟨e, he⟩ := hW.refuses x (μ.getD (W.dflt x)) c.k hN
      rw [used_fresh W N hW x μ c hc hn, he]
      rw [he] at hb
      exact ⟨e, used_error W N _ x μ c hc hn e hb, rfl⟩

/-- **C130** (partial: same features, same metric argument, no given graph): if no earlier check asked for more neighbours,
a check works with exactly the graph it would build on a new `Datalab`, so everything it reports is the same. -/
theorem C130_same_partial (W : World X M G) (N : ℕ) (hW : BuildsGraphs W N) (x : X) (μ : Option M) (h : List (Check X M G))
    (hh : ∀ c ∈ h, SameInputs x μ c) (c : Check X M G) (hc : SameInputs x μ c) (hmax : ∀ c' ∈ h, c'.k ≤ c.k) :
    used W N (runHistory W N h) c = used W N fresh c := by
  by_cases hn : NeedsGraph c
  · obtain ⟨h1, h2⟩ := C130_graph_partial W N hW x μ h hh c hc hn
    by_cases hk : c.k < N
    · obtain ⟨k', g, a1, a2, a3, a4, a5⟩ := h1 hk
      have : k' = c.k := by
        rcases a3 with a3 | ⟨c', hc', rfl⟩
        · exact a3
        · exact le_antisymm (hmax c' hc') a1
      rw [this] at a4
      rw [a5, used_fresh W N hW x μ c hc hn, a4]
      rfl
    · obtain ⟨e, e1, e2⟩ := h2 (by omega)
      rw [e1, e2]
  · unfold NeedsGraph at hn
    push Not at hn
    obtain ⟨b, hb, hne⟩ := hn
    obtain ⟨kind, features, knnGraph, metric, k, fails⟩ := c
    dsimp only at hb
    subst hb
    cases b with
    | false => exact absurd rfl hne
    | true => rfl

/-! ### Data valuation and near duplicates do not depend on the number of neighbours of the stored graph -/

section
variable {N : ℕ} {L : Type} [DecidableEq L]

/-- The neighbours listed in the rows. -/
def neighbours (g : Knn.Graph N) (p : Fin N) : List (Fin N) := (g p).map Prod.fst

theorem shapleyRow_take (y : Fin N → L) (ya : L) (idx idx' : List (Fin N)) (k : ℕ) (h : idx = idx'.take k) :
    DataValuation.shapleyRow y ya idx k = DataValuation.shapleyRow y ya idx' k := by
  subst h
  unfold DataValuation.shapleyRow
  have : ∀ (l : List ℕ) (s : Fin N → ℚ), (∀ j ∈ l, j + 1 < k) →
      l.foldlM (DataValuation.shapleyStep y ya (idx'.take k)) s = l.foldlM (DataValuation.shapleyStep y ya idx') s := by
    intro l
    induction l with
    | nil => intro s _; rfl
    | cons j l ih =>
      intro s hl
      have hj := hl j List.mem_cons_self
      rw [List.foldlM_cons, List.foldlM_cons]
      have : DataValuation.shapleyStep y ya (idx'.take k) s j = DataValuation.shapleyStep y ya idx' s j := by
        unfold DataValuation.shapleyStep
        rw [List.getElem?_take_of_lt (by omega), List.getElem?_take_of_lt hj]
      rw [this]
      congr 1
      funext s'
      exact ih s' (fun i hi => hl i (List.mem_cons_of_mem _ hi))
  refine this _ _ (fun j hj => ?_)
  rw [List.mem_reverse, List.mem_range] at hj
  omega

theorem dataShapley_take (g g' : Knn.Graph N) (y : Fin N → L) (k : ℕ) (h : ∀ p, g p = (g' p).take k) :
    DataValuation.dataShapley (neighbours g) y k = DataValuation.dataShapley (neighbours g') y k := by
  have : DataValuation.shapleyRows (neighbours g) y k = DataValuation.shapleyRows (neighbours g') y k := by
    unfold DataValuation.shapleyRows
    congr 1
    funext a
    exact shapleyRow_take y (y a) _ _ k (by unfold neighbours; rw [h a, List.map_take])
  unfold DataValuation.dataShapley DataValuation.knnShapley
  rw [this]

/-- Graphs of the same features and metric list the same neighbours in the same order whatever their number is. -/
def Prefixes (W : World X M (Knn.Graph N)) : Prop :=
  ∀ x m k k' g g', 1 ≤ k → k ≤ k' → k' < N → W.build x m k = .ok g → W.build x m k' = .ok g' → ∀ p, g p = (g' p).take k

/-- **C130** (partial: same features, same metric argument, no given graph): the scores of data valuation are the same after
any history as on a new `Datalab`, also when an earlier check stored a graph with more neighbours. -/
theorem C130_data_valuation_partial (W : World X M (Knn.Graph N)) (hW : BuildsGraphs W N) (hp : Prefixes W) (x : X)
    (μ : Option M) (h : List (Check X M (Knn.Graph N))) (hh : ∀ c ∈ h, SameInputs x μ c) (c : Check X M (Knn.Graph N))
    (hc : SameInputs x μ c) (hkind : c.kind = .dataValuation) (hk : c.k < N) (y : Fin N → L) :
    ∃ g g', used W N (runHistory W N h) c = .ok (some g) ∧ used W N fresh c = .ok (some g') ∧
      DataValuation.dataShapley (neighbours g) y c.k = DataValuation.dataShapley (neighbours g') y c.k := by
  have hn : NeedsGraph c := fun b hb => by rw [hkind] at hb; cases hb
  obtain ⟨k', g, a1, a2, a3, a4, a5⟩ := (C130_graph_partial W N hW x μ h hh c hc hn).1 hk
  obtain ⟨g', b1, b2⟩ := hW.builds x (μ.getD (W.dflt x)) c.k hc.pos hk
  refine ⟨g, g', a5, by rw [used_fresh W N hW x μ c hc hn, b1]; rfl, ?_⟩
  exact (dataShapley_take g' g y c.k (hp x _ c.k k' g' g hc.pos a1 a2 b1 a4)).symm

/-- The distance to the nearest other point. -/
theorem nearest_head {d : Fin N → Fin N → ℚ} {k : ℕ} {g : Knn.Graph N} (hg : IsNearest d k g)
    (hs : ∀ p, (g p).Pairwise (fun a b => a.2 ≤ b.2)) (hk : 1 ≤ k) (p : Fin N) :
    ∃ e, (g p).head? = some e ∧ e ∈ g p ∧ e.1 ≠ p ∧ e.2 = d p e.1 ∧ ∀ q, q ≠ p → e.2 ≤ d p q := by
  have hl := (hg.lists p).1
  cases hr : g p with
  | nil => rw [hr] at hl; simp at hl; omega
  | cons e l =>
    have he : e ∈ g p := by rw [hr]; exact List.mem_cons_self
    refine ⟨e, rfl, List.mem_cons_self, ?_, hg.dist p e he, fun q hq => ?_⟩
    · intro hep
      have hm := List.mem_map_of_mem (f := Prod.fst) he
      rw [hep] at hm
      exact (hg.lists p).2.2 hm
    · by_cases hqm : q ∈ (g p).map Prod.fst
      · obtain ⟨f, hf, rfl⟩ := List.mem_map.mp hqm
        rw [← hg.dist p f hf]
        have := hs p
        rw [hr, List.pairwise_cons] at this
        rw [hr] at hf
        rcases List.mem_cons.mp hf with rfl | hf
        · exact le_rfl
        · exact this.1 f hf
      · exact hg.nearest p e he q hq hqm

/-- Near-duplicate flags and scores are functions of the distances, not of the number of neighbours in the graph. -/
theorem duplicates_of_nearest (A : ArgSort ℚ) (d : Fin N → Fin N → ℚ) (hd : ∀ p q, d p q = d q p) (k k' : ℕ)
    (hk : 1 ≤ k) (hk' : 1 ≤ k') (g g' : Knn.Graph N) (hg : IsNearest d k g) (hg' : IsNearest d k' g')
    (hs : ∀ p, (g p).Pairwise (fun a b => a.2 ≤ b.2)) (hs' : ∀ p, (g' p).Pairwise (fun a b => a.2 ≤ b.2)) (t : ℚ)
    (r r' : Duplicate.Report N) (h : Duplicate.findIssues A g t = .ok r) (h' : Duplicate.findIssues A g' t = .ok r') :
    r.isIssue = r'.isIssue ∧ r.score = r'.score ∧ r.median = r'.median := by
  obtain ⟨nn, med, h1, h2, h3, _, h5, h6⟩ := findIssues_run A g t r h
  obtain ⟨nn', med', h1', h2', h3', _, h5', h6'⟩ := findIssues_run A g' t r' h'
  have hnn : nn = nn' := by
    funext p
    obtain ⟨e, e1, _, e3, e4, e5⟩ := nearest_head hg hs hk p
    obtain ⟨f, f1, _, f3, f4, f5⟩ := nearest_head hg' hs' hk' p
    obtain ⟨e', a1, a2⟩ := (nnDistances_ok g nn).mp h1 p
    obtain ⟨f', b1, b2⟩ := (nnDistances_ok g' nn').mp h1' p
    rw [e1] at a1
    rw [f1] at b1
    obtain rfl := Option.some.inj a1
    obtain rfl := Option.some.inj b1
    rw [← a2, ← b2]
    refine le_antisymm ?_ ?_
    · rw [f4]; exact e5 f.1 f3
    · rw [e4]; exact f5 e.1 e3
  subst hnn
  rw [h2] at h2'
  obtain rfl := Option.some.inj h2'
  have hmed : r.median = r'.median := h3.trans h3'.symm
  -- flagged: the nearest neighbour is within the radius
  have flag : ∀ (k : ℕ) (g : Knn.Graph N) (r : Duplicate.Report N), 1 ≤ k → IsNearest d k g →
      (∀ p, (g p).Pairwise (fun a b => a.2 ≤ b.2)) → Duplicate.findIssues A g t = .ok r →
      Duplicate.nnDistances g = .ok nn → (∀ i, r.isIssue i = true ↔ ∃ j, i ∈ r.sets j) →
      ∀ i, r.isIssue i = true ↔ nn i < max t 0 * r.median := by
    intro k g r hk hg hs h h1 h5 i
    obtain ⟨e, e1, e2, e3, e4, e5⟩ := nearest_head hg hs hk i
    obtain ⟨e', a1, a2⟩ := (nnDistances_ok g nn).mp h1 i
    rw [e1] at a1
    obtain rfl := Option.some.inj a1
    rw [h5]
    constructor
    · rintro ⟨j, hj⟩
      rcases (C37_sets A g t r h j i).mp hj with ⟨v, hv, hlt⟩ | ⟨v, hv, hlt⟩
      · have hij : i ≠ j := fun hij => (hg.lists j).2.2 (hij ▸ List.mem_map_of_mem (f := Prod.fst) hv)
        have := e5 j (Ne.symm hij)
        rw [hd i j, ← hg.dist j _ hv] at this
        rw [← a2]
        exact lt_of_le_of_lt this hlt
      · have hij : j ≠ i := fun hij => (hg.lists i).2.2 (hij ▸ List.mem_map_of_mem (f := Prod.fst) hv)
        have := e5 j hij
        rw [← hg.dist i _ hv] at this
        rw [← a2]
        exact lt_of_le_of_lt this hlt
    · intro hlt
      refine ⟨e.1, (C37_sets A g t r h e.1 i).mpr (Or.inr ⟨e.2, e2, ?_⟩)⟩
      rw [a2]
      exact hlt
  refine ⟨?_, ?_, hmed⟩
  · funext i
    have f1 := flag k g r hk hg hs h h1 h5 i
    have f2 := flag k' g' r' hk' hg' hs' h' h1' h5' i
    rw [← hmed] at f2
    rw [Bool.eq_iff_iff, f1, f2]
  · rw [hmed] at h6
    rw [h6] at h6'
    exact Except.ok.inj h6'

/-- Graphs list the nearest neighbours, nearest first, for symmetric distances. -/
def ExactWorld (W : World X M (Knn.Graph N)) (d : X → M → Fin N → Fin N → ℚ) : Prop :=
  (∀ x m p q, d x m p q = d x m q p) ∧ ∀ x m k g, 1 ≤ k → k < N → W.build x m k = .ok g →
    IsNearest (d x m) k g ∧ ∀ p, (g p).Pairwise (fun a b => a.2 ≤ b.2)

/-- **C130** (partial: same features, same metric argument, no given graph): after any history the near-duplicate check flags
the same examples with the same scores as on a new `Datalab`, also when an earlier check stored a graph with more
neighbours. -/
theorem C130_near_duplicates_partial (W : World X M (Knn.Graph N)) (hW : BuildsGraphs W N) (d : X → M → Fin N → Fin N → ℚ)
    (hd : ExactWorld W d) (x : X) (μ : Option M) (h : List (Check X M (Knn.Graph N))) (hh : ∀ c ∈ h, SameInputs x μ c)
    (c : Check X M (Knn.Graph N)) (hc : SameInputs x μ c) (hkind : c.kind = .nearDuplicate) (hk : c.k < N) :
    ∃ g g', used W N (runHistory W N h) c = .ok (some g) ∧ used W N fresh c = .ok (some g') ∧
      ∀ A t r r', Duplicate.findIssues A g t = .ok r → Duplicate.findIssues A g' t = .ok r' →
        r.isIssue = r'.isIssue ∧ r.score = r'.score := by
  have hn : NeedsGraph c := fun b hb => by rw [hkind] at hb; cases hb
  obtain ⟨k', g, a1, a2, a3, a4, a5⟩ := (C130_graph_partial W N hW x μ h hh c hc hn).1 hk
  obtain ⟨g', b1, b2⟩ := hW.builds x (μ.getD (W.dflt x)) c.k hc.pos hk
  refine ⟨g, g', a5, by rw [used_fresh W N hW x μ c hc hn, b1]; rfl, fun A t r r' hr hr' => ?_⟩
  have hpos := hc.pos
  obtain ⟨c1, c2⟩ := hd.2 x _ k' g (by omega) a2 a4
  obtain ⟨c3, c4⟩ := hd.2 x _ c.k g' hpos hk b1
  obtain ⟨f1, f2, _⟩ := duplicates_of_nearest A _ (hd.1 x _) k' c.k (by omega) hpos g g' c1 c3 c2 c4 t r r' hr hr'
  exact ⟨f1, f2⟩

end

/-! ### The construction of the graphs satisfies the assumptions -/

section
variable {N : ℕ} {V : Type} [DecidableEq V]

/-- `create_knn_graph_and_index` on arrays with `cols` columns; `query` is the search index. -/
def knnWorld (S : ArgSort (Fin N)) (B : ArgSort Bool) (values : (Fin N → V) → List V) (cols : ℕ)
    (query : (Fin N → V) → ℕ → Metric → Knn.Graph N) : World (Fin N → V) Metric (Knn.Graph N) where
  nnz := fun g => ((List.finRange N).map (fun p => (g p).length)).sum
  dflt := fun _ => decideMetric N cols
  build := fun x m k => (createGraph S B x (values x) cols (query x) (some (k : ℤ)) (some m) true).map (fun a p => a.row p)

theorem createGraph_of_lt (S : ArgSort (Fin N)) (B : ArgSort Bool) (x : Fin N → V) (values : List V) (cols : ℕ)
    (query : ℕ → Metric → Knn.Graph N) (k : ℕ) (m : Metric) (h1 : 1 ≤ k) (hk : k < N) :
    createGraph S B x values cols query (some (k : ℤ)) (some m) true =
      correctGraph S B x values (constructGraph k (query k (chooseMetric (some m) N cols))) := by
  have : featuresToKnn N cols (some (k : ℤ)) (some m) = .ok (k, chooseMetric (some m) N cols) := by
    unfold featuresToKnn configureNeighbors
    rw [if_neg (by simp; omega)]
    dsimp only [bind, Except.bind]
    rw [if_neg (show ¬ (k : ℤ) = 0 by omega), if_neg (by omega)]
    rfl
  unfold createGraph
  rw [this]
  rfl

/-- The distinct feature vectors. -/
structure ListsValues (values : (Fin N → V) → List V) : Prop where
  nodup : ∀ x, (values x).Nodup
  all : ∀ x i, x i ∈ values x

/-- **C130**: the assumptions hold for the graphs `create_knn_graph_and_index` builds: `BuildsGraphs` for an index that lists
`k` distinct other points. -/
theorem C130_builds (S : ArgSort (Fin N)) (B : ArgSort Bool) (values : (Fin N → V) → List V) (hv : ListsValues values)
    (cols : ℕ) (query : (Fin N → V) → ℕ → Metric → Knn.Graph N)
    (hq : ∀ x k m, k < N → ListsOthers k (query x k m)) : BuildsGraphs (knnWorld S B values cols query) N := by
  constructor
  · intro x m k h1 hk
    obtain ⟨a, ha, _, hrow⟩ := correctGraph_rows S B x (values x) (hv.nodup x) (hv.all x) k
      (query x k (chooseMetric (some m) N cols)) (hq x k _ hk) (by omega)
    refine ⟨fun p => a.row p, ?_, ?_⟩
    · dsimp only [knnWorld]
      rw [createGraph_of_lt S B x (values x) cols (query x) k m h1 hk, ha]
      rfl
    · dsimp only [knnWorld]
      rw [show (fun p : Fin N => (a.row p).length) = fun _ => k from funext (fun p => (hrow p).1)]
      simp
  · intro x m k hk
    refine ⟨"ValueError", ?_⟩
    have : featuresToKnn N cols (some (k : ℤ)) (some m) = .error "ValueError" := by
      unfold featuresToKnn configureNeighbors
      rw [if_pos (by simp; omega)]
      rfl
    dsimp only [knnWorld]
    unfold createGraph
    rw [this]
    rfl

/-- **C130** (partial: only if `np.argsort` on the mask is stable): `Prefixes` holds for an index that lists the same
neighbours in the same order whatever their number is. -/
theorem C130_prefixes_partial (S : ArgSort (Fin N)) (B : ArgSort Bool) (hB : Stable B) (values : (Fin N → V) → List V)
    (hv : ListsValues values) (cols : ℕ) (query : (Fin N → V) → ℕ → Metric → Knn.Graph N)
    (hq : ∀ x k m, k < N → ListsOthers k (query x k m))
    (hp : ∀ x k k' m, k ≤ k' → k' < N → ∀ p, query x k m p = (query x k' m p).take k) :
    Prefixes (knnWorld S B values cols query) := by
  intro x m k k' g g' h1 hk hk' hg hg' p
  dsimp only [knnWorld] at hg hg'
  rw [createGraph_of_lt S B x (values x) cols (query x) k m h1 (by omega)] at hg
  rw [createGraph_of_lt S B x (values x) cols (query x) k' m (by omega) hk'] at hg'
  cases ha : correctGraph S B x (values x) (constructGraph k (query x k (chooseMetric (some m) N cols))) with
  | error e => rw [ha] at hg; cases hg
  | ok a =>
    cases ha' : correctGraph S B x (values x) (constructGraph k' (query x k' (chooseMetric (some m) N cols))) with
    | error e => rw [ha'] at hg'; cases hg'
    | ok a' =>
      rw [ha] at hg
      rw [ha'] at hg'
      obtain rfl := Except.ok.inj hg
      obtain rfl := Except.ok.inj hg'
      exact C108_prefix_partial S B hB x (values x) (hv.nodup x) (hv.all x) k k' hk _ _ (hq x k _ (by omega))
        (hq x k' _ hk') (by omega) (hp x k k' _ hk hk') a a' ha ha' p

/-- **C130** (partial: only if `np.argsort` on the mask is stable): `ExactWorld` holds for an exact index that lists the
nearest neighbours first. -/
theorem C130_exact_partial (S : ArgSort (Fin N)) (B : ArgSort Bool) (hB : Stable B) (values : (Fin N → V) → List V)
    (hv : ListsValues values) (cols : ℕ) (query : (Fin N → V) → ℕ → Metric → Knn.Graph N)
    (d : (Fin N → V) → Metric → Fin N → Fin N → ℚ) (hd : ∀ x m p q, 0 ≤ d x m p q)
    (hd0 : ∀ x m p q, x p = x q → d x m p q = 0) (hsym : ∀ x m p q, d x m p q = d x m q p)
    (hq : ∀ x k m, k < N → IsNearest (d x m) k (query x k m))
    (hs : ∀ x k m p, (query x k m p).Pairwise (fun a b => a.2 ≤ b.2)) :
    ExactWorld (knnWorld S B values cols query) (fun x m => d x (chooseMetric (some m) N cols)) := by
  refine ⟨fun x m => hsym x _, fun x m k g h1 hk hg => ?_⟩
  dsimp only [knnWorld] at hg
  rw [createGraph_of_lt S B x (values x) cols (query x) k m h1 hk] at hg
  have hnear := hq x k (chooseMetric (some m) N cols) hk
  obtain ⟨a, ha, h2⟩ := C108_exact S B x (values x) (hv.nodup x) (hv.all x) (d x (chooseMetric (some m) N cols)) (hd x _)
    (hd0 x _) k _ hnear (by omega)
  obtain ⟨a', ha', h3⟩ := C108_order_partial S B hB x (values x) (hv.nodup x) (hv.all x) k _ hnear.lists (by omega)
    (hs x k _) (fun p e he => by rw [hnear.dist p e he]; exact hd x _ p e.1)
  rw [ha] at ha'
  obtain rfl := Except.ok.inj ha'
  rw [ha] at hg
  obtain rfl := Except.ok.inj hg
  exact ⟨h2, fun p => (h3 p).1⟩

end

/-! ### Examples and counterexamples -/

/-- Two feature arrays for three examples on a line. -/
def threePoints (x : Bool) : Fin 3 → ℚ := if x then ![0, 1, 2] else ![0, 5, 1]

/-- The two other examples, nearest first. -/
def threeOthers (x : Bool) : Fin 3 → List (Fin 3) :=
  if x then ![[1, 2], [0, 2], [1, 0]] else ![[2, 1], [2, 0], [0, 1]]

/-- The distance, or its square. -/
def threeDistance (x : Bool) (squared : Bool) (p q : Fin 3) : ℚ :=
  if squared then (threePoints x p - threePoints x q) ^ 2 else |threePoints x p - threePoints x q|

def threeGraph (x squared : Bool) (k : ℕ) : Knn.Graph 3 :=
  fun p => ((threeOthers x p).take k).map (fun q => (q, threeDistance x squared p q))

def threeWorld : World Bool Bool (Knn.Graph 3) where
  nnz := fun g => (g 0).length + (g 1).length + (g 2).length
  dflt := fun _ => false
  build := fun x m k => if 3 ≤ k then .error "ValueError" else .ok (threeGraph x m k)

/-- The assumptions on the construction of graphs can hold together. -/
theorem threeWorld_ok : BuildsGraphs threeWorld 3 ∧ Prefixes threeWorld ∧ ExactWorld threeWorld threeDistance := by
  refine ⟨⟨fun x m k h1 hk => ⟨threeGraph x m k, if_neg (by omega), ?_⟩, fun x m k hk => ⟨_, if_pos hk⟩⟩, ?_, ?_, ?_⟩
  · have : k = 1 ∨ k = 2 := by omega
    rcases this with rfl | rfl <;> revert x m <;> decide +kernel
  · intro x m k k' g g' h1 hk hk' hg hg' p
    dsimp only [threeWorld] at hg hg'
    rw [if_neg (by omega)] at hg hg'
    obtain rfl := Except.ok.inj hg
    obtain rfl := Except.ok.inj hg'
    unfold threeGraph
    rw [← List.map_take, List.take_take, min_eq_left hk]
  · decide +kernel
  · intro x m k g h1 hk hg
    dsimp only [threeWorld] at hg
    rw [if_neg (by omega)] at hg
    obtain rfl := Except.ok.inj hg
    have hk' : k = 1 ∨ k = 2 := by omega
    refine ⟨⟨?_, ?_, ?_⟩, ?_⟩
    · unfold ListsOthers
      rcases hk' with rfl | rfl <;> revert x m <;> decide +kernel
    · rcases hk' with rfl | rfl <;> revert x m <;> decide +kernel
    · rcases hk' with rfl | rfl <;> revert x m <;> decide +kernel
    · rcases hk' with rfl | rfl <;> revert x m <;> decide +kernel

/-- A near-duplicate check. -/
def dupOn (x : Bool) (μ : Option Bool) (k : ℕ) : Check Bool Bool (Knn.Graph 3) :=
  ⟨.nearDuplicate, some x, none, μ, k, false⟩

theorem dupOn_same (x : Bool) (μ : Option Bool) (k : ℕ) (hk : 1 ≤ k) : SameInputs x μ (dupOn x μ k) := ⟨rfl, rfl, rfl, hk⟩

/-- Non-vacuity of `C130_same_partial`, `C130_graph_partial`, `C130_data_valuation_partial` and
`C130_near_duplicates_partial`: a history after which a graph is stored. -/
example : (runHistory threeWorld 3 [dupOn true none 1, dupOn true none 2]).graph = some (threeGraph true false 2) := rfl

example : used threeWorld 3 (runHistory threeWorld 3 [dupOn true none 2]) { dupOn true none 1 with kind := .dataValuation } =
    .ok (some (threeGraph true false 2)) := rfl

theorem three_report (k : ℕ) (hk : k = 1 ∨ k = 2) :
    ∃ r, Duplicate.findIssues (stableSort ℚ) (threeGraph true false k) 3 = .ok r ∧ r.median = 1 := by
  have hnn : Duplicate.nnDistances (threeGraph true false k) = .ok (fun _ => 1) := by
    rw [nnDistances_ok]
    intro i
    refine ⟨((threeOthers true i).head (by revert i; decide +kernel), 1), ?_, rfl⟩
    rcases hk with rfl | rfl <;> revert i <;> decide +kernel
  have hmed : npMedian (stableSort ℚ) (List.ofFn (fun _ : Fin 3 => (1 : ℚ))) = some 1 := by decide +kernel
  have hsc : Duplicate.expScores (fun _ : Fin 3 => (1 : ℚ)) (1 / (((max 1 Duplicate.epsilon : ℚ)) : ℝ)) =
      .ok _ := if_neg (by
        rw [show max 1 Duplicate.epsilon = (1 : ℚ) by decide +kernel]
        norm_num)
  unfold Duplicate.findIssues
  rw [hnn]
  dsimp only [bind, Except.bind]
  rw [hmed]
  dsimp only
  rw [hsc]
  refine ⟨_, rfl, ?_⟩
  change max 1 Duplicate.epsilon = (1 : ℚ)
  decide +kernel

/-- **C130 fails** for the near-duplicate sets: an example asked for its near duplicates among one neighbour gets those among
two neighbours if an earlier check stored them.  The features, the metric and all other arguments are the same. -/
theorem C130_not_number_of_neighbours :
    ∃ g g' r r', used threeWorld 3 (runHistory threeWorld 3 [dupOn true none 2]) (dupOn true none 1) = .ok (some g) ∧
      used threeWorld 3 fresh (dupOn true none 1) = .ok (some g') ∧
      Duplicate.findIssues (stableSort ℚ) g 3 = .ok r ∧ Duplicate.findIssues (stableSort ℚ) g' 3 = .ok r' ∧
      2 ∈ r.sets 0 ∧ 2 ∉ r'.sets 0 := by
  obtain ⟨r, h1, h2⟩ := three_report 2 (Or.inr rfl)
  obtain ⟨r', h1', h2'⟩ := three_report 1 (Or.inl rfl)
  refine ⟨_, _, r, r', rfl, rfl, h1, h1', ?_, ?_⟩
  · rw [C37_sets _ _ _ r h1, h2]
    exact Or.inl ⟨2, by decide +kernel, by norm_num⟩
  · rw [C37_sets _ _ _ r' h1', h2']
    rintro (⟨v, hv, _⟩ | ⟨v, hv, _⟩)
    · have : (2 : Fin 3) ∈ (threeGraph true false 1 0).map Prod.fst := List.mem_map_of_mem (f := Prod.fst) hv
      revert this
      decide +kernel
    · have : (0 : Fin 3) ∈ (threeGraph true false 1 2).map Prod.fst := List.mem_map_of_mem (f := Prod.fst) hv
      revert this
      decide +kernel

/-- **C130 fails** for other features: a check given new features works with the graph of the features of an earlier check,
although it is documented that without a given graph the graph is built from the provided features. -/
theorem C130_not_features :
    used threeWorld 3 (runHistory threeWorld 3 [dupOn true none 1]) (dupOn false none 1) =
        used threeWorld 3 fresh (dupOn true none 1) ∧
      used threeWorld 3 (runHistory threeWorld 3 [dupOn true none 1]) (dupOn false none 1) ≠
        used threeWorld 3 fresh (dupOn false none 1) := by
  refine ⟨rfl, fun h => ?_⟩
  have h1 : some (threeGraph true false 1) = some (threeGraph false false 1) := Except.ok.inj h
  have h2 : threeGraph true false 1 0 = threeGraph false false 1 0 := congrFun (Option.some.inj h1) 0
  revert h2
  decide +kernel

/-- **C130 fails** for the default metric: a check without a metric works with the metric of an earlier check. -/
theorem C130_not_metric :
    used threeWorld 3 (runHistory threeWorld 3 [dupOn false (some true) 2]) (dupOn false none 2) =
        .ok (some (threeGraph false true 2)) ∧
      used threeWorld 3 fresh (dupOn false none 2) = .ok (some (threeGraph false false 2)) ∧
      threeGraph false true 2 0 ≠ threeGraph false false 2 0 := ⟨rfl, rfl, by decide +kernel⟩

/-- **C130 fails** for given graphs: on a new `Datalab` a check works with the graph it is given, as documented ("knn_graph
takes precedence"); after a check with another metric, giving a metric too makes it ignore the graph, or fail for lack of
features. -/
theorem C130_not_given_graph (g : Knn.Graph 3) :
    used threeWorld 3 fresh { dupOn false (some true) 1 with knnGraph := some g } = .ok (some g) ∧
      used threeWorld 3 (runHistory threeWorld 3 [dupOn true none 1])
        { dupOn false (some true) 1 with knnGraph := some g } = .ok (some (threeGraph false true 1)) ∧
      used threeWorld 3 (runHistory threeWorld 3 [dupOn true none 1])
        { dupOn false (some true) 1 with knnGraph := some g, features := none } =
          .error "Features must be provided to compute the knn graph." := ⟨rfl, rfl, rfl⟩

end Cleanlab.Props
